import Verif.Lemmas.TsHist
/-! # Elementary streams are decoded inside the packet -/
namespace Sps.BProg
open Spec
variable {α β : Type}

/-- The program does not read outside when it starts at a position with `a` bits of a byte behind it and has `n` bits at hand. -/
def Safe (a n : Nat) (p : BProg α) : Prop :=
  ∀ off s, off % 8 = a → n ≤ s.length → (off + s.length) % 8 = 0 → off + s.length < 2 ^ 31 → onBits p off s ≠ none

theorem Safe.ret {a n : Nat} (x : α) : Safe a n (.ret x) := by intro off s _ _ _ _; simp [onBits]
theorem Safe.pure {a n : Nat} (x : α) : Safe a n (Pure.pure x : BProg α) := Safe.ret x

theorem Safe.bits {a n w : Nat} {k : Nat → BProg α} (hw : w ≤ n) (h : ∀ v, Safe ((a + w) % 8) (n - w) (k v)) : Safe a n (.bits w k) := by
  intro off s h1 h2 h3 h4
  simp only [onBits]
  rw [if_pos (by omega)]
  exact h _ _ _ (by omega) (by simp; omega) (by simp; omega) (by simp; omega)

theorem Safe.acquire {a n m : Nat} {k : Err → BProg α} (hm : m < 2 ^ 29) (h1 : Safe a (8 * m) (k Err.SUCCESS))
    (h2 : Safe a 0 (k Err.ERROR_IO_NOT_ENOUGH)) : Safe a n (.acquire m k) := by
  intro off s g1 g2 g3 g4
  simp only [onBits]
  split
  · exact h1 _ _ g1 (by omega) g3 g4
  · exact h2 _ _ g1 (by omega) g3 g4

theorem Safe.skip {a n m : Nat} {k : BProg α} (hm : 8 * m ≤ n) (h : Safe a (n - 8 * m) k) : Safe a n (.skip m k) := by
  intro off s h1 h2 h3 h4
  simp only [onBits]
  rw [if_pos (by omega)]
  exact h _ _ (by omega) (by simp; omega) (by simp; omega) (by simp; omega)

theorem Safe.mono {a n m : Nat} {p : BProg α} (h : Safe a m p) (hm : m ≤ n) : Safe a n p :=
  fun off s h1 h2 h3 h4 => h off s h1 (by omega) h3 h4

theorem Safe.rd_bind {a n w : Nat} {k : Nat → BProg α} (hw : w ≤ n) (h : ∀ v, Safe ((a + w) % 8) (n - w) (k v)) :
    Safe a n (rd w >>= k) := Safe.bits hw h

theorem Safe.acq_bind {a n m : Nat} {k : Err → BProg α} (hm : m < 2 ^ 29) (h1 : Safe a (8 * m) (k Err.SUCCESS))
    (h2 : Safe a 0 (k Err.ERROR_IO_NOT_ENOUGH)) : Safe a n (acq m >>= k) := Safe.acquire hm h1 h2

end Sps.BProg

namespace Sps.PesSt
open Spec BProg

theorem dump_safe (s : PesSt) : Safe 0 0 s.dump := by
  intro off t h1 _ h3 h4
  unfold dump
  cases s.buf with
  | none =>
    show onBits (.size fun n => .skip n (.ret (Err.SUCCESS, s))) off t ≠ none
    simp only [onBits]
    rw [if_pos (by omega)]
    simp
  | some d =>
    have key : ∀ left, left ≤ t.length / 8 → onBits (if sub32 s.cap d.length < left then (pure (Err.ERROR_TS_PACKET_DECODE, s) : BProg (Err × PesSt))
        else .bytes left fun x => .size fun n => .skip n (.ret (Err.SUCCESS, { s with buf := some (d ++ x) }))) off t ≠ none := by
      intro left hle
      split
      · simp [on_pure]
      · simp only [onBits]
        rw [if_pos ⟨h1, by omega⟩]
        rw [if_pos (by simp only [List.length_drop]; omega)]
        simp
    refine key (if s.len > 0 then min (subSz s.len d.length) (t.length / 8) else t.length / 8) ?_
    split
    · exact Nat.min_le_right _ _
    · exact Nat.le_refl _

theorem optional_safe (flag n : Nat) (s : PesSt) (k : BProg (Err × PesSt)) (hn : n < 100) (h : Safe 0 0 k) : Safe 0 0 (optional flag n s k) := by
  unfold optional
  split
  · refine Safe.acquire (by omega) ?_ ?_
    · rw [if_neg (by simp)]
      exact Safe.skip (by omega) (h.mono (by omega))
    · rw [if_pos (by decide)]; exact Safe.ret _
  · exact h

theorem counted_safe (flag u w : Nat) (s : PesSt) (k : BProg (Err × PesSt)) (hw : u + w = 8) (h : Safe 0 0 k) :
    Safe 0 0 (counted flag u w s k) := by
  unfold counted
  split
  · refine Safe.acquire (by omega) ?_ ?_
    · rw [if_neg (by simp)]
      intro off t h1 h2 h3 h4
      simp only [onBits]
      rw [if_pos (by omega), if_pos (by simp; omega)]
      have hlt := bitsVal_lt (List.take w (List.drop u t))
      have : bitsVal (List.take w (List.drop u t)) < 256 :=
        Nat.lt_of_lt_of_le hlt (by
          refine Nat.le_trans (Nat.pow_le_pow_right (by decide) (List.length_take_le _ _)) ?_
          exact Nat.pow_le_pow_right (by decide) (show w ≤ 8 by omega))
      rw [Nat.mod_eq_of_lt (a := bitsVal (List.take w (List.drop u t))) (by omega)]
      generalize bitsVal (List.take w (List.drop u t)) = n at this
      split
      · rename_i hle
        rw [if_neg (by simp)]
        simp only [onBits]
        rw [if_pos (by simp at hle ⊢; omega)]
        simp only [List.drop_drop]
        exact h _ _ (by omega) (by omega) (by simp at hle ⊢; omega) (by simp at hle ⊢; omega)
      · rw [if_pos (by decide)]; simp [onBits]
    · rw [if_pos (by decide)]; exact Safe.ret _
  · exact h

theorem extension_safe (flag : Nat) (s : PesSt) (k : BProg (Err × PesSt)) (h : Safe 0 0 k) : Safe 0 0 (extension flag s k) := by
  unfold extension
  split
  · refine Safe.acquire (by omega) ?_ ?_
    · rw [if_neg (by simp)]
      refine Safe.bits (by omega) fun _ => Safe.bits (by omega) fun _ => Safe.bits (by omega) fun _ => Safe.bits (by omega) fun _ =>
        Safe.bits (by omega) fun _ => Safe.bits (by omega) fun _ => ?_
      exact optional_safe _ _ _ _ (by omega) <| counted_safe _ _ _ _ _ rfl <| optional_safe _ _ _ _ (by omega) <|
        optional_safe _ _ _ _ (by omega) <| counted_safe _ _ _ _ _ rfl h
    · rw [if_pos (by decide)]; exact Safe.ret _
  · exact h

theorem finish_safe (s : PesSt) (hlen : Nat) (p0 : Int) (hh : hlen < 256) (hp : 0 ≤ p0 ∧ p0 < 2 ^ 28) : Safe 0 0 (finish s hlen p0) := by
  intro off t h1 h2 h3 h4
  unfold finish
  rw [on_pos]
  dsimp only
  generalize hx : (hlen : Int) - (((off / 8 : Nat) : Int) - p0) = stuff
  have hb : -(2 ^ 28) < stuff ∧ stuff < 2 ^ 29 := by omega
  simp only [onBits]
  split
  · rename_i hle
    rw [if_neg (by simp)]
    have h0 : 0 ≤ stuff := by
      refine Decidable.byContradiction fun hn => ?_
      have : (stuff % 2 ^ 32).toNat = (2 ^ 32 + stuff).toNat := by omega
      rw [this] at hle
      omega
    have e1 : (stuff % 2 ^ 32).toNat = stuff.toNat := by omega
    rw [e1] at hle
    simp only [onBits]
    have e2 : u64 stuff = stuff.toNat := by unfold u64; omega
    rw [e2, if_pos (by omega)]
    exact dump_safe s _ _ (by omega) (by omega) (by simp; omega) (by simp; omega)
  · rw [if_pos (by decide)]; simp [onBits]

theorem stamp_bind_safe (k : Nat → BProg (Err × PesSt)) (h : ∀ v, Safe 0 0 (k v)) : Safe 0 40 (stamp >>= k) := by
  show Safe 0 40 (.bits 4 fun _ => .bits 3 fun a => .bits 1 fun _ => .bits 15 fun b => .bits 1 fun _ => .bits 15 fun c => .bits 1 fun _ => k _)
  exact Safe.bits (by omega) fun _ => Safe.bits (by omega) fun _ => Safe.bits (by omega) fun _ => Safe.bits (by omega) fun _ =>
    Safe.bits (by omega) fun _ => Safe.bits (by omega) fun _ => Safe.bits (by omega) fun _ => h _

theorem stamps_safe (flags : Nat) (s : PesSt) (k : PesSt → BProg (Err × PesSt)) (h : ∀ s, Safe 0 0 (k s)) : Safe 0 0 (stamps flags s k) := by
  unfold stamps
  dsimp only
  split
  · refine Safe.acq_bind (by omega) ?_ ?_
    · rw [if_neg (by simp)]
      refine stamp_bind_safe _ fun v => ?_
      split
      · refine Safe.acq_bind (by omega) ?_ ?_
        · rw [if_neg (by simp)]
          exact stamp_bind_safe _ fun _ => h _
        · rw [if_pos (by decide)]; exact Safe.pure _
      · exact h _
    · rw [if_pos (by decide)]; exact Safe.pure _
  · exact h _

theorem header_safe (s : PesSt) : Safe 0 24 (header s) := by
  unfold header
  refine Safe.bits (by omega) fun _ => Safe.bits (by omega) fun _ => Safe.bits (by omega) fun _ => Safe.bits (by omega) fun _ =>
    Safe.bits (by omega) fun _ => Safe.bits (by omega) fun _ => Safe.bits (by omega) fun _ => Safe.bits (by omega) fun _ =>
    Safe.bits (by omega) fun _ => Safe.bits (by omega) fun _ => Safe.bits (by omega) fun _ => Safe.bits (by omega) fun _ =>
    Safe.bits (by omega) fun _ => ?_
  intro off t h1 h2 h3 h4
  rw [on_bits 8 (by omega) _ _ _ (by omega), on_pos]
  have hlt : bitsVal (t.take 8) < 256 := by
    refine Nat.lt_of_lt_of_le (bitsVal_lt _) ?_
    exact Nat.pow_le_pow_right (by decide) (List.length_take_le _ _)
  refine stamps_safe _ _ _ (fun s => ?_) _ _ (by omega) (by omega) (by simp; omega) (by simp; omega)
  exact optional_safe _ _ _ _ (by omega) <| optional_safe _ _ _ _ (by omega) <| optional_safe _ _ _ _ (by omega) <|
    optional_safe _ _ _ _ (by omega) <| optional_safe _ _ _ _ (by omega) <| extension_safe _ _ _ <|
    finish_safe _ _ _ hlt ⟨by omega, by omega⟩

theorem start_safe (s : PesSt) : Safe 0 72 s.start := by
  unfold start
  refine Safe.rd_bind (by omega) fun pre => Safe.rd_bind (by omega) fun id => Safe.rd_bind (by omega) fun len => ?_
  dsimp only
  split
  · exact Safe.pure _
  split
  · intro off t h1 _ h3 h4
    show onBits (.size fun n => .skip n (.ret _)) off t ≠ none
    simp only [onBits]
    rw [if_pos (by omega)]
    simp
  split
  · exact (dump_safe _).mono (by omega)
  · exact header_safe _

end Sps.PesSt

namespace Sps.TsCtx
open Spec BProg
variable {σ : Type}

theorem decodePes_safe (h : TsHandler σ) (h1 : ∀ d st, h.onPes d st ≠ none) (pid : Nat) (hd : TsHeader) (s : PesSt) (rd : BitCtx) (st : σ)
    (b : Nat) (d : List UInt8) (ha : At rd (8 * b) (bitsOf d)) (hb : b + d.length < 2 ^ 28) : decodePes h pid hd s rd st ≠ none := by
  have hrun : ∀ {n : Nat} {p : BProg (Err × PesSt)}, Safe 0 n p → n ≤ 8 * d.length → p.run rd ≠ none := by
    intro n p hp hn hr
    rcases run_eq p ha with ⟨g1, _⟩ | ⟨a1, o1, s1, c1, _, g2, _⟩
    · exact hp _ _ (by omega) (by simp; omega) (by rw [bitsOf_length]; omega) (by rw [bitsOf_length]; omega) g1
    · rw [g2] at hr; cases hr
  unfold decodePes
  split
  · simp
  split
  · simp
  dsimp only
  split
  · simp only [ne_eq, Option.map_eq_none_iff]
    exact hrun (PesSt.dump_safe _) (by omega)
  split
  · simp
  rename_i hacq
  have h9 : 72 ≤ 8 * d.length := by
    rw [acquire_at ha] at hacq
    refine Decidable.byContradiction fun hn => ?_
    apply hacq
    rw [if_neg (by simp; omega)]
    decide
  split
  · simp only [ne_eq, Option.map_eq_none_iff]
    exact hrun (PesSt.start_safe _) h9
  · cases ho : h.onPes _ st with
    | none => exact absurd ho (h1 _ _)
    | some x =>
      obtain ⟨e, st1⟩ := x
      simp only [Option.bind_eq_bind, Option.bind_some]
      split
      · simp
      · simp only [ne_eq, Option.map_eq_none_iff]
        exact hrun (PesSt.start_safe _) h9

theorem decode_pes_safe (h : TsHandler σ) (h1 : ∀ d st, h.onPes d st ≠ none) (h2 : ∀ p t u st, h.onPkt p t u st ≠ none) (c : TsCtx)
    (st : σ) (p : List UInt8) (hp : Spec.Ts.packetOk p) (s : PesSt) (hk : c.progs.find (Spec.Ts.header p).pid = some (.pes s)) :
    decode h c st p ≠ none := by
  by_cases hl : Spec.Ts.hasPayload p
  · obtain ⟨rd, ha, e⟩ := decode_ok h c st p hp hk (.inl hl)
    rw [e]
    simp only [decodeProgram]
    have hlen : (Spec.Ts.payload p).length = 188 - Spec.Ts.payloadOff p := by
      unfold Spec.Ts.payload; rw [List.length_drop, hp.size]
    have hoff : Spec.Ts.payloadOff p < 300 := by
      unfold Spec.Ts.payloadOff
      split
      · have := hp.af (by assumption); have := this.1; omega
      · omega
    have hs := decodePes_safe h h1 (Spec.Ts.header p).pid (Spec.Ts.header p) s rd st _ _ ha (by omega)
    cases hd : decodePes h (Spec.Ts.header p).pid (Spec.Ts.header p) s rd st with
    | none => exact absurd hd hs
    | some x =>
      obtain ⟨e1, s1, st1⟩ := x
      simp only [Option.map_some, Option.bind_some]
      split
      · simp
      · simp only [ne_eq, Option.map_eq_none_iff]
        exact h2 _ _ _ _
  · have ha := At.init p (by have := hp.size; omega)
    obtain ⟨rd, h3, h4⟩ := run_of ha (Ts.packet_ok p hp)
    unfold decode
    rw [h3]
    simp only [Option.bind_eq_bind, Option.bind_some]
    rw [if_neg (by simp), hk]
    simp only
    rw [if_pos]
    · simp
    · refine ⟨?_, rfl⟩
      unfold Spec.Ts.hasPayload at hl
      show (Spec.Ts.header p).afc &&& 1 = 0
      rw [Nat.and_one_is_mod]
      show field p 26 2 % 2 = 0
      omega

end Sps.TsCtx
