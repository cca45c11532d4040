import Verif.Lemmas.BitProg
import Verif.Spec.BProg
/-! # Programs over a `BitContext` -/
namespace Sps.BProg
open Spec
variable {α β : Type}

/-- The context has `off` bits behind it and `s` in front of it. -/
structure At (c : BitCtx) (off : Nat) (s : List Bool) : Prop where
  wf : c.WF
  len : c.buf.length < 2 ^ 32
  at_ : c.bitPos = off
  le : off ≤ 8 * c.buf.length
  rest : (bitsOf c.buf).drop off = s

theorem At.init (p : List UInt8) (h : p.length < 2 ^ 32) : At (BitCtx.init p) 0 (bitsOf p) :=
  ⟨BitCtx.WF.init p, h, rfl, Nat.zero_le _, rfl⟩

theorem At.length {c : BitCtx} {off : Nat} {s : List Bool} (h : At c off s) : s.length = 8 * c.buf.length - off := by
  rw [← h.rest, List.length_drop, bitsOf_length]

theorem toBytes_append (d : List UInt8) (r : List Bool) : toBytes d.length (bitsOf d ++ r) = d := by
  unfold toBytes
  rw [BitProps.takeVals_bytes, List.map_map]
  conv => rhs; rw [← List.map_id d]
  apply List.map_congr_left
  intro b _
  exact UInt8.ofNat_toNat

theorem toBytes_of {d : List UInt8} {n : Nat} (r : List Bool) (h : d.length = n) : toBytes n (bitsOf d ++ r) = d := by
  subst h; exact toBytes_append d r

theorem posOff_eq {c : BitCtx} (h : c.WF) : c.posOff = (c.bitPos / 8 : Nat) := by
  have h1 := h.rem_lt; have h2 := h.rem_pos
  unfold BitCtx.posOff BitCtx.bitPos
  split <;> omega

/-- The modelled context computes what `onBits` says. -/
theorem run_eq (p : BProg α) : ∀ {c : BitCtx} {off : Nat} {s : List Bool}, At c off s →
    (onBits p off s = none ∧ p.run c = none) ∨
    ∃ a off' s' c', onBits p off s = some (a, off', s') ∧ p.run c = some (a, c') ∧ At c' off' s' := by
  induction p with
  | ret a => intro c off s h; exact .inr ⟨a, off, s, c, rfl, rfl, h⟩
  | acquire n k ih =>
    intro c off s h
    simp only [onBits, run]
    have hl := h.length
    have hsz := h.wf.toWF8.sizeBits h.len
    rw [h.at_] at hsz
    unfold BitCtx.acquire BitCtx.acquireBits
    rw [hsz, ← hl]
    by_cases hn : (n * 8) % 2 ^ 32 ≤ s.length
    · rw [if_pos hn, if_pos hn]; exact ih _ h
    · rw [if_neg hn, if_neg hn]; exact ih _ h
  | bits n k ih =>
    intro c off s h
    simp only [onBits, run]
    have hl := h.length
    by_cases hn : n ≤ s.length
    · rw [if_pos hn]
      obtain ⟨c1, e1, w1, b1, p1⟩ := BitCtx.readBits_spec h.wf n (by rw [h.at_]; have := h.le; omega)
      rw [e1, h.at_, h.rest]
      simp only [Option.bind_some]
      refine ih _ (c := c1) ⟨w1, by rw [b1]; exact h.len, by rw [p1, h.at_], ?_, ?_⟩
      · have := h.le; rw [b1]; omega
      · rw [b1, ← h.rest, List.drop_drop]
    · rw [if_neg hn, BitCtx.readBits_oob h.wf n (by rw [h.at_]; have := h.le; omega)]
      exact .inl ⟨rfl, rfl⟩
  | bytes n k ih =>
    intro c off s h
    simp only [onBits, run]
    have hl := h.length
    have h1 := h.wf.rem_lt
    have h2 := h.wf.rem_pos
    have h3 := h.at_
    have h4 := h.le
    have h5 := h.wf.pos_le
    by_cases h0 : c.remBits = 0
    · have hp : off = 8 * c.pos := by rw [← h3]; unfold BitCtx.bitPos; omega
      by_cases hn : 8 * n ≤ s.length
      · rw [if_pos ⟨by omega, hn⟩]
        obtain ⟨c1, e1, w1, b1, p1, _⟩ := BitCtx.readBytes_spec h.wf n h0 (by omega)
        rw [e1]
        simp only [Option.bind_some]
        have hb : (c.buf.drop c.pos).take n = toBytes n s := by
          rw [← h.rest, hp, bitsOf_drop]
          conv => rhs; rw [← List.take_append_drop n (c.buf.drop c.pos), bitsOf_append]
          rw [toBytes_of _ (by simp; omega)]
        rw [hb]
        refine ih _ (c := c1) ⟨w1, by rw [b1]; exact h.len, by rw [p1, h3], ?_, ?_⟩
        · rw [b1]; omega
        · rw [b1, ← h.rest, List.drop_drop]
      · rw [if_neg (by omega)]
        unfold BitCtx.readBytes
        rw [if_pos h0, if_neg (by omega)]
        exact .inl ⟨rfl, rfl⟩
    · rw [if_neg (by unfold BitCtx.bitPos at h3; omega)]
      unfold BitCtx.readBytes
      rw [if_neg h0]
      exact .inl ⟨rfl, rfl⟩
  | skip n k ih =>
    intro c off s h
    simp only [onBits, run]
    have hl := h.length
    have h1 := h.wf.rem_lt
    have h2 := h.wf.rem_pos
    have h3 := h.at_
    have h4 := h.le
    have h5 := h.wf.pos_le
    by_cases hn : 8 * n ≤ s.length
    · rw [if_pos hn, if_pos (by unfold BitCtx.bitPos at h3; omega)]
      obtain ⟨c1, e1, w1, b1, p1, _⟩ := BitCtx.skipReadBytes_spec h.wf n (by rw [h3]; omega)
      rw [e1]
      simp only [Option.bind_some]
      refine ih (c := c1) ⟨w1, by rw [b1]; exact h.len, by rw [p1, h3], ?_, ?_⟩
      · rw [b1]; omega
      · rw [b1, ← h.rest, List.drop_drop]
    · rw [if_neg hn, if_neg (by unfold BitCtx.bitPos at h3; omega)]
      exact .inl ⟨rfl, rfl⟩
  | size k ih =>
    intro c off s h
    simp only [onBits, run]
    have hl := h.length
    have hsz := h.wf.toWF8.sizeBits h.len
    rw [h.at_, ← hl] at hsz
    unfold BitCtx.size
    rw [hsz]
    exact ih _ h
  | pos k ih =>
    intro c off s h
    simp only [onBits, run]
    rw [posOff_eq h.wf, h.at_]
    exact ih _ h

/-- Forward: from the specification to the model. -/
theorem run_of {p : BProg α} {c : BitCtx} {off : Nat} {s : List Bool} (h : At c off s) {a : α} {off' : Nat} {s' : List Bool}
    (e : onBits p off s = some (a, off', s')) : ∃ c', p.run c = some (a, c') ∧ At c' off' s' := by
  rcases run_eq p h with ⟨h1, _⟩ | ⟨a1, o1, s1, c1, h1, h2, h3⟩
  · rw [e] at h1; simp at h1
  · rw [e] at h1; simp only [Option.some.injEq, Prod.mk.injEq] at h1
    obtain ⟨rfl, rfl, rfl⟩ := h1
    exact ⟨c1, h2, h3⟩

/-- Backward: from the model to the specification. -/
theorem of_run {p : BProg α} {c c' : BitCtx} {off : Nat} {s : List Bool} (h : At c off s) {a : α}
    (e : p.run c = some (a, c')) : ∃ off' s', onBits p off s = some (a, off', s') ∧ At c' off' s' := by
  rcases run_eq p h with ⟨_, h1⟩ | ⟨a1, o1, s1, c1, h1, h2, h3⟩
  · rw [e] at h1; simp at h1
  · rw [e] at h2; simp only [Option.some.injEq, Prod.mk.injEq] at h2
    obtain ⟨rfl, rfl⟩ := h2
    exact ⟨o1, s1, h1, h3⟩

theorem run_none {p : BProg α} {c : BitCtx} {off : Nat} {s : List Bool} (h : At c off s) (e : onBits p off s = none) :
    p.run c = none := by
  rcases run_eq p h with ⟨_, h1⟩ | ⟨a1, o1, s1, c1, h1, h2, h3⟩
  · exact h1
  · rw [e] at h1; simp at h1

theorem onBits_bind (p : BProg α) (f : α → BProg β) : ∀ (off : Nat) (s : List Bool),
    onBits (p.bind f) off s = (onBits p off s).bind fun x => onBits (f x.1) x.2.1 x.2.2 := by
  induction p with
  | ret a => intro off s; rfl
  | acquire n k ih => intro off s; simp only [bind, onBits]; split <;> exact ih _ _ _
  | bits n k ih => intro off s; simp only [bind, onBits]; split
                   · exact ih _ _ _
                   · rfl
  | bytes n k ih => intro off s; simp only [bind, onBits]; split
                    · exact ih _ _ _
                    · rfl
  | skip n k ih => intro off s; simp only [bind, onBits]; split
                   · exact ih _ _
                   · rfl
  | size k ih => intro off s; exact ih _ _ _
  | pos k ih => intro off s; exact ih _ _ _

theorem on_bind (p : BProg α) (f : α → BProg β) (off : Nat) (s : List Bool) :
    onBits (p >>= f) off s = (onBits p off s).bind fun x => onBits (f x.1) x.2.1 x.2.2 := onBits_bind p f off s

theorem on_ret (a : α) (off : Nat) (s : List Bool) : onBits (.ret a) off s = some (a, off, s) := rfl
theorem on_pure (a : α) (off : Nat) (s : List Bool) : onBits (pure a) off s = some (a, off, s) := rfl

/-- A field that was written is read. -/
theorem on_field (w v : Nat) (hw : w ≤ 32) (k : Nat → BProg α) (off : Nat) (r : List Bool) :
    onBits (.bits w k) off (bitsOfNat w v ++ r) = onBits (k (v % 2 ^ w)) (off + w) r := by
  simp only [onBits]
  rw [if_pos (by simp), List.take_append_of_le_length (by simp), List.take_of_length_le (by simp), bitsVal_bitsOfNat,
    List.drop_append, List.drop_eq_nil_of_le (by simp)]
  simp only [bitsOfNat_length, List.nil_append, Nat.sub_self, List.drop_zero]
  rw [Nat.mod_eq_of_lt (a := v % 2 ^ w)]
  exact Nat.lt_of_lt_of_le (Nat.mod_lt _ (Nat.two_pow_pos _)) (Nat.pow_le_pow_right (by decide) hw)

theorem on_bits (w : Nat) (hw : w ≤ 32) (k : Nat → BProg α) (off : Nat) (s : List Bool) (h : w ≤ s.length) :
    onBits (.bits w k) off s = onBits (k (bitsVal (s.take w))) (off + w) (s.drop w) := by
  simp only [onBits]
  rw [if_pos h, Nat.mod_eq_of_lt]
  refine Nat.lt_of_lt_of_le (bitsVal_lt _) (Nat.pow_le_pow_right (by decide) ?_)
  rw [List.length_take]; omega

theorem on_bits_none (w : Nat) (k : Nat → BProg α) (off : Nat) (s : List Bool) (h : s.length < w) :
    onBits (.bits w k) off s = none := by
  simp only [onBits]; rw [if_neg (by omega)]

theorem on_skip (n : Nat) (d : List UInt8) (hd : d.length = n) (k : BProg α) (off : Nat) (r : List Bool) :
    onBits (.skip n k) off (bitsOf d ++ r) = onBits k (off + 8 * n) r := by
  simp only [onBits]
  rw [if_pos (by simp [hd]), List.drop_append, List.drop_eq_nil_of_le (by simp [hd])]
  simp [hd]

theorem on_bytes (n : Nat) (d : List UInt8) (hd : d.length = n) (k : List UInt8 → BProg α) (off : Nat) (ho : off % 8 = 0)
    (r : List Bool) : onBits (.bytes n k) off (bitsOf d ++ r) = onBits (k d) (off + 8 * n) r := by
  simp only [onBits]
  rw [if_pos ⟨ho, by simp [hd]⟩, List.drop_append, List.drop_eq_nil_of_le (by simp [hd]), toBytes_of _ hd]
  simp [hd]

theorem on_acq (n : Nat) (hn : n < 2 ^ 29) (k : Err → BProg α) (off : Nat) (s : List Bool) (h : 8 * n ≤ s.length) :
    onBits (.acquire n k) off s = onBits (k Err.SUCCESS) off s := by
  simp only [onBits]; rw [if_pos (by omega)]

theorem on_acq_fail (n : Nat) (hn : n < 2 ^ 29) (k : Err → BProg α) (off : Nat) (s : List Bool) (h : s.length < 8 * n) :
    onBits (.acquire n k) off s = onBits (k Err.ERROR_IO_NOT_ENOUGH) off s := by
  simp only [onBits]; rw [if_neg (by omega)]

theorem on_size (k : Nat → BProg α) (off : Nat) (s : List Bool) : onBits (.size k) off s = onBits (k (s.length / 8)) off s := rfl
theorem on_pos (k : Int → BProg α) (off : Nat) (s : List Bool) : onBits (.pos k) off s = onBits (k (off / 8 : Nat)) off s := rfl

end Sps.BProg
