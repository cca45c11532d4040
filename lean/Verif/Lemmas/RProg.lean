import Mathlib.Tactic.Ring
import Mathlib.Tactic.Linarith
import Verif.Lemmas.ByteProg
import Verif.Spec.RProg
/-! # Programs over a `BytesReader`: the modelled reader does what the stream semantics says -/
namespace Sps.Reader
open Spec

theorem acquireLoop_grows (fuel : Nat) {r : Reader} (h : r.WF) (io : Io) (hio : r.io = some io) (n : Nat) {e : Err}
    {r' : Reader} (he : acquireLoop fuel r n = some (e, r')) : r.buf.content.length ≤ r'.buf.content.length := by
  induction fuel generalizing r io with
  | zero => simp [acquireLoop] at he
  | succ fuel ih =>
    have hr := Io.read_spec io r.buf.remain (h.io io hio)
    unfold acquireLoop at he
    simp only [hio] at he
    cases hread : io.read r.buf.remain with
    | mk res io1 =>
      rw [hread] at he hr
      cases res with
      | err e1 =>
        simp only [Option.some.injEq, Prod.mk.injEq] at he
        rw [← he.2]
      | ok d =>
        obtain ⟨q1, q2, q3, q4, q5, q6⟩ := hr
        simp only at he q5
        rw [h.buf.remain] at q5
        obtain ⟨b1, p1, p2, p3, p4, p5, p6, p7⟩ := AVBuf.poke_append_spec h.buf d q5
        rw [p1] at he
        simp only at he
        split at he
        · have := ih (r := { buf := b1.append d.length, io := some io1 })
            ⟨p2, by intro x hx; cases hx; exact q1⟩ io1 rfl he
          simp only [p4, List.length_append] at this
          omega
        · simp only [Option.some.injEq, Prod.mk.injEq] at he
          rw [← he.2]
          simp only [p4, List.length_append]; omega

theorem acquire_grows {r : Reader} (h : r.WF) (io : Io) (hio : r.io = some io) (_hrw : r.buf.rewindable = true)
    (n : Nat) {e : Err} {r' : Reader} (he : r.acquire n = some (e, r')) {a : Nat} (ha : a ≤ r.buf.content.length) :
    a ≤ r'.buf.content.length := by
  refine Nat.le_trans ha ?_
  unfold acquire at he
  split at he
  · simp only [Option.some.injEq, Prod.mk.injEq] at he; rw [← he.2]
  · split at he
    · simp only [Option.some.injEq, Prod.mk.injEq] at he; rw [← he.2]
    · have key : ∀ b : AVBuf, b.WF → b.content = r.buf.content →
          (if b.noRewindCap ≥ n then acquireLoop n { r with buf := b } n else none) = some (e, r') →
          r.buf.content.length ≤ r'.buf.content.length := by
        intro b hw hc hb
        split at hb
        · have q := acquireLoop_grows n (r := { r with buf := b }) ⟨hw, h.io⟩ io hio n hb
          simp only [hc] at q
          exact q
        · simp at hb
      split at he
      · obtain ⟨b', e1, w, c, d, _⟩ := AVBuf.rewind_spec h.buf
        simp only [e1] at he
        exact key b' w d he
      · exact key r.buf h.buf rfl he

end Sps.Reader

namespace Sps.RProg
open Spec Sps.ByteProg
variable {α β : Type}

theorem bind_assoc (p : RProg α) (f : α → RProg β) {γ : Type} (g : β → RProg γ) :
    (p.bind f).bind g = p.bind fun a => (f a).bind g := by
  induction p with
  | ret a => rfl
  | acquire n k ih => simp [bind, ih]
  | int8 k ih => simp [bind, ih]
  | bytes n k ih => simp [bind, ih]
  | skip n k ih => simp [bind, ih]
  | size k ih => simp [bind, ih]

theorem onStream_bind (cap : Nat) (closed : Err) (p : RProg α) (f : α → RProg β) (avail : Nat) (s : List UInt8) :
    onStream cap closed (p >>= f) avail s =
      (onStream cap closed p avail s).bind fun x => onStream cap closed (f x.1) x.2.1 x.2.2 := by
  show onStream cap closed (p.bind f) avail s = _
  induction p generalizing avail s with
  | ret a => simp [bind, onStream]
  | acquire n k ih =>
    simp only [bind, onStream]
    split
    · exact ih _ _ _
    · split
      · exact ih _ _ _
      · exact ih _ _ _
  | int8 k ih =>
    cases avail with
    | zero => simp [bind, onStream]
    | succ a =>
      cases s with
      | nil => simp [bind, onStream]
      | cons b s => simp only [bind, onStream]; exact ih _ _ _
  | bytes n k ih =>
    simp only [bind, onStream]
    split
    · exact ih _ _ _
    · rfl
  | skip n k ih =>
    simp only [bind, onStream]
    split
    · exact ih _ _
    · rfl
  | size k ih => simp [bind, onStream]

theorem run_bind (p : RProg α) (f : α → RProg β) (r : Reader) :
    (p >>= f).run r = (p.run r).bind fun x => (f x.1).run x.2 := by
  show (p.bind f).run r = _
  induction p generalizing r with
  | ret a => simp [bind, run]
  | acquire n k ih =>
    simp only [bind, run]
    cases r.acquire n with
    | none => rfl
    | some x => simp [ih]
  | int8 k ih =>
    simp only [bind, run]
    cases r.int8 with
    | none => rfl
    | some x => simp [ih]
  | bytes n k ih =>
    simp only [bind, run]
    cases r.bytes n with
    | none => rfl
    | some x => simp [ih]
  | skip n k ih => simp only [bind, run]; exact ih _
  | size k ih => simp only [bind, run]; exact ih _ _

theorem skipBytes_spec {r : Reader} (h : r.WF) (n : Nat) (hn : n ≤ r.buf.content.length) :
    (r.skipBytes n).WF ∧ (r.skipBytes n).buf.content = r.buf.content.drop n ∧ (r.skipBytes n).io = r.io ∧
      (r.skipBytes n).buf.cap = r.buf.cap ∧ (r.skipBytes n).buf.rewindable = r.buf.rewindable := by
  obtain ⟨r', e, hh⟩ := readOp_spec h (.skip n) hn
  simp only [readOp, Option.some.injEq, Prod.mk.injEq] at e
  rw [e.2]
  exact hh

/-- The simulation: over a transport without errors the modelled reader computes what the stream semantics says,
whatever the fragmentation. -/
theorem run_sim (p : RProg α) {r : Reader} {cap : Nat} {closed : Err} (h : OnIo r cap closed)
    (hno : ∀ io, r.io = some io → noErr io.evs = true) {avail : Nat} (ha : avail ≤ r.buf.content.length)
    {a : α} {avail' : Nat} {s' : List UInt8} (hs : onStream cap closed p avail r.pending = some (a, avail', s')) :
    ∃ r', p.run r = some (a, r') ∧ OnIo r' cap closed ∧ (∀ io, r'.io = some io → noErr io.evs = true) ∧
      r'.pending = s' ∧ avail' ≤ r'.buf.content.length := by
  induction p generalizing r avail with
  | ret a =>
    simp only [onStream, Option.some.injEq, Prod.mk.injEq] at hs
    obtain ⟨rfl, rfl, rfl⟩ := hs
    exact ⟨r, rfl, h, hno, rfl, ha⟩
  | acquire n k ih =>
    obtain ⟨io, hio, hcl⟩ := h.io
    obtain ⟨e, r', io', a1, a2, a3, a4, a5, a6, a7, a8, a9, a10, a11⟩ := Reader.acquire_spec h.wf io hio h.rw n
    obtain ⟨a12, a13⟩ := a11 (hno io hio)
    have h' : OnIo r' cap closed := ⟨a2, a5, a4.trans h.cap, io', a3, a7.trans hcl⟩
    have hno' : ∀ x, r'.io = some x → noErr x.evs = true := by intro x hx; rw [a3] at hx; cases hx; exact a12
    simp only [onStream] at hs
    simp only [run, a1, Option.bind_some]
    rw [h.cap] at a9 a13
    split at hs
    · rename_i hc
      obtain ⟨e1, e2⟩ := a9 hc
      subst e1; subst e2
      exact ih _ h' hno' ha hs
    · rename_i hc
      split at hs
      · rename_i hl
        rcases a13 with b | ⟨b1, b2⟩ | ⟨b1, b2⟩
        · omega
        · omega
        · subst b1
          rw [hcl]
          rw [← a6] at hs
          refine ih _ h' hno' ?_ hs
          by_cases hav : n ≤ r.buf.content.length
          · have := (a10 hav).2; subst this; exact ha
          · -- pending unchanged and content only grows
            have q : r.buf.content.length ≤ r.pending.length := by simp [Reader.pending]
            exact Reader.acquire_grows h.wf io hio h.rw n a1 ha
      · rename_i hl
        rcases a13 with b | ⟨b1, b2⟩ | ⟨b1, b2⟩
        · omega
        · subst b1
          rw [← a6] at hs
          refine ih _ h' hno' ?_ hs
          have := a8 rfl
          have q := Reader.acquire_grows h.wf io hio h.rw n a1 ha
          omega
        · omega
  | int8 k ih =>
    cases avail with
    | zero => simp [onStream] at hs
    | succ a =>
      cases hc : r.buf.content with
      | nil => rw [hc] at ha; simp at ha
      | cons b rest =>
        obtain ⟨r', e, w, c, i, p1, q1⟩ := Reader.int8_spec h.wf b rest hc
        have hp : r.pending = b :: r'.pending := by simp [Reader.pending, hc, c, i]
        rw [hp] at hs
        simp only [onStream] at hs
        have h' : OnIo r' cap closed := ⟨w, q1.trans h.rw, p1.trans h.cap, by rw [i]; exact h.io⟩
        simp only [run, e, Option.bind_some]
        refine ih _ h' (by rw [i]; exact hno) ?_ hs
        rw [c]; rw [hc] at ha; simpa using ha
  | bytes n k ih =>
    simp only [onStream] at hs
    split at hs
    · rename_i hn
      have hsplit : r.buf.content = r.buf.content.take n ++ r.buf.content.drop n := (List.take_append_drop _ _).symm
      obtain ⟨r', e, w, c, i, p1, q1⟩ := Reader.bytes_spec h.wf (r.buf.content.take n) (r.buf.content.drop n) hsplit
      have hl : (r.buf.content.take n).length = n := by rw [List.length_take]; omega
      rw [hl] at e
      have h' : OnIo r' cap closed := ⟨w, q1.trans h.rw, p1.trans h.cap, by rw [i]; exact h.io⟩
      rw [take_pending (by omega)] at hs
      simp only [run, e, Option.bind_some]
      refine ih _ h' (by rw [i]; exact hno) ?_ (by rw [drop_pending (by omega) c i]; exact hs)
      rw [c, List.length_drop]; omega
    · simp at hs
  | skip n k ih =>
    simp only [onStream] at hs
    split at hs
    · rename_i hn
      obtain ⟨w, c, i, p1, q1⟩ := skipBytes_spec h.wf n (by omega)
      have h' : OnIo (r.skipBytes n) cap closed := ⟨w, q1.trans h.rw, p1.trans h.cap, by rw [i]; exact h.io⟩
      simp only [run]
      refine ih h' (by rw [i]; exact hno) ?_ (by rw [drop_pending (by omega) c i]; exact hs)
      rw [c, List.length_drop]; omega
    · simp at hs
  | size k ih => simp [onStream] at hs

end Sps.RProg

namespace Sps.RProg
open Spec

theorem shl_or (a b k : Nat) (h : b < 2 ^ k) : (a <<< k) ||| b = a * 2 ^ k + b := by
  rw [Nat.shiftLeft_eq, Nat.mul_comm, Nat.two_pow_add_eq_or_of_lt h]

variable {α β : Type}

section
variable (cap : Nat) (closed : Err)

theorem on_ret (a : α) (v : Nat) (s : List UInt8) : onStream cap closed (pure a : RProg α) v s = some (a, v, s) := rfl

theorem on_acq (n : Nat) (f : Err → RProg β) (v : Nat) (s : List UInt8) :
    onStream cap closed (acq n >>= f) v s =
      if cap < n then onStream cap closed (f Err.ERROR_IO_BUFFER_FULL) v s
      else if s.length < n then onStream cap closed (f closed) v s
      else onStream cap closed (f Err.SUCCESS) (max v n) s := by
  rw [onStream_bind]
  simp only [acq, onStream]
  repeat' split
  all_goals simp

theorem on_rd8 (f : Nat → RProg β) (v : Nat) (s : List UInt8) (h1 : 1 ≤ v) (h2 : 1 ≤ s.length) :
    onStream cap closed (rd8 >>= f) v s = onStream cap closed (f (beVal (s.take 1))) (v - 1) (s.drop 1) := by
  obtain ⟨v, rfl⟩ : ∃ k, v = k + 1 := ⟨v - 1, by omega⟩
  match s, h2 with
  | b :: s, _ =>
    rw [onStream_bind]
    simp [rd8, onStream, beVal]

theorem on_rd16 (f : Nat → RProg β) (v : Nat) (s : List UInt8) (h1 : 2 ≤ v) (h2 : 2 ≤ s.length) :
    onStream cap closed (rd16 >>= f) v s = onStream cap closed (f (beVal (s.take 2))) (v - 2) (s.drop 2) := by
  rw [onStream_bind]
  show Option.bind (onStream cap closed (rd8 >>= fun a => rd8 >>= fun b => pure (((a <<< 8) ||| b) % 2 ^ 16)) v s) _ = _
  rw [on_rd8 _ _ _ _ _ (by omega) (by omega), on_rd8 _ _ _ _ _ (by omega) (by simp; omega), on_ret]
  match s, h2 with
  | a :: b :: s, _ =>
    have ha := a.toNat_lt; have hb := b.toNat_lt
    simp only [Option.bind_some, List.take_succ_cons, List.take_zero, List.drop_succ_cons, List.drop_zero, beVal_cons, beVal_nil,
      List.length_cons, List.length_nil]
    rw [shl_or _ _ 8 (by omega), show v - 1 - 1 = v - 2 by omega]
    refine congrArg (fun x => onStream cap closed (f x) (v - 2) s) ?_
    omega

theorem on_rd24 (f : Nat → RProg β) (v : Nat) (s : List UInt8) (h1 : 3 ≤ v) (h2 : 3 ≤ s.length) :
    onStream cap closed (rd24 >>= f) v s = onStream cap closed (f (beVal (s.take 3))) (v - 3) (s.drop 3) := by
  rw [onStream_bind]
  show Option.bind (onStream cap closed (rd8 >>= fun a => rd16 >>= fun b => pure ((a <<< 16) ||| b)) v s) _ = _
  rw [on_rd8 _ _ _ _ _ (by omega) (by omega), on_rd16 _ _ _ _ _ (by omega) (by simp; omega), on_ret]
  match s, h2 with
  | a :: b :: c :: s, _ =>
    have ha := a.toNat_lt; have hb := b.toNat_lt; have hc := c.toNat_lt
    simp only [Option.bind_some, List.take_succ_cons, List.take_zero, List.drop_succ_cons, List.drop_zero, beVal_cons, beVal_nil,
      List.length_cons, List.length_nil]
    rw [shl_or _ _ 16 (by omega), show v - 1 - 2 = v - 3 by omega]
    refine congrArg (fun x => onStream cap closed (f x) (v - 3) s) ?_
    omega

theorem on_rd32 (f : Nat → RProg β) (v : Nat) (s : List UInt8) (h1 : 4 ≤ v) (h2 : 4 ≤ s.length) :
    onStream cap closed (rd32 >>= f) v s = onStream cap closed (f (beVal (s.take 4))) (v - 4) (s.drop 4) := by
  rw [onStream_bind]
  show Option.bind (onStream cap closed (rd16 >>= fun a => rd16 >>= fun b => pure (((a <<< 16) ||| b) % 2 ^ 32)) v s) _ = _
  rw [on_rd16 _ _ _ _ _ (by omega) (by omega), on_rd16 _ _ _ _ _ (by omega) (by simp; omega), on_ret]
  match s, h2 with
  | a :: b :: c :: d :: s, _ =>
    have ha := a.toNat_lt; have hb := b.toNat_lt; have hc := c.toNat_lt; have hd := d.toNat_lt
    simp only [Option.bind_some, List.take_succ_cons, List.take_zero, List.drop_succ_cons, List.drop_zero, beVal_cons, beVal_nil,
      List.length_cons, List.length_nil]
    rw [shl_or _ _ 16 (by omega), show v - 2 - 2 = v - 4 by omega]
    refine congrArg (fun x => onStream cap closed (f x) (v - 4) s) ?_
    omega

theorem on_bytes (n : Nat) (f : List UInt8 → RProg β) (v : Nat) (s : List UInt8) (h1 : n ≤ v) (h2 : n ≤ s.length) :
    onStream cap closed (rdBytes n >>= f) v s = onStream cap closed (f (s.take n)) (v - n) (s.drop n) := by
  rw [onStream_bind]
  simp [rdBytes, onStream, h1, h2]

theorem on_skip (n : Nat) (f : Unit → RProg β) (v : Nat) (s : List UInt8) (h1 : n ≤ v) (h2 : n ≤ s.length) :
    onStream cap closed (skp n >>= f) v s = onStream cap closed (f ()) (v - n) (s.drop n) := by
  rw [onStream_bind]
  simp [skp, onStream, h1, h2]

end

/-- Something programs run on: a reader over some kind of transport. -/
structure Runner (ρ : Type) where
  run : {α : Type} → RProg α → ρ → Option (α × ρ)
  ret : ∀ {α : Type} (a : α) (r : ρ), run (pure a) r = some (a, r)
  bind : ∀ {α β : Type} (p : RProg α) (f : α → RProg β) (r : ρ), run (p >>= f) r = (run p r).bind fun x => run (f x.1) x.2

/-- It does what the stream semantics says: `I r avail s` says that `s` is still to come from `r`, `avail` of it buffered. -/
structure Runner.Sim {ρ : Type} (M : Runner ρ) (cap : Nat) (closed : Err) (I : ρ → Nat → List UInt8 → Prop) : Prop where
  sim : ∀ {α : Type} (p : RProg α) {r : ρ} {avail : Nat} {s : List UInt8} {a : α} {avail' : Nat} {s' : List UInt8}, I r avail s →
    onStream cap closed p avail s = some (a, avail', s') → ∃ r', M.run p r = some (a, r') ∧ I r' avail' s'
  mono : ∀ {r : ρ} {a b : Nat} {s : List UInt8}, I r a s → b ≤ a → I r b s

/-- A reader over a transport that will deliver `s` without an error before its end. -/
def Holds (cap : Nat) (closed : Err) (r : Reader) (avail : Nat) (s : List UInt8) : Prop :=
  ByteProg.OnIo r cap closed ∧ (∀ io, r.io = some io → noErr io.evs = true) ∧ r.pending = s ∧ avail ≤ r.buf.content.length

/-- The modelled reader. -/
def onReader : Runner Reader := ⟨fun p r => p.run r, fun _ _ => rfl, run_bind⟩

theorem sim_reader (cap : Nat) (closed : Err) : onReader.Sim cap closed (Holds cap closed) where
  sim := by
    rintro α p r avail s a avail' s' ⟨h1, h2, rfl, h4⟩ hs
    obtain ⟨r', a1, a2, a3, a4, a5⟩ := run_sim p h1 h2 h4 hs
    exact ⟨r', a1, a2, a3, a4, a5⟩
  mono h hb := ⟨h.1, h.2.1, h.2.2.1, Nat.le_trans hb h.2.2.2⟩

section
variable {ρ : Type} {M : Runner ρ}

/-- A program that can only end with a result in `S` or by leaving the buffer memory. -/
def Ends (M : Runner ρ) (S : α → Prop) (p : RProg α) : Prop := ∀ r, M.run p r = none ∨ ∃ a r', M.run p r = some (a, r') ∧ S a

theorem Ends.ret {S : α → Prop} {a : α} (h : S a) : Ends M S (pure a : RProg α) := fun r => .inr ⟨a, r, M.ret a r, h⟩

theorem Ends.any (p : RProg α) : Ends M (fun _ => True) p := by
  intro r
  cases h : M.run p r with
  | none => exact .inl rfl
  | some x => exact .inr ⟨x.1, x.2, rfl, trivial⟩

theorem Ends.bind {S : β → Prop} {T : α → Prop} {p : RProg α} {f : α → RProg β} (hp : Ends M T p) (h : ∀ v, T v → Ends M S (f v)) :
    Ends M S (p >>= f) := by
  intro r
  rw [M.bind]
  rcases hp r with e | ⟨a, r', e, t⟩
  · simp [e]
  · rw [e]; simpa using h a t r'

theorem Ends.rd8 {S : β → Prop} {f : Nat → RProg β} (h : ∀ v, Ends M S (f v)) : Ends M S (RProg.rd8 >>= f) :=
  Ends.bind (Ends.any _) fun v _ => h v

theorem Ends.rd24 {S : β → Prop} {f : Nat → RProg β} (h : ∀ v, Ends M S (f v)) : Ends M S (RProg.rd24 >>= f) :=
  Ends.bind (Ends.any _) fun v _ => h v

theorem Ends.ite {S : α → Prop} {c : Prop} [Decidable c] {p q : RProg α} (hp : c → Ends M S p) (hq : ¬ c → Ends M S q) :
    Ends M S (if c then p else q) := by
  split
  · exact hp ‹_›
  · exact hq ‹_›

end

end Sps.RProg
