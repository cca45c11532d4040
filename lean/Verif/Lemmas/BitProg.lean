import Verif.Lemmas.BitWrite
import Verif.Spec.BitProg
/-! Helper lemmas for client programs of the bit reader and writer. -/
namespace Sps.BitProps
open Spec

theorem takeVals_bytes (l : List UInt8) (rest : List Bool) :
    takeVals (bitsOf l ++ rest) (List.replicate l.length 8) = l.map (·.toNat) := by
  induction l with
  | nil => rfl
  | cons b l ih =>
    simp only [List.length_cons, List.replicate_succ, takeVals, bitsOf_cons, List.append_assoc,
      List.map_cons]
    rw [List.take_append_of_le_length (by simp), List.take_of_length_le (by simp), bitsVal_bitsOfNat,
      List.drop_append, List.drop_eq_nil_of_le (by simp)]
    have := b.toNat_lt
    simp only [bitsOfNat_length, List.nil_append, Nat.sub_self, List.drop_zero]
    rw [ih, Nat.mod_eq_of_lt (by omega)]

theorem totalWidth_cons (op : ReadOp) (ops : List ReadOp) :
    totalWidth (op :: ops) = op.width + totalWidth ops := by simp [totalWidth]

theorem run_spec (ops : List ReadOp) : ∀ {c : BitCtx}, c.WF → okOps c.bitPos ops = true →
    c.bitPos + totalWidth ops ≤ 8 * c.buf.length →
    ∃ c', run c ops = some (specRun ((bitsOf c.buf).drop c.bitPos) ops, c') ∧ c'.WF ∧ c'.buf = c.buf ∧
      c'.bitPos = c.bitPos + totalWidth ops := by
  induction ops with
  | nil => intro c h _ _; exact ⟨c, rfl, h, rfl, by simp [totalWidth]⟩
  | cons op ops ih =>
    intro c h hok hle
    rw [totalWidth_cons] at hle
    cases op with
    | bits n =>
      simp only [okOps, Bool.and_eq_true, decide_eq_true_eq] at hok
      simp only [ReadOp.width] at hle
      obtain ⟨c1, e1, w1, b1, p1⟩ := BitCtx.readBits_spec h n (by omega)
      obtain ⟨c2, e2, w2, b2, p2⟩ := ih w1 (by rw [p1]; exact hok.2) (by rw [p1, b1]; omega)
      refine ⟨c2, ?_, w2, b2.trans b1, by rw [p2, p1, totalWidth_cons]; simp [ReadOp.width]; omega⟩
      simp only [run, step, e1, e2, Option.bind_eq_bind, Option.map_some, Option.bind_some, specRun, b1, p1,
        List.drop_drop, pure, List.singleton_append]
      rw [Nat.mod_eq_of_lt]
      refine Nat.lt_of_lt_of_le (bitsVal_lt _) (Nat.pow_le_pow_right (by decide) ?_)
      rw [List.length_take]; omega
    | skip n =>
      simp only [okOps] at hok
      simp only [ReadOp.width] at hle
      obtain ⟨c1, e1, w1, b1, p1, _⟩ := BitCtx.skipReadBytes_spec h n (by omega)
      obtain ⟨c2, e2, w2, b2, p2⟩ := ih w1 (by rw [p1]; exact hok) (by rw [p1, b1]; omega)
      refine ⟨c2, ?_, w2, b2.trans b1, by rw [p2, p1, totalWidth_cons]; simp [ReadOp.width]; omega⟩
      simp only [run, step, e1, e2, Option.bind_eq_bind, Option.map_some, Option.bind_some, specRun, b1, p1,
        List.drop_drop, pure, List.nil_append]
    | bytes n =>
      simp only [okOps, Bool.and_eq_true, beq_iff_eq] at hok
      simp only [ReadOp.width] at hle
      have h0 : c.remBits = 0 := by
        have := h.rem_lt; have := h.rem_pos; have := hok.1
        unfold BitCtx.bitPos at this; omega
      obtain ⟨c1, e1, w1, b1, p1, _⟩ := BitCtx.readBytes_spec h n h0 (by omega)
      obtain ⟨c2, e2, w2, b2, p2⟩ := ih w1 (by rw [p1]; exact hok.2) (by rw [p1, b1]; omega)
      refine ⟨c2, ?_, w2, b2.trans b1, by rw [p2, p1, totalWidth_cons]; simp [ReadOp.width]; omega⟩
      simp only [run, step, e1, e2, Option.bind_eq_bind, Option.map_some, Option.bind_some, specRun, b1, p1,
        List.drop_drop, pure]
      congr 3
      have hbp : c.bitPos = 8 * c.pos := by simp [BitCtx.bitPos, h0]
      rw [hbp, bitsOf_drop]
      have hlen : ((c.buf.drop c.pos).take n).length = n := by simp; omega
      conv => rhs; rw [← List.take_append_drop n (c.buf.drop c.pos), bitsOf_append]
      have := takeVals_bytes ((c.buf.drop c.pos).take n) (bitsOf ((c.buf.drop c.pos).drop n))
      rw [hlen] at this
      rw [this]

theorem fieldsWidth_cons (f : Nat × Nat) (fs : List (Nat × Nat)) :
    fieldsWidth (f :: fs) = f.2 + fieldsWidth fs := by simp [fieldsWidth]

theorem fieldBits_length (fs : List (Nat × Nat)) : (fieldBits fs).length = fieldsWidth fs := by
  induction fs with
  | nil => rfl
  | cons f fs ih =>
    rw [fieldsWidth_cons, ← ih]; simp [fieldBits]

theorem writeAll_spec (fs : List (Nat × Nat)) : ∀ {c : BitCtx}, c.WW →
    c.bitPos + fieldsWidth fs ≤ 8 * c.buf.length → noSixBitPiece c.bitPos fs = true →
    ∃ c', writeAll c fs = some c' ∧ c'.WW ∧ c'.buf.length = c.buf.length ∧
      c'.written = c.written ++ fieldBits fs ∧ c'.bitPos = c.bitPos + fieldsWidth fs ∧
      c'.buf.drop c'.pos = c.buf.drop c'.pos ∧ c.pos ≤ c'.pos := by
  induction fs with
  | nil => intro c h _ _; exact ⟨c, rfl, h, rfl, by simp [fieldBits], by simp [fieldsWidth], rfl, Nat.le_refl _⟩
  | cons f fs ih =>
    intro c h hle h6
    obtain ⟨v, w⟩ := f
    rw [fieldsWidth_cons] at hle
    simp only [noSixBitPiece, Bool.and_eq_true, Bool.not_eq_true'] at h6
    simp only at hle
    obtain ⟨c1, e1, w1, l1, wr1, p1, d1, q1⟩ := BitCtx.writeBits_spec h v w (by omega) h6.1
    obtain ⟨c2, e2, w2, l2, wr2, p2, d2, q2⟩ := ih w1 (by rw [p1, l1]; omega) (by rw [p1]; exact h6.2)
    refine ⟨c2, ?_, w2, by omega, ?_, by rw [p2, p1, fieldsWidth_cons]; simp; omega, ?_, by omega⟩
    · simp only [writeAll, e1, Option.bind_eq_bind, Option.bind_some]; exact e2
    · rw [wr2, wr1, List.append_assoc]; rfl
    · have e : c2.pos = c1.pos + (c2.pos - c1.pos) := by omega
      rw [d2, e, ← List.drop_drop, ← List.drop_drop, d1]

theorem takeVals_fields (fs : List (Nat × Nat)) (rest : List Bool) :
    takeVals (fieldBits fs ++ rest) (fs.map (·.2)) = fs.map fun f => f.1 % 2 ^ f.2 := by
  induction fs with
  | nil => rfl
  | cons f fs ih =>
    have e : fieldBits (f :: fs) ++ rest = bitsOfNat f.2 f.1 ++ (fieldBits fs ++ rest) := by
      simp [fieldBits]
    rw [e]
    simp only [List.map_cons, takeVals]
    rw [List.take_append_of_le_length (by simp), List.take_of_length_le (by simp), bitsVal_bitsOfNat,
      List.drop_append, List.drop_eq_nil_of_le (by simp)]
    simp only [bitsOfNat_length, List.nil_append, Nat.sub_self, List.drop_zero]
    rw [ih]

theorem specRun_bits (bs : List Bool) (ws : List Nat) : specRun bs (ws.map ReadOp.bits) = takeVals bs ws := by
  induction ws generalizing bs with
  | nil => rfl
  | cons w ws ih => simp [specRun, takeVals, ih]

theorem okOps_bits (off : Nat) (ws : List Nat) (h : ∀ w ∈ ws, w ≤ 32) :
    okOps off (ws.map ReadOp.bits) = true := by
  induction ws generalizing off with
  | nil => rfl
  | cons w ws ih =>
    simp only [List.map_cons, okOps, Bool.and_eq_true, decide_eq_true_eq]
    exact ⟨h w (by simp), ih _ fun x hx => h x (by simp [hx])⟩

theorem totalWidth_bits (ws : List Nat) : totalWidth (ws.map ReadOp.bits) = ws.sum := by
  induction ws with
  | nil => rfl
  | cons w ws ih => simp [totalWidth_cons, ReadOp.width, ih]

end Sps.BitProps
