import Verif.Spec.BitSkip
/-!
# C03: bytes left out while writing keep their value
-/
namespace Sps.BitSkip
open Spec.BitSkip

theorem perform_result (os : List Op) : ∀ (c : BitCtx), c.remBits = 0 → c.pos + (os.map Op.size).sum ≤ c.buf.length →
    ∃ c', perform c os = some c' ∧ c'.buf = c.buf.take c.pos ++ result (c.buf.drop c.pos) os ∧ c'.pos = c.pos + (os.map Op.size).sum ∧ c'.remBits = 0 := by
  induction os with
  | nil => exact fun c h _ => ⟨c, rfl, by simp [result], rfl, h⟩
  | cons o os ih =>
    intro c h hf
    simp only [List.map_cons, List.sum_cons] at hf
    cases o with
    | bytes d =>
      simp only [Op.size] at hf
      obtain ⟨c', e, b, p, r⟩ := ih { c with buf := c.buf.take c.pos ++ d ++ c.buf.drop (c.pos + d.length), pos := c.pos + d.length } h (by
        simp only [List.length_append, List.length_take, List.length_drop]
        omega)
      have hl : (c.buf.take c.pos ++ d).length = c.pos + d.length := by rw [List.length_append, List.length_take]; omega
      refine ⟨c', ?_, ?_, ?_, r⟩
      · unfold perform BitCtx.writeBytes
        rw [if_pos h, if_pos (by omega)]
        exact e
      · rw [b]
        simp only [result]
        rw [List.take_append_of_le_length (by omega), List.take_of_length_le (by omega), List.drop_append_of_le_length (by omega),
          List.drop_of_length_le (by omega), List.nil_append, List.append_assoc, List.drop_drop]
      · rw [p]; simp only [List.map_cons, List.sum_cons, Op.size]; omega
    | skip n =>
      simp only [Op.size] at hf
      obtain ⟨c', e, b, p, r⟩ := ih { c with pos := c.pos + n } h (by show c.pos + n + _ ≤ c.buf.length; omega)
      refine ⟨c', ?_, ?_, ?_, r⟩
      · unfold perform BitCtx.skipWriteBytes
        rw [if_pos h]
        exact e
      · rw [b]
        simp only [result]
        rw [← List.append_assoc, ← List.take_add, List.drop_drop]
      · rw [p]; simp only [List.map_cons, List.sum_cons, Op.size]; omega

/-- **C03**, whole bytes: of every list of calls that write bytes and leave bytes out, within the buffer, the written bytes are where they belong, and all
others keep their value. -/
theorem C03_skip (buf : List UInt8) (os : List Op) (h : (os.map Op.size).sum ≤ buf.length) :
    ∃ c, perform (BitCtx.init buf) os = some c ∧ c.buf = result buf os ∧ c.buf.length = buf.length := by
  obtain ⟨c, e, b, -, -⟩ := perform_result os (BitCtx.init buf) rfl (by simpa [BitCtx.init] using h)
  have hb : c.buf = result buf os := by simpa [BitCtx.init] using b
  refine ⟨c, e, hb, ?_⟩
  rw [hb]
  clear b e hb c
  induction os generalizing buf with
  | nil => rfl
  | cons o os ih =>
    simp only [List.map_cons, List.sum_cons] at h
    cases o with
    | bytes d =>
      simp only [Op.size] at h
      simp only [result, List.length_append]
      rw [ih _ (by rw [List.length_drop]; omega), List.length_drop]
      omega
    | skip n =>
      simp only [Op.size] at h
      simp only [result, List.length_append, List.length_take]
      rw [ih _ (by rw [List.length_drop]; omega), List.length_drop]
      omega

example : (perform (BitCtx.init [1, 2, 3, 4, 5, 6]) [.bytes [9], .skip 2, .bytes [8, 7]]).map (·.buf) = some [9, 2, 3, 8, 7, 6] ∧
    ([Op.bytes [9], .skip 2, .bytes [8, 7]].map Op.size).sum ≤ 6 := by decide +kernel

end Sps.BitSkip
