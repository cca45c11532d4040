import Verif.Lemmas.ByteProg
/-! # A writer that has written `d` over a memory `old` -/
namespace Sps.Writer
open Spec ByteProg

/-- `w` has written exactly `d`; the memory behind it is as it was. -/
structure Wrote (w : Writer) (old d : List UInt8) : Prop where
  mem : w.mem = d ++ old.drop d.length
  fin : w.fin = d.length
  ptr : w.ptr = 0
  le : d.length ≤ old.length

theorem Wrote.init (old : List UInt8) : Wrote (Writer.create old) old [] :=
  ⟨by simp [Writer.create, AVBuf.ofCap], rfl, rfl, by simp⟩

theorem Wrote.cap {w : Writer} {old d : List UInt8} (h : Wrote w old d) : AVBuf.cap w = old.length := by
  have := h.le
  simp [AVBuf.cap, h.mem]; omega

theorem Wrote.take {w : Writer} {old d : List UInt8} (h : Wrote w old d) : w.mem.take w.fin = d := by
  rw [h.mem, h.fin]; simp

theorem Wrote.length {w : Writer} {old d : List UInt8} (h : Wrote w old d) : w.mem.length = old.length := h.cap

theorem Wrote.bytes {w : Writer} {old d : List UInt8} (h : Wrote w old d) (e : List UInt8)
    (hl : d.length + e.length ≤ old.length) : ∃ w', Writer.bytes w e = some w' ∧ Wrote w' old (d ++ e) := by
  have hc := h.cap
  unfold Writer.bytes AVBuf.poke
  rw [if_pos (by rw [hc, h.fin]; exact hl)]
  refine ⟨_, rfl, ?_, ?_, h.ptr, by simpa using hl⟩
  · simp only [AVBuf.append, h.mem, h.fin]
    rw [List.take_left', List.drop_append]
    · simp
    · rfl
  · simp [AVBuf.append, h.fin]

theorem Wrote.skip {w : Writer} {old d : List UInt8} (h : Wrote w old d) (n : Nat) (hl : d.length + n ≤ old.length) :
    Wrote (Writer.skip w n) old (d ++ (old.drop d.length).take n) := by
  have hn : ((old.drop d.length).take n).length = n := by rw [List.length_take, List.length_drop]; omega
  refine ⟨?_, ?_, h.ptr, ?_⟩
  · have hdd : List.drop (d ++ (old.drop d.length).take n).length old = List.drop n (List.drop d.length old) := by
      rw [List.drop_drop]; congr 1
      simp only [List.length_append, hn]
    rw [hdd, List.append_assoc, List.take_append_drop]
    exact h.mem
  · simp only [Writer.skip, AVBuf.append, h.fin, List.length_append, hn]
  · simp only [List.length_append, hn]; exact hl

theorem Wrote.poke {w : Writer} {old a x b : List UInt8} (h : Wrote w old (a ++ x ++ b)) (y : List UInt8)
    (hy : y.length = x.length) : ∃ w', AVBuf.poke w a.length y = some w' ∧ Wrote w' old (a ++ y ++ b) := by
  have hc := h.cap
  have hle := h.le
  simp only [List.length_append] at hle
  unfold AVBuf.poke
  rw [if_pos (by rw [hc]; omega)]
  refine ⟨_, rfl, ?_, ?_, h.ptr, ?_⟩
  · simp only [h.mem]
    have e1 : List.take a.length (a ++ x ++ b ++ old.drop (a ++ x ++ b).length) = a := by simp [List.append_assoc]
    have e2 : List.drop (a.length + y.length) (a ++ x ++ b ++ old.drop (a ++ x ++ b).length) = b ++ old.drop (a ++ x ++ b).length := by
      rw [hy, ← List.length_append, List.append_assoc (a ++ x), List.drop_left]
    rw [e1, e2]
    simp [List.append_assoc, hy]
  · show w.fin = _
    rw [h.fin]; simp [hy]
  · simp only [List.length_append]; omega

end Sps.Writer
