import Verif.Spec.AvcRecord
import Verif.Lemmas.H264
/-! Lemmas about the reading of records. -/
namespace Sps
open Spec Spec.H264 BitCtx

/-- A byte read in two parts. -/
theorem BitCtx.Al.split {c : BitCtx} {b : UInt8} {r : List UInt8} (h : Al c (b :: r)) (i j : Nat) (hij : i + j = 8) (hi : 0 < i) (hj : 0 < j) :
    ∃ c1 c2, c.readBits i = some (b.toNat / 2 ^ j, c1) ∧ c1.readBits j = some (b.toNat % 2 ^ j, c2) ∧ Al c2 r ∧ c2.pos = c.pos + 1 := by
  have hl := h.length
  have hp := h.pos_le
  simp only [List.length_cons] at hl
  have hb := b.toNat_lt
  have ebits : (bitsOf c.buf).drop c.bitPos = bitsOfNat i (b.toNat / 2 ^ j) ++ (bitsOfNat j b.toNat ++ bitsOf r) := by
    rw [h.bitPos, bitsOf_drop, h.rest, bitsOf_cons, ← List.append_assoc, ← bitsOfNat_add, hij]
  obtain ⟨c1, e1, w1, b1, p1⟩ := readBits_spec h.wf i (by rw [h.bitPos]; omega)
  obtain ⟨c2, e2, w2, b2, p2⟩ := readBits_spec w1 j (by rw [p1, b1, h.bitPos]; omega)
  have hr : c2.remBits = 0 ∧ c2.pos = c.pos + 1 := by
    rw [p1, h.bitPos] at p2
    have := w2.rem_lt; have := w2.toWF8.rem_pos
    unfold BitCtx.bitPos at p2; omega
  refine ⟨c1, c2, ?_, ?_, ⟨hr.1, by rw [hr.2, b2, b1]; omega, ?_, by rw [b2, b1]; exact h.small⟩, hr.2⟩
  · rw [e1, ebits, List.take_left' (bitsOfNat_length ..), bitsVal_bitsOfNat]
    congr 2
    have : b.toNat / 2 ^ j < 2 ^ i := by
      rw [Nat.div_lt_iff_lt_mul (Nat.pow_pos (by decide)), ← Nat.pow_add, hij]; omega
    rw [Nat.mod_eq_of_lt this]
    refine Nat.mod_eq_of_lt (Nat.lt_of_le_of_lt (Nat.div_le_self _ _) (by omega))
  · rw [e2, p1, b1, ← List.drop_drop, ebits, List.drop_left' (bitsOfNat_length ..), List.take_left' (bitsOfNat_length ..), bitsVal_bitsOfNat]
    congr 2
    refine Nat.mod_eq_of_lt (Nat.lt_of_le_of_lt (Nat.mod_le _ _) (by omega))
  · rw [b2, b1, hr.2, ← List.drop_drop, h.rest]; rfl

namespace NaluParser

/-- The fixed part of a record. -/
theorem headFields_al {c : BitCtx} {b0 b1 b2 b3 b4 b5 : UInt8} {r : List UInt8} (h : Al c (b0 :: b1 :: b2 :: b3 :: b4 :: b5 :: r)) :
    ∃ c', headFields c = some (b0.toNat, b4.toNat % 4, b5.toNat % 32, c') ∧ Al c' r := by
  have rd : ∀ {c : BitCtx} {b : UInt8} {r : List UInt8}, Al c (b :: r) → ∃ c', c.readBits 8 = some (b.toNat, c') ∧ Al c' r := by
    intro c b r h
    obtain ⟨c', e, a, _⟩ := h.read 1 (by omega) (by simp)
    exact ⟨c', by simpa [beVal] using e, by simpa using a⟩
  obtain ⟨c1, e1, h⟩ := rd h
  obtain ⟨c2, e2, h⟩ := rd h
  obtain ⟨c3, e3, h⟩ := rd h
  obtain ⟨c4, e4, h⟩ := rd h
  obtain ⟨c5, c6, e5, e6, h, -⟩ := h.split 6 2 rfl (by omega) (by omega)
  obtain ⟨c7, c8, e7, e8, h, -⟩ := h.split 3 5 rfl (by omega) (by omega)
  refine ⟨c8, ?_, h⟩
  unfold headFields
  simp [e1, e2, e3, e4, e5, e6, e7, e8]

/-- A loop over sets. -/
theorem setsLoop_own (p : NaluParser) (hp : p.isAvc = true) (hl4 : p.lenSize = 3) (rest : List UInt8) : ∀ (us : List (List UInt8)) (c : BitCtx) (out : List Nal),
    Al c (ownSets us ++ rest) → (∀ u ∈ us, u ≠ [] ∧ u.length + 2 < 2 ^ 16 ∧ ∀ b ∈ u.head?, b.toNat < 128) →
    ∃ c', setsLoop p us.length c out = some (Err.SUCCESS, c', out ++ us.map Nal.of) ∧ Al c' rest
  | [], c, out, h, _ => ⟨c, by simp [setsLoop], by simpa [ownSets] using h⟩
  | u :: us, c, out, h, hok => by
    obtain ⟨hne, hlen, hb⟩ := hok u (by simp)
    have ec : ownSets (u :: us) ++ rest = beBytes 2 (u.length + 2) ++ ((beBytes 4 u.length ++ u) ++ (ownSets us ++ rest)) := by simp [ownSets]
    rw [ec] at h
    have hb2 := beBytes_len 2 (u.length + 2)
    have hb4 := beBytes_len 4 u.length
    have hdl : (beBytes 4 u.length ++ u).length = u.length + 2 + 2 := by rw [List.length_append, hb4]; omega
    obtain ⟨c1, e1, a1, _⟩ := h.read 2 (by omega) (by simp [hb2])
    rw [List.take_left' hb2, List.drop_left' hb2, beVal_beBytes, Nat.mod_eq_of_lt (by omega)] at *
    obtain ⟨c2, e2, a2, _⟩ := a1.skip (u.length + 2 + 2) (by rw [List.length_append, hdl]; omega)
    rw [List.drop_left' hdl] at a2
    obtain ⟨c', e3, a3⟩ := setsLoop_own p hp hl4 rest us c2 (out ++ [Nal.of u]) a2 fun x hx => hok x (by simp [hx])
    refine ⟨c', ?_, a3⟩
    rw [List.length_cons, setsLoop, show (16 : Nat) = 8 * 2 by rfl, e1]
    simp only [Option.bind_some]
    rw [if_neg (by rw [a1.acquire _ (by omega) (by rw [List.length_append, hdl]; omega)]; simp), slice_eq a1 _ (by rw [List.length_append, hdl]; omega), List.take_left' hdl]
    have hd : decodeData p (beBytes 4 u.length ++ u) out = some (Err.SUCCESS, out ++ [Nal.of u]) := by
      have e : beBytes 4 u.length ++ u = prefixed 4 [u] := by simp [prefixed]
      unfold decodeData
      rw [if_neg (by rw [hl4]; simp), e, dataLoop_prefixed p hp hl4 [u] _ _ out (Al.init _ (by rw [← e, hdl]; omega)) (Nat.lt_succ_self _) (by simpa using ⟨hne, hb⟩)]
      simp
    simp only [Option.bind_some, hd, ne_eq, not_true_eq_false, if_false, e2, e3]
    simp

end NaluParser
end Sps
