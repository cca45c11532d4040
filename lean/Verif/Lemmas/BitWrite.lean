import Verif.Lemmas.BitCtx
/-! The bit writer refines appending to a bit string, except for pieces of six bits. -/
namespace Spec

theorem bitsOf_take_sub (l : List UInt8) (i r : Nat) (b : UInt8) (hr : r ≤ 8) (h : l[i]? = some b) :
    (bitsOf l).take (8 * (i + 1) - r) = bitsOf (l.take i) ++ bitsOfNat (8 - r) (b.toNat / 2 ^ r) := by
  have hi : i < l.length := by
    rcases Nat.lt_or_ge i l.length with h' | h'
    · exact h'
    · rw [List.getElem?_eq_none h'] at h; cases h
  have hb : l[i] = b := by rw [List.getElem?_eq_getElem hi] at h; exact Option.some.inj h
  have e : 8 * (i + 1) - r = 8 * i + (8 - r) := by omega
  rw [e, List.take_add, bitsOf_take, bitsOf_drop, List.drop_eq_getElem_cons hi, hb, bitsOf_cons]
  congr 1
  have e8 : (8 : Nat) = (8 - r) + r := by omega
  conv => lhs; arg 2; arg 1; rw [e8, bitsOfNat_add]
  rw [List.append_assoc, List.take_append_of_le_length (by simp), List.take_of_length_le (by simp)]

end Spec

namespace Sps.BitCtx
open Spec

/-- Well-formed writer contexts. -/
structure WW8 (c : BitCtx) : Prop where
  rem_le : c.remBits ≤ 8
  pos_le : c.pos ≤ c.buf.length
  val : 0 < c.remBits → ∃ b, 0 < c.pos ∧ c.buf[c.pos - 1]? = some b ∧ b.toNat % 2 ^ c.remBits = 0

structure WW (c : BitCtx) : Prop extends WW8 c where
  rem_lt : c.remBits < 8

/-- Bits written so far. -/
def written (c : BitCtx) : List Bool := (bitsOf c.buf).take c.bitPos

theorem WW8.rem_pos {c : BitCtx} (h : c.WW8) : c.remBits ≤ 8 * c.pos := by
  have h1 := h.rem_le
  rcases Nat.eq_zero_or_pos c.remBits with h0 | h0
  · omega
  · obtain ⟨b, hp, _⟩ := h.val h0; omega

theorem WW.init (p : List UInt8) : (init p).WW :=
  ⟨⟨by simp [BitCtx.init], by simp [BitCtx.init], by simp [BitCtx.init]⟩, by simp [BitCtx.init]⟩

theorem fetchWrite_spec {c : BitCtx} (h : c.WW) (hlt : c.bitPos < 8 * c.buf.length) :
    ∃ c1, c.fetchWrite = some c1 ∧ c1.WW8 ∧ c1.buf.length = c.buf.length ∧ c1.written = c.written ∧
      c1.bitPos = c.bitPos ∧ 0 < c1.remBits ∧ c1.buf.drop c1.pos = c.buf.drop c1.pos ∧ c.pos ≤ c1.pos := by
  unfold fetchWrite
  by_cases h0 : c.remBits = 0
  · unfold bitPos at hlt
    have hp : c.pos < c.buf.length := by omega
    refine ⟨{ c with pos := c.pos + 1, remBits := 8, buf := c.buf.set c.pos 0 }, ?_, ?_, by simp, ?_, ?_, by simp,
      ?_, by simp⟩
    · simp [h0, nextWrite, hp]
    · refine ⟨by simp, by simp; omega, fun _ => ⟨0, by simp, ?_, by simp⟩⟩
      simp [hp]
    · simp only [written, bitPos, h0, show 8 * (c.pos + 1) - 8 = 8 * c.pos by omega, Nat.sub_zero]
      rw [bitsOf_take, bitsOf_take, List.take_set_of_le (Nat.le_refl _)]
    · simp [bitPos, h0]; omega
    · simp only
      rw [List.drop_set_of_lt (by omega)]
  · exact ⟨c, by simp [h0], h.toWW8, rfl, rfl, rfl, by omega, rfl, Nat.le_refl _⟩

theorem writeMask_spec (nr x : Nat) (h0 : 0 < nr) (h8 : nr ≤ 8) (h6 : nr ≠ 6) :
    ∃ m, writeMasks[nr - 1]? = some m ∧ m &&& x = x % 2 ^ nr := by
  refine ⟨2 ^ nr - 1, ?_, ?_⟩
  · have : nr = 1 ∨ nr = 2 ∨ nr = 3 ∨ nr = 4 ∨ nr = 5 ∨ nr = 7 ∨ nr = 8 := by omega
    rcases this with h | h | h | h | h | h | h <;> subst h <;> rfl
  · rw [Nat.and_comm, Nat.and_two_pow_sub_one_eq_mod]

theorem writePiece_spec {c : BitCtx} (h : c.WW8) (value n : Nat) (hn : 0 < n) (h0 : 0 < c.remBits)
    (h6 : min c.remBits n ≠ 6) :
    ∃ c', c.writePiece value n = some (n - min c.remBits n, c') ∧ c'.WW ∧
      c'.buf.length = c.buf.length ∧
      c'.written = c.written ++ bitsOfNat (min c.remBits n) (value / 2 ^ (n - min c.remBits n)) ∧
      c'.bitPos = c.bitPos + min c.remBits n ∧ c'.pos = c.pos ∧ c'.buf.drop c.pos = c.buf.drop c.pos := by
  obtain ⟨b, hpos, hb, hv⟩ := h.val h0
  have hr := h.rem_le
  have hple := h.pos_le
  generalize hnr : min c.remBits n = nr at *
  have h1 : 0 < nr := by omega
  have h2 : nr ≤ c.remBits := by omega
  obtain ⟨m, hm, hmv⟩ := writeMask_spec nr (value >>> (n - nr)) h1 (by omega) h6
  rw [Nat.shiftRight_eq_div_pow] at hmv
  generalize hx : value / 2 ^ (n - nr) = x at *
  have hxlt : x % 2 ^ nr < 2 ^ nr := Nat.mod_lt _ (Nat.two_pow_pos _)
  -- the new byte
  have epow : (2 : Nat) ^ c.remBits = 2 ^ (c.remBits - nr) * 2 ^ nr := by
    rw [← Nat.pow_add]; congr 1; omega
  have hbk : b.toNat = 2 ^ c.remBits * (b.toNat / 2 ^ c.remBits) := by
    have := Nat.div_add_mod b.toNat (2 ^ c.remBits); omega
  have hylt : (x % 2 ^ nr) * 2 ^ (c.remBits - nr) < 2 ^ c.remBits := by
    rw [epow, Nat.mul_comm]; exact Nat.mul_lt_mul_of_pos_left hxlt (Nat.two_pow_pos _)
  have hor : b.toNat ||| ((x % 2 ^ nr) <<< (c.remBits - nr)) =
      b.toNat + (x % 2 ^ nr) * 2 ^ (c.remBits - nr) := by
    rw [Nat.shiftLeft_eq, hbk, ← Nat.two_pow_add_eq_or_of_lt hylt, ← hbk]
  have hb256 := b.toNat_lt
  have h256 : (256 : Nat) = 2 ^ c.remBits * 2 ^ (8 - c.remBits) := by
    rw [← Nat.pow_add, show c.remBits + (8 - c.remBits) = 8 by omega]
  have hsum : b.toNat + (x % 2 ^ nr) * 2 ^ (c.remBits - nr) < 256 := by
    have : b.toNat / 2 ^ c.remBits < 2 ^ (8 - c.remBits) := by
      rw [Nat.div_lt_iff_lt_mul (Nat.two_pow_pos _), Nat.mul_comm, ← h256]; exact hb256
    have h3 : 2 ^ c.remBits * (b.toNat / 2 ^ c.remBits + 1) ≤ 256 := by
      rw [h256]; exact Nat.mul_le_mul_left _ this
    rw [Nat.mul_add] at h3; omega
  have hb' : (UInt8.ofNat (b.toNat ||| ((x % 2 ^ nr) <<< (c.remBits - nr)))).toNat =
      b.toNat + (x % 2 ^ nr) * 2 ^ (c.remBits - nr) := by
    rw [hor, UInt8.toNat_ofNat']; exact Nat.mod_eq_of_lt hsum
  generalize hB : UInt8.ofNat (b.toNat ||| ((x % 2 ^ nr) <<< (c.remBits - nr))) = B at *
  have hlt : c.pos - 1 < c.buf.length := by omega
  have hBget : (c.buf.set (c.pos - 1) B)[c.pos - 1]? = some B := by simp [hlt]
  refine ⟨{ c with buf := c.buf.set (c.pos - 1) B, remBits := c.remBits - nr }, ?_, ?_, by simp, ?_, ?_, rfl, ?_⟩
  · unfold writePiece
    simp only [hnr, hm, hb]
    rw [if_neg (by omega), Nat.shiftRight_eq_div_pow, hx, hmv, hB]
  · refine ⟨⟨by simp; omega, by simpa using hple, fun _ => ⟨B, hpos, hBget, ?_⟩⟩, by simp; omega⟩
    simp only
    rw [hb', Nat.add_mul_mod_self_right]
    have : b.toNat % 2 ^ c.remBits = 0 := hv
    rw [epow, Nat.mod_mul] at this
    omega
  · simp only [written, bitPos]
    have e1 := bitsOf_take_sub (c.buf.set (c.pos - 1) B) (c.pos - 1) (c.remBits - nr) B (by omega) hBget
    have e2 := bitsOf_take_sub c.buf (c.pos - 1) c.remBits b hr hb
    rw [show c.pos - 1 + 1 = c.pos by omega] at e1 e2
    rw [e1, e2, List.take_set_of_le (Nat.le_refl _), List.append_assoc]
    congr 1
    have e3 : 8 - (c.remBits - nr) = (8 - c.remBits) + nr := by omega
    rw [e3, bitsOfNat_add, Nat.div_div_eq_div_mul, ← epow, hb']
    have hp2 : 0 < 2 ^ (c.remBits - nr) := Nat.two_pow_pos _
    have q1 : (b.toNat + x % 2 ^ nr * 2 ^ (c.remBits - nr)) / 2 ^ c.remBits = b.toNat / 2 ^ c.remBits := by
      conv => lhs; rw [hbk, Nat.mul_add_div (Nat.two_pow_pos _), Nat.div_eq_of_lt hylt, Nat.add_zero]
    have q2 : bitsOfNat nr ((b.toNat + x % 2 ^ nr * 2 ^ (c.remBits - nr)) / 2 ^ (c.remBits - nr)) =
        bitsOfNat nr x := by
      rw [Nat.add_mul_div_right _ _ hp2]
      have : b.toNat / 2 ^ (c.remBits - nr) = 2 ^ nr * (b.toNat / 2 ^ c.remBits) := by
        conv => lhs; rw [hbk, epow, Nat.mul_assoc]
        rw [Nat.mul_div_cancel_left _ hp2, ← epow]
      rw [this, ← bitsOfNat_mod, Nat.mul_add_mod, Nat.mod_mod, bitsOfNat_mod]
    rw [q1, q2]
  · have := h.rem_pos
    simp only [bitPos]; omega
  · simp only
    rw [List.drop_set_of_lt (by omega)]

theorem sixBit_step (off n nr : Nat) (h : hasSixBitPiece off n = false)
    (hnr : nr = min (8 - off % 8) n) : nr ≠ 6 ∧ hasSixBitPiece (off + nr) (n - nr) = false := by
  simp only [hasSixBitPiece, Bool.or_eq_false_iff, beq_eq_false_iff_ne] at *
  rw [← hnr] at h
  refine ⟨h.1, ?_⟩
  rcases Nat.lt_or_ge nr n with h1 | h1
  · have h2 : (off + nr) % 8 = 0 := by omega
    rw [h2]; omega
  · have h2 : n - nr = 0 := by omega
    rw [h2]; omega

theorem writeLoop_spec (fuel : Nat) {c : BitCtx} (h : c.WW) (value n : Nat) (hf : n ≤ fuel)
    (hb : c.bitPos + n ≤ 8 * c.buf.length) (h6 : hasSixBitPiece c.bitPos n = false) :
    ∃ c', writeLoop fuel c value n = some c' ∧ c'.WW ∧ c'.buf.length = c.buf.length ∧
      c'.written = c.written ++ bitsOfNat n value ∧ c'.bitPos = c.bitPos + n ∧
      c'.buf.drop c'.pos = c.buf.drop c'.pos ∧ c.pos ≤ c'.pos := by
  induction fuel generalizing c n with
  | zero =>
    have : n = 0 := by omega
    subst this
    exact ⟨c, by simp [writeLoop], h, rfl, by simp [bitsOfNat], rfl, rfl, Nat.le_refl _⟩
  | succ fuel ih =>
    cases n with
    | zero => exact ⟨c, by simp [writeLoop], h, rfl, by simp [bitsOfNat], rfl, rfl, Nat.le_refl _⟩
    | succ n =>
      obtain ⟨c1, e1, hw1, hl1, hwr1, hp1, hr1, hd1, hpp1⟩ := fetchWrite_spec h (by omega)
      have hrem : c1.remBits = 8 - c.bitPos % 8 := by
        have := hw1.rem_pos; have := hw1.rem_le
        rw [← hp1]; unfold bitPos; omega
      obtain ⟨hne, h6'⟩ := sixBit_step c.bitPos (n + 1) (min c1.remBits (n + 1)) h6 (by rw [hrem])
      obtain ⟨c2, e2, hw2, hl2, hwr2, hp2, hpos2, hd2⟩ := writePiece_spec hw1 value (n + 1) (by omega) hr1 hne
      generalize hnr : min c1.remBits (n + 1) = nr at *
      obtain ⟨c3, e3, hw3, hl3, hwr3, hp3, hd3, hpp3⟩ := ih hw2 (n + 1 - nr) (by omega)
        (by rw [hl2, hl1]; omega) (by rw [hp2, hp1]; exact h6')
      refine ⟨c3, ?_, hw3, by omega, ?_, by omega, ?_, by omega⟩
      · simp only [writeLoop, e1, e2, Option.bind_eq_bind, Option.bind_some]; exact e3
      · rw [hwr3, hwr2, hwr1, List.append_assoc, ← bitsOfNat_add, show nr + (n + 1 - nr) = n + 1 by omega]
      · have k1 : c2.buf.drop c3.pos = c1.buf.drop c3.pos := by
          have e : c3.pos = c1.pos + (c3.pos - c1.pos) := by omega
          rw [e, ← List.drop_drop, ← List.drop_drop, hd2]
        have k2 : c1.buf.drop c3.pos = c.buf.drop c3.pos := by
          have e : c3.pos = c1.pos + (c3.pos - c1.pos) := by omega
          rw [e, ← List.drop_drop, ← List.drop_drop, hd1]
        rw [hd3, k1, k2]

theorem writeBits_spec {c : BitCtx} (h : c.WW) (value n : Nat)
    (hb : c.bitPos + n ≤ 8 * c.buf.length) (h6 : hasSixBitPiece c.bitPos n = false) :
    ∃ c', c.writeBits value n = some c' ∧ c'.WW ∧ c'.buf.length = c.buf.length ∧
      c'.written = c.written ++ bitsOfNat n value ∧ c'.bitPos = c.bitPos + n ∧
      c'.buf.drop c'.pos = c.buf.drop c'.pos ∧ c.pos ≤ c'.pos :=
  writeLoop_spec n h value n (Nat.le_refl _) hb h6

end Sps.BitCtx
