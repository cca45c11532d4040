import Verif.Lemmas.Bits
/-! The bit context refines a bit string with a position. -/
namespace Sps
open Spec

theorem readMask_table : ∀ nr : Fin 8, ∀ v : Fin 256,
    (BitCtx.readMasks[nr.val]?).map (fun m => (v.val &&& m) >>> (8 - (nr.val + 1))) =
      some (v.val / 2 ^ (8 - (nr.val + 1))) := by decide +kernel

theorem readMask_spec (nr : Nat) (v : UInt8) (h0 : 0 < nr) (h8 : nr ≤ 8) :
    ∃ m, BitCtx.readMasks[nr - 1]? = some m ∧ (v.toNat &&& m) >>> (8 - nr) = v.toNat / 2 ^ (8 - nr) := by
  have h := readMask_table ⟨nr - 1, by omega⟩ ⟨v.toNat, v.toNat_lt⟩
  simp only [show nr - 1 + 1 = nr by omega] at h
  cases hm : BitCtx.readMasks[nr - 1]? with
  | none => rw [hm] at h; simp at h
  | some m => rw [hm] at h; exact ⟨m, rfl, by simpa using h⟩

theorem shl_or (num nr x : Nat) (hnr : nr ≤ 32) (hx : x < 2 ^ nr) :
    ((num <<< nr) % 2 ^ 32) ||| x = (num * 2 ^ nr + x) % 2 ^ 32 := by
  rw [Nat.shiftLeft_eq]
  have e : (2 : Nat) ^ 32 = 2 ^ nr * 2 ^ (32 - nr) := by rw [← Nat.pow_add]; congr 1; omega
  have e1 : num * 2 ^ nr % 2 ^ 32 = 2 ^ nr * (num % 2 ^ (32 - nr)) := by
    rw [e, Nat.mul_comm num, Nat.mul_mod_mul_left]
  rw [e1, ← Nat.two_pow_add_eq_or_of_lt hx, ← e1]
  have hp : 0 < 2 ^ nr := Nat.two_pow_pos _
  rw [e, Nat.mod_mul, Nat.mod_mul]
  rw [Nat.mul_mod_left, Nat.mul_comm num, Nat.mul_add_mod, Nat.mul_add_div hp,
    Nat.mul_div_cancel_left _ hp, Nat.mod_eq_of_lt hx, Nat.div_eq_of_lt hx]
  simp; omega

namespace BitCtx

/-- Position in bits. -/
def bitPos (c : BitCtx) : Nat := 8 * c.pos - c.remBits

/-- Well-formed contexts: what `init` and every operation inside the buffer maintain. -/
structure WF8 (c : BitCtx) : Prop where
  rem_le : c.remBits ≤ 8
  pos_le : c.pos ≤ c.buf.length
  val : 0 < c.remBits → ∃ b, 0 < c.pos ∧ c.buf[c.pos - 1]? = some b ∧
    c.remVal.toNat = (b.toNat * 2 ^ (8 - c.remBits)) % 256

/-- Well-formed contexts between two operations: a byte is never wholly unread in the cache. -/
structure WF (c : BitCtx) : Prop extends WF8 c where
  rem_lt : c.remBits < 8

theorem WF.init (p : List UInt8) : (init p).WF :=
  ⟨⟨by simp [BitCtx.init], by simp [BitCtx.init], by simp [BitCtx.init]⟩, by simp [BitCtx.init]⟩

theorem WF8.rem_pos {c : BitCtx} (h : c.WF8) : c.remBits ≤ 8 * c.pos := by
  have h1 := h.rem_le
  rcases Nat.eq_zero_or_pos c.remBits with h0 | h0
  · omega
  · obtain ⟨b, hp, _⟩ := h.val h0; omega

theorem WF8.sizeBits {c : BitCtx} (h : c.WF8) (hl : c.buf.length < 2 ^ 32) :
    c.sizeBits = 8 * c.buf.length - c.bitPos := by
  have := h.rem_le; have := h.pos_le; have := h.rem_pos
  unfold BitCtx.sizeBits bitPos
  omega

/-- Fetching the next byte does not move the bit position. -/
theorem next_spec {c : BitCtx} (h0 : c.remBits = 0) (hlt : c.bitPos < 8 * c.buf.length) :
    ∃ c', c.next = some c' ∧ c'.WF8 ∧ c'.buf = c.buf ∧ c'.bitPos = c.bitPos ∧ c'.remBits = 8 := by
  unfold bitPos at hlt
  have hp : c.pos < c.buf.length := by omega
  refine ⟨{ c with pos := c.pos + 1, remBits := 8, remVal := c.buf[c.pos] }, ?_, ?_, rfl, ?_, rfl⟩
  · simp [next, h0, List.getElem?_eq_getElem hp]
  · refine ⟨by simp, Nat.succ_le_of_lt hp, fun _ => ⟨c.buf[c.pos], by simp, by simp, ?_⟩⟩
    have := (c.buf[c.pos]).toNat_lt
    simp only [Nat.sub_self]; omega
  · simp [bitPos, h0]; omega

theorem fetch_spec {c : BitCtx} (h : c.WF) (hlt : c.bitPos < 8 * c.buf.length) :
    ∃ c1, c.fetch = some c1 ∧ c1.WF8 ∧ c1.buf = c.buf ∧ c1.bitPos = c.bitPos ∧ 0 < c1.remBits := by
  unfold fetch
  by_cases h0 : c.remBits = 0
  · obtain ⟨c1, e, hw, hbuf, hp, hr⟩ := next_spec h0 hlt
    exact ⟨c1, by simp [h0, e], hw, hbuf, hp, by omega⟩
  · exact ⟨c, by simp [h0], h.toWF8, rfl, rfl, by omega⟩

theorem piece_arith (b r nr : Nat) (hr : r ≤ 8) (hn : nr ≤ r) :
    (b * 2 ^ (8 - r)) % 256 / 2 ^ (8 - nr) = (b / 2 ^ (r - nr)) % 2 ^ nr := by
  have e : (256 : Nat) = 2 ^ (8 - r) * 2 ^ r := by rw [← Nat.pow_add, show 8 - r + r = 8 by omega]
  have e2 : (2 : Nat) ^ (8 - nr) = 2 ^ (8 - r) * 2 ^ (r - nr) := by
    rw [← Nat.pow_add]; congr 1; omega
  rw [e, Nat.mul_comm b, Nat.mul_mod_mul_left, e2, Nat.mul_div_mul_left _ _ (Nat.two_pow_pos _)]
  have e3 : (2 : Nat) ^ r = 2 ^ (r - nr) * 2 ^ nr := by rw [← Nat.pow_add]; congr 1; omega
  rw [e3, Nat.mod_mul_right_div_self]

theorem shl_arith (b r nr : Nat) (hr : r ≤ 8) (hn : nr ≤ r) :
    ((b * 2 ^ (8 - r)) % 256 * 2 ^ nr) % 256 = (b * 2 ^ (8 - (r - nr))) % 256 := by
  rw [show 8 - (r - nr) = (8 - r) + nr by omega, Nat.pow_add, ← Nat.mul_assoc,
    Nat.mod_mul_mod]

/-- One pass of the read loop delivers the next `min n remBits` bits. -/
theorem readPiece_spec {c : BitCtx} (h : c.WF8) (n num : Nat) (hn : 0 < n) (h0 : 0 < c.remBits) :
    ∃ c', c.readPiece n num =
        some ((num * 2 ^ (min n c.remBits) +
          bitsVal (((bitsOf c.buf).drop c.bitPos).take (min n c.remBits))) % 2 ^ 32,
          n - min n c.remBits, c') ∧
      c'.WF ∧ c'.buf = c.buf ∧ c'.bitPos = c.bitPos + min n c.remBits := by
  obtain ⟨b, hpos, hb, hv⟩ := h.val h0
  have hr := h.rem_le
  generalize hnr : min n c.remBits = nr
  have h1 : 0 < nr := by omega
  have h2 : nr ≤ c.remBits := by omega
  obtain ⟨m, hm, hmv⟩ := readMask_spec nr c.remVal h1 (by omega)
  have hseg : ((bitsOf c.buf).drop c.bitPos).take nr = bitsOfNat nr (b.toNat / 2 ^ (c.remBits - nr)) := by
    unfold bitPos
    have := bitsOf_drop_sub c.buf (c.pos - 1) c.remBits b hr hb
    rw [show c.pos - 1 + 1 = c.pos by omega] at this
    rw [this]
    have e : c.remBits = nr + (c.remBits - nr) := by omega
    conv => lhs; arg 2; arg 1; rw [e, bitsOfNat_add]
    rw [List.append_assoc, List.take_append_of_le_length (by simp), List.take_of_length_le (by simp)]
  have hval : c.remVal.toNat / 2 ^ (8 - nr) = bitsVal (((bitsOf c.buf).drop c.bitPos).take nr) := by
    rw [hv, hseg, bitsVal_bitsOfNat, piece_arith _ _ _ hr h2]
  have hlt : c.remVal.toNat / 2 ^ (8 - nr) < 2 ^ nr := by
    rw [hval, hseg, bitsVal_bitsOfNat]; exact Nat.mod_lt _ (Nat.two_pow_pos _)
  refine ⟨{ c with remBits := c.remBits - nr, remVal := UInt8.ofNat (c.remVal.toNat <<< nr) }, ?_, ?_, rfl, ?_⟩
  · unfold readPiece
    simp only [hnr, hm]
    rw [hmv, shl_or _ _ _ (by omega) hlt, hval]
  · refine ⟨⟨by simp; omega, h.pos_le, fun _ => ⟨b, hpos, hb, ?_⟩⟩, by simp; omega⟩
    simp only [UInt8.toNat_ofNat', Nat.shiftLeft_eq]
    rw [hv]
    exact shl_arith _ _ _ hr h2
  · have := h.rem_pos
    simp only [bitPos]; omega

theorem readLoop_spec (fuel : Nat) {c : BitCtx} (h : c.WF) (n num : Nat) (hf : n ≤ fuel)
    (hnum : num < 2 ^ 32) (hb : c.bitPos + n ≤ 8 * c.buf.length) :
    ∃ c', readLoop fuel c n num =
        some ((num * 2 ^ n + bitsVal (((bitsOf c.buf).drop c.bitPos).take n)) % 2 ^ 32, c') ∧
      c'.WF ∧ c'.buf = c.buf ∧ c'.bitPos = c.bitPos + n := by
  induction fuel generalizing c n num with
  | zero =>
    have : n = 0 := by omega
    subst this
    exact ⟨c, by simp [readLoop, Nat.mod_eq_of_lt hnum], h, rfl, rfl⟩
  | succ fuel ih =>
    cases n with
    | zero => exact ⟨c, by simp [readLoop, Nat.mod_eq_of_lt hnum], h, rfl, rfl⟩
    | succ n =>
      obtain ⟨c1, e1, hw1, hbuf1, hp1, hr1⟩ := fetch_spec h (by omega)
      obtain ⟨c2, e2, hw2, hbuf2, hp2⟩ := readPiece_spec hw1 (n + 1) num (by omega) hr1
      generalize hnr : min (n + 1) c1.remBits = nr at *
      obtain ⟨c3, e3, hw3, hbuf3, hp3⟩ := ih hw2 (n + 1 - nr) _ (by omega)
        (Nat.mod_lt _ (by decide)) (by rw [hbuf2, hbuf1]; omega)
      refine ⟨c3, ?_, hw3, by rw [hbuf3, hbuf2, hbuf1], by omega⟩
      simp only [readLoop, e1, e2, Option.bind_eq_bind, Option.bind_some]
      rw [e3]
      congr 2
      rw [hbuf2, hp2, hbuf1, hp1]
      generalize hS : (bitsOf c.buf).drop c.bitPos = S
      have hSl : n + 1 ≤ S.length := by rw [← hS]; simp; omega
      rw [← List.drop_drop, hS]
      have e5 : S.take (n + 1) = S.take nr ++ (S.drop nr).take (n + 1 - nr) := by
        conv => lhs; rw [show n + 1 = nr + (n + 1 - nr) by omega, List.take_add]
      rw [e5, bitsVal_append]
      have e6 : ((S.drop nr).take (n + 1 - nr)).length = n + 1 - nr := by simp; omega
      rw [e6]
      have e7 : (2 : Nat) ^ (n + 1) = 2 ^ nr * 2 ^ (n + 1 - nr) := by
        rw [← Nat.pow_add]; congr 1; omega
      rw [e7, Nat.add_mod, Nat.mod_mul_mod, ← Nat.add_mod, Nat.add_mul]
      congr 1
      grind

/-- Reading in bounds: the next `n` bits as a number modulo `2^32`, position advanced by `n`. -/
theorem readBits_spec {c : BitCtx} (h : c.WF) (n : Nat) (hb : c.bitPos + n ≤ 8 * c.buf.length) :
    ∃ c', c.readBits n = some (bitsVal (((bitsOf c.buf).drop c.bitPos).take n) % 2 ^ 32, c') ∧
      c'.WF ∧ c'.buf = c.buf ∧ c'.bitPos = c.bitPos + n := by
  obtain ⟨c', e, hh⟩ := readLoop_spec n h n 0 (Nat.le_refl _) (by decide) hb
  exact ⟨c', by simpa [readBits] using e, hh⟩

/-- Reading past the end is undefined behaviour. -/
theorem readLoop_oob (fuel : Nat) {c : BitCtx} (h : c.WF) (n num : Nat)
    (hb : 8 * c.buf.length < c.bitPos + n) : readLoop fuel c n num = none := by
  induction fuel generalizing c n num with
  | zero =>
    cases n with
    | zero => have := h.pos_le; unfold bitPos at hb; omega
    | succ n => rfl
  | succ fuel ih =>
    cases n with
    | zero => have := h.pos_le; unfold bitPos at hb; omega
    | succ n =>
      simp only [readLoop]
      rcases Nat.lt_or_ge c.bitPos (8 * c.buf.length) with hp | hp
      · obtain ⟨c1, e1, hw1, hbuf1, hp1, hr1⟩ := fetch_spec h hp
        obtain ⟨c2, e2, hw2, hbuf2, hp2⟩ := readPiece_spec hw1 (n + 1) num (by omega) (by omega)
        simp only [e1, e2, Option.bind_eq_bind, Option.bind_some]
        exact ih hw2 _ _ (by rw [hbuf2, hbuf1]; omega)
      · have := h.pos_le
        have := h.rem_pos
        unfold bitPos at hp
        simp [fetch, show c.remBits = 0 by omega, next,
          List.getElem?_eq_none (show c.buf.length ≤ c.pos by omega)]

theorem readBits_oob {c : BitCtx} (h : c.WF) (n : Nat) (hb : 8 * c.buf.length < c.bitPos + n) :
    c.readBits n = none := readLoop_oob _ h n 0 hb

/-- Skipping whole bytes forward, inside the buffer. -/
theorem skipReadBytes_spec {c : BitCtx} (h : c.WF) (n : Nat) (hb : c.bitPos + 8 * n ≤ 8 * c.buf.length) :
    ∃ c', c.skipReadBytes n = some c' ∧ c'.WF ∧ c'.buf = c.buf ∧ c'.bitPos = c.bitPos + 8 * n ∧
      c'.remBits = c.remBits := by
  have hr := h.rem_le
  have hrp := h.rem_pos
  unfold bitPos at hb
  have hr7 := h.rem_lt
  have hp : c.pos + n ≤ c.buf.length := by omega
  have e0 : ¬ ((c.pos : Int) + n < 0) := by omega
  have e1 : ((c.pos : Int) + n).toNat = c.pos + n := by omega
  by_cases h0 : c.remBits = 0
  · refine ⟨{ c with pos := c.pos + n }, ?_, ⟨⟨hr, hp, by simp [h0]⟩, hr7⟩, rfl, ?_, rfl⟩
    · simp only [skipReadBytes, e0, if_false, e1, h0, if_true]
    · simp [bitPos]; omega
  · obtain ⟨b, hpos, hb', hv⟩ := h.val (by omega)
    have hlt : c.pos + n - 1 < c.buf.length := by omega
    refine ⟨{ c with pos := c.pos + n, remVal := UInt8.ofNat ((c.buf[c.pos + n - 1]).toNat <<< (8 - c.remBits)) },
      ?_, ⟨⟨hr, hp, fun _ => ⟨c.buf[c.pos + n - 1], by simp; omega, by simp [hlt], ?_⟩⟩, hr7⟩, rfl, ?_, rfl⟩
    · simp only [skipReadBytes, e0, if_false, e1, h0]
      rw [if_neg (by omega), List.getElem?_eq_getElem hlt]
    · simp [Nat.shiftLeft_eq]
    · simp [bitPos]; omega

/-- Reading bytes at a byte boundary, inside the buffer. -/
theorem readBytes_spec {c : BitCtx} (h : c.WF) (n : Nat) (h0 : c.remBits = 0)
    (hb : c.bitPos + 8 * n ≤ 8 * c.buf.length) :
    ∃ c', c.readBytes n = some ((c.buf.drop c.pos).take n, c') ∧ c'.WF ∧ c'.buf = c.buf ∧
      c'.bitPos = c.bitPos + 8 * n ∧ c'.remBits = 0 ∧ c'.pos = c.pos + n := by
  unfold bitPos at hb
  have hp : c.pos + n ≤ c.buf.length := by omega
  refine ⟨{ c with pos := c.pos + n }, by simp [readBytes, h0, hp],
    ⟨⟨h.rem_le, hp, by simp [h0]⟩, h.rem_lt⟩, rfl, ?_, h0, rfl⟩
  simp [bitPos, h0]; omega

end BitCtx
end Sps
