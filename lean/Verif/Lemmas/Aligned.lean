import Verif.Lemmas.BitWrite
import Verif.Lemmas.BitProg
import Verif.Lemmas.BProg
/-! Bit contexts that stand at a byte boundary: what is left (reading) and what was written. -/
namespace Spec

theorem bitsOf_inj {a b : List UInt8} (h : bitsOf a = bitsOf b) : a = b := by
  have hl : a.length = b.length := by have := congrArg List.length h; simp at this; omega
  have e := Sps.BProg.toBytes_append a []
  rw [h, hl, Sps.BProg.toBytes_append b []] at e
  exact e.symm

theorem beBytes_len (k v : Nat) : (beBytes k v).length = k := by
  induction k with | zero => rfl | succ k ih => simp [beBytes, ih]

theorem bitsOf_beBytes (k v : Nat) : bitsOf (beBytes k v) = bitsOfNat (8 * k) v := by
  have hl := beBytes_len k v
  have h := bitsOfNat_bitsVal (bitsOf (beBytes k v))
  rw [bitsVal_bitsOf, beVal_beBytes, bitsOf_length, hl] at h
  rw [← h, show 256 ^ k = 2 ^ (8 * k) by rw [show 256 = 2 ^ 8 by rfl, ← Nat.pow_mul], bitsOfNat_mod]

end Spec

namespace Sps.BitCtx
open Spec

/-- At a byte boundary with the bytes `r` in front. -/
structure Al (c : BitCtx) (r : List UInt8) : Prop where
  rem : c.remBits = 0
  pos_le : c.pos ≤ c.buf.length
  rest : c.buf.drop c.pos = r
  small : c.buf.length < 2 ^ 29

theorem Al.init (p : List UInt8) (h : p.length < 2 ^ 29) : Al (BitCtx.init p) p := ⟨rfl, by simp [BitCtx.init], rfl, h⟩

theorem Al.length {c : BitCtx} {r : List UInt8} (h : Al c r) : r.length = c.buf.length - c.pos := by
  rw [← h.rest]; simp

theorem Al.wf {c : BitCtx} {r : List UInt8} (h : Al c r) : c.WF :=
  ⟨⟨by simp [h.rem], h.pos_le, by simp [h.rem]⟩, by simp [h.rem]⟩

theorem Al.bitPos {c : BitCtx} {r : List UInt8} (h : Al c r) : c.bitPos = 8 * c.pos := by simp [BitCtx.bitPos, h.rem]

theorem Al.sizeBits {c : BitCtx} {r : List UInt8} (h : Al c r) : c.sizeBits = 8 * r.length := by
  have := h.small
  rw [h.wf.toWF8.sizeBits (by omega), h.bitPos, h.length]; omega

theorem Al.size {c : BitCtx} {r : List UInt8} (h : Al c r) : c.size = r.length := by
  unfold BitCtx.size; rw [h.sizeBits]; omega

theorem Al.acquire {c : BitCtx} {r : List UInt8} (h : Al c r) (n : Nat) (hn : n < 2 ^ 29) (hle : n ≤ r.length) :
    c.acquire n = Err.SUCCESS := by
  unfold BitCtx.acquire acquireBits; rw [h.sizeBits, if_pos (by omega)]

theorem Al.acquire_fail {c : BitCtx} {r : List UInt8} (h : Al c r) (n : Nat) (hn : n < 2 ^ 29) (hle : r.length < n) :
    c.acquire n = Err.ERROR_IO_NOT_ENOUGH := by
  unfold BitCtx.acquire acquireBits; rw [h.sizeBits, if_neg (by omega)]

theorem Al.skip {c : BitCtx} {r : List UInt8} (h : Al c r) (n : Nat) (hle : n ≤ r.length) :
    ∃ c', c.skipReadBytes (n : Int) = some c' ∧ Al c' (r.drop n) ∧ c'.pos = c.pos + n := by
  have hl := h.length
  have := h.pos_le
  refine ⟨{ c with pos := c.pos + n }, ?_, ⟨h.rem, by simp; omega, ?_, h.small⟩, rfl⟩
  · unfold skipReadBytes
    rw [if_neg (by omega)]
    simp only [h.rem, if_true, show ((c.pos : Int) + n).toNat = c.pos + n by omega]
  · simp only; rw [← List.drop_drop, h.rest]

theorem Al.read {c : BitCtx} {r : List UInt8} (h : Al c r) (k : Nat) (hk : k ≤ 4) (hle : k ≤ r.length) :
    ∃ c', c.readBits (8 * k) = some (beVal (r.take k), c') ∧ Al c' (r.drop k) ∧ c'.pos = c.pos + k := by
  have hl := h.length
  have hp := h.pos_le
  obtain ⟨c', e, w, b, p⟩ := readBits_spec h.wf (8 * k) (by rw [h.bitPos]; omega)
  have hr : c'.remBits = 0 ∧ c'.pos = c.pos + k := by
    rw [h.bitPos] at p
    have := w.rem_lt; have := w.toWF8.rem_pos
    unfold BitCtx.bitPos at p; omega
  refine ⟨c', ?_, ⟨hr.1, by rw [hr.2, b]; omega, ?_, by rw [b]; exact h.small⟩, hr.2⟩
  · rw [e, h.bitPos, bitsOf_drop, h.rest, bitsOf_take, bitsVal_bitsOf, Nat.mod_eq_of_lt]
    have := beVal_lt (r.take k)
    refine Nat.lt_of_lt_of_le this ?_
    rw [List.length_take, Nat.min_eq_left hle]
    calc 256 ^ k ≤ 256 ^ 4 := Nat.pow_le_pow_right (by decide) hk
      _ = 2 ^ 32 := by decide
  · rw [b, hr.2, ← List.drop_drop, h.rest]

/-- A writer at a byte boundary: `done` was written and there is room for `room` bytes. -/
structure Wr (c : BitCtx) (done : List UInt8) (room : Nat) : Prop where
  rem : c.remBits = 0
  pos : c.pos = done.length
  wrote : c.buf.take c.pos = done
  len : c.buf.length = done.length + room

theorem Wr.init (n : Nat) : Wr (BitCtx.init (List.replicate n 0)) [] n := ⟨rfl, rfl, rfl, by simp [BitCtx.init]⟩

theorem Wr.bits {c : BitCtx} {done : List UInt8} {room : Nat} (h : Wr c done room) (k v : Nat) (hk : k ≤ room) :
    ∃ c', c.writeBits v (8 * k) = some c' ∧ Wr c' (done ++ beBytes k v) (room - k) := by
  have h1 := h.pos; have h2 := h.len; have h3 := h.rem
  have hw : c.WW := ⟨⟨by omega, by omega, by omega⟩, by omega⟩
  have hb : c.bitPos = 8 * done.length := by simp [BitCtx.bitPos, h.rem, h1]
  obtain ⟨c', e, w, l, wr, p, _, _⟩ := writeBits_spec hw v (8 * k) (by omega) (by
    rw [hb]; unfold hasSixBitPiece; dsimp only
    rw [show 8 * done.length % 8 = 0 by omega]
    rcases Nat.eq_zero_or_pos k with hz | hz
    · subst hz; decide
    · rw [show min (8 - 0) (8 * k) = 8 by omega, show (8 * k - 8) % 8 = 0 by omega]; decide)
  have hbl : (beBytes k v).length = k := beBytes_len k v
  have hr : c'.remBits = 0 ∧ c'.pos = done.length + k := by
    rw [hb] at p
    have := w.rem_lt; have := w.toWW8.rem_pos
    unfold BitCtx.bitPos at p; omega
  refine ⟨c', e, hr.1, by simp [hr.2, hbl], ?_, by simp [hbl]; omega⟩
  apply bitsOf_inj
  have e1 : c'.written = bitsOf (c'.buf.take c'.pos) := by
    unfold written BitCtx.bitPos; rw [hr.1, Nat.sub_zero, bitsOf_take]
  have e2 : c.written = bitsOf done := by
    unfold written BitCtx.bitPos; rw [h3, Nat.sub_zero, bitsOf_take, h.wrote]
  rw [← e1, wr, e2, bitsOf_append, bitsOf_beBytes]

theorem Wr.bytes {c : BitCtx} {done : List UInt8} {room : Nat} (h : Wr c done room) (d : List UInt8) (hk : d.length ≤ room) :
    ∃ c', c.writeBytes d = some c' ∧ Wr c' (done ++ d) (room - d.length) := by
  have h1 := h.pos; have h2 := h.len; have h3 := h.rem
  refine ⟨{ c with buf := c.buf.take c.pos ++ d ++ c.buf.drop (c.pos + d.length), pos := c.pos + d.length },
    by rw [writeBytes, if_pos h3, if_pos (by omega)], h3, by simp [h1], ?_, ?_⟩
  · simp only
    rw [h.wrote, List.take_append_of_le_length (by simp; omega), List.take_of_length_le (by simp; omega)]
  · simp only; rw [h.wrote]; simp; omega

theorem Wr.posOff {c : BitCtx} {done : List UInt8} {room : Nat} (h : Wr c done room) : c.posOff = (done.length : Int) := by
  simp [BitCtx.posOff, h.rem, h.pos]

end Sps.BitCtx
