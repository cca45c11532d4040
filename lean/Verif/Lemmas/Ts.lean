import Verif.Lemmas.BProg
import Verif.Spec.Ts
/-! # Transport streams -/
namespace Sps.BProg
open Spec
variable {α : Type}

theorem field_lt (p : List UInt8) (off w : Nat) : field p off w < 2 ^ w := by
  unfold field
  refine Nat.lt_of_lt_of_le (bitsVal_lt _) (Nat.pow_le_pow_right (by decide) ?_)
  rw [List.length_take]; omega

theorem bits_at (p : List UInt8) (off w : Nat) (k : Nat → BProg α) (h : off + w ≤ 8 * p.length) (hw : w ≤ 32) :
    onBits (.bits w k) off ((bitsOf p).drop off) = onBits (k (field p off w)) (off + w) ((bitsOf p).drop (off + w)) := by
  rw [on_bits w hw _ _ _ (by rw [List.length_drop, bitsOf_length]; omega), List.drop_drop]; rfl

theorem rd_at (p : List UInt8) (off w : Nat) (h : off + w ≤ 8 * p.length) (hw : w ≤ 32) :
    onBits (rd w) off ((bitsOf p).drop off) = some (field p off w, off + w, (bitsOf p).drop (off + w)) := by
  unfold rd; rw [bits_at p off w _ h hw]; rfl

theorem rd_none (p : List UInt8) (off w : Nat) (h : 8 * p.length < off + w) (hw : 0 < w) :
    onBits (rd w) off ((bitsOf p).drop off) = none := by
  unfold rd; rw [on_bits_none]; rw [List.length_drop, bitsOf_length]; omega

theorem rd33_at (p : List UInt8) (off w : Nat) (h : off + w ≤ 8 * p.length) :
    onBits (rd w) off ((bitsOf p).drop off) = some (field p off w % 2 ^ 32, off + w, (bitsOf p).drop (off + w)) := by
  unfold rd; simp only [onBits]
  rw [if_pos (by rw [List.length_drop, bitsOf_length]; omega), List.drop_drop]; rfl

theorem acq_at (p : List UInt8) (off n : Nat) (h : off + 8 * n ≤ 8 * p.length) (hn : n < 2 ^ 29) :
    onBits (acq n) off ((bitsOf p).drop off) = some (Err.SUCCESS, off, (bitsOf p).drop off) := by
  unfold acq; rw [on_acq n hn]
  · rfl
  · rw [List.length_drop, bitsOf_length]; omega

theorem acq_fail_at (p : List UInt8) (off n : Nat) (h : 8 * p.length < off + 8 * n) (ho : off ≤ 8 * p.length) (hn : n < 2 ^ 29) :
    onBits (acq n) off ((bitsOf p).drop off) = some (Err.ERROR_IO_NOT_ENOUGH, off, (bitsOf p).drop off) := by
  unfold acq; rw [on_acq_fail n hn]
  · rfl
  · rw [List.length_drop, bitsOf_length]; omega

theorem skp_at (p : List UInt8) (off n : Nat) (h : off + 8 * n ≤ 8 * p.length) :
    onBits (skp n) off ((bitsOf p).drop off) = some ((), off + 8 * n, (bitsOf p).drop (off + 8 * n)) := by
  unfold skp; simp only [onBits]
  rw [if_pos (by rw [List.length_drop, bitsOf_length]; omega), List.drop_drop]

theorem rdBytes_at (p : List UInt8) (off n : Nat) (h : off + 8 * n ≤ 8 * p.length) (ho : off % 8 = 0) :
    onBits (rdBytes n) off ((bitsOf p).drop off) =
      some ((p.drop (off / 8)).take n, off + 8 * n, (bitsOf p).drop (off + 8 * n)) := by
  obtain ⟨o, rfl⟩ : ∃ o, off = 8 * o := ⟨off / 8, by omega⟩
  have e : (bitsOf p).drop (8 * o) = bitsOf ((p.drop o).take n) ++ bitsOf (p.drop (o + n)) := by
    rw [bitsOf_drop]; conv => lhs; rw [← List.take_append_drop n (p.drop o), bitsOf_append, List.drop_drop]
  unfold rdBytes
  rw [e, on_bytes n _ (by simp; omega) _ _ (by omega), on_ret, Nat.mul_div_cancel_left _ (by decide), ← bitsOf_drop,
    Nat.mul_add]

theorem pos_at (p : List UInt8) (off : Nat) (s : List Bool) :
    onBits rdPos off s = some (((off / 8 : Nat) : Int), off, s) := rfl

theorem size_at (p : List UInt8) (off : Nat) :
    onBits rdSize off ((bitsOf p).drop off) = some ((8 * p.length - off) / 8, off, (bitsOf p).drop off) := by
  unfold rdSize; rw [on_size]; simp [on_ret]

end Sps.BProg

namespace Sps.Ts
open Spec BProg

theorem fixedHeader_at (p : List UInt8) (h : 4 ≤ p.length) :
    onBits fixedHeader 8 ((bitsOf p).drop 8) = some (Spec.Ts.header p, 32, (bitsOf p).drop 32) := by
  unfold fixedHeader
  simp (discharger := omega) only [on_bind, rd_at, Option.bind_some, on_pure]
  rfl

theorem pcr_at (p : List UInt8) (off f : Nat) (hf : f < 2) (h : off + 48 * f ≤ 8 * p.length) :
    onBits (onFlag f pcrField) off ((bitsOf p).drop off) = some ((), off + 48 * f, (bitsOf p).drop (off + 48 * f)) := by
  unfold onFlag
  rcases (by omega : f = 0 ∨ f = 1) with rfl | rfl
  · rfl
  · rw [if_pos (by decide)]; unfold pcrField
    simp (discharger := omega) only [on_bind, rd33_at, Option.bind_some, on_pure]

theorem opcr_at (p : List UInt8) (off f : Nat) (hf : f < 2) (h : off + 48 * f ≤ 8 * p.length) (ho : off % 8 = 0) :
    onBits (onFlag f opcrField) off ((bitsOf p).drop off) = some ((), off + 48 * f, (bitsOf p).drop (off + 48 * f)) := by
  unfold onFlag
  rcases (by omega : f = 0 ∨ f = 1) with rfl | rfl
  · rfl
  · rw [if_pos (by decide)]; unfold opcrField
    simp (discharger := omega) only [on_bind, rdBytes_at, Option.bind_some, on_pure]

theorem splice_at (p : List UInt8) (off f : Nat) (hf : f < 2) (h : off + 8 * f ≤ 8 * p.length) :
    onBits (onFlag f spliceField) off ((bitsOf p).drop off) = some ((), off + 8 * f, (bitsOf p).drop (off + 8 * f)) := by
  unfold onFlag
  rcases (by omega : f = 0 ∨ f = 1) with rfl | rfl
  · rfl
  · rw [if_pos (by decide)]; unfold spliceField
    simp (discharger := omega) only [on_bind, rd_at, Option.bind_some, on_pure]

theorem priv_at (p : List UInt8) (off f : Nat) (ho : off % 8 = 0) (hoff : off ≤ 8 * p.length)
    (h : f ≠ 0 → off + 8 + 8 * field p off 8 ≤ 8 * p.length) :
    onBits (privField f) off ((bitsOf p).drop off) = some (Err.SUCCESS, off + (if f ≠ 0 then 8 + 8 * field p off 8 else 0),
      (bitsOf p).drop (off + (if f ≠ 0 then 8 + 8 * field p off 8 else 0))) := by
  unfold privField
  by_cases hf : f = 0
  · subst hf; rfl
  · have h := h hf
    have h8 := field_lt p off 8
    rw [if_pos hf, if_pos hf]
    simp (discharger := omega) only [on_bind, rd_at, acq_at, Option.bind_some]
    rw [if_neg (by decide)]
    simp (discharger := omega) only [on_bind, rdBytes_at, Option.bind_some, on_pure]
    rw [Nat.add_assoc]

theorem adaptationFields_at (p : List UInt8) (L : Nat) (hp : p.length = 188) (hL : 5 + L ≤ 188)
    (h1 : Spec.Ts.afBase p ≤ L)
    (h2 : field p 47 1 ≠ 0 → Spec.Ts.afBase p + 1 + field p (8 * (5 + Spec.Ts.afBase p)) 8 ≤ L) :
    onBits (adaptationFields L 5) 40 ((bitsOf p).drop 40) = some (Err.SUCCESS, 8 * (5 + L), (bitsOf p).drop (8 * (5 + L))) := by
  unfold adaptationFields
  unfold Spec.Ts.afBase at h1 h2
  have f1 := field_lt p 43 1
  have f2 := field_lt p 44 1
  have f3 := field_lt p 45 1
  have e1 : 48 + 48 * field p 43 1 + 48 * field p 44 1 + 8 * field p 45 1 =
    8 * (5 + (1 + 6 * field p 43 1 + 6 * field p 44 1 + field p 45 1)) := by omega
  have hb : 8 * (5 + (1 + 6 * field p 43 1 + 6 * field p 44 1 + field p 45 1)) ≤ 8 * p.length := by omega
  simp (discharger := omega) only [on_bind, rd_at, pcr_at, opcr_at, splice_at, Option.bind_some, Nat.reduceAdd]
  rw [e1]
  generalize 1 + 6 * field p 43 1 + 6 * field p 44 1 + field p 45 1 = b at *
  rw [priv_at _ _ _ (by omega) (by omega) (by intro h; have := h2 h; omega)]
  simp only [Option.bind_some]
  rw [if_neg (by decide)]
  generalize hx : (if field p 47 1 ≠ 0 then 8 + 8 * field p (8 * (5 + b)) 8 else 0) = x
  have hx' : ∃ y, x = 8 * y ∧ b + y ≤ L := by
    split at hx
    · rename_i hf
      have := h2 hf
      exact ⟨1 + field p (8 * (5 + b)) 8, by omega, by omega⟩
    · exact ⟨0, by omega, by omega⟩
  obtain ⟨y, rfl, hy⟩ := hx'
  rw [on_bind, pos_at p]
  simp only [Option.bind_some]
  have e2 : (((L : Int) - (((8 * (5 + b) + 8 * y) / 8 : Nat) - 5)) % 2 ^ 16).toNat = L - (b + y) := by omega
  rw [e2, on_bind, skp_at _ _ _ (by omega)]
  simp only [Option.bind_some, on_pure]
  rw [show 8 * (5 + b) + 8 * y + 8 * (L - (b + y)) = 8 * (5 + L) by omega]

theorem adaptation_at (p : List UInt8) (hp : p.length = 188) (h : Spec.Ts.afOk p) :
    onBits adaptation 32 ((bitsOf p).drop 32) =
      some (Err.SUCCESS, 8 * (5 + field p 32 8), (bitsOf p).drop (8 * (5 + field p 32 8))) := by
  unfold adaptation
  obtain ⟨h0, h1⟩ := h
  simp (discharger := omega) only [on_bind, acq_at, Option.bind_some]
  rw [if_neg (by decide)]
  simp (discharger := omega) only [on_bind, rd_at, pos_at p, Option.bind_some]
  by_cases hz : field p 32 8 = 0
  · rw [if_pos hz, hz]; rfl
  · rw [if_neg hz]
    obtain ⟨h2, h3⟩ := h1.resolve_left hz
    rw [on_bind, acq_at _ _ _ (by omega) (by omega)]
    simp only [Option.bind_some]
    rw [if_neg (by decide)]
    exact adaptationFields_at p _ hp (by omega) h2 (fun h => h3 (.inr h))

theorem and2 (x : Nat) (h : x < 4) : (x &&& 2 ≠ 0) ↔ 2 ≤ x := by
  rcases (by omega : x = 0 ∨ x = 1 ∨ x = 2 ∨ x = 3) with rfl | rfl | rfl | rfl <;> decide

theorem and1 (x : Nat) : x &&& 1 = x % 2 := Nat.and_one_is_mod x

/-- A well-formed packet is decoded. -/
theorem packet_ok (p : List UInt8) (h : Spec.Ts.packetOk p) :
    onBits packet 0 (bitsOf p) = some ((Err.SUCCESS, Spec.Ts.header p), 8 * Spec.Ts.payloadOff p, bitsOf (Spec.Ts.payload p)) := by
  obtain ⟨hp, hs, ha⟩ := h
  unfold packet
  rw [← List.drop_zero (l := bitsOf p)]
  simp (discharger := omega) only [on_bind, acq_at, Option.bind_some]
  rw [if_neg (by decide)]
  simp (discharger := omega) only [on_bind, rd_at, Option.bind_some]
  rw [hs, if_neg (by decide)]
  rw [on_bind]
  rw [fixedHeader_at p (by omega)]
  simp only [Option.bind_some]
  unfold Spec.Ts.payload Spec.Ts.payloadOff
  have e : (Spec.Ts.header p).afc = field p 26 2 := rfl
  rw [e]
  by_cases h2 : 2 ≤ field p 26 2
  · rw [if_pos ((and2 _ (field_lt p 26 2)).2 h2), if_pos h2, on_bind, adaptation_at p hp (ha h2)]
    simp only [Option.bind_some, on_pure]
    rw [bitsOf_drop]
  · rw [if_neg (fun h => h2 ((and2 _ (field_lt p 26 2)).1 h)), if_neg h2, on_pure, ← bitsOf_drop]

/-- Whatever is decoded without error is the fields of the standard. -/
theorem packet_fields (p : List UInt8) (hp : 188 ≤ p.length) {e : Err} {hd : TsHeader} {o : Nat} {s : List Bool}
    (hs : field p 0 8 = 0x47) (hr : onBits packet 0 (bitsOf p) = some ((e, hd), o, s)) : hd = Spec.Ts.header p := by
  unfold packet at hr
  rw [← List.drop_zero (l := bitsOf p)] at hr
  simp (discharger := omega) only [on_bind, acq_at, Option.bind_some] at hr
  rw [if_neg (by decide)] at hr
  simp (discharger := omega) only [on_bind, rd_at, Option.bind_some] at hr
  rw [hs, if_neg (by decide), on_bind] at hr
  rw [fixedHeader_at p (by omega)] at hr
  simp only [Option.bind_some] at hr
  split at hr
  · rw [on_bind, Option.bind_eq_some_iff] at hr
    obtain ⟨x, _, hx⟩ := hr
    rw [on_pure] at hx
    simp only [Option.some.injEq, Prod.mk.injEq] at hx
    exact hx.1.2.symm
  · rw [on_pure] at hr
    simp only [Option.some.injEq, Prod.mk.injEq] at hr
    exact hr.1.2.symm

theorem packet_short (p : List UInt8) (hp : p.length < 188) :
    onBits packet 0 (bitsOf p) = some ((Err.ERROR_TS_PACKET_SIZE, noHeader), 0, bitsOf p) := by
  unfold packet
  rw [← List.drop_zero (l := bitsOf p)]
  simp (discharger := omega) only [on_bind, acq_fail_at, Option.bind_some]
  rw [if_pos (by decide)]; rfl

theorem packet_sync (p : List UInt8) (hp : 188 ≤ p.length) (hs : field p 0 8 ≠ 0x47) :
    onBits packet 0 (bitsOf p) = some ((Err.ERROR_TS_PACKET_DECODE, noHeader), 8, (bitsOf p).drop 8) := by
  unfold packet
  rw [← List.drop_zero (l := bitsOf p)]
  simp (discharger := omega) only [on_bind, acq_at, Option.bind_some]
  rw [if_neg (by decide)]
  simp (discharger := omega) only [on_bind, rd_at, Option.bind_some]
  rw [if_pos hs]; rfl

/-- The private data field leaves an aligned position, not far away. -/
theorem priv_pos (p : List UInt8) (off f : Nat) (ho : off % 8 = 0) (hoff : off + 8 ≤ 8 * p.length) {e : Err} {o : Nat} {s : List Bool}
    (h : onBits (privField f) off ((bitsOf p).drop off) = some (e, o, s)) :
    ∃ y, y ≤ 256 ∧ o = off + 8 * y ∧ s = (bitsOf p).drop o := by
  unfold privField at h
  by_cases hf : f = 0
  · rw [if_neg (by simpa using hf), on_pure] at h
    simp only [Option.some.injEq, Prod.mk.injEq] at h
    obtain ⟨_, rfl, rfl⟩ := h
    exact ⟨0, by omega, rfl, rfl⟩
  · have h8 := field_lt p off 8
    rw [if_pos hf] at h
    simp (discharger := omega) only [on_bind, rd_at, Option.bind_some] at h
    by_cases hn : off + 8 + 8 * field p off 8 ≤ 8 * p.length
    · simp (discharger := omega) only [acq_at, Option.bind_some] at h
      rw [if_neg (by decide)] at h
      simp (discharger := omega) only [on_bind, rdBytes_at, Option.bind_some, on_pure, Option.some.injEq, Prod.mk.injEq] at h
      obtain ⟨_, rfl, rfl⟩ := h
      exact ⟨1 + field p off 8, by omega, by omega, rfl⟩
    · simp (discharger := omega) only [acq_fail_at, Option.bind_some] at h
      rw [if_pos (by decide), on_pure] at h
      simp only [Option.some.injEq, Prod.mk.injEq] at h
      obtain ⟨_, rfl, rfl⟩ := h
      exact ⟨1, by omega, by omega, rfl⟩

theorem adaptation_pos (p : List UInt8) (hp : p.length = 188) {o : Nat} {s : List Bool}
    (h : onBits adaptation 32 ((bitsOf p).drop 32) = some (Err.SUCCESS, o, s)) :
    o = 8 * (5 + field p 32 8) ∧ s = (bitsOf p).drop o := by
  unfold adaptation at h
  simp (discharger := omega) only [on_bind, acq_at, Option.bind_some] at h
  rw [if_neg (by decide)] at h
  simp (discharger := omega) only [on_bind, rd_at, pos_at p, Option.bind_some] at h
  by_cases hz : field p 32 8 = 0
  · rw [if_pos hz, on_pure] at h
    simp only [Option.some.injEq, Prod.mk.injEq] at h
    obtain ⟨_, rfl, rfl⟩ := h
    rw [hz]; exact ⟨rfl, rfl⟩
  rw [if_neg hz, on_bind] at h
  have h8 := field_lt p 32 8
  by_cases hL : 40 + 8 * field p 32 8 ≤ 8 * p.length
  · rw [acq_at _ _ _ (by omega) (by omega)] at h
    simp only [Option.bind_some] at h
    rw [if_neg (by decide)] at h
    unfold adaptationFields at h
    have f1 := field_lt p 43 1
    have f2 := field_lt p 44 1
    have f3 := field_lt p 45 1
    simp (discharger := omega) only [on_bind, rd_at, pcr_at, opcr_at, splice_at, Option.bind_some, Nat.reduceAdd] at h
    generalize hb : 48 + 48 * field p 43 1 + 48 * field p 44 1 + 8 * field p 45 1 = B at h
    rw [Option.bind_eq_some_iff] at h
    obtain ⟨⟨e1, o1, s1⟩, hx, h⟩ := h
    obtain ⟨y, hy, rfl, rfl⟩ := priv_pos p B _ (by omega) (by omega) hx
    simp only at h
    split at h
    · rename_i he
      rw [on_pure] at h
      simp only [Option.some.injEq, Prod.mk.injEq] at h
      exact absurd h.1 he
    · rw [on_bind, pos_at p] at h
      simp only [Option.bind_some] at h
      rw [on_bind, Option.bind_eq_some_iff] at h
      obtain ⟨⟨_, o2, s2⟩, hs, h⟩ := h
      rw [on_pure] at h
      simp only [Option.some.injEq, Prod.mk.injEq] at h
      obtain ⟨_, rfl, rfl⟩ := h
      unfold skp at hs
      simp only [onBits] at hs
      split at hs
      · rename_i hn
        rw [List.length_drop, bitsOf_length, hp] at hn
        simp only [Option.some.injEq, Prod.mk.injEq, true_and, List.drop_drop] at hs
        obtain ⟨rfl, rfl⟩ := hs
        refine ⟨?_, rfl⟩
        omega
      · simp at hs
  · rw [acq_fail_at _ _ _ (by omega) (by omega) (by omega)] at h
    simp only [Option.bind_some] at h
    rw [if_pos (by decide), on_pure] at h
    simp [Err.ERROR_IO_NOT_ENOUGH, Err.SUCCESS] at h

/-- After a header that was decoded comes the payload. -/
theorem packet_pos (p : List UInt8) (hp : p.length = 188) {hd : TsHeader} {o : Nat} {s : List Bool}
    (h : onBits packet 0 (bitsOf p) = some ((Err.SUCCESS, hd), o, s)) :
    hd = Spec.Ts.header p ∧ o = 8 * Spec.Ts.payloadOff p ∧ s = bitsOf (Spec.Ts.payload p) := by
  by_cases hs : field p 0 8 = 0x47
  · refine ⟨packet_fields p (by omega) hs h, ?_⟩
    unfold packet at h
    rw [← List.drop_zero (l := bitsOf p)] at h
    simp (discharger := omega) only [on_bind, acq_at, Option.bind_some] at h
    rw [if_neg (by decide)] at h
    simp (discharger := omega) only [on_bind, rd_at, Option.bind_some] at h
    rw [hs, if_neg (by decide), on_bind] at h
    rw [fixedHeader_at p (by omega)] at h
    simp only [Option.bind_some] at h
    unfold Spec.Ts.payload Spec.Ts.payloadOff
    have e : (Spec.Ts.header p).afc = field p 26 2 := rfl
    rw [e] at h
    by_cases h2 : 2 ≤ field p 26 2
    · rw [if_pos ((and2 _ (field_lt p 26 2)).2 h2), on_bind, Option.bind_eq_some_iff] at h
      obtain ⟨⟨e1, o1, s1⟩, hx, h⟩ := h
      rw [on_pure] at h
      simp only [Option.some.injEq, Prod.mk.injEq] at h
      obtain ⟨⟨rfl, _⟩, rfl, rfl⟩ := h
      obtain ⟨rfl, rfl⟩ := adaptation_pos p hp hx
      rw [if_pos h2, bitsOf_drop]
      exact ⟨rfl, rfl⟩
    · rw [if_neg (fun h => h2 ((and2 _ (field_lt p 26 2)).1 h)), on_pure] at h
      simp only [Option.some.injEq, Prod.mk.injEq] at h
      obtain ⟨_, rfl, rfl⟩ := h
      rw [if_neg h2, ← bitsOf_drop]
      exact ⟨rfl, rfl⟩
  · rw [packet_sync p (by omega) hs] at h
    simp [Err.ERROR_TS_PACKET_DECODE, Err.SUCCESS] at h

end Sps.Ts
