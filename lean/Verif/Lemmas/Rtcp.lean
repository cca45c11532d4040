import Verif.Lemmas.Rtp
/-!
# RTCP, AAC over RTP and MPEG-TS over RTP
-/
namespace Sps
open Spec Spec.Rtp BProg

namespace Rtcp

theorem head_at (d : List UInt8) : onBits head 0 (bitsOf d) =
    if d.length < 4 then some (.error Err.ERROR_RTP_PROBE, 0, bitsOf d)
    else some (.ok { version := field d 0 2, padding := field d 2 1, count := rtcpCount d, pt := rtcpType d, length := rtcpWords d },
      32, (bitsOf d).drop 32) := by
  unfold head
  rw [← List.drop_zero (l := bitsOf d)]
  split
  · rename_i h
    simp (discharger := omega) only [on_bind, acq_fail_at, Option.bind_some]
    rw [if_pos (by decide)]
    rfl
  · rename_i h
    simp (discharger := omega) only [on_bind, acq_at, Option.bind_some]
    rw [if_neg (by decide)]
    simp (discharger := omega) only [on_bind, rd_at, Option.bind_some, on_pure, Nat.reduceAdd]
    rfl

/-- The block the code reads at bit `off`. -/
def blockOf (d : List UInt8) (off : Nat) : Block :=
  { fraction := field d off 8, lost := field d (off + 8) 24, highest := field d (off + 32) 32, jitter := field d (off + 64) 32,
    lsr := field d (off + 96) 32, dlsr := field d (off + 128) 32 }

theorem block_at (d : List UInt8) (off : Nat) (h : off + 160 ≤ 8 * d.length) :
    onBits block off ((bitsOf d).drop off) = some (blockOf d off, off + 160, (bitsOf d).drop (off + 160)) := by
  unfold block
  simp (discharger := omega) only [on_bind, acq_at, rd_at, Option.bind_some, on_pure, Nat.add_assoc, Nat.reduceAdd]
  rfl

theorem blocks_at (d : List UInt8) : ∀ (n off : Nat), off + 160 * n ≤ 8 * d.length →
    onBits (blocks n) off ((bitsOf d).drop off) =
      some ((List.range n).map (fun k => blockOf d (off + 160 * k)), off + 160 * n, (bitsOf d).drop (off + 160 * n))
  | 0, off, _ => rfl
  | n + 1, off, h => by
    unfold blocks
    simp only [on_bind, block_at d off (by omega), Option.bind_some]
    rw [blocks_at d n (off + 160) (by omega)]
    simp only [Option.bind_some, on_pure]
    rw [show off + 160 + 160 * n = off + 160 * (n + 1) by omega, List.range_succ_eq_map, List.map_cons, List.map_map]
    congr 3
    apply List.map_congr_left
    intro i _
    simp only [Function.comp]
    rw [show off + 160 * i.succ = off + 160 + 160 * i by omega]

theorem sr_at (d : List UInt8) (h : Head) (hc : h.count < 32) (hd : 4 ≤ d.length) (hl : d.length < 2 ^ 29) : onBits (sr h) 32 ((bitsOf d).drop 32) =
    if d.length < 28 + 20 * h.count then some (.error Err.ERROR_IO_NOT_ENOUGH, 32, (bitsOf d).drop 32)
    else some (.ok (.sr (word d 1) (word d 2) (word d 3) (word d 4) (word d 5) (word d 6)
      ((List.range h.count).map fun k => blockOf d (224 + 160 * k))), 224 + 160 * h.count, (bitsOf d).drop (224 + 160 * h.count)) := by
  unfold sr
  split
  · rename_i h
    simp (discharger := omega) only [on_bind, acq_fail_at, Option.bind_some]
    rw [if_pos (by decide)]
    rfl
  · rename_i h
    simp (discharger := omega) only [on_bind, acq_at, Option.bind_some]
    rw [if_neg (by decide)]
    simp (discharger := omega) only [on_bind, rd_at, Option.bind_some, Nat.reduceAdd, blocks_at, on_pure]
    rfl

theorem rr_at (d : List UInt8) (h : Head) (hc : h.count < 32) (hd : 4 ≤ d.length) (hl : d.length < 2 ^ 29) : onBits (rr h) 32 ((bitsOf d).drop 32) =
    if d.length < 8 + 20 * h.count then some (.error Err.ERROR_IO_NOT_ENOUGH, 32, (bitsOf d).drop 32)
    else some (.ok (.rr (word d 1)
      ((List.range h.count).map fun k => blockOf d (64 + 160 * k))), 64 + 160 * h.count, (bitsOf d).drop (64 + 160 * h.count)) := by
  unfold rr
  split
  · rename_i h
    simp (discharger := omega) only [on_bind, acq_fail_at, Option.bind_some]
    rw [if_pos (by decide)]
    rfl
  · rename_i h
    simp (discharger := omega) only [on_bind, acq_at, Option.bind_some]
    rw [if_neg (by decide)]
    simp (discharger := omega) only [on_bind, rd_at, Option.bind_some, Nat.reduceAdd, blocks_at, on_pure]
    rfl

theorem blockOf_eq (d : List UInt8) (i : Nat) : blockOf d (32 * (i + 1)) = reportBlock d i := by
  unfold blockOf reportBlock word
  simp only [Nat.mul_add, Nat.add_assoc, Nat.reduceMul, Nat.reduceAdd]

theorem decode_eq (d : List UInt8) (hd : d.length < 2 ^ 29) : decode d =
    if d.length < 4 then some (.error Err.ERROR_RTP_PROBE)
    else if rtcpType d = 200 then
      if d.length < 28 + 20 * rtcpCount d then some (.error Err.ERROR_IO_NOT_ENOUGH)
      else some (.ok (.sr (word d 1) (word d 2) (word d 3) (word d 4) (word d 5) (word d 6)
        ((List.range (rtcpCount d)).map fun k => reportBlock d (6 + 5 * k))))
    else if rtcpType d = 201 then
      if d.length < 8 + 20 * rtcpCount d then some (.error Err.ERROR_IO_NOT_ENOUGH)
      else some (.ok (.rr (word d 1) ((List.range (rtcpCount d)).map fun k => reportBlock d (1 + 5 * k))))
    else if rtcpType d = 202 then if rtcpCount d = 0 then some (.ok .other) else none
    else if rtcpType d = 203 ∨ rtcpType d = 204 then some (.ok .other)
    else some (.error Err.ERROR_RTP_PROBE) := by
  have hb : ∀ a k : Nat, blockOf d (32 * (a + 1) + 160 * k) = reportBlock d (a + 5 * k) := by
    intro a k
    rw [← blockOf_eq]; congr 1; omega
  have hb1 : ∀ k : Nat, blockOf d (224 + 160 * k) = reportBlock d (6 + 5 * k) := fun k => by rw [← hb]
  have hb2 : ∀ k : Nat, blockOf d (64 + 160 * k) = reportBlock d (1 + 5 * k) := fun k => by rw [← hb]
  have hh := head_at d
  unfold decode
  split
  · rename_i h
    rw [if_pos h] at hh
    obtain ⟨c, h1, h2⟩ := run_of (At.init d (by omega)) hh
    rw [h1]; rfl
  · rename_i h
    rw [if_neg h] at hh
    obtain ⟨c, h1, h2⟩ := run_of (At.init d (by omega)) hh
    rw [h1]
    simp only [Option.bind_some]
    have hc : rtcpCount d < 32 := field_lt d 3 5
    by_cases h3 : rtcpType d = 200
    · rw [if_pos h3, if_pos h3]
      have hs := sr_at d { version := field d 0 2, padding := field d 2 1, count := rtcpCount d, pt := rtcpType d, length := rtcpWords d } hc (by omega) hd
      simp only at hs
      split
      · rename_i h4
        rw [if_pos h4] at hs
        obtain ⟨c', h5, _⟩ := run_of h2 hs
        rw [h5]; rfl
      · rename_i h4
        rw [if_neg h4] at hs
        obtain ⟨c', h5, _⟩ := run_of h2 hs
        rw [h5]
        simp only [Option.map_some, hb1]
    · rw [if_neg h3, if_neg h3]
      by_cases h4 : rtcpType d = 201
      · rw [if_pos h4, if_pos h4]
        have hs := rr_at d { version := field d 0 2, padding := field d 2 1, count := rtcpCount d, pt := rtcpType d, length := rtcpWords d } hc (by omega) hd
        simp only at hs
        split
        · rename_i h4
          rw [if_pos h4] at hs
          obtain ⟨c', h5, _⟩ := run_of h2 hs
          rw [h5]; rfl
        · rename_i h4
          rw [if_neg h4] at hs
          obtain ⟨c', h5, _⟩ := run_of h2 hs
          rw [h5]
          simp only [Option.map_some, hb2]
      · rw [if_neg h4, if_neg h4]
        split
        · rfl
        · by_cases h5 : rtcpType d = 203
          · rw [if_pos h5, if_pos (Or.inl h5)]
          · rw [if_neg h5]
            by_cases h6 : rtcpType d = 204
            · rw [if_pos h6, if_pos (Or.inr h6)]
            · rw [if_neg h6, if_neg (by simp [h5, h6])]

end Rtcp

namespace RtpAac

theorem sizes_bits : ∀ (us : List (Nat × List UInt8)) (off : Nat) (r : List Bool),
    (∀ u ∈ us, u.1 < 8 ∧ u.2.length < 2 ^ 13) →
    onBits (sizes us.length) off (fieldBits (us.flatMap fun u => [(u.2.length, 13), (u.1, 3)]) ++ r) =
      some (us.map (·.2.length), off + 16 * us.length, r)
  | [], off, r, _ => by simp [sizes, fieldBits_nil, on_pure]
  | u :: us, off, r, h => by
    have hu := h u (by simp)
    have e1 := Nat.mod_eq_of_lt hu.2
    have e2 := Nat.mod_eq_of_lt (show u.1 < 2 ^ 3 from hu.1)
    rw [List.length_cons, sizes, List.flatMap_cons]
    simp only [List.cons_append, List.nil_append, fieldBits_cons, List.append_assoc]
    simp (discharger := decide) only [on_bind, rd_field, Option.bind_some]
    rw [sizes_bits us _ r (fun v hv => h v (by simp [hv]))]
    simp only [Option.bind_some, on_pure, List.map_cons, e1]
    congr 3
    omega

theorem units_al (ts : Nat) : ∀ (us : List (List UInt8)) (c : BitCtx) (r : List UInt8) (out : List AVPkt), c.Al (us.flatten ++ r) →
    units ts (us.map (·.length)) c out = some (Err.SUCCESS, out ++ us.map (aacPacket ts))
  | [], c, r, out, _ => by simp [units]
  | u :: us, c, r, out, h => by
    have hl := h.length
    have hs := h.small
    simp only [List.flatten_cons, List.append_assoc, List.length_append] at hl
    rw [List.map_cons, units, h.acquire _ (by omega) (by simp), if_neg (by decide)]
    obtain ⟨c1, e1, h1⟩ := h.bytes u.length (by simp)
    rw [e1]
    simp only [Option.bind_some, List.flatten_cons, List.append_assoc, List.take_left']
    simp only [List.flatten_cons, List.append_assoc, List.drop_left'] at h1
    unfold AacParser.encodeRawAvc
    rw [if_neg (by simp)]
    simp only [Option.bind_some]
    rw [if_neg (by simp), units_al ts us c1 r _ h1, List.append_assoc]
    rfl

theorem units_short (ts : Nat) : ∀ (us : List (List UInt8)) (n : Nat) (ns : List Nat) (c : BitCtx) (r : List UInt8) (out : List AVPkt),
    c.Al (us.flatten ++ r) → r.length < n → n < 2 ^ 29 →
    units ts (us.map (·.length) ++ n :: ns) c out = some (Err.ERROR_IO_NOT_ENOUGH, out ++ us.map (aacPacket ts))
  | [], n, ns, c, r, out, h, hn, hm => by
    simp only [List.flatten_nil, List.nil_append] at h
    simp only [List.map_nil, List.nil_append, List.append_nil]
    rw [units, h.acquire_fail _ (by omega) hn, if_pos (by decide)]
  | u :: us, n, ns, c, r, out, h, hn, hm => by
    have hl := h.length
    have hs := h.small
    simp only [List.flatten_cons, List.append_assoc, List.length_append] at hl
    rw [List.map_cons, List.cons_append, units, h.acquire _ (by omega) (by simp), if_neg (by decide)]
    obtain ⟨c1, e1, h1⟩ := h.bytes u.length (by simp)
    rw [e1]
    simp only [Option.bind_some, List.flatten_cons, List.append_assoc, List.take_left']
    simp only [List.flatten_cons, List.append_assoc, List.drop_left'] at h1
    unfold AacParser.encodeRawAvc
    rw [if_neg (by simp)]
    simp only [Option.bind_some]
    rw [if_neg (by simp), units_short ts us n ns c1 r _ h1 hn hm, List.append_assoc]
    rfl

end RtpAac
end Sps
