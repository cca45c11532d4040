import Verif.Lemmas.TsBits
import Verif.Lemmas.Aligned
import Verif.Lemmas.H264Enc
import Verif.Spec.Rtp
/-! # RTP -/
namespace Sps.BProg
open Spec

/-- A context at a byte boundary, seen both ways. -/
theorem At.al {c : BitCtx} {r : List UInt8} {n : Nat} (h : At c (8 * n) (bitsOf r)) (hs : n + r.length < 2 ^ 29) : c.Al r := by
  have h1 := h.wf.rem_lt; have h2 := h.wf.toWF8.rem_pos; have h3 := h.at_; have h4 := h.wf.pos_le; have h5 := h.length
  have h6 := h.le
  rw [bitsOf_length] at h5
  unfold BitCtx.bitPos at h3
  have h7 : c.remBits = 0 ∧ c.pos = n := by omega
  refine ⟨h7.1, h4, ?_, by omega⟩
  apply bitsOf_inj
  rw [← h.rest, h7.2, bitsOf_drop]

theorem _root_.Sps.BitCtx.Al.at {c : BitCtx} {r : List UInt8} (h : c.Al r) : At c (8 * c.pos) (bitsOf r) :=
  ⟨h.wf, by have := h.small; omega, h.bitPos, by have := h.pos_le; omega, by rw [bitsOf_drop, h.rest]⟩

theorem _root_.Sps.BitCtx.Al.bytes {c : BitCtx} {r : List UInt8} (h : c.Al r) (n : Nat) (hn : n ≤ r.length) :
    ∃ c', c.readBytes n = some (r.take n, c') ∧ c'.Al (r.drop n) := by
  have := h.length; have := h.pos_le
  refine ⟨{ c with pos := c.pos + n }, ?_, h.rem, by simp; omega, ?_, h.small⟩
  · unfold BitCtx.readBytes
    rw [if_pos h.rem, if_pos (by omega), h.rest]
  · simp only; rw [← List.drop_drop, h.rest]

theorem _root_.Sps.BitCtx.Al.all {c : BitCtx} {r : List UInt8} (h : c.Al r) :
    ∃ c', RtpH264.rest c = some (r, c') ∧ c'.Al [] := by
  obtain ⟨c', h1, h2⟩ := h.bytes r.length (Nat.le_refl _)
  refine ⟨c', ?_, by simpa using h2⟩
  unfold RtpH264.rest
  rw [h.size, h1, List.take_length]

end Sps.BProg

namespace Sps.RtpHeader
open Spec BProg Spec.Rtp

theorem csrcs_at (d : List UInt8) : ∀ (n off : Nat), off + 32 * n ≤ 8 * d.length →
    onBits (csrcs n) off ((bitsOf d).drop off) =
      some ((List.range n).map (fun i => field d (off + 32 * i) 32), off + 32 * n, (bitsOf d).drop (off + 32 * n))
  | 0, off, _ => rfl
  | n + 1, off, h => by
    unfold csrcs
    simp (discharger := omega) only [on_bind, rd_at, Option.bind_some]
    rw [csrcs_at d n (off + 32) (by omega)]
    simp only [Option.bind_some, on_pure, List.range_succ_eq_map, List.map_cons, List.map_map]
    rw [show off + 32 + 32 * n = off + 32 * (n + 1) by omega]
    simp only [Nat.mul_zero, Nat.add_zero]
    congr 3
    apply List.map_congr_left
    intro i _
    simp only [Function.comp]
    rw [show off + 32 * i.succ = off + 32 + 32 * i by omega]

/-- The result of decoding the header of any byte string, and the number of bytes taken. -/
def result (d : List UInt8) : Except Err RtpHeader × Nat :=
  if d.length < 12 then (.error Err.ERROR_IO_NOT_ENOUGH, 0)
  else if d.length < fixedSize d then (.error Err.ERROR_IO_NOT_ENOUGH, 12)
  else if field d 3 1 = 0 then (.ok (header d), fixedSize d)
  else if d.length < fixedSize d + 4 then (.error Err.ERROR_IO_NOT_ENOUGH, fixedSize d)
  else if extWords d = 0 then (.ok { header d with profile := field d (8 * fixedSize d) 16 }, fixedSize d + 4)
  else if d.length < fixedSize d + 4 + extWords d then (.error Err.ERROR_IO_NOT_ENOUGH, fixedSize d + 4)
  else (.ok { header d with profile := field d (8 * fixedSize d) 16, extLen := extWords d, ext := (d.drop (fixedSize d + 4)).take (extWords d) },
        fixedSize d + 4 + extWords d)

theorem extension_at (d : List UInt8) (h : RtpHeader) (h0 : h.extLen = 0) (n : Nat) (hn : n ≤ d.length) :
    onBits (decodeExtension h) (8 * n) ((bitsOf d).drop (8 * n)) =
      if d.length < n + 4 then some (.error Err.ERROR_IO_NOT_ENOUGH, 8 * n, (bitsOf d).drop (8 * n))
      else if field d (8 * n + 16) 16 = 0 then
        some (.ok { h with profile := field d (8 * n) 16 }, 8 * (n + 4), (bitsOf d).drop (8 * (n + 4)))
      else if d.length < n + 4 + field d (8 * n + 16) 16 then
        some (.error Err.ERROR_IO_NOT_ENOUGH, 8 * (n + 4), (bitsOf d).drop (8 * (n + 4)))
      else some (.ok { h with profile := field d (8 * n) 16, extLen := field d (8 * n + 16) 16, ext := (d.drop (n + 4)).take (field d (8 * n + 16) 16) },
        8 * (n + 4 + field d (8 * n + 16) 16), (bitsOf d).drop (8 * (n + 4 + field d (8 * n + 16) 16))) := by
  unfold decodeExtension
  split
  · simp (discharger := omega) only [on_bind, acq_fail_at, Option.bind_some]
    rw [if_pos (by decide)]; rfl
  · have hl := field_lt d (8 * n + 16) 16
    simp (discharger := omega) only [on_bind, acq_at, Option.bind_some]
    rw [if_neg (by decide)]
    simp (discharger := omega) only [on_bind, rd_at, Option.bind_some]
    rw [show 8 * n + 16 + 16 = 8 * (n + 4) by omega]
    split
    · rename_i h1
      rw [h1, on_pure]
      obtain ⟨_, _, _, _, _, _, _, _, _, _, _, _, _⟩ := h
      simp only at h0
      subst h0; rfl
    · split
      · simp (discharger := omega) only [on_bind, acq_fail_at, Option.bind_some]
        rw [if_pos (by decide)]; rfl
      · simp (discharger := omega) only [on_bind, acq_at, Option.bind_some]
        rw [if_neg (by decide)]
        simp (discharger := omega) only [on_bind, rdBytes_at, Option.bind_some, on_pure]
        rw [show 8 * (n + 4) / 8 = n + 4 by omega, show 8 * (n + 4) + 8 * field d (8 * n + 16) 16 = 8 * (n + 4 + field d (8 * n + 16) 16) by omega]

theorem decode_at (d : List UInt8) : onBits decode 0 (bitsOf d) =
    some ((result d).1, 8 * (result d).2, (bitsOf d).drop (8 * (result d).2)) := by
  unfold decode result
  rw [← List.drop_zero (l := bitsOf d)]
  split
  · simp (discharger := omega) only [on_bind, acq_fail_at, Option.bind_some]
    rw [if_pos (by decide)]; rfl
  · simp (discharger := omega) only [on_bind, acq_at, Option.bind_some]
    rw [if_neg (by decide)]
    simp (discharger := omega) only [on_bind, rd_at, Option.bind_some, Nat.reduceAdd]
    have hc : field d 4 4 < 16 := field_lt d 4 4
    have hf : fixedSize d = 12 + 4 * field d 4 4 := rfl
    have hb := field_lt d 3 1
    by_cases hq : d.length < fixedSize d
    · rw [if_pos hq, acq_fail_at d 96 _ (by omega) (by omega) (by omega)]; simp only [Option.bind_some]
      rw [if_pos (by decide)]; rfl
    · rw [if_neg hq, acq_at d 96 _ (by omega) (by omega)]; simp only [Option.bind_some]
      rw [if_neg (by decide), on_bind, csrcs_at d _ 96 (by omega)]
      simp only [Option.bind_some]
      rw [show 96 + 32 * field d 4 4 = 8 * fixedSize d by omega]
      by_cases hx : field d 3 1 = 0
      · rw [if_neg (by omega), if_pos hx]; rfl
      · rw [if_pos (by omega), if_neg hx, extension_at d _ rfl _ (by omega)]
        unfold extWords
        by_cases h1 : d.length < fixedSize d + 4
        · rw [if_pos h1, if_pos h1]; rfl
        · rw [if_neg h1, if_neg h1]
          by_cases h2 : field d (8 * fixedSize d + 16) 16 = 0
          · rw [if_pos h2, if_pos h2]; rfl
          · rw [if_neg h2, if_neg h2]
            by_cases h3 : d.length < fixedSize d + 4 + field d (8 * fixedSize d + 16) 16
            · rw [if_pos h3, if_pos h3]; rfl
            · rw [if_neg h3, if_neg h3]; rfl

theorem result_le (d : List UInt8) : (result d).2 ≤ d.length := by
  unfold result
  repeat' split
  all_goals simp only; omega

/-- Decoding the header never reads outside and leaves the rest. -/
theorem run_decode (d : List UInt8) (hd : d.length < 2 ^ 29) :
    ∃ c, decode.run (BitCtx.init d) = some ((result d).1, c) ∧ c.Al (d.drop (result d).2) := by
  obtain ⟨c, h1, h2⟩ := run_of (At.init d (by omega)) (decode_at d)
  refine ⟨c, h1, ?_⟩
  rw [bitsOf_drop] at h2
  exact h2.al (by have := result_le d; simp; omega)

theorem run_front (ok : Nat → Bool) (d : List UInt8) (hd : d.length < 2 ^ 29) :
    ∃ c, (front ok).run (BitCtx.init d) = some ((match (result d).1 with
      | .error e => .error e
      | .ok h => if ok h.payloadType = false then .error Err.ERROR_RTP_PAYLOAD_TYPE else .ok h), c) ∧
      c.Al (d.drop (result d).2) := by
  have key : onBits (front ok) 0 (bitsOf d) = some ((match (result d).1 with
      | .error e => .error e
      | .ok h => if ok h.payloadType = false then .error Err.ERROR_RTP_PAYLOAD_TYPE else .ok h), 8 * (result d).2,
      (bitsOf d).drop (8 * (result d).2)) := by
    unfold front
    by_cases h : d.length < 12
    · rw [← List.drop_zero (l := bitsOf d)]
      simp (discharger := omega) only [on_bind, acq_fail_at, Option.bind_some]
      rw [if_pos (by decide)]
      unfold result
      simp [h, on_pure]
    · rw [← List.drop_zero (l := bitsOf d)]
      simp (discharger := omega) only [on_bind, acq_at, Option.bind_some]
      rw [if_neg (by decide), on_bind, List.drop_zero, decode_at d]
      simp only [Option.bind_some]
      cases (result d).1 with
      | error e => rfl
      | ok h => dsimp only; split <;> rfl
  obtain ⟨c, h1, h2⟩ := run_of (At.init d (by omega)) key
  refine ⟨c, h1, ?_⟩
  rw [bitsOf_drop] at h2
  exact h2.al (by have := result_le d; simp; omega)

theorem packet_eq {α : Type} (ok : Nat → Bool) (st : α) (body : RtpHeader → BitCtx → Option (Err × α × List AVPkt)) (d : List UInt8)
    (hd : d.length < 2 ^ 29) : ∃ c, c.Al (d.drop (result d).2) ∧ packet ok st body d = match (result d).1 with
      | .error e => some (e, st, [])
      | .ok h => if ok h.payloadType = false then some (Err.ERROR_RTP_PAYLOAD_TYPE, st, []) else body h c := by
  obtain ⟨c, h1, h2⟩ := run_front ok d hd
  refine ⟨c, h2, ?_⟩
  unfold packet
  rw [h1]
  simp only [Option.bind_some]
  cases (result d).1 with
  | error e => rfl
  | ok h =>
    dsimp only
    by_cases hk : ok h.payloadType = false
    · rw [if_pos hk, if_pos hk]
    · rw [if_neg hk, if_neg hk]

end Sps.RtpHeader
