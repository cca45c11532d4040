import Verif.Lemmas.RMem
import Verif.Lemmas.FlvMux
import Verif.Spec.Rtmp
/-! # Lemmas for RTMP -/
namespace Sps.RtmpDemuxer
open Spec RProg FlvDemuxer

theorem mem_rest (st : StreamType) (t f c : Nat) (d p : Int) (s : List UInt8) :
    onMem (rest st t f c d p) s = some ((Err.SUCCESS, some { stream := st, pktType := t, payload := s, dts := d, pts := p, flags := f, codec := c }), []) := by
  unfold rest
  rw [mem_size, mem_bytes _ _ _ (Nat.le_refl _), mem_ret]
  simp

theorem beVal1 (b : UInt8) : beVal [b] = b.toNat := by simp [beVal]

theorem video_spec (ts : Nat) (b : List UInt8) :
    ∃ res s', onMem (video ts) b = some (res, s') ∧
      (match Rtmp.judge ⟨9, ts, some b⟩ with
        | .accept p => res = (Err.SUCCESS, some p)
        | .reject e => res = (e, none)
        | _ => False) := by
  unfold video Rtmp.judge
  rw [mem_acq]
  cases b with
  | nil =>
    exact ⟨_, _, rfl, rfl⟩
  | cons f r =>
    have hf := f.toNat_lt
    rw [if_neg (by simp)]
    simp only [ne_eq, not_true_eq_false, if_false, if_true]
    rw [mem_rd8]
    simp only [and_0f _ hf]
    by_cases hc : f.toNat % 16 ≠ 7 ∧ f.toNat % 16 ≠ 12
    · simp only [if_pos hc]; exact ⟨_, _, rfl, rfl⟩
    · simp only [if_neg hc]
      by_cases hk : Flv.isCommand f.toNat = true
      · have : ¬ (f.toNat &&& 0xf0 ≠ 0x50) := by rw [ne_eq, and_f0 _ hf]; simpa using hk
        simp only [if_neg this, if_pos hk, mem_rest]; exact ⟨_, _, rfl, by simp⟩
      · have : f.toNat &&& 0xf0 ≠ 0x50 := by rw [ne_eq, and_f0 _ hf]; simpa using hk
        simp only [if_pos this, if_neg hk]
        rw [mem_acq]
        match r with
        | [] => exact ⟨_, _, rfl, rfl⟩
        | [_] => exact ⟨_, _, rfl, rfl⟩
        | [_, _] => exact ⟨_, _, rfl, rfl⟩
        | [_, _, _] => exact ⟨_, _, rfl, rfl⟩
        | t :: c0 :: c1 :: c2 :: d =>
          rw [if_neg (by simp)]
          simp only [ne_eq, not_true_eq_false, if_false]
          rw [mem_rd8, mem_rd24, mem_rest, signExtend24_eq _ (by simpa using beVal_lt [c0, c1, c2])]
          exact ⟨_, _, rfl, by simp⟩

theorem audio_spec (ts : Nat) (b : List UInt8) :
    match Rtmp.judge ⟨8, ts, some b⟩ with
      | .accept p => ∃ s', onMem (audio ts) b = some ((Err.SUCCESS, some p), s')
      | .reject e => ∃ s', onMem (audio ts) b = some ((e, none), s')
      | .tooShort => ∀ h : b.length < 2 ^ 64, (audio ts).run (Reader.create b) = none
      | _ => False := by
  unfold audio Rtmp.judge
  simp only [show ¬ ((8 : Nat) = 9) by decide, if_false, if_true]
  cases b with
  | nil => exact ⟨_, rfl⟩
  | cons f r =>
    have hf := f.toNat_lt
    simp only
    by_cases hc : f.toNat / 16 ≠ 10
    · rw [if_pos hc, mem_acq, if_neg (by simp)]
      simp only [ne_eq, not_true_eq_false, if_false]
      rw [mem_rd8]
      simp only [and_f0_shift _ hf]
      rw [if_pos hc]; exact ⟨_, rfl⟩
    · rw [if_neg hc]
      cases r with
      | nil =>
        intro h
        have hm := AtMem.create [f] h
        rw [run_bind]
        simp only [acq, run, hm.acquire 1, Option.bind_some, List.length_cons, List.length_nil, Nat.lt_irrefl, if_false,
          ne_eq, not_true_eq_false]
        rw [run_bind]
        simp only [rd8, run, hm.int8, Option.bind_some, and_f0_shift _ hf]
        rw [if_neg (by simpa using hc), run_bind]
        simp [run, Reader.int8, Reader.create, AVBuf.full, Reader.skipBytes, AVBuf.skip]
      | cons t d =>
        rw [mem_acq, if_neg (by simp)]
        simp only [ne_eq, not_true_eq_false, if_false]
        rw [mem_rd8]
        simp only [and_f0_shift _ hf]
        simp only [ne_eq, not_not] at hc
        rw [if_neg (by simpa using hc), mem_rd8, mem_rest, hc]
        exact ⟨_, rfl⟩

/-- The demuxer does what the specification says, for every sequence of messages. -/
theorem readPacket_eq (closed : Err) (ms : List RtmpMsg) (hl : ∀ m ∈ ms, ∀ b, m.body = some b → b.length < 2 ^ 64) :
    readPacket closed ms = Rtmp.first closed ms := by
  induction ms with
  | nil => rfl
  | cons m ms ih =>
    have ih := ih fun x hx => hl x (by simp [hx])
    obtain ⟨ty, ts, body⟩ := m
    cases body with
    | none => simp only [readPacket, branch, Rtmp.first, Rtmp.judge]; exact ih
    | some b =>
      have hb := hl _ (List.mem_cons_self ..) b rfl
      have hm := AtMem.create b hb
      simp only [readPacket, branch, Rtmp.first, Option.getD_some]
      by_cases h9 : ty = 9
      · subst h9
        obtain ⟨res, s', h1, h2⟩ := video_spec ts b
        obtain ⟨r', e1, _⟩ := run_mem _ hm h1
        simp only [if_true, e1, Option.map_some]
        cases hj : Rtmp.judge ⟨9, ts, some b⟩ <;> simp only [hj] at h2
        · simp [h2]
        · simp [h2]
      · by_cases h8 : ty = 8
        · subst h8
          have h := audio_spec ts b
          simp only [show ¬ ((8 : Nat) = 9) by decide, if_false, if_true]
          cases hj : Rtmp.judge ⟨8, ts, some b⟩ with
          | skip => simp only [hj] at h
          | accept p =>
            simp only [hj] at h
            obtain ⟨s', h1⟩ := h
            obtain ⟨r', e1, _⟩ := run_mem _ hm h1
            simp [e1]
          | reject p =>
            simp only [hj] at h
            obtain ⟨s', h1⟩ := h
            obtain ⟨r', e1, _⟩ := run_mem _ hm h1
            simp [e1]
          | tooShort =>
            simp only [hj] at h
            simp [h hb]
        · simp only [if_neg h9, if_neg h8, Rtmp.judge]
          by_cases hs : ty = 18 ∨ ty = 15
          · simp only [if_pos hs]
            obtain ⟨r', e1, _⟩ := run_mem _ hm (mem_rest .subtitle 0 0 0 ts ts b)
            simp [e1]
          · simp only [if_neg hs]; exact ih

end Sps.RtmpDemuxer

namespace Sps.RtmpMuxer
open Spec FlvMuxer FlvDemuxer RtmpDemuxer

theorem and_lt_byte (x m : Nat) (h : m < 256) : x &&& m = (x % 256) &&& m := by
  have h1 : (x &&& m) % 2 ^ 8 = (x % 2 ^ 8) &&& (m % 2 ^ 8) := Nat.and_mod_two_pow
  have h2 : x &&& m ≤ m := Nat.and_le_right
  rw [Nat.mod_eq_of_lt (by omega), Nat.mod_eq_of_lt (by omega : m < 2 ^ 8)] at h1
  exact h1

/-- What the three offset bytes are worth: only the offsets 0 to 15 survive. -/
theorem ctsBytes_spec (p : AVPkt) :
    ∃ c0 c1 c2, ctsBytes p = [c0, c1, c2] ∧
      Flv.signed 24 (beVal [c0, c1, c2]) = ((Flv.bits 8 (p.pts - p.dts) / 16 * 4096 + Flv.bits 8 (p.pts - p.dts) % 16 : Nat) : Int) := by
  refine ⟨_, _, _, rfl, ?_⟩
  have hX : ((low 32 (p.pts - p.dts) + 0xff800000) % 2 ^ 32 ^^^ 0xff800000) % 256 = Flv.bits 8 (p.pts - p.dts) := by
    have : ((low 32 (p.pts - p.dts) + 0xff800000) % 2 ^ 32 ^^^ 0xff800000) % 2 ^ 8 =
        ((low 32 (p.pts - p.dts) + 0xff800000) % 2 ^ 32) % 2 ^ 8 ^^^ 0xff800000 % 2 ^ 8 := Nat.xor_mod_two_pow
    rw [show (256 : Nat) = 2 ^ 8 from rfl, this]
    simp only [Nat.reducePow, Nat.reduceMod, Nat.xor_zero]
    unfold low Flv.bits
    omega
  generalize (low 32 (p.pts - p.dts) + 0xff800000) % 2 ^ 32 ^^^ 0xff800000 = X at hX
  rw [← hX]
  have e1 : UInt8.ofNat (X &&& 0x0f00) = 0 := by
    have : (X &&& 0x0f00) % 2 ^ 8 = 0 := by rw [Nat.and_mod_two_pow]; simp
    apply UInt8.toNat_inj.1
    simpa using this
  rw [e1, and_lt_byte X 0xf0 (by decide), and_lt_byte X 0x0f (by decide)]
  have hk : X % 256 < 256 := Nat.mod_lt _ (by decide)
  generalize X % 256 = k at hk ⊢
  revert k
  decide +kernel

/-- The composition offset an RTMP round trip gives back. -/
def offsetBack (p : AVPkt) : Int :=
  if p.stream = .video ∧ ¬ Flv.isCommand (Flv.bits 8 p.flags) = true then
    ((Flv.bits 8 (p.pts - p.dts) / 16 * 4096 + Flv.bits 8 (p.pts - p.dts) % 16 : Nat) : Int)
  else 0

theorem toNat_ofNat_lt (n : Nat) (h : n < 256) : (UInt8.ofNat n).toNat = n := by
  rw [UInt8.toNat_ofNat']; exact Nat.mod_eq_of_lt h

theorem encode_spec (head : Nat) (hh : 5 ≤ head) (p : AVPkt) (hp : Rtmp.Supported p) :
    ∃ m, encode head p = (Err.SUCCESS, some m) ∧ (∃ b, m.body = some b ∧ b.length ≤ p.payload.length + 5) ∧
      Rtmp.judge m = .accept { p with pts := p.dts + offsetBack p } := by
  obtain ⟨hm, hd, hs, hf⟩ := hp
  obtain ⟨msg, st, pt, pl, dts, pts, flags, codec⟩ := p
  simp only at hm hd hs hf
  have hts : ((low 32 dts : Nat) : Int) = dts := bits32_int dts hd.1 hd.2
  subst hm
  rcases hf with ⟨rfl, ⟨fl, rfl, h1, h2⟩, rfl, h3, rfl⟩ | ⟨rfl, ⟨fl, rfl, h1, hcod, h2, h3⟩⟩ | ⟨rfl, rfl, rfl, rfl, rfl⟩
  · have hlow : low 8 (fl : Int) = fl := bits8_nat fl h1
    refine ⟨_, by simp [encode, AVPkt.isScript, AVPkt.isAudio, show ¬ head < 2 by omega]; rfl,
      ⟨_, rfl, by simp⟩, ?_⟩
    simp only [Rtmp.judge, hlow, List.cons_append, List.nil_append, toNat_ofNat_lt fl h1, h2]
    rcases h3 with rfl | rfl <;> simp [AVPkt.isAudioHeader, AVPkt.isAudio, hts, offsetBack]
  · have hlow : low 8 (fl : Int) = fl := bits8_nat fl h1
    by_cases hk : Flv.isCommand fl = true
    · simp only [hk, if_true] at h3
      obtain ⟨rfl, rfl⟩ := h3
      have hn : ¬ (fl &&& 0xf0 ≠ 0x50) := by rw [ne_eq, and_f0 _ h1]; simpa using hk
      refine ⟨_, by simp [encode, AVPkt.isScript, AVPkt.isAudio, AVPkt.isVideo, show ¬ head < 5 by omega, hlow, if_neg hn]; rfl,
        ⟨_, rfl, by simp⟩, ?_⟩
      simp only [Rtmp.judge, List.cons_append, List.nil_append, toNat_ofNat_lt fl h1]
      have hc : ¬ (fl % 16 ≠ 7 ∧ fl % 16 ≠ 12) := by omega
      have hb : Flv.bits 8 (fl : Int) = fl := hlow
      rw [hcod]; simp [hc, hk, hts, offsetBack, hb]
    · simp only [hk, if_false, Bool.false_eq_true] at h3
      obtain ⟨h3, h4, h5⟩ := h3
      have hn : (fl &&& 0xf0 ≠ 0x50) := by rw [ne_eq, and_f0 _ h1]; simpa using hk
      obtain ⟨c0, c1, c2, hc1, hc2⟩ := ctsBytes_spec { stream := .video, pktType := pt, payload := pl, dts := dts, pts := pts, flags := fl, codec := codec }
      refine ⟨_, by simp [encode, AVPkt.isScript, AVPkt.isAudio, AVPkt.isVideo, show ¬ head < 5 by omega, hlow, if_pos hn, hc1]; rfl,
        ⟨_, rfl, by simp⟩, ?_⟩
      have hc : ¬ (fl % 16 ≠ 7 ∧ fl % 16 ≠ 12) := by omega
      have hb : Flv.bits 8 (fl : Int) = fl := hlow
      simp only [Rtmp.judge, List.cons_append, List.nil_append, toNat_ofNat_lt fl h1, if_true, if_neg hc, if_neg hk, hc2]
      have ho : offsetBack { stream := .video, pktType := pt, payload := pl, dts := dts, pts := pts, flags := fl, codec := codec } =
          ((Flv.bits 8 (pts - dts) / 16 * 4096 + Flv.bits 8 (pts - dts) % 16 : Nat) : Int) := by
        unfold offsetBack; rw [if_pos]; exact ⟨rfl, by simp only [hb]; exact hk⟩
      rw [ho]
      rw [hcod]
      rcases h3 with rfl | rfl <;> simp [AVPkt.isVideoHeader, AVPkt.isVideo, hts]
  · refine ⟨_, by simp [encode, AVPkt.isScript]; rfl, ⟨_, rfl, by simp⟩, ?_⟩
    simp [Rtmp.judge, hts, offsetBack]

/-- Exactly the offsets 0 to 15 come back. -/
theorem offsetBack_iff (p : AVPkt) (hp : Rtmp.Supported p) :
    p.dts + offsetBack p = p.pts ↔
      (p.stream = .video → Flv.isCommand (Flv.bits 8 p.flags) = false → 0 ≤ p.pts - p.dts ∧ p.pts - p.dts < 16) := by
  unfold offsetBack
  by_cases h : p.stream = .video ∧ ¬ Flv.isCommand (Flv.bits 8 p.flags) = true
  · rw [if_pos h]
    simp only [h.1, true_imp_iff, Bool.not_eq_true _ ▸ h.2]
    have hb : ((Flv.bits 8 (p.pts - p.dts) : Nat) : Int) = (p.pts - p.dts) % 256 := by
      unfold Flv.bits; omega
    constructor
    · intro hx; omega
    · intro hx; omega
  · rw [if_neg h]
    have hpts : p.pts = p.dts := by
      obtain ⟨hm, hd, hs, hf⟩ := hp
      rcases hf with ⟨_, _, _, _, h⟩ | ⟨h1, ⟨fl, h2, h3, h4, h5, h6⟩⟩ | ⟨_, _, _, _, h⟩
      · exact h
      · have : Flv.bits 8 p.flags = fl := by rw [h2]; exact bits8_nat fl h3
        rw [this] at h
        have hk : Flv.isCommand fl = true := by simpa [h1] using h
        rw [if_pos hk] at h6
        exact h6.2
      · exact h
    have : ¬ (p.stream = .video ∧ Flv.isCommand (Flv.bits 8 p.flags) = false) := by simpa using h
    constructor
    · intro _ h1 h2; exact absurd ⟨h1, h2⟩ this
    · intro _; omega

theorem writePackets_spec (head : Nat) (hh : 5 ≤ head) (ps : List AVPkt) (hp : ∀ p ∈ ps, Rtmp.Supported p) (out : List RtmpMsg) :
    ∃ ms, writePackets head ps { out := out, fails := [] } = (Err.SUCCESS, { out := out ++ ms, fails := [] }) ∧
      (∀ m ∈ ms, ∀ b, m.body = some b → b.length < 2 ^ 64) ∧
      ms.map Rtmp.judge = ps.map fun p => Rtmp.Verdict.accept { p with pts := p.dts + offsetBack p } := by
  induction ps generalizing out with
  | nil => exact ⟨[], by simp [writePackets], by simp, rfl⟩
  | cons p ps ih =>
    obtain ⟨m, e1, ⟨b, e2, e3⟩, e4⟩ := encode_spec head hh p (hp p (by simp))
    obtain ⟨ms, i1, i2, i3⟩ := ih (fun q hq => hp q (by simp [hq])) (out ++ [m])
    refine ⟨m :: ms, ?_, ?_, ?_⟩
    · simp only [writePackets, writePacket, e1, MsgSink.write]
      rw [if_neg (by simp), i1]
      simp
    · intro x hx b' hb'
      rcases List.mem_cons.1 hx with rfl | hx
      · rw [e2] at hb'; cases hb'
        have := (hp p (by simp)).size
        omega
      · exact i2 x hx b' hb'
    · simp [e4, i3]

theorem readPackets_accept (closed : Err) (ms : List RtmpMsg) (qs : List AVPkt)
    (hl : ∀ m ∈ ms, ∀ b, m.body = some b → b.length < 2 ^ 64) (h : ms.map Rtmp.judge = qs.map Rtmp.Verdict.accept) :
    RtmpDemuxer.readPackets closed (qs.length + 1) ms = some (qs, closed) := by
  induction ms generalizing qs with
  | nil =>
    cases qs with
    | nil => rfl
    | cons q qs => simp at h
  | cons m ms ih =>
    cases qs with
    | nil => simp at h
    | cons q qs =>
      simp only [List.map_cons, List.cons.injEq] at h
      have i := ih qs (fun x hx => hl x (by simp [hx])) h.2
      simp only [List.length_cons]
      rw [RtmpDemuxer.readPackets, readPacket_eq closed _ hl]
      simp only [Rtmp.first, h.1]
      simp [i]

end Sps.RtmpMuxer
