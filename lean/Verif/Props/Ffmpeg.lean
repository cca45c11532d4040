import Verif.Lemmas.Ffmpeg
/-!
# C103: remuxing with FFmpeg
-/
namespace Sps.Ffmpeg
open Spec Spec.Ffmpeg

/-- The packets of the streams that are kept. -/
def keptPkts (ss : List FfStream) (ps : List FfPkt) : List FfPkt := ps.filter fun p => (ss[p.index]?).any fun s => decide (Kept s)

theorem keptPkts_eq {ks ds : List FfStream} (hk : ∀ s ∈ ks, Kept s) (hd : ∀ s ∈ ds, ¬Kept s) (ps : List FfPkt) :
    keptPkts (ks ++ ds) ps = ps.filter fun p => p.index < ks.length := by
  unfold keptPkts
  apply List.filter_congr
  intro p _
  by_cases h : p.index < ks.length
  · rw [List.getElem?_append_left h, List.getElem?_eq_getElem h]
    simp [h, hk _ (List.getElem_mem h)]
  · rw [List.getElem?_append_right (by omega)]
    cases hx : ds[p.index - ks.length]? with
    | none => simp [h]
    | some s => simp [h, hd s (List.mem_of_getElem? hx)]

theorem read_all {ks ds : List FfStream} (ps : List FfPkt) (hi : ∀ p ∈ ps, p.index < (ks ++ ds).length) :
    ∃ qs, List.Forall₂ (fun p q => Ff.readPacket (ks ++ ds) (some p) = some (.ok q)) ps qs ∧
      List.Forall₂ (fun p q => q.pkt = p ∧ ∀ s, ks[p.index]? = some s → q.tb = s.tb) ps qs := by
  induction ps with
  | nil => exact ⟨[], .nil, .nil⟩
  | cons p ps ih =>
    obtain ⟨qs, h1, h2⟩ := ih fun x hx => hi x (by simp [hx])
    have hp := hi p (by simp)
    refine ⟨_ :: qs, .cons (by simp only [Ff.readPacket]; rw [List.getElem?_eq_getElem hp]; rfl) h1, .cons ⟨rfl, fun s hs => ?_⟩ h2⟩
    have := List.getElem?_append_left (l₂ := ds) (List.getElem?_eq_some_iff.1 hs).1
    rw [hs, List.getElem?_eq_getElem hp] at this
    exact congrArg FfStream.tb (Option.some.inj this)

theorem forall_copy {ks ds : List FfStream} {tbs : Nat → TimeBase} {ps : List FfPkt} (hw : ∀ p ∈ ps, Writable ks tbs p) (hi : ∀ p ∈ ps, p.index < ks.length) :
    List.Forall₂ (Copy (ks ++ ds) (ks.mapIdx fun i s => { s with tb := tbs i })) ps (ps.map (conv ks tbs)) := by
  induction ps with
  | nil => exact .nil
  | cons p ps ih => exact .cons (conv_copy rfl (hi p (by simp)) (hw p (by simp))) (ih (fun x hx => hw x (by simp [hx])) fun x hx => hi x (by simp [hx]))

/-- **C103**, for inputs whose streams are all kept but for some last ones, and packets with times that are neither negative nor too large. Every packet of a kept stream is given to FFmpeg's muxer, in
order and once, with the same content, in the output stream that stands for its stream, at the same times (to half a unit of the output); until a write fails, which is reported. `tbs` are the time bases
the output format chooses, `as` what its writes will return.

Missing: ignored streams before the media, packets without times or before zero, and times in
milliseconds (the negations of C103). -/
theorem C103_remux_partial (ks ds : List FfStream) (hk : ∀ s ∈ ks, Kept s) (hd : ∀ s ∈ ds, ¬Kept s) (tbs : Nat → TimeBase) (as : List Bool)
    (ps : List FfPkt) (hi : ∀ p ∈ ps, p.index < (ks ++ ds).length) (hw : ∀ p ∈ ps, Writable ks tbs p) :
    ∃ qs e m n, List.Forall₂ (fun p q => Ff.readPacket (ks ++ ds) (some p) = some (.ok q)) ps qs ∧
      ((FfMuxer.setCtx { answers := as } (ks ++ ds)).writeHeader tbs).writes qs = .ret (e, m) ∧
      List.Forall₂ (Copy (ks ++ ds) m.outs) ((keptPkts (ks ++ ds) ps).take n) m.sent ∧
      (e = Err.SUCCESS → (keptPkts (ks ++ ds) ps).length ≤ n) ∧ (e ≠ Err.SUCCESS → e = Err.ERROR_FFMPEG_WRITE ∧ false ∈ as) := by
  obtain ⟨qs, h1, h2⟩ := read_all (ks := ks) (ds := ds) ps hi
  have hr := ready hk hd as tbs
  obtain ⟨e, m, n, h3, h4, h5, h6, h7⟩ := writes_spec ps hw qs h2 _ hr
  have hans : ((FfMuxer.setCtx { answers := as } (ks ++ ds)).writeHeader tbs).answers = as := by rw [setCtx_eq ks ds hk hd]; rfl
  have hsent : ((FfMuxer.setCtx { answers := as } (ks ++ ds)).writeHeader tbs).sent = [] := by rw [setCtx_eq ks ds hk hd]; rfl
  refine ⟨qs, e, m, n, h1, h3, ?_, fun he => by rw [keptPkts_eq hk hd]; exact h6 he, fun he => by rw [hans] at h7; exact h7 he⟩
  rw [h5, hsent, List.nil_append, ← List.map_take, h4, hr.outs, keptPkts_eq hk hd]
  exact forall_copy (fun p hp => hw p ((List.mem_filter.1 (List.mem_of_mem_take hp)).1)) (fun p hp => by simpa using (List.mem_filter.1 (List.mem_of_mem_take hp)).2)

/-- **C103**, order: the decoding times of a stream of the output are in order if those of its input are.

Missing: ignored streams before the media, packets without times or before zero, and times in
milliseconds (the negations of C103). -/
theorem C103_order_partial (ks ds : List FfStream) (hk : ∀ s ∈ ks, Kept s) (hd : ∀ s ∈ ds, ¬Kept s) (tbs : Nat → TimeBase)
    (ps : List FfPkt) (hi : ∀ p ∈ ps, p.index < (ks ++ ds).length) (hw : ∀ p ∈ ps, Writable ks tbs p) (i : Nat)
    (ho : ((ps.filter fun p => p.index = i).map FfPkt.dts).Pairwise (· ≤ ·)) :
    ∃ qs m, List.Forall₂ (fun p q => Ff.readPacket (ks ++ ds) (some p) = some (.ok q)) ps qs ∧
      ((FfMuxer.setCtx {} (ks ++ ds)).writeHeader tbs).writes qs = .ret (Err.SUCCESS, m) ∧ ((m.sent.filter fun p => p.index = i).map FfPkt.dts).Pairwise (· ≤ ·) := by
  obtain ⟨qs, h1, h2⟩ := read_all (ks := ks) (ds := ds) ps hi
  have hr := ready hk hd [] tbs
  obtain ⟨e, m, n, h3, h4, h5, h6, h7⟩ := writes_spec ps hw qs h2 _ hr
  have hans : ((FfMuxer.setCtx {} (ks ++ ds)).writeHeader tbs).answers = [] := by rw [setCtx_eq ks ds hk hd]; rfl
  have hsent : ((FfMuxer.setCtx {} (ks ++ ds)).writeHeader tbs).sent = [] := by rw [setCtx_eq ks ds hk hd]; rfl
  have he : e = Err.SUCCESS := by
    apply Decidable.byContradiction
    intro hne
    have := (h7 hne).2
    rw [hans] at this
    simp at this
  subst he
  refine ⟨qs, m, h1, h3, ?_⟩
  have hall := h6 rfl
  rw [h5, hsent, List.nil_append, List.take_of_length_le (by simpa using hall)]
  have hidx : ∀ p : FfPkt, (conv ks tbs p).index = p.index := fun p => by unfold conv; split <;> rfl
  rw [List.filter_map, List.map_map]
  have hf : ((fun p : FfPkt => decide (p.index = i)) ∘ conv ks tbs) = fun p => decide (p.index = i) := by funext p; simp [hidx]
  rw [hf]
  rw [List.pairwise_map] at ho ⊢
  refine (ho.sublist (List.filter_sublist.filter _)).imp_of_mem fun {a b} ha hb hab => ?_
  simp only [List.mem_filter, decide_eq_true_eq] at ha hb
  obtain ⟨⟨ha1, ha3⟩, ha2⟩ := ha
  obtain ⟨⟨hb1, hb3⟩, hb2⟩ := hb
  have hs : ks[i]? = some ks[i] := List.getElem?_eq_getElem (by omega)
  have hsa : ks[a.index]? = some ks[i] := by rw [ha2]; exact hs
  have hsb : ks[b.index]? = some ks[i] := by rw [hb2]; exact hs
  obtain ⟨g1, g2, -, f1⟩ := (hw a ha1).times _ hsa
  obtain ⟨-, -, -, f2⟩ := (hw b hb1).times _ hsb
  simp only [Function.comp, conv, hsa, hsb]
  rw [ha2] at f1 g2 ⊢
  rw [hb2] at f2 ⊢
  exact rescaleQ_mono g1 g2 f1 f2 hab

/-! ## Example -/

def video : FfStream := { media := .video, params := [1, 2], tb := ⟨1, 90000⟩ }
def audio : FfStream := { media := .audio, params := [3], tb := ⟨1, 44100⟩ }
def cover : FfStream := { media := .attachment, params := [4], tb := ⟨1, 1⟩ }
/-- Output in milliseconds, as FLV has it. -/
def ms : Nat → TimeBase := fun _ => ⟨1, 1000⟩

def frames : List FfPkt := [⟨0, 3600, 0, true, [9, 9]⟩, ⟨1, 1024, 1024, true, [7]⟩, ⟨2, 0, 0, true, [5]⟩, ⟨0, 7200, 3600, false, [8]⟩]

/-- The hypotheses hold: two streams that are kept, and an attachment behind them. -/
example : (∀ s ∈ [video, audio], Kept s) ∧ (∀ s ∈ [cover], ¬Kept s) ∧ (∀ p ∈ frames, p.index < 3) ∧ (∀ p ∈ frames, Writable [video, audio] ms p) := by
  refine ⟨by decide, by decide, by decide, fun p hp => ⟨fun s hs => ?_⟩⟩
  unfold frames at hp
  simp only [List.mem_cons, List.not_mem_nil, or_false] at hp
  rcases hp with rfl | rfl | rfl | rfl <;> cases hs <;> simp only [Good, Fits] <;> decide

example : ∃ m, ((FfMuxer.setCtx {} [video, audio, cover]).writeHeader ms).writes (frames.filterMap fun p => match Ff.readPacket [video, audio, cover] (some p) with
    | some (.ok q) => some q
    | _ => none) = .ret (Err.SUCCESS, m) ∧ m.sent = [⟨0, 40, 0, true, [9, 9]⟩, ⟨1, 23, 23, true, [7]⟩, ⟨0, 80, 40, false, [8]⟩] :=
  ⟨_, rfl, by decide +kernel⟩

/-! ## What goes wrong -/

/-- What comes of packets. -/
def remux (ss : List FfStream) (ps : List FfPkt) : FfOut (Err × List FfStream × List FfPkt) :=
  match ((FfMuxer.setCtx {} ss).writeHeader ms).writes (ps.filterMap fun p => match Ff.readPacket ss (some p) with
    | some (.ok q) => some q
    | _ => none) with
  | .ret (e, m) => .ret (e, m.outs, m.sent)
  | .exits => .exits
  | .undef => .undef

/-- **C103**, an attachment before the media: the packets of the video are written into the stream of the audio; those of the audio are read at a stream that is not there. -/
theorem C103_negation_attachment : remux [cover, video, audio] [⟨1, 3600, 3600, true, [9]⟩] = .ret (Err.SUCCESS, [{ video with tb := ms 0 }, { audio with tb := ms 1 }], [⟨1, 40, 40, true, [9]⟩]) ∧
    remux [cover, video, audio] [⟨2, 1024, 1024, true, [7]⟩] = .undef := by decide +kernel

/-- **C103**, a packet without a decoding time, or with one that is at least half a unit of the output before zero, ends the process: whatever the streams and the format. -/
theorem C103_negation_exit (ks ds : List FfStream) (hk : ∀ s ∈ ks, Kept s) (hd : ∀ s ∈ ds, ¬Kept s) (tbs : Nat → TimeBase) (as : List Bool) (p : FfPkt) (s : FfStream)
    (hs : ks[p.index]? = some s) (g1 : Good s.tb) (g2 : Good (tbs p.index))
    (ht : p.dts = Ff.NOPTS ∨ (p.dts < 0 ∧ (tbs p.index).num * s.tb.den ≤ 2 * (-p.dts * (s.tb.num * (tbs p.index).den)))) :
    ∃ q, Ff.readPacket (ks ++ ds) (some p) = some (.ok q) ∧ ((FfMuxer.setCtx { answers := as } (ks ++ ds)).writeHeader tbs).writePacket (some q) = .exits := by
  obtain ⟨hi, hks⟩ := List.getElem?_eq_some_iff.1 hs
  have hr := ready hk hd as tbs
  refine ⟨{ pkt := p, tb := s.tb, type := FfType.of s.media, pts := Ff.rescalePass p.pts s.tb s.tb, dts := Ff.rescalePass p.dts s.tb s.tb }, ?_, ?_⟩
  · simp only [Ff.readPacket]
    rw [List.getElem?_append_left hi, hs]
    rfl
  · have ho : ((FfMuxer.setCtx { answers := as } (ks ++ ds)).writeHeader tbs).outs[p.index]? = some { s with tb := tbs p.index } := by rw [hr.outs, List.getElem?_mapIdx, hs]; rfl
    unfold FfMuxer.writePacket
    simp only [mapping_kept hr hi, ho]
    rw [if_neg (by omega)]
    apply if_pos
    left
    unfold FfMuxer.rescaleTs
    rcases ht with h | ⟨h1, h2⟩
    · simp only [h]
      rw [if_neg (by simp)]
      decide
    · by_cases hn : p.dts = Ff.NOPTS
      · simp only [hn]
        rw [if_neg (by simp)]
        decide
      · simp only [if_pos hn]
        obtain ⟨h3, h4⟩ := base_pos g1 g2
        unfold Ff.rescaleQ Ff.rescale
        rw [if_neg (by omega)]
        simp only [if_pos h1]
        split
        · decide
        · have : 1 ≤ (-p.dts * (↑s.tb.num * ↑(tbs p.index).den) + ↑(tbs p.index).num * ↑s.tb.den / 2) / (↑(tbs p.index).num * (s.tb.den : Int)) := by
            apply Int.le_ediv_of_mul_le h4
            omega
          omega

/-- **C103**, the times of a packet that was read are not in milliseconds, as those of every other packet of the program are: they are what the container has, in the units of its stream. -/
theorem C103_negation_ms (ss : List FfStream) (p : FfPkt) (s : FfStream) (hs : ss[p.index]? = some s) (g : Good s.tb) (h : Ff.NOPTS ≤ p.dts ∧ p.dts ≤ Ff.MAX) :
    ∃ q, Ff.readPacket ss (some p) = some (.ok q) ∧ q.dts = p.dts := by
  simp only [Ff.readPacket, hs]
  refine ⟨_, rfl, ?_⟩
  show Ff.rescalePass p.dts s.tb s.tb = _
  unfold Ff.rescalePass
  split
  · rfl
  · next hn => exact rescaleQ_same g (by omega) h.2

/-- **C103**, what a packet says it is: video if its stream is, a key frame if it is one of video that FFmpeg marks. (Audio packets do not say that they are audio.)

Missing: ignored streams before the media, packets without times or before zero, and times in
milliseconds (the negations of C103). -/
theorem C103_kinds_partial (ss : List FfStream) (p : FfPkt) (s : FfStream) (hs : ss[p.index]? = some s) :
    ∃ q, Ff.readPacket ss (some p) = some (.ok q) ∧ q.pkt = p ∧ (q.isVideo = true ↔ s.media = .video) ∧ (q.isKeyframe = true ↔ s.media = .video ∧ p.key = true) ∧ q.isAudio = false := by
  simp only [Ff.readPacket, hs]
  refine ⟨_, rfl, rfl, ?_, ?_, rfl⟩
  · cases h : s.media <;> simp [FfPacket.isVideo, FfType.of]
  · cases h : s.media <;> simp [FfPacket.isKeyframe, FfPacket.isVideo, FfType.of]

example : (match Ff.readPacket [video, audio] (some ⟨1, 0, 0, true, []⟩) with
    | some (.ok q) => some (q.isVideo, q.isKeyframe, q.isAudio)
    | _ => none) = some (false, false, false) := by decide +kernel

/-- A second of video. -/
example : (match Ff.readPacket [video] (some ⟨0, 90000, 90000, true, []⟩) with
    | some (.ok q) => some (q.dts, Ff.rescaleQ 90000 video.tb ⟨1, 1000⟩)
    | _ => none) = some (90000, 1000) := by decide +kernel

end Sps.Ffmpeg
