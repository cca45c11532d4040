import Verif.Spec.Ffmpeg
import Mathlib.Data.List.Forall2
namespace Sps.Ffmpeg
open Spec Spec.Ffmpeg

theorem ediv_between (x c : Int) (hc : 0 < c) : x / c * c ≤ x ∧ x < x / c * c + c := by
  have h1 := Int.emod_nonneg x (by omega : c ≠ 0)
  have h2 := Int.emod_lt_of_pos x hc
  have h3 := Int.mul_ediv_add_emod x c
  have h4 : c * (x / c) = x / c * c := Int.mul_comm ..
  omega

theorem rescale_pos {a b c : Int} (ha : 0 ≤ a) (hb : 0 ≤ b) (hc : 0 < c) (hf : a * b < Ff.MAX * c) :
    Ff.rescale a b c = (a * b + c / 2) / c ∧ 0 ≤ Ff.rescale a b c ∧ 2 * ((a * b - Ff.rescale a b c * c).natAbs : Int) ≤ c := by
  have h2 : 0 ≤ a * b := Int.mul_nonneg ha hb
  have hv : (a * b + c / 2) / c ≤ Ff.MAX := by
    have : (a * b + c / 2) / c < Ff.MAX + 1 := by
      apply Int.ediv_lt_of_lt_mul hc
      rw [Int.add_mul]
      omega
    omega
  have he : Ff.rescale a b c = (a * b + c / 2) / c := by
    unfold Ff.rescale
    rw [if_neg (by omega), if_neg (by omega : ¬a < 0)]
    simp only [if_neg (by omega : ¬a < 0)]
    rw [if_neg (by omega)]
  refine ⟨he, ?_, ?_⟩
  · rw [he]
    exact Int.ediv_nonneg (by omega) (by omega)
  · rw [he]
    obtain ⟨h3, h4⟩ := ediv_between (a * b + c / 2) c hc
    omega

theorem base_pos {p q : TimeBase} (hp : Good p) (hq : Good q) : (0 : Int) ≤ p.num * q.den ∧ (0 : Int) < q.num * p.den := by
  obtain ⟨h1, h2⟩ := hp
  obtain ⟨h3, h4⟩ := hq
  constructor
  · exact Int.mul_nonneg (by omega) (by omega)
  · exact Int.mul_pos (by omega) (by omega)

theorem rescaleQ_near {a : Int} {p q : TimeBase} (hp : Good p) (hq : Good q) (h : Fits a p q) : 0 ≤ Ff.rescaleQ a p q ∧ Near a p (Ff.rescaleQ a p q) q := by
  obtain ⟨h1, h2⟩ := base_pos hp hq
  obtain ⟨h3, h4⟩ := h
  rw [Int.mul_assoc, Int.mul_assoc] at h4
  obtain ⟨-, h5, h6⟩ := rescale_pos h3 h1 h2 h4
  refine ⟨h5, ?_⟩
  unfold Near Ff.rescaleQ
  rw [Int.mul_assoc, Int.mul_assoc]
  exact h6

theorem rescaleQ_mono {a b : Int} {p q : TimeBase} (hp : Good p) (hq : Good q) (ha : Fits a p q) (hb : Fits b p q) (h : a ≤ b) : Ff.rescaleQ a p q ≤ Ff.rescaleQ b p q := by
  obtain ⟨h1, h2⟩ := base_pos hp hq
  obtain ⟨h3, h4⟩ := ha
  obtain ⟨h5, h6⟩ := hb
  rw [Int.mul_assoc, Int.mul_assoc] at h4 h6
  unfold Ff.rescaleQ
  rw [(rescale_pos h3 h1 h2 h4).1, (rescale_pos h5 h1 h2 h6).1]
  apply Int.ediv_le_ediv h2
  have := Int.mul_le_mul_of_nonneg_right h h1
  omega

theorem rescaleQ_same {a : Int} {p : TimeBase} (hp : Good p) (h0 : Ff.NOPTS < a) (h1 : a ≤ Ff.MAX) : Ff.rescaleQ a p p = a := by
  obtain ⟨-, h2⟩ := base_pos hp hp
  unfold Ff.rescaleQ Ff.rescale
  rw [if_neg (by omega)]
  have key : ∀ x : Int, (x * (p.num * p.den) + (p.num * p.den : Int) / 2) / (p.num * p.den) = x := by
    intro x
    rw [Int.add_comm, Int.add_mul_ediv_right _ _ (by omega), Int.ediv_eq_zero_of_lt (by omega) (by omega)]
    omega
  simp only [key]
  unfold Ff.MAX at *
  unfold Ff.NOPTS at *
  split <;> split <;> first | omega | (split <;> omega)

/-! ## The muxer -/

theorem kept_iff (s : FfStream) : (s.media ≠ .audio ∧ s.media ≠ .video ∧ s.media ≠ .subtitle ∧ s.media ≠ .data) ↔ ¬Kept s := by
  unfold Kept
  cases s.media <;> simp

theorem setCtx_kept (ks : List FfStream) (hk : ∀ s ∈ ks, Kept s) (m : FfMuxer) (h : m.mapping = (List.range m.mapping.length).map Int.ofNat) :
    m.setCtx ks = { m with outs := m.outs ++ ks.map fun s => { s with tb := ⟨0, 1⟩ }, mapping := (List.range (m.mapping.length + ks.length)).map Int.ofNat } := by
  induction ks generalizing m with
  | nil =>
    simp only [FfMuxer.setCtx, List.foldl_nil, List.map_nil, List.append_nil, List.length_nil, Nat.add_zero, ← h]
  | cons s ks ih =>
    have h1 : m.onStream s = { m with outs := m.outs ++ [{ s with tb := ⟨0, 1⟩ }], mapping := m.mapping ++ [(m.mapping.length : Int)] } := by
      unfold FfMuxer.onStream
      rw [if_neg (by rw [kept_iff]; simpa using hk s (by simp))]
    show FfMuxer.setCtx (m.onStream s) ks = _
    rw [ih (fun t ht => hk t (by simp [ht])) _ (by
      rw [h1]
      simp only [List.length_append, List.length_singleton, List.range_succ, List.map_append, List.map_cons, List.map_nil, ← h]
      rfl), h1]
    simp only [List.length_append, List.length_singleton, List.map_cons, List.append_assoc, List.cons_append, List.nil_append, List.length_cons]
    congr 3
    simp only [List.length_nil]
    omega

theorem setCtx_ignored (ds : List FfStream) (hd : ∀ s ∈ ds, ¬Kept s) (m : FfMuxer) : m.setCtx ds = { m with mapping := m.mapping ++ List.replicate ds.length (-1) } := by
  induction ds generalizing m with
  | nil => simp [FfMuxer.setCtx]
  | cons s ds ih =>
    have h1 : m.onStream s = { m with mapping := m.mapping ++ [-1] } := by
      unfold FfMuxer.onStream
      rw [if_pos ((kept_iff s).2 (hd s (by simp)))]
    show FfMuxer.setCtx (m.onStream s) ds = _
    rw [ih (fun t ht => hd t (by simp [ht])), h1]
    simp [List.replicate_succ]

/-- The muxer for an input whose streams are all taken but some last ones. -/
theorem setCtx_eq (ks ds : List FfStream) (hk : ∀ s ∈ ks, Kept s) (hd : ∀ s ∈ ds, ¬Kept s) (as : List Bool) :
    FfMuxer.setCtx { answers := as } (ks ++ ds) = { outs := ks.map fun s => { s with tb := ⟨0, 1⟩ }, mapping := (List.range ks.length).map Int.ofNat ++ List.replicate ds.length (-1), sent := [], answers := as } := by
  unfold FfMuxer.setCtx
  rw [List.foldl_append]
  show FfMuxer.setCtx (FfMuxer.setCtx _ ks) ds = _
  rw [setCtx_ignored ds hd, setCtx_kept ks hk _ rfl]
  simp

/-- A muxer ready to write: the header is written. -/
structure Ready (ks ds : List FfStream) (tbs : Nat → TimeBase) (m : FfMuxer) : Prop where
  outs : m.outs = ks.mapIdx fun i s => { s with tb := tbs i }
  mapping : m.mapping = (List.range ks.length).map Int.ofNat ++ List.replicate ds.length (-1)

theorem ready {ks ds : List FfStream} (hk : ∀ s ∈ ks, Kept s) (hd : ∀ s ∈ ds, ¬Kept s) (as : List Bool) (tbs : Nat → TimeBase) :
    Ready ks ds tbs ((FfMuxer.setCtx { answers := as } (ks ++ ds)).writeHeader tbs) := by
  rw [setCtx_eq ks ds hk hd]
  refine ⟨?_, rfl⟩
  simp only [FfMuxer.writeHeader]
  apply List.ext_getElem?
  intro i
  simp only [List.getElem?_mapIdx, List.getElem?_map]
  cases ks[i]? <;> rfl

/-- What becomes of a packet. -/
def conv (ss : List FfStream) (tbs : Nat → TimeBase) (p : FfPkt) : FfPkt :=
  match ss[p.index]? with
  | none => p
  | some s => { p with pts := Ff.rescaleQ p.pts s.tb (tbs p.index), dts := Ff.rescaleQ p.dts s.tb (tbs p.index) }

theorem write_ignored {ks ds : List FfStream} {tbs : Nat → TimeBase} {m : FfMuxer} (hm : Ready ks ds tbs m) (p : FfPacket) (hp : ks.length ≤ p.pkt.index) :
    m.writePacket (some p) = .ret (Err.SUCCESS, m) := by
  unfold FfMuxer.writePacket
  simp only [hm.mapping]
  rw [List.getElem?_append_right (by simpa using hp)]
  by_cases h : p.pkt.index - ks.length < ds.length
  · rw [List.getElem?_replicate]
    simp [h]
  · rw [List.getElem?_replicate]
    simp [h]

theorem mapping_kept {ks ds : List FfStream} {tbs : Nat → TimeBase} {m : FfMuxer} (hm : Ready ks ds tbs m) {i : Nat} (hi : i < ks.length) : m.mapping[i]? = some (i : Int) := by
  rw [hm.mapping, List.getElem?_append_left (by simpa using hi)]
  simp [hi]

theorem write_kept {ks ds : List FfStream} {tbs : Nat → TimeBase} {m : FfMuxer} (hm : Ready ks ds tbs m) (p : FfPacket) {s : FfStream} (hs : ks[p.pkt.index]? = some s) (htb : p.tb = s.tb)
    (hw : Writable ks tbs p.pkt) :
    m.writePacket (some p) = match m.answers with
      | [] => .ret (Err.SUCCESS, { m with sent := m.sent ++ [conv ks tbs p.pkt] })
      | true :: as => .ret (Err.SUCCESS, { m with sent := m.sent ++ [conv ks tbs p.pkt], answers := as })
      | false :: as => .ret (Err.ERROR_FFMPEG_WRITE, { m with answers := as }) := by
  obtain ⟨hi, -⟩ := List.getElem?_eq_some_iff.1 hs
  obtain ⟨g1, g2, f1, f2⟩ := hw.times s hs
  have e : FfMuxer.rescaleTs p.pkt p.tb (tbs p.pkt.index) = conv ks tbs p.pkt := by
    have n1 : p.pkt.pts ≠ Ff.NOPTS := by have := f1.1; unfold Ff.NOPTS; omega
    have n2 : p.pkt.dts ≠ Ff.NOPTS := by have := f2.1; unfold Ff.NOPTS; omega
    unfold FfMuxer.rescaleTs conv
    rw [hs, htb, if_pos n1, if_pos n2]
  have hpos : ¬((conv ks tbs p.pkt).dts < 0 ∨ (conv ks tbs p.pkt).pts < 0) := by
    unfold conv
    rw [hs]
    have := (rescaleQ_near g1 g2 f1).1
    have := (rescaleQ_near g1 g2 f2).1
    simp only
    omega
  have ho : m.outs[p.pkt.index]? = some { s with tb := tbs p.pkt.index } := by rw [hm.outs, List.getElem?_mapIdx, hs]; rfl
  unfold FfMuxer.writePacket
  simp only [mapping_kept hm hi, ho, e]
  rw [if_neg (by omega)]
  rw [if_neg hpos]
  match m.answers with
  | [] => rfl
  | true :: _ => rfl
  | false :: _ => rfl

theorem conv_copy {ks ds outs : List FfStream} {tbs : Nat → TimeBase} (ho : outs = ks.mapIdx fun i s => { s with tb := tbs i }) {p : FfPkt} (hi : p.index < ks.length) (hw : Writable ks tbs p) :
    Copy (ks ++ ds) outs p (conv ks tbs p) := by
  have hs : ks[p.index]? = some ks[p.index] := List.getElem?_eq_getElem hi
  obtain ⟨g1, g2, f1, f2⟩ := hw.times _ hs
  have hidx : (conv ks tbs p).index = p.index := by unfold conv; rw [hs]
  refine ⟨by unfold conv; rw [hs]; exact ⟨rfl, rfl⟩, ks[p.index], { ks[p.index] with tb := tbs p.index }, by rw [List.getElem?_append_left hi, hs], ?_, rfl, rfl, ?_, ?_⟩
  · rw [hidx, ho, List.getElem?_mapIdx, hs]; rfl
  · unfold conv; rw [hs]; exact (rescaleQ_near g1 g2 f1).2
  · unfold conv; rw [hs]; exact (rescaleQ_near g1 g2 f2).2

theorem writes_spec {ks ds : List FfStream} {tbs : Nat → TimeBase} (ps : List FfPkt) (hw : ∀ p ∈ ps, Writable ks tbs p) (qs : List FfPacket)
    (hr : List.Forall₂ (fun p q => q.pkt = p ∧ ∀ s, ks[p.index]? = some s → q.tb = s.tb) ps qs) (m : FfMuxer) (hm : Ready ks ds tbs m) :
    ∃ e m' n, m.writes qs = .ret (e, m') ∧ m'.outs = m.outs ∧ m'.sent = m.sent ++ ((ps.filter fun p => p.index < ks.length).map (conv ks tbs)).take n ∧
      (e = Err.SUCCESS → (ps.filter fun p => p.index < ks.length).length ≤ n) ∧ (e ≠ Err.SUCCESS → e = Err.ERROR_FFMPEG_WRITE ∧ false ∈ m.answers) := by
  induction hr generalizing m with
  | nil => exact ⟨Err.SUCCESS, m, 0, rfl, rfl, by simp, by simp, by simp⟩
  | @cons p q ps qs h hr ih =>
    obtain ⟨h1, h2⟩ := h
    have hws := fun x hx => hw x (List.mem_cons_of_mem p hx)
    unfold FfMuxer.writes
    by_cases hi : p.index < ks.length
    · have hs : ks[p.index]? = some ks[p.index] := List.getElem?_eq_getElem hi
      rw [write_kept hm q (s := ks[p.index]) (by rw [h1]; exact hs) (h2 _ hs) (by rw [h1]; exact hw p (by simp)), h1]
      have hf : (p :: ps).filter (fun p => decide (p.index < ks.length)) = p :: ps.filter fun p => decide (p.index < ks.length) := by simp [hi]
      rw [hf]
      match ha : m.answers with
      | [] =>
        obtain ⟨e, m', n, i1, i2, i3, i4, i5⟩ := ih hws { m with sent := m.sent ++ [conv ks tbs p] } ⟨hm.outs, hm.mapping⟩
        refine ⟨e, m', n + 1, by simpa [ha] using i1, i2, by simpa using i3, fun he => by simpa using i4 he, fun he => ?_⟩
        have := (i5 he).2
        simp [ha] at this
      | true :: as =>
        obtain ⟨e, m', n, i1, i2, i3, i4, i5⟩ := ih hws { m with sent := m.sent ++ [conv ks tbs p], answers := as } ⟨hm.outs, hm.mapping⟩
        exact ⟨e, m', n + 1, by simpa using i1, i2, by simpa using i3, fun he => by simpa using i4 he, fun he => ⟨(i5 he).1, by simpa using (i5 he).2⟩⟩
      | false :: as =>
        exact ⟨Err.ERROR_FFMPEG_WRITE, { m with answers := as }, 0, by simp, rfl, by simp, by simp, fun _ => ⟨rfl, by simp⟩⟩
    · have hf : (p :: ps).filter (fun p => decide (p.index < ks.length)) = ps.filter fun p => decide (p.index < ks.length) := by simp [hi]
      rw [write_ignored hm q (by rw [h1]; omega), hf]
      obtain ⟨e, m', n, i1, i2, i3, i4, i5⟩ := ih hws m hm
      exact ⟨e, m', n, by simpa using i1, i2, i3, i4, i5⟩

end Sps.Ffmpeg
