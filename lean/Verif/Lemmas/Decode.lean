import Verif.Spec.Decode
import Verif.Lemmas.EdgeChain
/-! # Which decoder configuration a frame is decoded with (C112) -/
namespace Spec.Decode
open Sps

/-- The configuration in force after packets. -/
def after (config : AVPkt → Bool) : Option AVPkt → List AVPkt → Option AVPkt
  | c, [] => c
  | c, p :: ps => after config (if config p then some p else c) ps

variable {config frame : AVPkt → Bool}

theorem decoded_append (c : Option AVPkt) (a b : List AVPkt) : decoded config frame c (a ++ b) = decoded config frame c a ++ decoded config frame (after config c a) b := by
  induction a generalizing c with
  | nil => rfl
  | cons p a ih =>
    simp only [List.cons_append, decoded, after]
    split
    · exact ih _
    · split
      · rw [ih]; rfl
      · exact ih _

theorem after_append (c : Option AVPkt) (a b : List AVPkt) : after config c (a ++ b) = after config (after config c a) b := by
  induction a generalizing c with
  | nil => rfl
  | cons p a ih => exact ih _

theorem after_none {c : Option AVPkt} {a : List AVPkt} (h : ∀ x ∈ a, config x = false) : after config c a = c := by
  induction a generalizing c with
  | nil => rfl
  | cons p a ih =>
    simp only [after, h p (List.mem_cons_self ..), Bool.false_eq_true, if_false]
    exact ih fun x hx => h x (List.mem_cons_of_mem _ hx)

theorem decoded_none {c : Option AVPkt} {a : List AVPkt} (h : ∀ x ∈ a, frame x = false) : decoded config frame c a = [] := by
  induction a generalizing c with
  | nil => rfl
  | cons p a ih =>
    simp only [decoded, h p (List.mem_cons_self ..), Bool.false_eq_true, if_false, ite_self, ih fun x hx => h x (List.mem_cons_of_mem _ hx)]

theorem decoded_const {c : Option AVPkt} {a : List AVPkt} (h : ∀ x ∈ a, config x = false) : decoded config frame c a = (a.filter frame).map fun x => (x, c) := by
  induction a generalizing c with
  | nil => rfl
  | cons p a ih =>
    simp only [decoded, h p (List.mem_cons_self ..), Bool.false_eq_true, if_false, List.filter_cons, ih fun x hx => h x (List.mem_cons_of_mem _ hx)]
    split <;> rfl

theorem after_last (c : Option AVPkt) (a : List AVPkt) : after config c a = (a.filter config).getLast?.or c := by
  induction a generalizing c with
  | nil => simp [after]
  | cons p a ih =>
    simp only [after, List.filter_cons]
    rw [ih]
    split
    · rw [List.getLast?_cons]
      cases (a.filter config).getLast? <;> simp
    · rfl

/-- Where the last one is. -/
theorem last_key {f : AVPkt → Bool} : ∀ (l : List AVPkt), l.any f = true → ∃ a k b, l = a ++ k :: b ∧ f k = true ∧ ∀ x ∈ b, f x = false
  | [], h => by simp at h
  | p :: l, h => by
    by_cases hl : l.any f = true
    · obtain ⟨a, k, b, rfl, h1, h2⟩ := last_key l hl
      exact ⟨p :: a, k, b, rfl, h1, h2⟩
    · have hl' : ∀ x ∈ l, f x = false := by
        intro x hx
        cases hf : f x with
        | false => rfl
        | true => exact absurd (List.any_eq_true.2 ⟨x, hx, hf⟩) hl
      refine ⟨[], p, l, rfl, ?_, hl'⟩
      rw [List.any_cons] at h
      simpa [hl] using h

theorem fromLast_at {key : AVPkt → Bool} (a : List AVPkt) {k : AVPkt} {b : List AVPkt} (hk : key k = true) (hb : ∀ x ∈ b, key x = false) : fromLast key (a ++ k :: b) = k :: b := by
  have h : b.any key = false := by
    rw [List.any_eq_false]
    intro x hx
    rw [hb x hx]
    simp
  rw [fromLast_append, if_pos (by simp [hk]), fromLast, h, if_neg (by simp), if_pos hk]

/-- A kind of media: its configuration is the one that the cache keeps, its frames are kept with the other media. -/
structure Kind (config frame : AVPkt → Bool) (ps : List AVPkt) : Prop where
  media : ∀ p, frame p = true → isMedia p = true
  noconfig : ∀ p, isMedia p = true → config p = false
  order : ∀ c : Option AVPkt, after config c (lastOf isScr ps ++ lastOf isAud ps ++ lastOf isVid ps) = (after config none ps).or c

theorem startup_decoded {ps : List AVPkt} (k : Kind config frame ps) (hs : settled config ps) (qs : List AVPkt) :
    decoded config frame none (startup ps ++ qs) <:+ decoded config frame none (ps ++ qs) ∧
      (decoded config frame none (startup ps) = [] ∨ ∃ x b c, isKey x = true ∧ isMedia x = true ∧ decoded config frame none (startup ps) = ((x :: b).filter frame).map fun y => (y, c)) := by
  have hpre : ∀ x ∈ lastOf isScr ps ++ lastOf isAud ps ++ lastOf isVid ps, isMedia x = false := by
    intro x hx
    simp only [List.mem_append] at hx
    rcases hx with (hx | hx) | hx
    · exact scr_med x (lastOf_mem hx).2
    · exact aud_med x (lastOf_mem hx).2
    · exact vid_med x (lastOf_mem hx).2
  have hfr : ∀ x, isMedia x = false → frame x = false := by
    intro x hx
    cases hf : frame x with
    | false => rfl
    | true => rw [k.media x hf] at hx; simp at hx
  have hgm : ∀ x ∈ fromLast isKey (ps.filter isMedia), isMedia x = true := fun x hx => media_mem hx
  have hafter : after config none (startup ps) = after config none ps := by
    rw [startup_def, after_append, k.order, after_none fun x hx => k.noconfig x (hgm x hx)]
    simp
  have hdec : decoded config frame none (startup ps) = ((fromLast isKey (ps.filter isMedia)).filter frame).map fun x => (x, after config none ps) := by
    rw [startup_def, decoded_append, decoded_none fun x hx => hfr x (hpre x hx), List.nil_append, k.order, decoded_const fun x hx => k.noconfig x (hgm x hx)]
    simp
  by_cases hkey : ps.any (fun x => isMedia x && isKey x) = true
  · obtain ⟨a, x, b, rfl, hx, hb⟩ := last_key ps hkey
    simp only [Bool.and_eq_true] at hx
    have hb' : ∀ y ∈ b, isMedia y = true → isKey y = false := by
      intro y hy hm
      have := hb y hy
      simpa [hm] using this
    have hg : fromLast isKey ((a ++ x :: b).filter isMedia) = (x :: b).filter isMedia := by
      rw [List.filter_append, List.filter_cons_of_pos hx.1]
      exact fromLast_at _ hx.2 fun y hy => hb' y (List.mem_filter.1 hy).1 (List.mem_filter.1 hy).2
    have hc : ∀ y ∈ x :: b, config y = false := by
      intro y hy
      rcases List.mem_cons.1 hy with rfl | hy
      · exact k.noconfig _ hx.1
      · exact hs a x b rfl hx.1 hx.2 hb' y hy
    have hff : ((x :: b).filter isMedia).filter frame = (x :: b).filter frame := by
      rw [List.filter_filter]
      congr 1
      funext y
      cases hf : frame y with
      | false => simp
      | true => simp [k.media y hf]
    have hA : after config none (a ++ x :: b) = after config none a := by rw [after_append, after_none hc]
    refine ⟨?_, ?_⟩
    · rw [decoded_append, hafter, hdec, hg, hff, hA]
      rw [decoded_append none (a ++ x :: b), hA, decoded_append none a, decoded_const (c := after config none a) hc, List.append_assoc]
      exact List.suffix_append _ _
    · rw [hdec, hg, hff]
      exact .inr ⟨x, b, _, hx.2, hx.1, rfl⟩
  · have hg : fromLast isKey (ps.filter isMedia) = [] := by
      rw [fromLast_eq_nil, List.any_filter]
      simpa using hkey
    rw [hg] at hdec
    refine ⟨?_, ?_⟩
    · rw [decoded_append, hafter, hdec, decoded_append none ps]
      exact List.suffix_append _ _
    · exact .inl hdec

theorem not_media_video {p : AVPkt} (h : isMedia p = true) (hv : p.stream = .video) : p.pktType ≠ 0 := by
  intro h0
  simp [isMedia, hv, h0] at h

theorem kind_video {ps : List AVPkt} (h : noCommands ps) : Kind videoConfig picture ps where
  media p hp := by
    simp only [picture, Bool.and_eq_true, Bool.not_eq_true', beq_iff_eq, beq_eq_false_iff_ne] at hp
    simp [isMedia, hp.1, hp.2]
  noconfig p hp := by
    cases hc : videoConfig p with
    | false => rfl
    | true =>
      simp only [videoConfig, Bool.and_eq_true, beq_iff_eq] at hc
      exact absurd hc.1.2 (not_media_video hp hc.1.1)
  order c := by
    have e : ps.filter videoConfig = ps.filter isVid := by
      refine List.filter_congr fun x hx => ?_
      unfold videoConfig isVid
      by_cases hv : x.stream = .video
      · by_cases h0 : x.pktType = 0
        · simp [hv, h0, h x hx hv h0]
        · simp [h0]
      · have : (x.stream == StreamType.video) = false := by simpa using hv
        simp [this]
    have hvid : ∀ x ∈ lastOf isVid ps, videoConfig x = true := by
      intro x hx
      have : x ∈ ps.filter videoConfig := by
        rw [e]
        exact List.mem_filter.2 (lastOf_mem hx)
      exact (List.mem_filter.1 this).2
    have hno : ∀ x ∈ lastOf isScr ps ++ lastOf isAud ps, videoConfig x = false := by
      intro x hx
      cases hc : videoConfig x with
      | false => rfl
      | true =>
        have : isVid x = true := by
          simp only [videoConfig, Bool.and_eq_true] at hc
          simp only [isVid, Bool.and_eq_true]
          exact hc.1
        rcases List.mem_append.1 hx with hx | hx
        · rw [scr_vid x (lastOf_mem hx).2] at this; simp at this
        · rw [aud_vid x (lastOf_mem hx).2] at this; simp at this
    rw [after_append, after_none hno, after_last, after_last, e, List.filter_eq_self.2 hvid]
    unfold lastOf
    cases (ps.filter isVid).getLast? <;> simp

theorem kind_audio (ps : List AVPkt) : Kind audioConfig sound ps where
  media p hp := by
    simp only [sound, Bool.and_eq_true, Bool.not_eq_true', beq_iff_eq, beq_eq_false_iff_ne] at hp
    simp [isMedia, hp.1, hp.2]
  noconfig p hp := by
    cases hc : audioConfig p with
    | false => rfl
    | true =>
      simp only [audioConfig, Bool.and_eq_true, beq_iff_eq] at hc
      simp [isMedia, hc.1, hc.2] at hp
  order c := by
    have hs : ∀ x ∈ lastOf isScr ps, audioConfig x = false := fun x hx => scr_aud x (lastOf_mem hx).2
    have hv : ∀ x ∈ lastOf isVid ps, audioConfig x = false := fun x hx => vid_aud x (lastOf_mem hx).2
    have ha : ∀ x ∈ lastOf isAud ps, audioConfig x = true := fun x hx => (lastOf_mem hx).2
    have e : audioConfig = isAud := rfl
    rw [after_append, after_none hv, after_append, after_none hs, after_last, after_last, List.filter_eq_self.2 ha, e]
    unfold lastOf
    cases (ps.filter isAud).getLast? <;> simp

theorem startup_video {ps : List AVPkt} (h : noCommands ps) (hs : settled videoConfig ps) (qs : List AVPkt) :
    video (startup ps ++ qs) <:+ video (ps ++ qs) ∧ ∀ x ∈ (video (startup ps)).head?, isKey x.1 = true := by
  obtain ⟨h1, h2⟩ := startup_decoded (kind_video h) hs qs
  refine ⟨h1, fun x hx => ?_⟩
  unfold video at hx
  rcases h2 with h2 | ⟨y, b, c, k1, k2, h2⟩
  · rw [h2] at hx; simp at hx
  · have hp : picture y = true := by
      have hv : y.stream = .video := by
        simp only [isKey, Bool.and_eq_true, beq_iff_eq] at k1
        exact k1.1
      simp [picture, hv, not_media_video k2 hv]
    rw [h2, List.filter_cons_of_pos hp] at hx
    simp only [List.map_cons, List.head?_cons, Option.mem_def, Option.some.injEq] at hx
    rw [← hx]
    exact k1

end Spec.Decode
