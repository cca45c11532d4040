import Verif.Lemmas.StreamPull
/-!
# What is registered is there (C16)
-/
namespace Sps.World
open Spec

/-- Registered streams are open, open streams of pulls have running pulls, registered pulls have not ended. -/
structure Live (w : World) : Prop where
  reg : ∀ k i, w.reg.find k = some i → ∃ s, w.view i = some (k, s, true)
  edge : ∀ i k e, w.view i = some (k, .edge e, true) → w.edges[e]? = some ⟨k, .running i⟩
  pull : ∀ k e, w.edgeReg.find k = some e → ∃ ph, w.edges[e]? = some ⟨k, ph⟩ ∧ ph ≠ .done

theorem Live.init : Live World.init := ⟨by simp [World.init, Assoc.find_nil], by simp [World.init, view], by simp [World.init, Assoc.find_nil]⟩

theorem Live.congr {w w' : World} (h : Live w) (hv : ∀ i, w'.view i = w.view i) (hr : ∀ k i, w'.reg.find k = some i → w.reg.find k = some i)
    (he : w'.edges = w.edges) (hp : ∀ k e, w'.edgeReg.find k = some e → w.edgeReg.find k = some e) : Live w' :=
  ⟨fun k i hi => by rw [hv]; exact h.reg k i (hr k i hi), fun i k e hi => by rw [he]; exact h.edge i k e (by rw [← hv]; exact hi),
    fun k e hi => by rw [he]; exact h.pull k e (hp k e hi)⟩

theorem Live.newCache {w : World} (h : Live w) (k : Key) (src : Src) (s : Store) (hs : ∀ e, src ≠ .edge e) : Live (w.newCache k src s) := by
  refine ⟨fun k' i hi => ?_, fun i k' e hi => ?_, h.pull⟩
  · rw [view_newCache]
    simp only [World.newCache, Assoc.find_insert] at hi
    split at hi
    · next hk => subst hk; cases hi; exact ⟨src, by simp⟩
    · obtain ⟨s', h'⟩ := h.reg k' i hi
      have : i ≠ w.caches.length := by intro c; rw [c, view_ge w _ (Nat.le_refl _)] at h'; simp at h'
      exact ⟨s', by rw [if_neg this]; exact h'⟩
  · rw [view_newCache] at hi
    split at hi
    · simp at hi; exact absurd hi.2 (hs e)
    · exact h.edge i k' e hi

/-- A cache is closed and its key is released. -/
theorem Live.close {w w' : World} (h : Live w) {cid : Nat} {k : Key} {src : Src} (hc : w.view cid = some (k, src, true)) (hs : ∀ e, src ≠ .edge e)
    (hv : ∀ i, w'.view i = (w.closeCache cid).view i) (hr : w'.reg = w.reg.erase k) (he : w'.edges = w.edges) (hp : w'.edgeReg = w.edgeReg) : Live w' := by
  refine ⟨fun k' i hi => ?_, fun i k' e hi => ?_, fun k' e hi => by rw [he]; exact h.pull k' e (by rw [← hp]; exact hi)⟩
  · rw [hr, Assoc.find_erase] at hi
    split at hi
    · simp at hi
    · next hk =>
      obtain ⟨s', h'⟩ := h.reg k' i hi
      have : cid ≠ i := by intro c; rw [← c, hc] at h'; simp at h'; exact hk h'.1.symm
      exact ⟨s', by rw [hv, view_close, if_neg this]; exact h'⟩
  · rw [hv, view_close] at hi
    rw [he]
    split at hi
    · next hcid => subst hcid; rw [hc] at hi; simp at hi
    · exact h.edge i k' e hi

theorem step_live {w : World} {past : Log} (h : Live w) (h2 : Inv2 w past) (op : WOp) : Live (w.step op).1 := by
  cases op with
  | publish k' =>
    simp only [step, publish]
    split
    · exact h
    · exact h.newCache k' .plain _ (by simp)
  | publishSrt k' =>
    simp only [step, publishSrt]
    split
    · exact h
    · exact (h.newCache k' .srtAv _ (by simp)).newCache _ _ _ (by simp)
  | put cid p =>
    simp only [step, put]
    split
    · exact h
    · split
      · exact h.congr (fun i => view_modify w _ cid _ rfl i (by intro c; exact ⟨rfl, rfl, rfl⟩)) (fun _ _ h => h) rfl (fun _ _ h => h)
      · exact h
  | unpublish cid =>
    simp only [step, unpublish]
    split
    · exact h
    · rename_i c hc
      have hv := view_some hc
      split
      · rename_i ho
        split
        · rename_i hs
          rw [hs, ho] at hv
          exact h.close hv (by simp) (fun _ => rfl) rfl rfl rfl
        · rename_i hs
          rw [hs, ho] at hv
          have ht := h2.twin cid c.key true hv
          have h1 : Live { w.closeCache cid with reg := w.reg.erase c.key } := h.close hv (by simp) (fun _ => rfl) rfl rfl rfl
          refine h1.close (cid := cid + 1) (k := tsKey c.key) (src := .srtRaw) ?_ (by simp) (fun _ => rfl) rfl rfl rfl
          show (w.closeCache cid).view (cid + 1) = _
          rw [view_close, if_neg (by omega)]
          exact ht
        · exact h
      · exact h
  | play k =>
    simp only [step, play_eq]
    split
    · exact h
    · split
      · exact h
      · exact h.congr (fun i => view_modify w _ _ _ rfl i (by intro c; exact ⟨rfl, rfl, rfl⟩)) (fun _ _ h => h) rfl (fun _ _ h => h)
  | dump c =>
    simp only [step, dump]
    split
    · exact h
    · split
      · exact h
      · exact h.congr (fun _ => rfl) (fun _ _ h => h) rfl (fun _ _ h => h)
  | leave c =>
    simp only [step, leave]
    split
    · exact h
    · split
      · exact h
      · exact h.congr (fun i => view_modify w _ _ _ rfl i (by intro c; exact ⟨rfl, rfl, rfl⟩)) (fun _ _ h => h) rfl (fun _ _ h => h)
  | edgeRequest k =>
    simp only [step, edgeRequest]
    split
    · exact h
    · split
      · exact h
      · have hlt : ∀ {e : Nat} {d : Edge}, w.edges[e]? = some d → (w.edges ++ [⟨k, .starting⟩])[e]? = some d := fun {e d} hd => by
          rw [List.getElem?_append_left (List.getElem?_eq_some_iff.1 hd).1]; exact hd
        refine ⟨h.reg, fun i k' e hi => hlt (h.edge i k' e hi), fun k' e hi => ?_⟩
        replace hi : (w.edgeReg.insert k w.edges.length).find k' = some e := hi
        rw [Assoc.find_insert] at hi
        split at hi
        · next hk => subst hk; cases hi; exact ⟨.starting, by simp, by simp⟩
        · obtain ⟨ph, p1, p2⟩ := h.pull k' e hi
          exact ⟨ph, hlt p1, p2⟩
  | edgeOpen e =>
    simp only [step, edgeOpen]
    split
    · exact h
    · next ed hed =>
      obtain ⟨k, ph⟩ := ed
      split
      · next hph =>
        simp at hph
        subst hph
        have e3 : ∀ i : Nat, (w.edges.modify e fun d => { d with phase := .running w.caches.length })[i]? = if e = i then some ⟨k, .running w.caches.length⟩ else w.edges[i]? :=
          fun i => edges_modify w e i k _ _ hed
        refine ⟨fun k' i hi => ?_, fun i k' e' hi => ?_, fun k' e' hi => ?_⟩
        · show ∃ s, (w.newCache k (.edge e) (.av Gop.empty)).view i = _
          rw [view_newCache]
          replace hi : (w.reg.insert k w.caches.length).find k' = some i := hi
          rw [Assoc.find_insert] at hi
          split at hi
          · next hk => subst hk; cases hi; exact ⟨_, by rw [if_pos rfl]⟩
          · obtain ⟨s', h'⟩ := h.reg k' i hi
            have : i ≠ w.caches.length := by intro c; rw [c, view_ge w _ (Nat.le_refl _)] at h'; simp at h'
            exact ⟨s', by rw [if_neg this]; exact h'⟩
        · replace hi : (w.newCache k (.edge e) (.av Gop.empty)).view i = some (k', .edge e', true) := hi
          show (w.edges.modify e fun d => { d with phase := .running w.caches.length })[e']? = _
          rw [view_newCache] at hi
          rw [e3]
          split at hi
          · next hl => simp at hi; obtain ⟨rfl, rfl⟩ := hi; rw [if_pos rfl, hl]
          · have := h.edge i k' e' hi
            rw [if_neg (by intro c; rw [← c, hed] at this; simp at this)]
            exact this
        · show ∃ ph, (w.edges.modify e fun d => { d with phase := .running w.caches.length })[e']? = _ ∧ _
          rw [e3]
          obtain ⟨ph, p1, p2⟩ := h.pull k' e' hi
          split
          · next hc => subst hc; rw [hed] at p1; simp at p1; exact ⟨_, by rw [p1.1], by simp⟩
          · exact ⟨ph, p1, p2⟩
      · exact h
  | edgeEnd e =>
    simp only [step, edgeEnd]
    split
    · exact h
    · rename_i ed hed
      obtain ⟨k, ph⟩ := ed
      have e3 : ∀ i : Nat, (w.edges.modify e fun d => { d with phase := .done })[i]? = if e = i then some ⟨k, .done⟩ else w.edges[i]? := fun i => edges_modify w e i k _ _ hed
      have hpull : ∀ k' e', (w.edgeReg.erase k).find k' = some e' → ∃ ph, (w.edges.modify e fun d => { d with phase := .done })[e']? = some ⟨k', ph⟩ ∧ ph ≠ .done := by
        intro k' e' hi
        rw [Assoc.find_erase] at hi
        split at hi
        · simp at hi
        · next hk =>
          obtain ⟨ph, p1, p2⟩ := h.pull k' e' hi
          rw [e3, if_neg (by intro c; rw [← c, hed] at p1; simp at p1; exact hk p1.1.symm)]
          exact ⟨ph, p1, p2⟩
      split
      · next hph =>
        simp at hph
        subst hph
        refine ⟨h.reg, fun i k' e' hi => ?_, hpull⟩
        show (w.edges.modify e fun d => { d with phase := .done })[e']? = _
        have := h.edge i k' e' hi
        rw [e3, if_neg (by intro c; rw [← c, hed] at this; simp at this)]
        exact this
      · rename_i cid hph
        simp at hph
        subst hph
        obtain ⟨b, hb⟩ := h2.edge e k cid hed
        refine ⟨fun k' i hi => ?_, fun i k' e' hi => ?_, hpull⟩
        · show ∃ s, (w.closeCache cid).view i = _
          replace hi : (w.reg.erase k).find k' = some i := hi
          rw [Assoc.find_erase] at hi
          split at hi
          · simp at hi
          · next hk =>
            obtain ⟨s', h'⟩ := h.reg k' i hi
            rw [view_close, if_neg (by intro c; rw [← c, hb] at h'; simp at h'; exact hk h'.1.symm)]
            exact ⟨s', h'⟩
        · replace hi : (w.closeCache cid).view i = some (k', .edge e', true) := hi
          show (w.edges.modify e fun d => { d with phase := .done })[e']? = _
          rw [view_close] at hi
          split at hi
          · next hc => subst hc; rw [hb] at hi; simp at hi
          · next hc =>
            have := h.edge i k' e' hi
            rw [e3, if_neg (by intro c; rw [← c, hed] at this; simp at this; exact hc this.2)]
            exact this
      · exact h
  | edgeDrop e =>
    simp only [step, edgeDrop]
    split
    · exact h
    · next ed hed =>
      split
      · split
        · refine h.congr (fun _ => rfl) (fun k i hi => ?_) rfl (fun k e hi => ?_)
          · replace hi : (if (w.caches.any fun c => c.src = .edge e) then w.reg.erase ed.key else w.reg).find k = some i := hi
            split at hi
            · rw [Assoc.find_erase] at hi
              split at hi
              · simp at hi
              · exact hi
            · exact hi
          · replace hi : (w.edgeReg.erase ed.key).find k = some e := hi
            rw [Assoc.find_erase] at hi
            split at hi
            · simp at hi
            · exact hi
        · exact h.congr (fun _ => rfl) (fun _ _ h => h) rfl (fun _ _ h => h)
      · exact h

theorem run_live (ops : List WOp) {w : World} {past : Log} (h : Live w) (h2 : Inv2 w past) : Live (w.run ops).1 := by
  induction ops generalizing w past with
  | nil => simpa [run] using h
  | cons op ops ih =>
    rw [(run_snd_cons w op ops).2]
    exact ih (step_live h h2 op) (step_inv2 h2 op)

/-- Nobody publishes the key and no pull of it is going on: nothing is registered for it. -/
theorem nothing {w : World} {past : Log} {k : Key} (hk : plainKey k = true) (h : Live w) (h2 : Inv2 w past) (hp : Pulls w past)
    (ha : ∀ cid, activeKey cid past ≠ some k) (he : ∀ e, pullKey e past ≠ some k) : w.reg.find k = none ∧ w.edgeReg.find k = none := by
  constructor
  · cases hr : w.reg.find k with
    | none => rfl
    | some i =>
      exfalso
      obtain ⟨s, hs⟩ := h.reg k i hr
      have hact := h2.active i
      rw [hs] at hact
      cases s with
      | plain => exact ha i (by simpa using hact)
      | srtAv => exact ha i (by simpa using hact)
      | srtRaw =>
        obtain ⟨j, k', -, e2, -⟩ := raw_key h2 hs
        rw [e2] at hk
        simp [plainKey, tsKey] at hk
      | edge e =>
        have := h.edge i k e hs
        exact he e (hp.running this (by simp))
  · cases hr : w.edgeReg.find k with
    | none => rfl
    | some e =>
      exfalso
      obtain ⟨ph, p1, p2⟩ := h.pull k e hr
      exact he e (hp.running p1 p2)

/-- Nobody publishes the key and no pull of it lasts that has opened: no stream is registered for it. -/
theorem free {w : World} {past : Log} {k : Key} (hk : plainKey k = true) (h : Live w) (h2 : Inv2 w past) (hp : Pulls w past) (hF : Fed w past)
    (ha : ∀ cid, activeKey cid past ≠ some k) (he : ¬ pulledNow k past) : w.reg.find k = none := by
  cases hr : w.reg.find k with
  | none => rfl
  | some i =>
    exfalso
    obtain ⟨s, hs⟩ := h.reg k i hr
    obtain ⟨e, rfl⟩ := noPub hk h2 ha i s hs
    exact he ⟨e, i, hp.running (h.edge i k e hs) (by simp), hF _ _ _ _ hs⟩

end Sps.World
