import Verif.Lemmas.StreamMade
/-! # A key whose publishers and pulls keep apart: its entry is its publisher's -/
namespace Sps.World
open Spec

/-- The registry maps `k` to the open cache with that key that a publisher feeds. -/
structure One (k : Key) (v : Nat → Option (Key × Src × Bool)) (r : Option Nat) : Prop where
  reg1 : ∀ i s, v i = some (k, s, true) → (∀ e, s ≠ .edge e) → r = some i

theorem One.add {k v} (h : One k v none) (n : Nat) (src : Src) : One k (fun i => if i = n then some (k, src, true) else v i) (some n) := by
  obtain ⟨h1⟩ := h
  refine ⟨?_⟩
  intro i s hi hs
  split at hi
  · next h => rw [h]
  · have := h1 i s hi hs; simp at this

theorem One.addOther {k v r} (h : One k v r) (n : Nat) (k' : Key) (hk : k' ≠ k) (src : Src) :
    One k (fun i => if i = n then some (k', src, true) else v i) r := by
  obtain ⟨h1⟩ := h
  refine ⟨?_⟩
  intro i s hi hs
  split at hi
  · simp at hi; exact absurd hi.1 hk
  · exact h1 i s hi hs

theorem One.close {k v r} (h : One k v r) (cid : Nat) (src : Src) (hc : v cid = some (k, src, true)) (hs : ∀ e, src ≠ .edge e) :
    One k (fun i => if cid = i then (v i).map (fun x => (x.1, x.2.1, false)) else v i) none := by
  obtain ⟨h1⟩ := h
  have hr := h1 cid src hc hs
  refine ⟨?_⟩
  intro i s hi hs
  split at hi
  · next h => subst h; rw [hc] at hi; simp at hi
  · next hne => have := h1 i s hi hs; rw [hr] at this; simp at this; exact absurd this hne

theorem One.closeOther {k v r} (h : One k v r) (cid : Nat) :
    One k (fun i => if cid = i then (v i).map (fun x => (x.1, x.2.1, false)) else v i) r := by
  obtain ⟨h1⟩ := h
  refine ⟨?_⟩
  intro i s hi hs
  split at hi
  · next h =>
    subst h
    cases hv : v cid with
    | none => rw [hv] at hi; simp at hi
    | some x => rw [hv] at hi; simp at hi
  · exact h1 i s hi hs

/-- The invariant of a key in a state. -/
def InvOne (k : Key) (w : World) : Prop := One k w.view (w.reg.find k)

theorem InvOne.init (k : Key) : InvOne k World.init := ⟨by simp [World.init, view]⟩

/-- Nothing that a publisher feeds is open under the key. -/
def NoPub (k : Key) (w : World) : Prop := ∀ i s, w.view i = some (k, s, true) → ∃ e, s = .edge e

theorem InvOne.vacuous {k : Key} {w : World} (h : NoPub k w) : InvOne k w :=
  ⟨fun i s hi hs => by obtain ⟨e, he⟩ := h i s hi; exact absurd he (hs e)⟩

theorem InvOne.congr {k : Key} {w w' : World} (h : InvOne k w) (hv : ∀ i, w'.view i = w.view i) (hr : w'.reg = w.reg) : InvOne k w' := by
  unfold InvOne at *
  have h1 : w'.view = w.view := funext hv
  rw [h1, hr]; exact h

theorem InvOne.newCache {k : Key} {w : World} (h : InvOne k w) (k' : Key) (src : Src) (s : Store) (hr : k' = k → w.reg.find k = none) :
    InvOne k (w.newCache k' src s) := by
  unfold InvOne at *
  have e1 : (w.newCache k' src s).view = fun i => if i = w.caches.length then some (k', src, true) else w.view i := funext (view_newCache _ _ _ _)
  have e2 : (w.newCache k' src s).reg.find k = if k = k' then some w.caches.length else w.reg.find k := by
    simp only [World.newCache]; rw [Assoc.find_insert]
  rw [e1, e2]
  by_cases hk : k' = k
  · have a := hr hk
    rw [a] at h
    subst hk
    rw [if_pos rfl]
    exact h.add _ _
  · rw [if_neg (Ne.symm hk)]
    exact h.addOther _ k' hk src

theorem InvOne.closeErase {k : Key} {w w' : World} (h : InvOne k w) {cid : Nat} {k' : Key} {src : Src} (hc : w.view cid = some (k', src, true)) (hs : ∀ e, src ≠ .edge e)
    (hv : ∀ i, w'.view i = (w.closeCache cid).view i) (hr : w'.reg.find k = if k = k' then none else w.reg.find k) : InvOne k w' := by
  unfold InvOne at *
  have e1 : w'.view = fun i => if cid = i then (w.view i).map (fun x => (x.1, x.2.1, false)) else w.view i := by
    funext i; rw [hv, view_close]
  rw [e1, hr]
  by_cases hk : k' = k
  · subst hk
    rw [if_pos rfl]
    exact h.close cid src hc hs
  · rw [if_neg (Ne.symm hk)]
    exact h.closeOther cid

theorem raw_key {w : World} {past : Log} (h2 : Inv2 w past) {i : Nat} {t : Key} {b : Bool} (hv : w.view i = some (t, .srtRaw, b)) :
    ∃ j k, i = j + 1 ∧ t = tsKey k ∧ w.view j = some (k, .srtAv, b) := by
  obtain ⟨j, k, e1, e2⟩ := h2.raw i t b hv
  have := h2.twin j k b e2
  rw [← e1, hv] at this
  simp at this
  exact ⟨j, k, e1, this, e2⟩

/-- A piece of a pull takes the key or gives it up. -/
def Touches (k : Key) (w : World) (op : WOp) : Prop :=
  (∃ e, op = .edgeOpen e ∧ w.edges[e]? = some ⟨k, .starting⟩) ∨ (∃ e cid, op = .edgeEnd e ∧ w.edges[e]? = some ⟨k, .running cid⟩) ∨
    ∃ e, op = .edgeDrop e ∧ e ∈ w.held ∧ w.edges[e]? = some ⟨k, .done⟩ ∧ ∃ i b, w.view i = some (k, .edge e, b)

theorem step_one {k : Key} {w : World} {past : Log} (h : InvOne k w) (h2 : Inv2 w past) (op : WOp) (hp : Touches k w op → NoPub k w)
    (ht : ∀ k', op = .publishSrt k' → tsKey k' = k → w.reg.find k' = none → w.reg.find k = none) : InvOne k (w.step op).1 := by
  cases op with
  | publish k' =>
    simp only [step, publish]
    split
    · exact h
    · next hf => exact h.newCache k' .plain _ (fun e => e ▸ hf)
  | publishSrt k' =>
    simp only [step, publishSrt]
    split
    · exact h
    · next hf =>
      have hne : k' ≠ tsKey k' := by
        intro c
        have := congrArg List.length c
        simp [tsKey] at this
        omega
      refine InvOne.newCache (h.newCache k' .srtAv _ (fun e => e ▸ hf)) _ _ _ (fun e => ?_)
      have := ht k' rfl e hf
      simp only [World.newCache]
      rw [Assoc.find_insert, if_neg (by intro c; exact hne (by rw [e, c]))]
      exact this
  | put cid p =>
    simp only [step, put]
    split
    · exact h
    · split
      · exact h.congr (fun i => view_modify w _ cid _ rfl i (by intro c; exact ⟨rfl, rfl, rfl⟩)) rfl
      · exact h
  | unpublish cid =>
    simp only [step, unpublish]
    split
    · exact h
    · rename_i c hc
      have hv := view_some hc
      split
      · rename_i ho
        split
        · rename_i hs
          rw [hs, ho] at hv
          exact h.closeErase hv (by simp) (fun _ => rfl) (by show (w.reg.erase c.key).find k = _; rw [Assoc.find_erase])
        · rename_i hs
          rw [hs, ho] at hv
          have ht := h2.twin cid c.key true hv
          have h1 : InvOne k { w.closeCache cid with reg := w.reg.erase c.key } :=
            h.closeErase hv (by simp) (fun _ => rfl) (by show (w.reg.erase c.key).find k = _; rw [Assoc.find_erase])
          refine h1.closeErase (cid := cid + 1) (k' := tsKey c.key) (src := .srtRaw) ?_ (by simp) (fun _ => rfl)
            (by show ((w.reg.erase c.key).erase (tsKey c.key)).find k = _; rw [Assoc.find_erase])
          show (w.closeCache cid).view (cid + 1) = _
          rw [view_close, if_neg (by omega)]
          exact ht
        · exact h
      · exact h
  | play k =>
    simp only [step, play_eq]
    split
    · exact h
    · split
      · exact h
      · exact h.congr (fun i => view_modify w _ _ _ rfl i (by intro c; exact ⟨rfl, rfl, rfl⟩)) rfl
  | dump c =>
    simp only [step, dump]
    split
    · exact h
    · split <;> exact h
  | leave c =>
    simp only [step, leave]
    split
    · exact h
    · split
      · exact h
      · exact h.congr (fun i => view_modify w _ _ _ rfl i (by intro c; exact ⟨rfl, rfl, rfl⟩)) rfl
  | edgeRequest k =>
    simp only [step, edgeRequest]
    split
    · exact h
    · split <;> exact h
  | edgeOpen e =>
    simp only [step, edgeOpen]
    split
    · exact h
    · next ed hed =>
      obtain ⟨k', ph⟩ := ed
      split
      · next hph =>
        simp at hph
        subst hph
        by_cases hk : k' = k
        · subst hk
          have hno := hp (.inl ⟨e, rfl, hed⟩)
          refine InvOne.congr (w := w.newCache k' (.edge e) (.av Gop.empty)) (InvOne.vacuous fun i s hi => ?_) (fun _ => rfl) rfl
          rw [view_newCache] at hi
          split at hi
          · simp at hi; exact ⟨e, hi.symm⟩
          · exact hno i s hi
        · exact (h.newCache k' (.edge e) (.av Gop.empty) (fun c => absurd c hk)).congr (fun _ => rfl) rfl
      · exact h
  | edgeEnd e =>
    simp only [step, edgeEnd]
    split
    · exact h
    · rename_i ed hed
      split
      · exact h
      · rename_i cid hph
        obtain ⟨k', ph⟩ := ed
        simp at hph
        subst hph
        have e1 : (w.closeCache cid).view = fun i => if cid = i then (w.view i).map (fun x => (x.1, x.2.1, false)) else w.view i := by
          funext i; rw [view_close]
        show One k (w.closeCache cid).view ((w.reg.erase k').find k)
        rw [e1, Assoc.find_erase]
        by_cases hk : k' = k
        · subst hk
          have hno := hp (.inr (.inl ⟨e, cid, rfl, hed⟩))
          exact One.closeOther ⟨fun i s hi hs => by obtain ⟨d, hd⟩ := hno i s hi; exact absurd hd (hs d)⟩ cid
        · rw [if_neg (Ne.symm hk)]
          exact One.closeOther h cid
      · exact h
  | edgeDrop e =>
    simp only [step, edgeDrop]
    split
    · exact h
    · next ed hed =>
      split
      · next hheld =>
        split
        · next hdone =>
          split
          · next hany =>
            rw [List.any_eq_true] at hany
            obtain ⟨c, hc, hs⟩ := hany
            obtain ⟨i, hi, rfl⟩ := List.mem_iff_getElem.1 hc
            simp only [decide_eq_true_eq] at hs
            have hv : w.view i = some (w.caches[i].key, .edge e, w.caches[i].isOpen) := by simp [view, hi, hs]
            obtain ⟨d, d1, d2, -⟩ := h2.edgeSrc i _ e _ hv
            simp only [hed, Option.some.injEq] at d1
            subst d1
            show One k w.view ((w.reg.erase ed.key).find k)
            rw [Assoc.find_erase]
            by_cases hk : ed.key = k
            · subst hk
              rw [← d2] at hv
              obtain ⟨k', ph⟩ := ed
              simp only at hdone
              subst hdone
              have hno := hp (.inr (.inr ⟨e, rfl, hheld, hed, i, _, hv⟩))
              exact ⟨fun i s hi hs => by obtain ⟨d, hd⟩ := hno i s hi; exact absurd hd (hs d)⟩
            · rw [if_neg (Ne.symm hk)]
              exact h
          · exact h
        · exact h
      · exact h

theorem pullOpened_false {k : Key} {l : Log} (h : pullOpened k l = false) {e cid : Nat} (h1 : (.edgeOpen e, .published cid) ∈ l) :
    (.edgeRequest k, .edgeStarted e) ∉ l := by
  intro h2
  unfold pullOpened at h
  rw [List.any_eq_false] at h
  have := h _ h1
  simp only [List.contains_iff_mem, Bool.not_eq_true] at this
  simp [h2] at this

theorem pullOpened_left {k : Key} {a b : Log} (h : pullOpened k (a ++ b) = false) : pullOpened k a = false := by
  unfold pullOpened
  rw [List.any_eq_false]
  intro x hx
  obtain ⟨op, o⟩ := x
  cases op <;> cases o <;> simp only [Bool.false_eq_true, not_false_eq_true]
  rw [List.contains_iff_mem]
  intro hc
  exact pullOpened_false h (List.mem_append_left b hx) (List.mem_append_left b hc)

theorem rawFree_left {k : Key} {a b : Log} (h : rawFree k (a ++ b) = true) : rawFree k a = true := by
  unfold rawFree at *
  simp only [Bool.and_eq_true, Bool.not_eq_true', List.all_append] at *
  exact ⟨h.1.1, pullOpened_left h.2⟩

theorem plain_ne {k : Key} (h : plainKey k = true) (k' : Key) : tsKey k' ≠ k := by
  intro c
  have := tsLike_tsKey k'
  unfold plainKey at h
  unfold tsLike at this
  rw [c] at this
  rw [this] at h
  simp at h

/-- The cache of a pull was made when the pull opened. -/
def Fed (w : World) (past : Log) : Prop := ∀ i k e b, w.view i = some (k, .edge e, b) → (.edgeOpen e, .published i) ∈ past

theorem view_edge_new {w : World} {k' : Key} {src : Src} {s : Store} (hs : ∀ e, src ≠ .edge e) {i : Nat} {k : Key} {e : Nat} {b : Bool}
    (h : (w.newCache k' src s).view i = some (k, .edge e, b)) : w.view i = some (k, .edge e, b) := by
  rw [view_newCache] at h
  split at h
  · simp at h; exact absurd h.2.1 (hs e)
  · exact h

theorem view_edge_close {w : World} {cid i : Nat} {k : Key} {e : Nat} {b : Bool} (h : (w.closeCache cid).view i = some (k, .edge e, b)) : ∃ b', w.view i = some (k, .edge e, b') := by
  rw [view_close] at h
  split at h
  · cases hv : w.view i with
    | none => rw [hv] at h; simp at h
    | some x =>
      rw [hv] at h
      obtain ⟨a, c, d⟩ := x
      simp at h
      exact ⟨d, by rw [h.1, h.2.1]⟩
  · exact ⟨b, h⟩

theorem step_view_edge (w : World) (op : WOp) {i : Nat} {k : Key} {e : Nat} {b : Bool} (h : (w.step op).1.view i = some (k, .edge e, b)) :
    (∃ b', w.view i = some (k, .edge e, b')) ∨ op = .edgeOpen e ∧ (w.step op).2 = .published i := by
  cases op with
  | publish k' =>
    left
    simp only [step, publish] at h
    split at h
    · exact ⟨b, h⟩
    · exact ⟨b, view_edge_new (by simp) h⟩
  | publishSrt k' =>
    left
    simp only [step, publishSrt] at h
    split at h
    · exact ⟨b, h⟩
    · exact ⟨b, view_edge_new (by simp) (view_edge_new (by simp) h)⟩
  | put cid p =>
    left
    simp only [step, put] at h
    split at h
    · exact ⟨b, h⟩
    · split at h
      · rw [view_modify w _ cid _ rfl i (by intro c; exact ⟨rfl, rfl, rfl⟩)] at h
        exact ⟨b, h⟩
      · exact ⟨b, h⟩
  | unpublish cid =>
    left
    simp only [step, unpublish] at h
    split at h
    · exact ⟨b, h⟩
    · split at h
      · split at h
        · exact view_edge_close h
        · obtain ⟨b', h'⟩ := view_edge_close (w := w.closeCache cid) (cid := cid + 1) h
          exact view_edge_close h'
        · exact ⟨b, h⟩
      · exact ⟨b, h⟩
  | play k' =>
    left
    simp only [step, play_eq] at h
    split at h
    · exact ⟨b, h⟩
    · split at h
      · exact ⟨b, h⟩
      · rw [view_modify w _ _ _ rfl i (by intro c; exact ⟨rfl, rfl, rfl⟩)] at h
        exact ⟨b, h⟩
  | dump c =>
    left
    simp only [step, dump] at h
    split at h
    · exact ⟨b, h⟩
    · split at h <;> exact ⟨b, h⟩
  | leave c =>
    left
    simp only [step, leave] at h
    split at h
    · exact ⟨b, h⟩
    · split at h
      · exact ⟨b, h⟩
      · rw [view_modify w _ _ _ rfl i (by intro c; exact ⟨rfl, rfl, rfl⟩)] at h
        exact ⟨b, h⟩
  | edgeRequest k' =>
    left
    simp only [step, edgeRequest] at h
    split at h
    · exact ⟨b, h⟩
    · split at h <;> exact ⟨b, h⟩
  | edgeOpen e' =>
    simp only [step, edgeOpen] at h ⊢
    split at h
    · exact .inl ⟨b, h⟩
    · next ed hed =>
      split at h
      · next hph =>
        replace h : (w.newCache ed.key (.edge e') (.av Gop.empty)).view i = some (k, .edge e, b) := h
        rw [view_newCache] at h
        split at h
        · next hi =>
          simp at h
          exact .inr ⟨by rw [h.2.1], by simp only [hed, hph, hi]⟩
        · exact .inl ⟨b, h⟩
      · exact .inl ⟨b, h⟩
  | edgeEnd e' =>
    left
    simp only [step, edgeEnd] at h
    split at h
    · exact ⟨b, h⟩
    · split at h
      · exact ⟨b, h⟩
      · exact view_edge_close h
      · exact ⟨b, h⟩
  | edgeDrop e' =>
    left
    simp only [step, edgeDrop] at h
    split at h
    · exact ⟨b, h⟩
    · split at h
      · split at h
        · exact ⟨b, h⟩
        · exact ⟨b, h⟩
      · exact ⟨b, h⟩

theorem step_pullFed {w : World} {past : Log} (h : Fed w past) (op : WOp) : Fed (w.step op).1 (past ++ [(op, (w.step op).2)]) := by
  intro i k e b hv
  rcases step_view_edge w op hv with ⟨b', h'⟩ | ⟨h1, h2⟩
  · exact List.mem_append_left _ (h i k e b' h')
  · rw [h1] at h2 ⊢
    rw [h2]
    exact List.mem_append_right _ (List.mem_cons_self ..)

theorem run_pullFed (ops : List WOp) {w : World} {past : Log} (h : Fed w past) : Fed (w.run ops).1 (past ++ (w.run ops).2) := by
  induction ops generalizing w past with
  | nil => simpa [run] using h
  | cons op ops ih =>
    obtain ⟨a, b⟩ := run_snd_cons w op ops
    rw [a, b]
    have := ih (step_pullFed h op)
    rwa [List.append_assoc] at this

theorem Fed.init : Fed World.init [] := by simp [Fed, World.init, view]

/-- Such pieces are seen in the log. -/
theorem Touches.logged {k : Key} {w : World} {past : Log} (h2 : Inv2 w past) (hK : InvK w past) (hF : Fed w past) {op : WOp} (h : Touches k w op) :
    pullTouches k past (op, (w.step op).2) := by
  rcases h with ⟨e, rfl, h⟩ | ⟨e, cid, rfl, h⟩ | ⟨e, rfl, hh, h, i, b, hv⟩
  · have h1 := (hK.edge e k).2 (by rw [h]; rfl)
    simp only [step, edgeOpen, h]
    exact h1
  · have h1 := (hK.edge e k).2 (by rw [h]; rfl)
    obtain ⟨b, hb⟩ := h2.edge e k cid h
    simp only [step, edgeEnd, h]
    exact ⟨h1, cid, hF _ _ _ _ hb⟩
  · have h1 := (hK.edge e k).2 (by rw [h]; rfl)
    simp only [step, edgeDrop, h, if_pos hh, if_true]
    exact ⟨h1, i, hF _ _ _ _ hv⟩

theorem apart_left {k : Key} {a b : Log} (h : apart k (a ++ b)) : apart k a := by
  intro l1 x l2 hl
  exact h l1 x (l2 ++ b) (by rw [hl]; simp)

theorem noPub {k : Key} (hk : plainKey k = true) {w : World} {past : Log} (h2 : Inv2 w past) (h : ∀ cid, activeKey cid past ≠ some k) : NoPub k w := by
  intro i s hi
  have ha := h2.active i
  rw [hi] at ha
  cases s with
  | plain => exact absurd (by simpa using ha) (h i)
  | srtAv => exact absurd (by simpa using ha) (h i)
  | srtRaw =>
    obtain ⟨j, k', -, e2, -⟩ := raw_key h2 hi
    exact absurd e2.symm (plain_ne hk k')
  | edge e => exact ⟨e, rfl⟩

theorem run_one_from {k : Key} (hk : plainKey k = true) (ops : List WOp) {w : World} {past : Log} (h : InvOne k w) (h2 : Inv2 w past) (hK : InvK w past) (hF : Fed w past)
    (hp : apart k (past ++ (w.run ops).2)) : InvOne k (w.run ops).1 := by
  induction ops generalizing w past with
  | nil => simpa [run] using h
  | cons op ops ih =>
    obtain ⟨a, b⟩ := run_snd_cons w op ops
    rw [a] at hp
    rw [b]
    refine ih (step_one h h2 op (fun ht => noPub hk h2 (hp past _ _ rfl (ht.logged h2 hK hF))) (fun k' _ c => absurd c (plain_ne hk k'))) (step_inv2 h2 op) (step_invK hK op) (step_pullFed hF op) ?_
    rw [List.append_assoc]
    exact hp

/-- An ordinary key whose pulls and publishers keep apart. -/
theorem run_one {k : Key} (hk : plainKey k = true) (ops : List WOp) (hp : apart k (World.init.run ops).2) : InvOne k (World.init.run ops).1 :=
  run_one_from hk ops (InvOne.init k) Inv2.init InvK.init Fed.init hp

theorem pullKeyFrom_mem (e : Nat) (k : Key) : ∀ (l : Log) (acc : Option Key), pullKeyFrom e acc l = some k → acc = some k ∨ (.edgeRequest k, .edgeStarted e) ∈ l := by
  intro l
  induction l with
  | nil => intro acc h; exact .inl h
  | cons x l ih =>
    intro acc h
    unfold pullKeyFrom at h
    split at h
    · exact .inl h
    · next k' n l' h0 =>
      simp only [List.cons.injEq] at h0
      obtain ⟨rfl, rfl⟩ := h0
      rcases ih _ h with h1 | h1
      · split at h1
        · next hc => subst hc; simp at h1; subst h1; exact .inr (List.mem_cons_self ..)
        · exact .inl h1
      · exact .inr (List.mem_cons_of_mem _ h1)
    · next n l' h0 =>
      simp only [List.cons.injEq] at h0
      obtain ⟨rfl, rfl⟩ := h0
      rcases ih _ h with h1 | h1
      · split at h1
        · simp at h1
        · exact .inl h1
      · exact .inr (List.mem_cons_of_mem _ h1)
    · next l' _ _ h0 =>
      simp only [List.cons.injEq] at h0
      obtain ⟨rfl, rfl⟩ := h0
      rcases ih _ h with h1 | h1
      · exact .inl h1
      · exact .inr (List.mem_cons_of_mem _ h1)

/-- No pull of the key has opened: none takes it or gives it up. -/
theorem untouched {k : Key} {a b : Log} {x : WOp × WOut} (h : pullOpened k (a ++ x :: b) = false) : ¬ pullTouches k a x := by
  intro ht
  obtain ⟨op, o⟩ := x
  cases op <;> cases o <;> simp only [pullTouches] at ht
  · exact pullOpened_false h (List.mem_append_right _ (List.mem_cons_self ..)) (List.mem_append_left _ ht)
  · obtain ⟨h1, cid, h2⟩ := ht
    exact pullOpened_false h (List.mem_append_left _ h2) (List.mem_append_left _ h1)
  · obtain ⟨h1, cid, h2⟩ := ht
    exact pullOpened_false h (List.mem_append_left _ h2) (List.mem_append_left _ h1)

/-- If no pull of a key has ever opened, pulls and publishers have kept apart and none lasts that has opened. -/
theorem apart_of_none {k : Key} {l : Log} (h : pullOpened k l = false) : apart k l ∧ ¬ pulledNow k l := by
  constructor
  · intro l1 x l2 hl ht
    exact absurd ht (untouched (by rw [← hl]; exact h))
  · rintro ⟨e, cid, h1, h2⟩
    rcases pullKeyFrom_mem e k l none h1 with h3 | h3
    · simp at h3
    · exact pullOpened_false h h2 h3

theorem activeKeyFrom_mem (cid : Nat) (k : Key) : ∀ (l : Log) (acc : Option Key), activeKeyFrom cid acc l = some k →
    acc = some k ∨ (.publish k, .published cid) ∈ l ∨ (.publishSrt k, .published cid) ∈ l := by
  intro l
  induction l with
  | nil => intro acc h; exact .inl h
  | cons x l ih =>
    intro acc h
    have weaken : ∀ acc', activeKeyFrom cid acc' l = some k → (acc' = some k → acc = some k ∨ (.publish k, .published cid) ∈ x :: l ∨ (.publishSrt k, .published cid) ∈ x :: l) →
        acc = some k ∨ (.publish k, .published cid) ∈ x :: l ∨ (.publishSrt k, .published cid) ∈ x :: l := by
      intro acc' h1 h2
      rcases ih acc' h1 with h3 | h3 | h3
      · exact h2 h3
      · exact .inr (.inl (List.mem_cons_of_mem _ h3))
      · exact .inr (.inr (List.mem_cons_of_mem _ h3))
    unfold activeKeyFrom at h
    split at h
    · exact .inl h
    · next k' n l' h0 =>
      simp only [List.cons.injEq] at h0
      obtain ⟨rfl, rfl⟩ := h0
      refine weaken _ h (fun h1 => ?_)
      split at h1
      · next hc => subst hc; simp at h1; subst h1; exact .inr (.inl (List.mem_cons_self ..))
      · exact .inl h1
    · next k' n l' h0 =>
      simp only [List.cons.injEq] at h0
      obtain ⟨rfl, rfl⟩ := h0
      refine weaken _ h (fun h1 => ?_)
      split at h1
      · next hc => subst hc; simp at h1; subst h1; exact .inr (.inr (List.mem_cons_self ..))
      · exact .inl h1
    · next n l' h0 =>
      simp only [List.cons.injEq] at h0
      obtain ⟨rfl, rfl⟩ := h0
      refine weaken _ h (fun h1 => ?_)
      split at h1
      · simp at h1
      · exact .inl h1
    · next l' _ _ _ h0 =>
      simp only [List.cons.injEq] at h0
      obtain ⟨rfl, rfl⟩ := h0
      exact weaken _ h .inl

/-- A check for `apart`. -/
def apartCheck (k : Key) : Log → Log → Bool
  | _, [] => true
  | past, x :: l =>
    (!(match x with
      | (.edgeOpen e, .published _) => past.contains (.edgeRequest k, .edgeStarted e)
      | (.edgeEnd e, .ok) => past.contains (.edgeRequest k, .edgeStarted e)
      | (.edgeDrop e, .ok) => past.contains (.edgeRequest k, .edgeStarted e)
      | _ => false) || past.all fun y =>
        match y with
        | (.publish _, .published n) => decide (activeKey n past ≠ some k)
        | (.publishSrt _, .published n) => decide (activeKey n past ≠ some k)
        | _ => true) && apartCheck k (past ++ [x]) l

theorem apartCheck_sound {k : Key} (l : Log) : ∀ past : Log, apartCheck k past l = true → ∀ l1 x l2, l = l1 ++ x :: l2 → pullTouches k (past ++ l1) x → ∀ cid, activeKey cid (past ++ l1) ≠ some k := by
  induction l with
  | nil => intro past _ l1 x l2 h; simp at h
  | cons y l ih =>
    intro past h l1 x l2 hl ht cid hc
    simp only [apartCheck, Bool.and_eq_true] at h
    cases l1 with
    | cons z l1 =>
      simp only [List.cons_append, List.cons.injEq] at hl
      obtain ⟨rfl, hl⟩ := hl
      refine ih (past ++ [y]) h.2 l1 x l2 hl ?_ cid ?_
      · rw [List.append_assoc]; exact ht
      · rw [List.append_assoc]; exact hc
    | nil =>
      simp only [List.nil_append, List.cons.injEq] at hl
      obtain ⟨rfl, -⟩ := hl
      rw [List.append_nil] at ht hc
      have h1 := h.1
      rw [Bool.or_eq_true] at h1
      rcases h1 with h1 | h1
      · clear h hc ih
        rw [Bool.not_eq_true'] at h1
        unfold pullTouches at ht
        split at ht
        · have := List.contains_iff_mem.2 ht
          simp only at h1
          rw [h1] at this
          simp at this
        · have := List.contains_iff_mem.2 ht.1
          simp only at h1
          rw [h1] at this
          simp at this
        · have := List.contains_iff_mem.2 ht.1
          simp only at h1
          rw [h1] at this
          simp at this
        · exact ht
      · rw [List.all_eq_true] at h1
        rcases activeKeyFrom_mem cid k past none hc with h2 | h2 | h2
        · simp at h2
        · have := h1 _ h2; simp at this; exact this hc
        · have := h1 _ h2; simp at this; exact this hc

theorem apart_of_check {k : Key} {l : Log} (h : apartCheck k [] l = true) : apart k l := fun l1 x l2 hl ht => by
  have := apartCheck_sound l [] h l1 x l2 hl (by simpa using ht)
  simpa using this

theorem rawFree_active {k : Key} {l : Log} (h : rawFree k l = true) (cid : Nat) : activeKey cid l ≠ some (tsKey k) := by
  intro hc
  unfold rawFree at h
  rw [Bool.and_eq_true, List.all_eq_true] at h
  rcases activeKeyFrom_mem cid _ l none hc with h1 | h1 | h1
  · simp at h1
  · have := h.1 _ h1; simp at this
  · have := h.1 _ h1; simp at this

theorem rawFree_pullOpened {k : Key} {l : Log} (h : rawFree k l = true) : pullOpened (tsKey k) l = false := by
  unfold rawFree at h
  rw [Bool.and_eq_true] at h
  simpa using h.2

end Sps.World
