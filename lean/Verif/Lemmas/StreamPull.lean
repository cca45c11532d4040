import Verif.Lemmas.StreamOne
/-! # The pulls of one key -/
namespace Sps.World
open Spec

/-- The registered pull of `k` is the one pull of `k` that has not ended, and no pull of `k` has been started since. -/
structure E4 (k : Key) (ed : Nat → Option Edge) (r : Option Nat) (pull : Nat → Option Key) : Prop where
  reg : ∀ e, pull e = some k ↔ r = some e
  last : ∀ e e' d, r = some e → ed e' = some d → d.key = k → e' ≤ e

/-- The pull invariant of a key. -/
def Inv4 (k : Key) (w : World) (past : Log) : Prop := E4 k (fun e => w.edges[e]?) (w.edgeReg.find k) (fun e => pullKey e past)

theorem Inv4.init (k : Key) : Inv4 k World.init [] :=
  ⟨by simp [pullKey, pullKeyFrom, World.init, Assoc.find_nil], by simp [World.init, Assoc.find_nil]⟩

theorem Inv4.congr {k : Key} {w w' : World} {past past' : Log} (h : Inv4 k w past)
    (he : ∀ (e : Nat) d, w'.edges[e]? = some d → d.key = k → ∃ d', w.edges[e]? = some d' ∧ d'.key = k)
    (hr : w'.edgeReg.find k = w.edgeReg.find k) (hp : ∀ e, pullKey e past' = some k ↔ pullKey e past = some k) : Inv4 k w' past' := by
  refine ⟨fun e => ?_, fun e e' d h1 h2 h3 => ?_⟩
  · rw [hr]
    exact (hp e).trans (h.reg e)
  · rw [hr] at h1
    obtain ⟨d', h4, h5⟩ := he e' d h2 h3
    exact h.last e e' d' h1 h4 h5

theorem Inv4.same {k : Key} {w w' : World} {past past' : Log} (h : Inv4 k w past) (he : w'.edges = w.edges)
    (hr : w'.edgeReg = w.edgeReg) (hp : ∀ e, pullKey e past' = pullKey e past) : Inv4 k w' past' :=
  h.congr (fun e d h1 h2 => ⟨d, he ▸ h1, h2⟩) (by rw [hr]) (fun e => by rw [hp])

theorem Pulls.running {w : World} {past : Log} (h : Pulls w past) {e : Nat} {k : Key} {ph : EdgePhase} (he : w.edges[e]? = some ⟨k, ph⟩) (hp : ph ≠ .done) :
    pullKey e past = some k := by
  rw [h e, he]
  simp [hp]

theorem Pulls.phase {w : World} {past : Log} (h : Pulls w past) {e : Nat} {k : Key} (he : pullKey e past = some k) :
    ∃ ph, w.edges[e]? = some ⟨k, ph⟩ ∧ ph ≠ .done := by
  rw [h e] at he
  cases hd : w.edges[e]? with
  | none => rw [hd] at he; simp at he
  | some d =>
    rw [hd] at he
    obtain ⟨k', ph⟩ := d
    simp only at he
    split at he
    · simp at he
    · next hne => simp at he; exact ⟨ph, by rw [he], hne⟩

theorem step_inv4 {k : Key} {w : World} {past : Log} (h : Inv4 k w past) (hP : Pulls w past) (op : WOp)
    (hlate : ∀ e ed, op = .edgeDrop e → w.edges[e]? = some ed → ed.key = k → ∀ (e' : Nat) (d : Edge), w.edges[e']? = some d → d.key = k → e' ≤ e) :
    Inv4 k (w.step op).1 (past ++ [(op, (w.step op).2)]) := by
  cases op with
  | publish k' =>
    simp only [step, publish]
    split <;> exact h.same rfl rfl (fun e => by rw [pullKey_snoc]; rfl)
  | publishSrt k' =>
    simp only [step, publishSrt]
    split <;> exact h.same rfl rfl (fun e => by rw [pullKey_snoc]; rfl)
  | put cid p =>
    simp only [step, put]
    repeat' split
    all_goals exact h.same rfl rfl (fun e => by rw [pullKey_snoc]; rfl)
  | unpublish cid =>
    simp only [step, unpublish]
    repeat' split
    all_goals exact h.same rfl rfl (fun e => by rw [pullKey_snoc]; rfl)
  | play k' =>
    simp only [step, play_eq]
    repeat' split
    all_goals exact h.same rfl rfl (fun e => by rw [pullKey_snoc]; rfl)
  | dump c =>
    simp only [step, dump]
    repeat' split
    all_goals exact h.same rfl rfl (fun e => by rw [pullKey_snoc]; rfl)
  | leave c =>
    simp only [step, leave]
    repeat' split
    all_goals exact h.same rfl rfl (fun e => by rw [pullKey_snoc]; rfl)
  | edgeRequest k' =>
    simp only [step, edgeRequest]
    split
    · exact h.same rfl rfl (fun e => by rw [pullKey_snoc]; rfl)
    · split
      · exact h.same rfl rfl (fun e => by rw [pullKey_snoc]; rfl)
      · rename_i hf
        have e2 : ∀ e, pullKey e (past ++ [(WOp.edgeRequest k', WOut.edgeStarted w.edges.length)]) =
            if w.edges.length = e then some k' else pullKey e past := by
          intro e; rw [pullKey_snoc]; rfl
        have e3 : (w.edgeReg.insert k' w.edges.length).find k = if k = k' then some w.edges.length else w.edgeReg.find k := by
          rw [Assoc.find_insert]
        have e4 : ∀ e : Nat, (w.edges ++ [(⟨k', .starting⟩ : Edge)])[e]? = if e = w.edges.length then some ⟨k', .starting⟩ else w.edges[e]? := by
          intro e; rw [append_get_new]
        have hnone : pullKey w.edges.length past = none := by rw [hP]; simp
        have hlt : ∀ (e' : Nat) (d : Edge), w.edges[e']? = some d → e' < w.edges.length := fun _ _ h => (List.getElem?_eq_some_iff.1 h).1
        by_cases hk : k' = k
        · subst hk
          refine ⟨fun e => ?_, fun e e' d h1 h2 h3 => ?_⟩
          · show pullKey e (past ++ [_]) = some k' ↔ (w.edgeReg.insert k' w.edges.length).find k' = some e
            rw [e2, e3, if_pos rfl]
            by_cases he : w.edges.length = e
            · simp [he]
            · simp only [he, if_false, Option.some.injEq, iff_false]
              intro c
              have := (h.reg e).1 c
              rw [hf] at this; simp at this
          · have h1 : (w.edgeReg.insert k' w.edges.length).find k' = some e := h1
            rw [e3, if_pos rfl] at h1
            simp at h1
            have h2 : (w.edges ++ [(⟨k', .starting⟩ : Edge)])[e']? = some d := h2
            rw [e4] at h2
            split at h2
            · omega
            · have := hlt e' d h2; omega
        · refine h.congr (fun e d h1 h2 => ?_) ?_ (fun e => ?_)
          · have h1 : (w.edges ++ [(⟨k', .starting⟩ : Edge)])[e]? = some d := h1
            rw [e4] at h1
            split at h1
            · simp at h1; subst h1; exact absurd h2 hk
            · exact ⟨d, h1, h2⟩
          · show (w.edgeReg.insert k' w.edges.length).find k = _
            rw [e3, if_neg (Ne.symm hk)]
          · rw [e2]
            split
            · next he => rw [← he, hnone]; simp [hk]
            · rfl
  | edgeOpen e =>
    simp only [step, edgeOpen]
    split
    · exact h.same rfl rfl (fun e => by rw [pullKey_snoc]; rfl)
    · rename_i ed hed
      obtain ⟨k', ph⟩ := ed
      split
      · refine h.congr (fun i d h1 h2 => ?_) rfl (fun i => by rw [pullKey_snoc]; rfl)
        have h1 : (w.edges.modify e fun d => { d with phase := .running w.caches.length })[i]? = some d := h1
        rw [edges_modify w e i k' _ _ hed] at h1
        split at h1
        · next hi => simp at h1; subst h1; subst hi; exact ⟨_, hed, h2⟩
        · exact ⟨d, h1, h2⟩
      · exact h.same rfl rfl (fun e => by rw [pullKey_snoc]; rfl)
  | edgeEnd e =>
    simp only [step, edgeEnd]
    split
    · exact h.same rfl rfl (fun e => by rw [pullKey_snoc]; rfl)
    · rename_i ed hed
      obtain ⟨k', ph⟩ := ed
      have e2 : ∀ i, pullKey i (past ++ [(WOp.edgeEnd e, WOut.ok)]) = if e = i then none else pullKey i past := by
        intro i; rw [pullKey_snoc]; rfl
      have stop : ph ≠ .done → ∀ w' : World, (w'.edges = w.edges.modify e fun d => { d with phase := .done }) → w'.edgeReg = w.edgeReg.erase k' →
          Inv4 k w' (past ++ [(WOp.edgeEnd e, WOut.ok)]) := by
        intro hne w' hw hr
        have hpe := hP.running hed hne
        have hm : ∀ (i : Nat) d, w'.edges[i]? = some d → d.key = k → ∃ d', w.edges[i]? = some d' ∧ d'.key = k := by
          intro i d h1 h2
          rw [hw, edges_modify w e i k' _ _ hed] at h1
          split at h1
          · next hi => simp at h1; subst h1; subst hi; exact ⟨_, hed, h2⟩
          · exact ⟨d, h1, h2⟩
        by_cases hk : k' = k
        · subst hk
          have hre := (h.reg e).1 hpe
          refine ⟨fun i => ?_, fun i j d h1 h2 h3 => ?_⟩
          · show pullKey i (past ++ [_]) = some k' ↔ w'.edgeReg.find k' = some i
            rw [e2, hr, Assoc.find_erase, if_pos rfl]
            split
            · simp
            · next hi =>
              simp only [reduceCtorEq, iff_false]
              intro c
              have := (h.reg i).1 c
              rw [hre] at this; simp at this; exact hi this
          · rw [hr, Assoc.find_erase, if_pos rfl] at h1
            simp at h1
        · refine h.congr hm (by rw [hr, Assoc.find_erase, if_neg (Ne.symm hk)]) (fun i => ?_)
          rw [e2]
          split
          · next hi => subst hi; rw [hpe]; simp [hk]
          · rfl
      split
      · rename_i hp
        simp at hp
        subst hp
        exact stop (by simp) _ rfl rfl
      · rename_i cid hp
        simp at hp
        subst hp
        exact stop (by simp) _ rfl rfl
      · exact h.same rfl rfl (fun e => by rw [pullKey_snoc]; rfl)
  | edgeDrop e =>
    simp only [step, edgeDrop]
    split
    · exact h.same rfl rfl (fun e => by rw [pullKey_snoc]; rfl)
    · rename_i ed hed
      split
      · split
        · rename_i hdone
          refine h.congr (fun i d h1 h2 => ⟨d, h1, h2⟩) ?_ (fun e => by rw [pullKey_snoc]; rfl)
          show (w.edgeReg.erase ed.key).find k = _
          rw [Assoc.find_erase]
          split
          · next hk =>
            have hl := hlate e ed rfl hed hk.symm
            cases hf : w.edgeReg.find k with
            | none => rfl
            | some e' =>
              exfalso
              have h1 := h.last e' e ed hf hed hk.symm
              obtain ⟨ph, h3, h4⟩ := hP.phase ((h.reg e').2 hf)
              have := hl e' _ h3 rfl
              have : e = e' := by omega
              subst this
              rw [hed] at h3
              simp at h3
              subst h3
              exact h4 hdone
          · rfl
        · exact h.same rfl rfl (fun e => by rw [pullKey_snoc]; rfl)
      · exact h.same rfl rfl (fun e => by rw [pullKey_snoc]; rfl)

/-! ### Pulls that start promptly -/

theorem prompt_prefix {k : Key} {a b : Log} (h : prompt k (a ++ b)) : prompt k a := by
  intro l1 l2 e o e' he
  exact h l1 (l2 ++ b) e o e' (by rw [he]; simp)

/-- A way to compute `prompt`. -/
def promptCheck (k : Key) (l : Log) : Bool := (List.range l.length).all fun i =>
  match l[i]? with
  | some (.edgeDrop e, _) => (l.take i).all fun x =>
    match x with
    | (.edgeRequest k', .edgeStarted e') => decide (k' ≠ k) || decide (e' ≤ e) || !(l.take i).contains (.edgeRequest k, .edgeStarted e)
    | _ => true
  | _ => true

theorem promptCheck_sound {k : Key} {l : Log} (h : promptCheck k l = true) : prompt k l := by
  intro l1 l2 e o e' hl h1 h2
  unfold promptCheck at h
  rw [List.all_eq_true] at h
  have h3 := h l1.length (by rw [hl]; simp)
  rw [show l[l1.length]? = some (.edgeDrop e, o) by rw [hl]; simp, show l.take l1.length = l1 by rw [hl]; simp] at h3
  simp only [List.all_eq_true] at h3
  have h4 := h3 _ h2
  simp only [ne_eq, not_true_eq_false, decide_false, Bool.false_or, Bool.or_eq_true, decide_eq_true_eq, Bool.not_eq_true', List.contains_eq_mem, decide_eq_false_iff_not] at h4
  rcases h4 with h4 | h4
  · exact h4
  · exact absurd h1 h4

/-- What `prompt` says of the next piece. -/
theorem prompt_late {k : Key} {w : World} {past : Log} (hK : InvK w past) {op : WOp} {o : WOut} (h : prompt k (past ++ [(op, o)])) :
    ∀ e ed, op = .edgeDrop e → w.edges[e]? = some ed → ed.key = k → ∀ (e' : Nat) (d : Edge), w.edges[e']? = some d → d.key = k → e' ≤ e := by
  rintro e ed rfl hed hk e' d hd hk'
  exact h past [] e o e' rfl ((hK.edge e k).2 (by rw [hed, Option.map_some, hk])) ((hK.edge e' k).2 (by rw [hd, Option.map_some, hk']))

theorem run_inv4 {k : Key} (ops : List WOp) {w : World} {past : Log} (h : Inv4 k w past) (hP : Pulls w past) (hK : InvK w past) (hp : prompt k (past ++ (w.run ops).2)) :
    Inv4 k (w.run ops).1 (past ++ (w.run ops).2) := by
  induction ops generalizing w past with
  | nil => simpa [run] using h
  | cons op ops ih =>
    obtain ⟨a, b⟩ := run_snd_cons w op ops
    rw [a] at hp
    have hp' : prompt k (past ++ [(op, (w.step op).2)] ++ ((w.step op).1.run ops).2) := by simpa using hp
    have := ih (step_inv4 h hP op (prompt_late hK (prompt_prefix hp'))) (step_pulls hP op) (step_invK hK op) hp'
    rw [a, b]; simpa using this

/-! ### A pull that has opened while nobody published its key -/

/-- Pull `e` of `k` feeds cache `cid`, which players of `k` find, and no publisher of `k` is connected. -/
structure Shared (k : Key) (e cid : Nat) (w : World) : Prop where
  run : w.edges[e]? = some ⟨k, .running cid⟩
  reg : w.reg.find k = some cid
  alone : ∀ i s, w.view i = some (k, s, true) → s ≠ .plain ∧ s ≠ .srtAv

/-- The same, or the pull has ended. -/
def Sharing (k : Key) (e cid : Nat) (w : World) : Prop := w.edges[e]? = some ⟨k, .done⟩ ∨ Shared k e cid w

theorem Sharing.congr {k : Key} {e cid : Nat} {w w' : World} (h : Sharing k e cid w) (he : w'.edges[e]? = w.edges[e]?) (hr : w'.reg.find k = w.reg.find k)
    (hv : ∀ i s, w'.view i = some (k, s, true) → s = .plain ∨ s = .srtAv → w.view i = some (k, s, true)) : Sharing k e cid w' := by
  rcases h with h | h
  · exact .inl (by rw [he]; exact h)
  · refine .inr ⟨by rw [he]; exact h.run, by rw [hr]; exact h.reg, fun i s hs => ?_⟩
    by_cases hc : s = .plain ∨ s = .srtAv
    · exact h.alone i s (hv i s hs hc)
    · exact ⟨fun c => hc (.inl c), fun c => hc (.inr c)⟩

theorem Sharing.keep {k : Key} {e cid : Nat} {w w' : World} (h : Sharing k e cid w) (he : w'.edges = w.edges) (hr : w'.reg = w.reg) (hv : ∀ i, w'.view i = w.view i) : Sharing k e cid w' :=
  h.congr (by rw [he]) (by rw [hr]) (fun i s h1 _ => by rw [← hv]; exact h1)

theorem done_keeps {k : Key} {e : Nat} {w : World} (h : w.edges[e]? = some ⟨k, .done⟩) (op : WOp) : (w.step op).1.edges[e]? = some ⟨k, .done⟩ := by
  have hlt := (List.getElem?_eq_some_iff.1 h).1
  cases op with
  | publish k' => simp only [step, publish]; split <;> exact h
  | publishSrt k' => simp only [step, publishSrt]; split <;> exact h
  | put cid p => simp only [step, put]; repeat' split
                 all_goals exact h
  | unpublish cid => simp only [step, unpublish]; repeat' split
                     all_goals exact h
  | play k' => simp only [step, play_eq]; repeat' split
               all_goals exact h
  | dump c => simp only [step, dump]; repeat' split
              all_goals exact h
  | leave c => simp only [step, leave]; repeat' split
               all_goals exact h
  | edgeRequest k' =>
    simp only [step, edgeRequest]
    split
    · exact h
    · split
      · exact h
      · show (w.edges ++ [_])[e]? = _
        rw [List.getElem?_append_left hlt]
        exact h
  | edgeOpen e' =>
    simp only [step, edgeOpen]
    split
    · exact h
    · next ed hed =>
      obtain ⟨k', ph⟩ := ed
      split
      · next hp =>
        show (w.edges.modify e' _)[e]? = _
        rw [edges_modify w e' e k' _ _ hed]
        split
        · next hi => subst hi; rw [h] at hed; simp at hed; rw [← hed.2] at hp; simp at hp
        · exact h
      · exact h
  | edgeEnd e' =>
    simp only [step, edgeEnd]
    split
    · exact h
    · next ed hed =>
      obtain ⟨k', ph⟩ := ed
      split
      · show (w.edges.modify e' _)[e]? = _
        rw [edges_modify w e' e k' _ _ hed]
        split
        · next hi => subst hi; rw [h] at hed; simp at hed; rw [hed.1]
        · exact h
      · show (w.edges.modify e' _)[e]? = _
        rw [edges_modify w e' e k' _ _ hed]
        split
        · next hi => subst hi; rw [h] at hed; simp at hed; rw [hed.1]
        · exact h
      · exact h
  | edgeDrop e' => simp only [step, edgeDrop]; repeat' split
                   all_goals exact h

theorem step_sharing {k : Key} (hk : plainKey k = true) {e cid : Nat} {w : World} {past : Log} (h : Sharing k e cid w) (h4 : Inv4 k w past) (hP : Pulls w past) (h2 : Inv2 w past) (op : WOp)
    (hlate : ∀ e ed, op = .edgeDrop e → w.edges[e]? = some ed → ed.key = k → ∀ (e' : Nat) (d : Edge), w.edges[e']? = some d → d.key = k → e' ≤ e) :
    Sharing k e cid (w.step op).1 := by
  rcases h with h | h
  · exact .inl (done_keeps h op)
  have hs : Sharing k e cid w := .inr h
  have hlt := (List.getElem?_eq_some_iff.1 h.run).1
  have hreg : w.edgeReg.find k = some e := (h4.reg e).1 (hP.running h.run (by simp))
  have uniq : ∀ (e' : Nat) (ph : EdgePhase), w.edges[e']? = some ⟨k, ph⟩ → ph ≠ .done → e = e' := by
    intro e' ph q1 q2
    have := (h4.reg e').1 (hP.running q1 q2)
    rw [hreg] at this
    simpa using this
  cases op with
  | publish k' =>
    simp only [step, publish]
    split
    · exact hs
    · next hf =>
      have hne : k' ≠ k := by rintro rfl; rw [h.reg] at hf; simp at hf
      refine hs.congr rfl ?_ ?_
      · simp only [newCache]; rw [Assoc.find_insert, if_neg (Ne.symm hne)]
      · intro i s h1 _
        rw [view_newCache] at h1
        split at h1
        · simp at h1; exact absurd h1.1 hne
        · exact h1
  | publishSrt k' =>
    simp only [step, publishSrt]
    split
    · exact hs
    · next hf =>
      have hne : k' ≠ k := by rintro rfl; rw [h.reg] at hf; simp at hf
      refine hs.congr rfl ?_ ?_
      · simp only [newCache]; rw [Assoc.find_insert, if_neg (Ne.symm (plain_ne hk k')), Assoc.find_insert, if_neg (Ne.symm hne)]
      · intro i s h1 _
        rw [view_newCache, view_newCache] at h1
        split at h1
        · simp at h1; exact absurd h1.1 (plain_ne hk k')
        · split at h1
          · simp at h1; exact absurd h1.1 hne
          · exact h1
  | put c p =>
    simp only [step, put]
    split
    · exact hs
    · split
      · exact hs.keep rfl rfl (fun i => view_modify w _ c _ rfl i (by intro c; exact ⟨rfl, rfl, rfl⟩))
      · exact hs
  | unpublish c =>
    have hclose : ∀ (j i : Nat) (s : Src) (w' : World), (w'.closeCache j).view i = some (k, s, true) → w'.view i = some (k, s, true) := by
      intro j i s w' h1
      rw [view_close] at h1
      split at h1
      · cases hv : w'.view i with
        | none => rw [hv] at h1; simp at h1
        | some x => rw [hv] at h1; simp at h1
      · exact h1
    simp only [step, unpublish]
    split
    · exact hs
    · rename_i x hx
      have hv := view_some hx
      split
      · rename_i ho
        split
        · rename_i hsrc
          rw [hsrc, ho] at hv
          have hne : x.key ≠ k := fun c' => (h.alone c .plain (by rw [hv, c'])).1 rfl
          refine hs.congr rfl ?_ (fun i s h1 _ => hclose c i s w h1)
          show (w.reg.erase x.key).find k = _
          rw [Assoc.find_erase, if_neg (Ne.symm hne)]
        · rename_i hsrc
          rw [hsrc, ho] at hv
          have hne : x.key ≠ k := fun c' => (h.alone c .srtAv (by rw [hv, c'])).2 rfl
          refine hs.congr rfl ?_ (fun i s h1 _ => hclose c i s w (hclose (c + 1) i s _ h1))
          show ((w.reg.erase x.key).erase (tsKey x.key)).find k = _
          rw [Assoc.find_erase, if_neg (Ne.symm (plain_ne hk _)), Assoc.find_erase, if_neg (Ne.symm hne)]
        · exact hs
      · exact hs
  | play k' =>
    simp only [step, play_eq]
    split
    · exact hs
    · split
      · exact hs
      · exact hs.keep rfl rfl (fun i => view_modify w _ _ _ rfl i (by intro c; exact ⟨rfl, rfl, rfl⟩))
  | dump c =>
    simp only [step, dump]
    split
    · exact hs
    · split <;> exact hs.keep rfl rfl (fun _ => rfl)
  | leave c =>
    simp only [step, leave]
    split
    · exact hs
    · split
      · exact hs
      · exact hs.keep rfl rfl (fun i => view_modify w _ _ _ rfl i (by intro c; exact ⟨rfl, rfl, rfl⟩))
  | edgeRequest k' =>
    simp only [step, edgeRequest]
    split
    · exact hs
    · split
      · exact hs
      · refine hs.congr ?_ rfl (fun i s h1 _ => h1)
        show (w.edges ++ [_])[e]? = _
        rw [List.getElem?_append_left hlt]
  | edgeOpen e' =>
    simp only [step, edgeOpen]
    split
    · exact hs
    · next ed hed =>
      obtain ⟨k', ph⟩ := ed
      split
      · next hp =>
        simp at hp
        subst hp
        have hne : k' ≠ k := by
          rintro rfl
          have := uniq e' _ hed (by simp)
          subst this
          rw [h.run] at hed
          simp at hed
        have hee : e' ≠ e := by
          rintro rfl
          rw [h.run] at hed
          simp at hed
        refine hs.congr ?_ ?_ ?_
        · show (w.edges.modify e' _)[e]? = _
          rw [edges_modify w e' e k' _ _ hed, if_neg hee]
        · show ((w.newCache k' (.edge e') (.av Gop.empty)).reg).find k = _
          simp only [newCache]; rw [Assoc.find_insert, if_neg (Ne.symm hne)]
        · intro i s h1 _
          have h1 : (w.newCache k' (.edge e') (.av Gop.empty)).view i = some (k, s, true) := h1
          rw [view_newCache] at h1
          split at h1
          · simp at h1; exact absurd h1.1 hne
          · exact h1
      · exact hs
  | edgeEnd e' =>
    simp only [step, edgeEnd]
    split
    · exact hs
    · next ed hed =>
      obtain ⟨k', ph⟩ := ed
      by_cases hee : e' = e
      · subst hee
        rw [h.run] at hed
        simp at hed
        obtain ⟨rfl, rfl⟩ := hed
        refine .inl ?_
        show (w.edges.modify e' _)[e']? = _
        rw [edges_modify w e' e' k _ _ h.run, if_pos rfl]
      · have hne : ph ≠ .done → k' ≠ k := by
          rintro hd rfl
          exact hee (uniq e' _ hed hd).symm
        split
        · refine hs.congr ?_ rfl (fun i s h1 _ => h1)
          show (w.edges.modify e' _)[e]? = _
          rw [edges_modify w e' e k' _ _ hed, if_neg hee]
        · next c hp =>
          simp at hp
          subst hp
          refine hs.congr ?_ ?_ ?_
          · show (w.edges.modify e' _)[e]? = _
            rw [edges_modify w e' e k' _ _ hed, if_neg hee]
          · show (w.reg.erase k').find k = _
            rw [Assoc.find_erase, if_neg (Ne.symm (hne (by simp)))]
          · intro i s h1 _
            have h1 : (w.closeCache c).view i = some (k, s, true) := h1
            rw [view_close] at h1
            split at h1
            · cases hv : w.view i with
              | none => rw [hv] at h1; simp at h1
              | some x => rw [hv] at h1; simp at h1
            · exact h1
        · exact hs
  | edgeDrop e' =>
    simp only [step, edgeDrop]
    split
    · exact hs
    · next ed hed =>
      split
      · split
        · next hdone =>
          have hne : ed.key ≠ k := by
            intro hc
            have h1 := hlate e' ed rfl hed hc e _ h.run rfl
            have h3 := h4.last e e' ed hreg hed hc
            have : e = e' := by omega
            subst this
            rw [h.run] at hed
            simp at hed
            subst hed
            simp at hdone
          refine hs.congr rfl ?_ (fun i s h1 _ => h1)
          show (if _ then w.reg.erase ed.key else w.reg).find k = _
          split
          · rw [Assoc.find_erase, if_neg (Ne.symm hne)]
          · rfl
        · exact hs.keep rfl rfl (fun _ => rfl)
      · exact hs

theorem run_sharing {k : Key} (hk : plainKey k = true) {e cid : Nat} (ops : List WOp) {w : World} {past : Log} (h : Sharing k e cid w) (h4 : Inv4 k w past) (hP : Pulls w past) (h2 : Inv2 w past)
    (hK : InvK w past) (hp : prompt k (past ++ (w.run ops).2)) : Sharing k e cid (w.run ops).1 := by
  induction ops generalizing w past with
  | nil => simpa [run] using h
  | cons op ops ih =>
    obtain ⟨a, b⟩ := run_snd_cons w op ops
    rw [a] at hp
    have hp' : prompt k (past ++ [(op, (w.step op).2)] ++ ((w.step op).1.run ops).2) := by simpa using hp
    have hl := prompt_late hK (prompt_prefix hp')
    rw [b]
    exact ih (step_sharing hk h h4 hP h2 op hl) (step_inv4 h4 hP op hl) (step_pulls hP op) (step_inv2 h2 op) (step_invK hK op) hp'

end Sps.World
