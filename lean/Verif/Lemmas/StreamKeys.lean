import Verif.Lemmas.StreamRun
/-! # Lemmas about the registries: publishers and pulls -/
namespace Sps.World
open Spec

theorem activeKeyFrom_append (cid : Nat) (l l' : Log) : ∀ acc,
    activeKeyFrom cid acc (l ++ l') = activeKeyFrom cid (activeKeyFrom cid acc l) l' := by
  induction l with
  | nil => intro acc; rfl
  | cons x l ih =>
    intro acc
    obtain ⟨op, o⟩ := x
    cases op <;> cases o <;> simp [activeKeyFrom, ih]

theorem activeKey_snoc (cid : Nat) (l : Log) (x : WOp × WOut) :
    activeKey cid (l ++ [x]) = activeKeyFrom cid (activeKey cid l) [x] := activeKeyFrom_append _ _ _ _

theorem pullKeyFrom_append (e : Nat) (l l' : Log) : ∀ acc,
    pullKeyFrom e acc (l ++ l') = pullKeyFrom e (pullKeyFrom e acc l) l' := by
  induction l with
  | nil => intro acc; rfl
  | cons x l ih =>
    intro acc
    obtain ⟨op, o⟩ := x
    cases op <;> cases o <;> simp [pullKeyFrom, ih]

theorem pullKey_snoc (e : Nat) (l : Log) (x : WOp × WOut) :
    pullKey e (l ++ [x]) = pullKeyFrom e (pullKey e l) [x] := pullKeyFrom_append _ _ _ _

theorem run_append (w : World) (ops ops' : List WOp) :
    w.run (ops ++ ops') =
      (((w.run ops).1.run ops').1, (w.run ops).2 ++ ((w.run ops).1.run ops').2) := by
  induction ops generalizing w with
  | nil => simp [run]
  | cons op ops ih => simp [run, ih]

theorem run_single (w : World) (op : WOp) : w.run [op] = ((w.step op).1, [(op, (w.step op).2)]) := by simp [run]

theorem run_snoc (w : World) (ops : List WOp) (op : WOp) :
    w.run (ops ++ [op]) = (((w.run ops).1.step op).1, (w.run ops).2 ++ [(op, ((w.run ops).1.step op).2)]) := by
  rw [run_append, run_single]

theorem append_get_new {α : Type} (l : List α) (a : α) (i : Nat) :
    (l ++ [a])[i]? = if i = l.length then some a else l[i]? := by
  rw [List.getElem?_append]
  by_cases h : i < l.length
  · rw [if_pos h, if_neg (by omega)]
  · rw [if_neg h]
    by_cases h2 : i = l.length
    · subst h2; simp
    · rw [if_neg h2, List.getElem?_eq_none (by simp; omega), List.getElem?_eq_none (by omega)]

theorem get_len {α : Type} {l : List α} {i : Nat} {a : α} (h : l[i]? = some a) : i < l.length := by
  rcases Nat.lt_or_ge i l.length with h1 | h1
  · exact h1
  · rw [List.getElem?_eq_none h1] at h; simp at h


/-- What the invariant sees of a cache. -/
def view (w : World) (i : Nat) : Option (Key × Src × Bool) := (w.caches[i]?).map fun c => (c.key, c.src, c.isOpen)

/-- The invariant in terms of the views. -/
structure V2 (view : Nat → Option (Key × Src × Bool)) (edges : Nat → Option Edge) (act : Nat → Option Key) : Prop where
  active : ∀ cid, act cid = match view cid with
    | none => none
    | some (k, s, b) => if b = true ∧ (s = .plain ∨ s = .srtAv) then some k else none
  twin : ∀ i k b, view i = some (k, .srtAv, b) → view (i + 1) = some (tsKey k, .srtRaw, b)
  raw : ∀ i k b, view i = some (k, .srtRaw, b) → ∃ j k', i = j + 1 ∧ view j = some (k', .srtAv, b)
  edge : ∀ e k cid, edges e = some ⟨k, .running cid⟩ → ∃ b, view cid = some (k, .edge e, b)
  edgeSrc : ∀ i k e b, view i = some (k, .edge e, b) → ∃ ed, edges e = some ed ∧ ed.key = k ∧ ed.phase ≠ .starting

theorem V2.new {v : Nat → Option (Key × Src × Bool)} {ed : Nat → Option Edge} {act : Nat → Option Key}
    (h : V2 v ed act) (n : Nat) (hn : ∀ i, n ≤ i → v i = none) (k : Key) :
    V2 (fun i => if i = n then some (k, .plain, true) else v i) ed (fun i => if n = i then some k else act i) := by
  obtain ⟨h1, h2, h3, h4, h5⟩ := h
  constructor
  · intro cid
    have := h1 cid
    grind
  · intro i k b hi; grind
  · intro i k' b hi
    have := h3 i k' b
    grind
  · intro e k' cid he
    have := h4 e k' cid he
    grind
  · intro i k' e b hi; grind

theorem V2.newSrt {v : Nat → Option (Key × Src × Bool)} {ed : Nat → Option Edge} {act : Nat → Option Key}
    (h : V2 v ed act) (n : Nat) (hn : ∀ i, n ≤ i → v i = none) (k : Key) :
    V2 (fun i => if i = n + 1 then some (tsKey k, .srtRaw, true) else if i = n then some (k, .srtAv, true) else v i) ed
      (fun i => if n = i then some k else act i) := by
  obtain ⟨h1, h2, h3, h4, h5⟩ := h
  constructor
  · intro cid
    have := h1 cid
    grind
  · intro i k b hi; grind
  · intro i k' b hi
    have := h3 i k' b
    grind
  · intro e k' cid he
    have := h4 e k' cid he
    grind
  · intro i k' e b hi; grind

theorem V2.newEdge {v : Nat → Option (Key × Src × Bool)} {ed : Nat → Option Edge} {act : Nat → Option Key}
    (h : V2 v ed act) (n : Nat) (hn : ∀ i, n ≤ i → v i = none) (k : Key) (e : Nat) (he : ed e = some ⟨k, .starting⟩) :
    V2 (fun i => if i = n then some (k, .edge e, true) else v i)
      (fun i => if i = e then some ⟨k, .running n⟩ else ed i) act := by
  obtain ⟨h1, h2, h3, h4, h5⟩ := h
  constructor
  · intro cid
    have := h1 cid
    grind
  · intro i k b hi; grind
  · intro i k' b hi
    have := h3 i k' b
    grind
  · intro e' k' cid he'
    have := h4 e' k' cid
    by_cases hx : e' = e
    · subst hx; simp at he'; obtain ⟨rfl, rfl⟩ := he'; exact ⟨true, by simp⟩
    · simp [hx] at he'
      obtain ⟨b, hb⟩ := this he'
      have : cid ≠ n := by intro c; rw [hn cid (by omega)] at hb; simp at hb
      exact ⟨b, by simp [this, hb]⟩
  · intro i k' e' b hi
    by_cases hx : e' = e
    · refine ⟨_, by simp [hx]; rfl, ?_, by simp⟩
      by_cases hin : i = n
      · simp [hin] at hi; exact hi.1
      · simp [hin] at hi
        obtain ⟨d, hd⟩ := h5 i k' e' b hi
        grind
    · have hin : i ≠ n := by intro c; simp [c] at hi; exact hx hi.2.1.symm
      simp [hin] at hi
      obtain ⟨d, hd⟩ := h5 i k' e' b hi
      exact ⟨d, by simp [hx, hd.1], hd.2⟩

theorem V2.close {v : Nat → Option (Key × Src × Bool)} {ed : Nat → Option Edge} {act : Nat → Option Key}
    (h : V2 v ed act) (cid : Nat) (k : Key) (hc : v cid = some (k, .plain, true)) :
    V2 (fun i => if cid = i then some (k, .plain, false) else v i) ed (fun i => if cid = i then none else act i) := by
  obtain ⟨h1, h2, h3, h4, h5⟩ := h
  constructor
  · intro c
    have := h1 c
    grind
  · intro i k b hi; grind
  · intro i k' b hi
    have := h3 i k' b
    grind
  · intro e k' c he
    have := h4 e k' c he
    grind
  · intro i k' e b hi; grind

theorem V2.closeSrt {v : Nat → Option (Key × Src × Bool)} {ed : Nat → Option Edge} {act : Nat → Option Key}
    (h : V2 v ed act) (cid : Nat) (k : Key) (hc : v cid = some (k, .srtAv, true)) :
    V2 (fun i => if cid + 1 = i then some (tsKey k, .srtRaw, false) else if cid = i then some (k, .srtAv, false) else v i) ed
      (fun i => if cid = i then none else act i) := by
  obtain ⟨h1, h2, h3, h4, h5⟩ := h
  have ht := h2 cid k true hc
  constructor
  · intro c
    have := h1 c
    grind
  · intro i k b hi; grind
  · intro i k' b hi
    have := h3 i k' b
    grind
  · intro e k' c he
    have := h4 e k' c he
    grind
  · intro i k' e b hi; grind

theorem V2.failEdge {v : Nat → Option (Key × Src × Bool)} {ed : Nat → Option Edge} {act : Nat → Option Key}
    (h : V2 v ed act) (k : Key) (e : Nat) (he : ed e = some ⟨k, .starting⟩) :
    V2 v (fun i => if e = i then some ⟨k, .done⟩ else ed i) act := by
  obtain ⟨h1, h2, h3, h4, h5⟩ := h
  refine ⟨h1, h2, h3, ?_, ?_⟩
  · intro e' k' c he'
    by_cases hx : e = e'
    · subst hx; simp at he'
    · simp [hx] at he'; exact h4 e' k' c he'
  · intro i k' e' b hi
    by_cases hx : e = e'
    · obtain ⟨d, hd⟩ := h5 i k' e' b hi
      refine ⟨_, by simp [hx]; rfl, ?_, by simp⟩
      grind
    · obtain ⟨d, hd⟩ := h5 i k' e' b hi
      exact ⟨d, by simp [hx, hd.1], hd.2⟩

theorem V2.endEdge {v : Nat → Option (Key × Src × Bool)} {ed : Nat → Option Edge} {act : Nat → Option Key}
    (h : V2 v ed act) (k : Key) (e cid : Nat) (he : ed e = some ⟨k, .running cid⟩) :
    V2 (fun i => if cid = i then (v i).map (fun x => (x.1, x.2.1, false)) else v i)
      (fun i => if e = i then some ⟨k, .done⟩ else ed i) act := by
  obtain ⟨h1, h2, h3, h4, h5⟩ := h
  obtain ⟨b, hb⟩ := h4 e k cid he
  have hbv : ∀ i, (if cid = i then (v i).map (fun x => (x.1, x.2.1, false)) else v i) =
      if cid = i then some (k, .edge e, false) else v i := by
    intro i; split
    · rename_i hi; subst hi; simp [hb]
    · rfl
  simp only [hbv]
  refine ⟨?_, ?_, ?_, ?_, ?_⟩
  · intro c
    have := h1 c
    grind
  · intro i k b hi; grind
  · intro i k' b hi
    have := h3 i k' b
    grind
  · intro e' k' c he'
    by_cases hx : e = e'
    · subst hx; simp at he'
    · simp [hx] at he'
      obtain ⟨b', hb'⟩ := h4 e' k' c he'
      have : cid ≠ c := by intro cc; subst cc; rw [hb] at hb'; simp at hb'; exact hx hb'.2.1
      exact ⟨b', by simp [this, hb']⟩
  · intro i k' e' b hi
    by_cases hx : e = e'
    · refine ⟨_, by simp [hx]; rfl, ?_, by simp⟩
      by_cases hin : cid = i
      · simp [hin] at hi; exact hi.1
      · simp [hin] at hi
        obtain ⟨d, hd⟩ := h5 i k' e' b hi
        grind
    · have hin : cid ≠ i := by intro c; simp [c] at hi; exact hx hi.2.1
      simp [hin] at hi
      obtain ⟨d, hd⟩ := h5 i k' e' b hi
      exact ⟨d, by simp [hx, hd.1], hd.2⟩

/-! ### The views after each piece -/

theorem view_ge (w : World) (i : Nat) (h : w.caches.length ≤ i) : w.view i = none := by
  simp [view, List.getElem?_eq_none h]

theorem view_newCache (w : World) (k : Key) (src : Src) (s : Store) (i : Nat) :
    (w.newCache k src s).view i = if i = w.caches.length then some (k, src, true) else w.view i := by
  simp only [view, newCache, append_get_new]
  split <;> simp

theorem view_modify (w w' : World) (cid : Nat) (f : Cache → Cache) (hw : w'.caches = w.caches.modify cid f) (i : Nat)
    (hf : ∀ c, (f c).key = c.key ∧ (f c).src = c.src ∧ (f c).isOpen = c.isOpen) : w'.view i = w.view i := by
  simp only [view, hw, modify_get]
  split
  · cases w.caches[i]? <;> simp [hf]
  · rfl

theorem view_close (w : World) (cid i : Nat) :
    (w.closeCache cid).view i = if cid = i then (w.view i).map (fun x => (x.1, x.2.1, false)) else w.view i := by
  simp only [view, closeCache, modify_get]
  split
  · cases w.caches[i]? <;> simp
  · rfl

theorem view_some {w : World} {i : Nat} {c : Cache} (h : w.caches[i]? = some c) :
    w.view i = some (c.key, c.src, c.isOpen) := by simp [view, h]

/-- Everything about keys, caches and pulls. -/
def Inv2 (w : World) (past : Log) : Prop := V2 w.view (fun e => w.edges[e]?) (fun i => activeKey i past)

theorem Inv2.init : Inv2 World.init [] :=
  ⟨by simp [activeKey, activeKeyFrom, World.init, view], by simp [World.init, view], by simp [World.init, view],
   by simp [World.init], by simp [World.init, view]⟩

theorem Inv2.congr {w w' : World} {past past' : Log} (h : Inv2 w past) (hv : ∀ i, w'.view i = w.view i)
    (he : w'.edges = w.edges) (ha : ∀ i, activeKey i past' = activeKey i past) : Inv2 w' past' := by
  unfold Inv2 at *
  have h1 : w'.view = w.view := funext hv
  have h2 : (fun i => activeKey i past') = (fun i => activeKey i past) := funext ha
  rw [h1, he, h2]; exact h

theorem edges_modify (w : World) (e i : Nat) (k : Key) (ph ph' : EdgePhase) (h : w.edges[e]? = some ⟨k, ph⟩) :
    (w.edges.modify e fun d => { d with phase := ph' })[i]? = if e = i then some ⟨k, ph'⟩ else w.edges[i]? := by
  rw [modify_get]
  split
  · rename_i hi; subst hi; simp [h]
  · rfl

theorem step_inv2 {w : World} {past : Log} (h : Inv2 w past) (op : WOp) :
    Inv2 (w.step op).1 (past ++ [(op, (w.step op).2)]) := by
  cases op with
  | publish k =>
    simp only [step, publish]
    split
    · exact h.congr (fun _ => rfl) rfl (fun i => by rw [activeKey_snoc]; rfl)
    · have h2 := V2.new h w.caches.length (view_ge w) k
      unfold Inv2
      have e1 : (w.newCache k .plain (.av Gop.empty)).view =
          fun i => if i = w.caches.length then some (k, .plain, true) else w.view i := funext (view_newCache _ _ _ _)
      have e2 : (fun i => activeKey i (past ++ [(WOp.publish k, WOut.published w.caches.length)])) =
          fun i => if w.caches.length = i then some k else activeKey i past := by
        funext i; rw [activeKey_snoc]; rfl
      rw [e1, e2]; exact h2
  | publishSrt k =>
    simp only [step, publishSrt]
    split
    · exact h.congr (fun _ => rfl) rfl (fun i => by rw [activeKey_snoc]; rfl)
    · have h2 := V2.newSrt h w.caches.length (view_ge w) k
      unfold Inv2
      have e1 : ((w.newCache k .srtAv (.av Gop.empty)).newCache (tsKey k) .srtRaw (.raw RawTs.empty)).view =
          fun i => if i = w.caches.length + 1 then some (tsKey k, .srtRaw, true) else
            if i = w.caches.length then some (k, .srtAv, true) else w.view i := by
        funext i
        rw [view_newCache, view_newCache]
        simp [newCache]
      have e2 : (fun i => activeKey i (past ++ [(WOp.publishSrt k, WOut.published w.caches.length)])) =
          fun i => if w.caches.length = i then some k else activeKey i past := by
        funext i; rw [activeKey_snoc]; rfl
      rw [e1, e2]; exact h2
  | put cid p =>
    simp only [step, put]
    split
    · exact h.congr (fun _ => rfl) rfl (fun i => by rw [activeKey_snoc]; rfl)
    · split
      · exact h.congr (fun i => view_modify w _ cid _ rfl i (by intro c; exact ⟨rfl, rfl, rfl⟩)) rfl
          (fun i => by rw [activeKey_snoc]; rfl)
      · exact h.congr (fun _ => rfl) rfl (fun i => by rw [activeKey_snoc]; rfl)
  | unpublish cid =>
    simp only [step, unpublish]
    split
    · exact h.congr (fun _ => rfl) rfl (fun i => by rw [activeKey_snoc]; rfl)
    · rename_i c hc
      have hv := view_some hc
      split
      · rename_i ho
        have e2 : (fun i => activeKey i (past ++ [(WOp.unpublish cid, WOut.ok)])) =
            fun i => if cid = i then none else activeKey i past := by
          funext i; rw [activeKey_snoc]; rfl
        split
        · rename_i hs
          rw [hs, ho] at hv
          have h2 := V2.close h cid c.key hv
          unfold Inv2
          have e1 : ({ w.closeCache cid with reg := w.reg.erase c.key } : World).view =
              fun i => if cid = i then some (c.key, .plain, false) else w.view i := by
            funext i
            show (w.closeCache cid).view i = _
            rw [view_close]
            split
            · rename_i hi; subst hi; simp [hv]
            · rfl
          rw [e1, e2]; exact h2
        · rename_i hs
          rw [hs, ho] at hv
          have h2 := V2.closeSrt h cid c.key hv
          unfold Inv2
          have ht := h.twin cid c.key true hv
          have e1 : ({ (w.closeCache cid).closeCache (cid + 1) with
                      reg := (w.reg.erase c.key).erase (tsKey c.key) } : World).view =
              fun i => if cid + 1 = i then some (tsKey c.key, .srtRaw, false) else
                if cid = i then some (c.key, .srtAv, false) else w.view i := by
            funext i
            show ((w.closeCache cid).closeCache (cid + 1)).view i = _
            rw [view_close, view_close]
            split
            · rename_i hi; subst hi; simp [ht]
            · split
              · rename_i hi; subst hi; simp [hv]
              · rfl
          rw [e1, e2]; exact h2
        · exact h.congr (fun _ => rfl) rfl (fun i => by rw [activeKey_snoc]; rfl)
      · exact h.congr (fun _ => rfl) rfl (fun i => by rw [activeKey_snoc]; rfl)
  | play k =>
    simp only [step, play_eq]
    split
    · exact h.congr (fun _ => rfl) rfl (fun i => by rw [activeKey_snoc]; rfl)
    · split
      · exact h.congr (fun _ => rfl) rfl (fun i => by rw [activeKey_snoc]; rfl)
      · exact h.congr (fun i => view_modify w _ _ _ rfl i (by intro c; exact ⟨rfl, rfl, rfl⟩)) rfl
          (fun i => by rw [activeKey_snoc]; rfl)
  | dump c =>
    simp only [step, dump]
    split
    · exact h.congr (fun _ => rfl) rfl (fun i => by rw [activeKey_snoc]; rfl)
    · split <;> exact h.congr (fun _ => rfl) rfl (fun i => by rw [activeKey_snoc]; rfl)
  | leave c =>
    simp only [step, leave]
    split
    · exact h.congr (fun _ => rfl) rfl (fun i => by rw [activeKey_snoc]; rfl)
    · split
      · exact h.congr (fun _ => rfl) rfl (fun i => by rw [activeKey_snoc]; rfl)
      · exact h.congr (fun i => view_modify w _ _ _ rfl i (by intro c; exact ⟨rfl, rfl, rfl⟩)) rfl
          (fun i => by rw [activeKey_snoc]; rfl)
  | edgeRequest k =>
    simp only [step, edgeRequest]
    split
    · exact h.congr (fun _ => rfl) rfl (fun i => by rw [activeKey_snoc]; rfl)
    · split
      · exact h.congr (fun _ => rfl) rfl (fun i => by rw [activeKey_snoc]; rfl)
      · unfold Inv2
        have e2 : (fun i => activeKey i (past ++ [(WOp.edgeRequest k, WOut.edgeStarted w.edges.length)])) =
            fun i => activeKey i past := by
          funext i; rw [activeKey_snoc]; rfl
        rw [e2]
        have hnone : w.edges[w.edges.length]? = none := by simp
        refine ⟨h.active, h.twin, h.raw, ?_, ?_⟩
        · intro e k' cid he
          simp only [append_get_new] at he
          split at he
          · simp at he
          · exact h.edge e k' cid he
        · intro i k' e b hi
          obtain ⟨d, hd⟩ := h.edgeSrc i k' e b hi
          refine ⟨d, ?_, hd.2⟩
          simp only [append_get_new]
          rw [if_neg]
          · exact hd.1
          · intro c; have := hd.1; subst c; simp at this
  | edgeOpen e =>
    simp only [step, edgeOpen]
    split
    · exact h.congr (fun _ => rfl) rfl (fun i => by rw [activeKey_snoc]; rfl)
    · rename_i ed hed
      split
      · rename_i hp
        obtain ⟨k, ph⟩ := ed
        simp at hp
        subst hp
        have h2 := V2.newEdge h w.caches.length (view_ge w) k e hed
        unfold Inv2
        have e1 : ({ w.newCache k (.edge e) (.av Gop.empty) with
          edges := w.edges.modify e fun d => { d with phase := .running w.caches.length } } : World).view =
            fun i => if i = w.caches.length then some (k, .edge e, true) else w.view i := by
          funext i
          show (w.newCache k (.edge e) (.av Gop.empty)).view i = _
          rw [view_newCache]
        have e2 : (fun i => activeKey i (past ++ [(WOp.edgeOpen e, WOut.published w.caches.length)])) =
            fun i => activeKey i past := by
          funext i; rw [activeKey_snoc]; rfl
        have e3 : (fun i => (w.edges.modify e fun d => { d with phase := .running w.caches.length })[i]?) =
            fun i => if i = e then some ⟨k, .running w.caches.length⟩ else w.edges[i]? := by
          funext i
          rw [edges_modify w e i k _ _ hed]
          by_cases hi : e = i
          · simp [hi]
          · simp [hi, Ne.symm hi]
        rw [e1, e2, e3]; exact h2
      · exact h.congr (fun _ => rfl) rfl (fun i => by rw [activeKey_snoc]; rfl)
  | edgeEnd e =>
    simp only [step, edgeEnd]
    split
    · exact h.congr (fun _ => rfl) rfl (fun i => by rw [activeKey_snoc]; rfl)
    · rename_i ed hed
      obtain ⟨k, ph⟩ := ed
      have e2 : (fun i => activeKey i (past ++ [(WOp.edgeEnd e, WOut.ok)])) =
          fun i => activeKey i past := by
        funext i; rw [activeKey_snoc]; rfl
      have e3 : (fun i => (w.edges.modify e fun d => { d with phase := .done })[i]?) =
          fun i => if e = i then some ⟨k, .done⟩ else w.edges[i]? := by
        funext i
        exact edges_modify w e i k _ _ hed
      split
      · rename_i hp
        simp at hp
        subst hp
        have h2 := V2.failEdge h k e hed
        unfold Inv2
        rw [e2, e3]; exact h2
      · rename_i cid hp
        simp at hp
        subst hp
        have h2 := V2.endEdge h k e cid hed
        unfold Inv2
        have e1 : ({ w.closeCache cid with
          reg := w.reg.erase k, edgeReg := w.edgeReg.erase k,
          edges := w.edges.modify e fun d => { d with phase := .done } } : World).view =
            fun i => if cid = i then (w.view i).map (fun x => (x.1, x.2.1, false)) else w.view i := by
          funext i
          show (w.closeCache cid).view i = _
          rw [view_close]
        rw [e1, e2, e3]; exact h2
      · exact h.congr (fun _ => rfl) rfl (fun i => by rw [activeKey_snoc]; rfl)
  | edgeDrop e =>
    simp only [step, edgeDrop]
    split
    · exact h.congr (fun _ => rfl) rfl (fun i => by rw [activeKey_snoc]; rfl)
    · split
      · split <;> exact h.congr (fun _ => rfl) rfl (fun i => by rw [activeKey_snoc]; rfl)
      · exact h.congr (fun _ => rfl) rfl (fun i => by rw [activeKey_snoc]; rfl)

theorem run_inv2 (ops : List WOp) {w : World} {past : Log} (h : Inv2 w past) :
    Inv2 (w.run ops).1 (past ++ (w.run ops).2) := by
  induction ops generalizing w past with
  | nil => simpa [run] using h
  | cons op ops ih =>
    obtain ⟨a, b⟩ := run_snd_cons w op ops
    have := ih (step_inv2 h op)
    rw [a, b]; simpa using this

end Sps.World
