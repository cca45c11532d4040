import Verif.Lemmas.Serve
/-!
# What a player does is seen by no one else
-/
namespace Sps

namespace World

/-- A client as new and empty. -/
def wipe (cl : Client) : Client := { cl with q := ⟨[]⟩, left := false }

/-- A cache without a subscriber. -/
def drop (c : Nat) (k : Cache) : Cache := { k with subs := k.subs.filter (· != c) }

/-- The world without what client `c` has done. -/
def off (c : Nat) (w : World) : World := { w with caches := w.caches.map (drop c), clients := w.clients.modify c wipe }

/-- Two worlds that differ only in client `c`. -/
def Same (c : Nat) (w w' : World) : Prop := c < w.clients.length ∧ w.off c = w'.off c

theorem Same.refl {c : Nat} {w : World} (h : c < w.clients.length) : Same c w w := ⟨h, rfl⟩

theorem Same.len {c : Nat} {w w' : World} (h : Same c w w') : w'.clients.length = w.clients.length := by
  have := congrArg (fun x => x.clients.length) h.2
  simpa [off] using this.symm

theorem Same.reg {c : Nat} {w w' : World} (h : Same c w w') : w'.reg = w.reg := by
  have := congrArg (fun x => x.reg) h.2
  simpa [off] using this.symm

theorem Same.edgeReg {c : Nat} {w w' : World} (h : Same c w w') : w'.edgeReg = w.edgeReg := by
  have := congrArg (fun x => x.edgeReg) h.2
  simpa [off] using this.symm

theorem Same.edges {c : Nat} {w w' : World} (h : Same c w w') : w'.edges = w.edges := by
  have := congrArg (fun x => x.edges) h.2
  simpa [off] using this.symm

theorem Same.held {c : Nat} {w w' : World} (h : Same c w w') : w'.held = w.held := by
  have := congrArg (fun x => x.held) h.2
  simpa [off] using this.symm

theorem Same.caches {c : Nat} {w w' : World} (h : Same c w w') : w'.caches.map (drop c) = w.caches.map (drop c) := by
  have := congrArg (fun x => x.caches) h.2
  simpa [off] using this.symm

theorem Same.clients {c : Nat} {w w' : World} (h : Same c w w') : w'.clients.modify c wipe = w.clients.modify c wipe := by
  have := congrArg (fun x => x.clients) h.2
  simpa [off] using this.symm

theorem Same.cacheLen {c : Nat} {w w' : World} (h : Same c w w') : w'.caches.length = w.caches.length := by
  have := congrArg List.length h.caches
  simpa using this

theorem Same.mk' {c : Nat} {w w' : World} (h0 : c < w.clients.length) (h1 : w'.caches.map (drop c) = w.caches.map (drop c))
    (h2 : w'.clients.modify c wipe = w.clients.modify c wipe) (h3 : w'.edges = w.edges) (h4 : w'.reg = w.reg) (h5 : w'.edgeReg = w.edgeReg)
    (h6 : w'.held = w.held) : Same c w w' := by
  refine ⟨h0, ?_⟩
  unfold off
  rw [h1, h2, h3, h4, h5, h6]

/-- The same cache, but for the subscribers. -/
theorem Same.cache {c : Nat} {w w' : World} (h : Same c w w') (i : Nat) : (w'.caches[i]?).map (drop c) = (w.caches[i]?).map (drop c) := by
  rw [← List.getElem?_map, ← List.getElem?_map, h.caches]

theorem Same.client {c : Nat} {w w' : World} (h : Same c w w') {i : Nat} (hi : i ≠ c) : w'.clients[i]? = w.clients[i]? := by
  have := congrArg (fun l => l[i]?) h.clients
  have hn : ¬ c = i := fun e => hi e.symm
  simpa only [List.getElem?_modify, hn, if_false, id_map'] using this

theorem Same.clientCache {c : Nat} {w w' : World} (h : Same c w w') (i : Nat) : (w'.clients[i]?).map (·.cache) = (w.clients[i]?).map (·.cache) := by
  have := congrArg (fun l => (l[i]?).map (·.cache)) h.clients
  simp only [List.getElem?_modify] at this
  by_cases hi : c = i
  · simpa [hi, wipe, Function.comp_def] using this
  · simpa [hi] using this

theorem map_modify {α β : Type} (g : α → β) (f : α → α) (f' : β → β) (hf : ∀ x, g (f x) = f' (g x)) (l : List α) (i : Nat) :
    (l.modify i f).map g = (l.map g).modify i f' := by
  apply List.ext_getElem?
  intro j
  simp only [List.getElem?_map, List.getElem?_modify]
  cases l[j]? with
  | none => simp
  | some x => by_cases hj : i = j <;> simp [hj, hf]

theorem modify_comm {α : Type} (l : List α) {i j : Nat} (f g : α → α) (h : i ≠ j) : (l.modify i f).modify j g = (l.modify j g).modify i f := by
  apply List.ext_getElem?
  intro k
  simp only [List.getElem?_modify]
  cases l[k]? with
  | none => simp
  | some x => by_cases h1 : i = k <;> by_cases h2 : j = k <;> simp [h1, h2] <;> exact absurd (h1.trans h2.symm) h

theorem modify_wipe {l : List Client} {c : Nat} (f : Client → Client) (hf : ∀ x, wipe (f x) = wipe x) : (l.modify c f).modify c wipe = l.modify c wipe := by
  apply List.ext_getElem?
  intro k
  simp only [List.getElem?_modify]
  cases l[k]? with
  | none => simp
  | some x => by_cases h1 : c = k <;> simp [h1, hf]

theorem modify_append {α : Type} {l l2 : List α} {c : Nat} {f : α → α} (h : c < l.length) : (l ++ l2).modify c f = l.modify c f ++ l2 := by
  apply List.ext_getElem?
  intro k
  simp only [List.getElem?_modify, List.getElem?_append, List.length_modify]
  by_cases hk : k < l.length
  · simp [hk, List.getElem?_modify]
  · have : ¬ c = k := by omega
    simp [hk, this]

theorem deliver_off {c : Nat} (p : AVPkt) : ∀ (subs : List Nat) (cl cl' : List Client), cl'.modify c wipe = cl.modify c wipe →
    (deliver cl' subs p).modify c wipe = (deliver cl (subs.filter (· != c)) p).modify c wipe
  | [], cl, cl', h => h
  | s :: subs, cl, cl', h => by
    by_cases hs : s = c
    · subst hs
      simp only [deliver, List.foldl_cons, bne_self_eq_false, Bool.false_eq_true, not_false_eq_true, List.filter_cons_of_neg]
      refine deliver_off p subs cl _ ?_
      exact (modify_wipe (fun x => { x with q := x.q.put (some p) }) (fun _ => rfl)).trans h
    · have : (s != c) = true := by simpa using hs
      rw [List.filter_cons_of_pos (p := (· != c)) this]
      simp only [deliver, List.foldl_cons]
      refine deliver_off p subs _ _ ?_
      rw [modify_comm _ _ _ hs, modify_comm _ _ _ hs, h]

theorem filter_erase {l : List Nat} {a c : Nat} (h : a ≠ c) : (l.erase a).filter (· != c) = (l.filter (· != c)).erase a := by
  induction l with
  | nil => rfl
  | cons x l ih =>
    by_cases hx : x = a
    · subst hx
      simp [List.erase_cons_head, h]
    · rw [List.erase_cons_tail (by simpa using hx)]
      by_cases hc : x = c
      · subst hc
        simp [ih]
      · simp only [List.filter_cons, bne_iff_ne, ne_eq, hc, not_false_eq_true, if_true, ih]
        rw [List.erase_cons_tail (by simpa using hx)]

/-- The pieces of client `c`. -/
def about (c : Nat) (op : WOp) : Prop := op = .dump c ∨ op = .leave c

theorem same_dump {c : Nat} {w w' : World} (h : Same c w w') : Same c (w.dump c).1 w' := by
  simp only [World.dump]
  split
  · exact h
  · split
    · exact h
    · refine Same.mk' (by simpa using h.1) h.caches ?_ h.edges h.reg h.edgeReg h.held
      rename_i cl _ _
      exact h.clients.trans (modify_wipe (fun x => { x with q := (cl.q.dumpClient []).2.2 }) (fun _ => rfl)).symm

theorem drop_erase (c : Nat) (k : Cache) : drop c { k with subs := k.subs.erase c } = drop c k := by
  simp only [drop, Cache.mk.injEq, true_and]
  induction k.subs with
  | nil => rfl
  | cons x l ih =>
    by_cases hx : x = c
    · subst hx
      simp [List.erase_cons_head]
    · rw [List.erase_cons_tail (by simpa using hx)]
      simp [List.filter_cons, hx, ih]

theorem same_leave {c : Nat} {w w' : World} (h : Same c w w') : Same c (w.leave c).1 w' := by
  simp only [World.leave]
  split
  · exact h
  · split
    · exact h
    · refine Same.mk' (by simpa using h.1) ?_ ?_ h.edges h.reg h.edgeReg h.held
      · rw [map_modify (drop c) _ id (fun x => drop_erase c x)]
        rw [h.caches]
        apply List.ext_getElem?
        intro j
        simp only [List.getElem?_modify, List.getElem?_map]
        cases w.caches[j]? <;> simp
      · exact h.clients.trans (modify_wipe (fun cl => { cl with left := true }) (fun _ => rfl)).symm

theorem Same.symm {c : Nat} {w w' : World} (h : Same c w w') : Same c w' w := ⟨by rw [h.len]; exact h.1, h.2.symm⟩

theorem same_newCache {c : Nat} {w w' : World} (h : Same c w w') (k : Key) (src : Src) (st : Store) : Same c (w.newCache k src st) (w'.newCache k src st) := by
  refine Same.mk' h.1 ?_ h.clients h.edges ?_ h.edgeReg h.held
  · simp only [newCache, List.map_append, h.caches]
  · simp only [newCache, h.reg, h.cacheLen]

theorem same_closeCache {c : Nat} {w w' : World} (h : Same c w w') (i : Nat) : Same c (w.closeCache i) (w'.closeCache i) := by
  refine Same.mk' h.1 ?_ h.clients h.edges h.reg h.edgeReg h.held
  simp only [closeCache]
  rw [map_modify (drop c) _ (fun k => { k with isOpen := false }) (fun _ => rfl), map_modify (drop c) _ (fun k => { k with isOpen := false }) (fun _ => rfl), h.caches]

/-- Pieces of others do the same in both worlds. -/
theorem same_step {c : Nat} {w w' : World} (h : Same c w w') (op : WOp) (ho : ¬ about c op) : (w'.step op).2 = (w.step op).2 ∧ Same c (w.step op).1 (w'.step op).1 := by
  cases op with
  | publish k =>
    simp only [World.step, World.publish, h.reg]
    split
    · exact ⟨rfl, h⟩
    · exact ⟨by rw [h.cacheLen], same_newCache h _ _ _⟩
  | publishSrt k =>
    simp only [World.step, World.publishSrt, h.reg]
    split
    · exact ⟨rfl, h⟩
    · exact ⟨by rw [h.cacheLen], same_newCache (same_newCache h _ _ _) _ _ _⟩
  | put cid p =>
    have hk := h.cache cid
    simp only [World.step, World.put]
    cases h1 : w.caches[cid]? with
    | none =>
      rw [h1] at hk
      simp only [Option.map_none, Option.map_eq_none_iff] at hk
      rw [hk]
      exact ⟨rfl, h⟩
    | some k =>
      rw [h1] at hk
      simp only [Option.map_some, Option.map_eq_some_iff] at hk
      obtain ⟨k', h2, h3⟩ := hk
      rw [h2]
      have hop : k'.isOpen = k.isOpen := congrArg (·.isOpen) h3
      have hsub : k'.subs.filter (· != c) = k.subs.filter (· != c) := congrArg (·.subs) h3
      simp only [hop]
      split
      · refine ⟨rfl, Same.mk' ?_ ?_ ?_ h.edges h.reg h.edgeReg h.held⟩
        · have := h.1
          have hd : ∀ (subs : List Nat) (cl : List Client), (deliver cl subs p).length = cl.length := by
            intro subs
            induction subs with
            | nil => intro cl; rfl
            | cons s subs ih => intro cl; simp only [deliver, List.foldl_cons]; rw [← deliver, ih]; simp
          simpa [hd] using this
        · simp only
          rw [map_modify (drop c) _ (fun k => { k with store := k.store.put p }) (fun _ => rfl),
            map_modify (drop c) _ (fun k => { k with store := k.store.put p }) (fun _ => rfl), h.caches]
        · simp only
          rw [deliver_off p k'.subs w'.clients w'.clients rfl, hsub, ← deliver_off p k.subs w'.clients w.clients h.clients.symm]
      · exact ⟨rfl, h⟩
  | unpublish cid =>
    have hk := h.cache cid
    simp only [World.step, World.unpublish]
    cases h1 : w.caches[cid]? with
    | none =>
      rw [h1] at hk
      simp only [Option.map_none, Option.map_eq_none_iff] at hk
      rw [hk]
      exact ⟨rfl, h⟩
    | some k =>
      rw [h1] at hk
      simp only [Option.map_some, Option.map_eq_some_iff] at hk
      obtain ⟨k', h2, h3⟩ := hk
      rw [h2]
      have hop : k'.isOpen = k.isOpen := congrArg (·.isOpen) h3
      have hsrc : k'.src = k.src := congrArg (·.src) h3
      have hkey : k'.key = k.key := congrArg (·.key) h3
      simp only [hop, hsrc, hkey]
      split
      · split
        · have := same_closeCache h cid
          exact ⟨rfl, Same.mk' this.1 this.caches this.clients this.edges (by simp [h.reg]) this.edgeReg this.held⟩
        · have := same_closeCache (same_closeCache h cid) (cid + 1)
          exact ⟨rfl, Same.mk' this.1 this.caches this.clients this.edges (by simp [h.reg]) this.edgeReg this.held⟩
        · exact ⟨rfl, h⟩
      · exact ⟨rfl, h⟩
  | play k =>
    simp only [World.step, World.play_eq, h.reg]
    split
    · exact ⟨rfl, h⟩
    · rename_i cid hf
      have hk := h.cache cid
      cases h1 : w.caches[cid]? with
      | none =>
        rw [h1] at hk
        simp only [Option.map_none, Option.map_eq_none_iff] at hk
        rw [hk]
        exact ⟨rfl, h⟩
      | some k =>
        rw [h1] at hk
        simp only [Option.map_some, Option.map_eq_some_iff] at hk
        obtain ⟨k', h2, h3⟩ := hk
        rw [h2]
        have hst : k'.store = k.store := congrArg (·.store) h3
        simp only [h.len, hst, true_and]
        have hc := h.1
        refine Same.mk' (by simp; omega) ?_ ?_ h.edges rfl h.edgeReg h.held
        · simp only
          have hne : (w.clients.length != c) = true := by simp; omega
          rw [map_modify (drop c) _ (fun k => { k with subs := k.subs ++ [w.clients.length] }) (fun x => by simp [drop, List.filter_append, hne]),
            map_modify (drop c) _ (fun k => { k with subs := k.subs ++ [w.clients.length] }) (fun x => by simp [drop, List.filter_append, hne]), h.caches]
        · simp only
          have hc' := hc
          rw [← h.len] at hc'
          rw [modify_append hc, modify_append hc', h.clients]
  | dump d =>
    have hd : d ≠ c := fun e => ho (.inl (by rw [e]))
    simp only [World.step, World.dump, h.client hd]
    split
    · exact ⟨rfl, h⟩
    · split
      · exact ⟨rfl, h⟩
      · refine ⟨rfl, Same.mk' (by simpa using h.1) h.caches ?_ h.edges h.reg h.edgeReg h.held⟩
        simp only
        rw [modify_comm _ _ _ hd, modify_comm _ _ _ hd, h.clients]
  | leave d =>
    have hd : d ≠ c := fun e => ho (.inr (by rw [e]))
    simp only [World.step, World.leave, h.client hd]
    split
    · exact ⟨rfl, h⟩
    · split
      · exact ⟨rfl, h⟩
      · refine ⟨rfl, Same.mk' (by simpa using h.1) ?_ ?_ h.edges h.reg h.edgeReg h.held⟩
        · simp only
          rw [map_modify (drop c) _ (fun k => { k with subs := k.subs.erase d }) (fun x => by simp [drop, filter_erase hd]),
            map_modify (drop c) _ (fun k => { k with subs := k.subs.erase d }) (fun x => by simp [drop, filter_erase hd]), h.caches]
        · simp only
          rw [modify_comm _ _ _ hd, modify_comm _ _ _ hd, h.clients]
  | edgeRequest k =>
    simp only [World.step, World.edgeRequest, h.reg, h.edgeReg]
    split
    · exact ⟨rfl, h⟩
    · split
      · exact ⟨rfl, h⟩
      · exact ⟨by rw [h.edges], Same.mk' h.1 h.caches h.clients (by simp [h.edges]) (by simp [h.reg]) (by simp [h.edges, h.edgeReg]) (by simp [h.edges, h.held])⟩
  | edgeOpen e =>
    simp only [World.step, World.edgeOpen, h.edges]
    split
    · exact ⟨rfl, h⟩
    · split
      · have := same_newCache h ‹Edge›.key (.edge e) (.av Gop.empty)
        exact ⟨by rw [h.cacheLen], Same.mk' this.1 this.caches this.clients (by simp [h.edges, h.cacheLen]) this.reg this.edgeReg this.held⟩
      · exact ⟨rfl, h⟩
  | edgeEnd e =>
    simp only [World.step, World.edgeEnd, h.edges]
    split
    · exact ⟨rfl, h⟩
    · split
      · exact ⟨rfl, Same.mk' h.1 h.caches h.clients (by simp [h.edges]) h.reg (by simp [h.edgeReg]) h.held⟩
      · rename_i cid _
        have := same_closeCache h cid
        exact ⟨rfl, Same.mk' this.1 this.caches this.clients (by simp [h.edges]) (by simp [h.reg]) (by simp [h.edgeReg]) this.held⟩
      · exact ⟨rfl, h⟩
  | edgeDrop e =>
    have ha : (w'.caches.any fun k => decide (k.src = .edge e)) = (w.caches.any fun k => decide (k.src = .edge e)) := by
      have := congrArg (fun l => l.any fun k => decide (k.src = .edge e)) h.caches
      simp only [List.any_map] at this
      exact this
    simp only [World.step, World.edgeDrop, h.edges, h.held]
    split
    · exact ⟨rfl, h⟩
    · split
      · split
        · refine ⟨rfl, Same.mk' h.1 h.caches h.clients rfl ?_ (by simp [h.edgeReg]) (by simp)⟩
          simp only [ha, h.reg]
        · exact ⟨rfl, Same.mk' h.1 h.caches h.clients rfl h.reg h.edgeReg (by simp)⟩
      · exact ⟨rfl, h⟩

end World
end Sps
