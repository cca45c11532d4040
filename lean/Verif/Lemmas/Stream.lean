import Verif.Spec.Stream
import Verif.Lemmas.Cache
/-! # Lemmas about streams -/
namespace Sps
open Spec

theorem modify_get {α : Type} (l : List α) (i j : Nat) (f : α → α) :
    (l.modify i f)[j]? = if i = j then l[j]?.map f else l[j]? := by
  rw [List.getElem?_modify]
  split
  · rename_i h; subst h; cases l[i]? <;> simp
  · rename_i h; cases l[j]? <;> simp

namespace World

/-- Joining leaves the cache of the stream as it is. -/
theorem play_eq (w : World) (k : Key) : w.play k =
    match w.reg.find k with
    | none => (w, .noSource)
    | some cid =>
      match w.caches[cid]? with
      | none => (w, .bad)
      | some c =>
        ({ w with caches := w.caches.modify cid fun c => { c with subs := c.subs ++ [w.clients.length] },
                  clients := w.clients ++ [⟨cid, ⟨c.store.dump.1⟩, false⟩] },
          .joined w.clients.length cid) := by
  simp only [play, store_dump]
  rfl

theorem deliver_length (subs : List Nat) (cs : List Client) (p : AVPkt) : (deliver cs subs p).length = cs.length := by
  unfold deliver
  induction subs generalizing cs with
  | nil => rfl
  | cons s ss ih => simp only [List.foldl_cons]; rw [ih]; simp

theorem deliver_get (subs : List Nat) (hn : subs.Nodup) (cs : List Client) (p : AVPkt) (j : Nat) :
    (deliver cs subs p)[j]? =
      if j ∈ subs then cs[j]?.map (fun c => { c with q := c.q.put (some p) }) else cs[j]? := by
  unfold deliver
  induction subs generalizing cs with
  | nil => simp
  | cons s ss ih =>
    simp only [List.foldl_cons]
    rw [ih (List.nodup_cons.1 hn).2, modify_get]
    have hns := (List.nodup_cons.1 hn).1
    by_cases hj : s = j
    · subst hj; simp [hns]
    · simp [hj, Ne.symm hj]

/-- The store of a cache after a log. -/
def storeAfter (i : Nat) (past : Log) : Store :=
  if isRaw i past then .raw ((publishedTo i past).foldl RawTs.put RawTs.empty)
  else .av ((publishedTo i past).foldl Gop.put Gop.empty)

/-- The invariant relating the state to the log so far. -/
structure Inv (w : World) (past : Log) : Prop where
  store : ∀ (i : Nat) (c : Cache), w.caches[i]? = some c → c.store = storeAfter i past
  fresh : ∀ i, w.caches.length ≤ i → publishedTo i past = [] ∧ isRaw i past = false
  nodup : ∀ (i : Nat) (c : Cache), w.caches[i]? = some c → c.subs.Nodup
  subs : ∀ (i : Nat) (c : Cache), w.caches[i]? = some c → ∀ j, j ∈ c.subs ↔ ∃ cl : Client, w.clients[j]? = some cl ∧ cl.cache = i ∧ cl.left = false
  cached : ∀ (j : Nat) (cl : Client), w.clients[j]? = some cl → cl.cache < w.caches.length

theorem Inv.init : Inv World.init [] :=
  ⟨by simp [World.init], by simp [publishedTo, isRaw], by simp [World.init], by simp [World.init], by simp [World.init]⟩

theorem publishedTo_snoc (i : Nat) (past : Log) (op : WOp) (o : WOut) :
    publishedTo i (past ++ [(op, o)]) = publishedTo i past ++ publishedTo i [(op, o)] := by
  induction past with
  | nil => rfl
  | cons x xs ih =>
    obtain ⟨op', o'⟩ := x
    rw [List.cons_append]
    cases op' <;> cases o' <;> simp only [publishedTo, ih]
    split <;> simp

theorem isRaw_snoc (i : Nat) (past : Log) (op : WOp) (o : WOut) :
    isRaw i (past ++ [(op, o)]) = (isRaw i past || isRaw i [(op, o)]) := by
  induction past with
  | nil => simp [isRaw]
  | cons x xs ih =>
    obtain ⟨op', o'⟩ := x
    rw [List.cons_append]
    cases op' <;> cases o' <;> simp only [isRaw, ih, Bool.or_assoc]

/-- A piece that leaves the caches' stores, the subscriptions and the queues' owners alone keeps the invariant. -/
theorem Inv.frame {w w' : World} {past : Log} (h : Inv w past) (op : WOp) (o : WOut)
    (hp : ∀ i, publishedTo i [(op, o)] = []) (hr : ∀ i, isRaw i [(op, o)] = false)
    (hl : w'.caches.length = w.caches.length)
    (hc : ∀ (i : Nat) (c' : Cache), w'.caches[i]? = some c' → ∃ c : Cache, w.caches[i]? = some c ∧ c'.store = c.store ∧ c'.subs = c.subs)
    (hq : ∀ j : Nat, (w'.clients[j]?).map (fun c : Client => (c.cache, c.left)) = (w.clients[j]?).map (fun c : Client => (c.cache, c.left))) :
    Inv w' (past ++ [(op, o)]) := by
  have hpp : ∀ i, publishedTo i (past ++ [(op, o)]) = publishedTo i past := by
    intro i; rw [publishedTo_snoc, hp, List.append_nil]
  have hrr : ∀ i, isRaw i (past ++ [(op, o)]) = isRaw i past := by
    intro i; rw [isRaw_snoc, hr, Bool.or_false]
  refine ⟨?_, ?_, ?_, ?_, ?_⟩
  · intro i c' e
    obtain ⟨c, e1, e2, _⟩ := hc i c' e
    rw [e2, h.store i c e1, storeAfter, storeAfter, hpp, hrr]
  · intro i hi
    rw [hpp, hrr]; exact h.fresh i (by omega)
  · intro i c' e
    obtain ⟨c, e1, _, e3⟩ := hc i c' e
    rw [e3]; exact h.nodup i c e1
  · intro i c' e j
    obtain ⟨c, e1, _, e3⟩ := hc i c' e
    rw [e3, h.subs i c e1 j]
    have := hq j
    constructor
    · rintro ⟨cl, a, b, d⟩
      rw [a] at this
      cases hx : w'.clients[j]? with
      | none => rw [hx] at this; simp at this
      | some x => rw [hx] at this; simp at this; exact ⟨x, rfl, by rw [this.1]; exact b, by rw [this.2]; exact d⟩
    · rintro ⟨cl, a, b, d⟩
      rw [a] at this
      cases hx : w.clients[j]? with
      | none => rw [hx] at this; simp at this
      | some x => rw [hx] at this; simp at this; exact ⟨x, rfl, by rw [← this.1]; exact b, by rw [← this.2]; exact d⟩
  · intro j cl e
    have := hq j
    rw [e] at this
    cases hx : w.clients[j]? with
    | none => rw [hx] at this; simp at this
    | some x =>
      rw [hx] at this; simp at this
      rw [hl, this.1]; exact h.cached j x hx

theorem Inv.same {w : World} {past : Log} (h : Inv w past) (op : WOp) (o : WOut)
    (hp : ∀ i, publishedTo i [(op, o)] = []) (hr : ∀ i, isRaw i [(op, o)] = false) :
    Inv w (past ++ [(op, o)]) :=
  h.frame op o hp hr rfl (fun _ c' e => ⟨c', e, rfl, rfl⟩) (fun _ => rfl)

/-- Adding a cache keeps the invariant. -/
theorem Inv.newCache {w : World} {past past' : Log} (h : Inv w past) (k : Key) (src : Src) (s : Store)
    (hp : ∀ i, publishedTo i past' = publishedTo i past)
    (hr : ∀ i, i ≠ w.caches.length → isRaw i past' = isRaw i past)
    (hs : s = if isRaw w.caches.length past' then .raw RawTs.empty else .av Gop.empty) :
    Inv (w.newCache k src s) past' := by
  refine ⟨?_, ?_, ?_, ?_, ?_⟩
  · intro i c e
    simp only [World.newCache, List.getElem?_append] at e
    split at e
    · rename_i hi
      rw [h.store i c e, storeAfter, storeAfter, hp, hr i (by omega)]
    · rename_i hi
      have : i = w.caches.length := by
        rcases Nat.lt_trichotomy i w.caches.length with c1 | c1 | c1
        · omega
        · exact c1
        · rw [List.getElem?_eq_none (by simp; omega)] at e; simp at e
      subst this
      simp at e
      rw [← e, storeAfter, hp, (h.fresh _ (Nat.le_refl _)).1]
      simp only [hs, List.foldl_nil]
  · intro i hi
    simp [World.newCache] at hi
    rw [hp, hr i (by omega)]; exact h.fresh i (by omega)
  · intro i c e
    simp only [World.newCache, List.getElem?_append] at e
    split at e
    · exact h.nodup i c e
    · rename_i hi
      rcases Nat.lt_trichotomy i w.caches.length with c1 | c1 | c1
      · omega
      · subst c1; simp at e; rw [← e]; exact List.nodup_nil
      · rw [List.getElem?_eq_none (by simp; omega)] at e; simp at e
  · intro i c e j
    simp only [World.newCache, List.getElem?_append] at e
    split at e
    · exact h.subs i c e j
    · rename_i hi
      rcases Nat.lt_trichotomy i w.caches.length with c1 | c1 | c1
      · omega
      · subst c1
        simp at e
        rw [← e]
        simp only [List.not_mem_nil, false_iff]
        rintro ⟨cl, a, b, _⟩
        have := h.cached j cl a
        omega
      · rw [List.getElem?_eq_none (by simp; omega)] at e; simp at e
  · intro j cl e
    have := h.cached j cl e
    simp [World.newCache]; omega

theorem step_inv {w : World} {past : Log} (h : Inv w past) (op : WOp) :
    Inv (w.step op).1 (past ++ [(op, (w.step op).2)]) := by
  cases op with
  | publish k =>
    simp only [step, publish]
    split
    · exact h.same _ _ (by intro i; rfl) (by intro i; rfl)
    · refine h.newCache _ _ _ (by intro i; rw [publishedTo_snoc]; simp [publishedTo]) (by intro i _; rw [isRaw_snoc]; simp [isRaw]) ?_
      rw [isRaw_snoc, (h.fresh _ (Nat.le_refl _)).2]; simp [isRaw]
  | publishSrt k =>
    simp only [step, publishSrt]
    split
    · exact h.same _ _ (by intro i; rfl) (by intro i; rfl)
    · have h1 : Inv (w.newCache k .srtAv (.av Gop.empty)) past :=
        h.newCache _ _ _ (by intro i; rfl) (by intro i _; rfl) (by rw [(h.fresh _ (Nat.le_refl _)).2]; simp)
      have hl : (w.newCache k .srtAv (.av Gop.empty)).caches.length = w.caches.length + 1 := by simp [newCache]
      refine h1.newCache _ _ _ (by intro i; rw [publishedTo_snoc]; simp [publishedTo]) ?_ ?_
      · intro i hi
        rw [hl] at hi
        rw [isRaw_snoc]
        have : (w.caches.length + 1 == i) = false := by simpa using Ne.symm hi
        simp [isRaw, this]
      · rw [isRaw_snoc, hl]; simp [isRaw]
  | put cid p =>
    simp only [step, put]
    split
    · exact h.same _ _ (by intro i; rfl) (by intro i; rfl)
    · rename_i c hc
      split
      · have hn := h.nodup cid c hc
        refine ⟨?_, ?_, ?_, ?_, ?_⟩
        · intro i c' e
          simp only [modify_get] at e
          rw [storeAfter, isRaw_snoc, publishedTo_snoc]
          simp only [isRaw, publishedTo, Bool.or_false]
          split at e
          · rename_i hi
            subst hi
            rw [hc] at e
            simp at e
            rw [← e]
            simp only [if_true, h.store cid c hc, storeAfter]
            split <;> simp [Store.put]
          · rename_i hi
            rw [h.store i c' e, storeAfter, if_neg hi]; simp
        · intro i hi
          simp only [List.length_modify] at hi
          have hne : cid ≠ i := by
            intro c1; subst c1
            rw [List.getElem?_eq_none hi] at hc; simp at hc
          rw [publishedTo_snoc, isRaw_snoc]
          simp [publishedTo, isRaw, hne, h.fresh i hi]
        · intro i c' e
          simp only [modify_get] at e
          split at e
          · rename_i hi; subst hi; rw [hc] at e; simp at e; rw [← e]; exact hn
          · exact h.nodup i c' e
        · intro i c' e j
          simp only [modify_get] at e
          have hsub : ∃ c0, w.caches[i]? = some c0 ∧ c'.subs = c0.subs := by
            split at e
            · rename_i hi; subst hi; rw [hc] at e; simp at e; exact ⟨c, hc, by rw [← e]⟩
            · exact ⟨c', e, rfl⟩
          obtain ⟨c0, e0, e1⟩ := hsub
          rw [e1, h.subs i c0 e0 j]
          simp only [deliver_get _ hn]
          split
          · cases w.clients[j]? <;> simp
          · rfl
        · intro j cl e
          simp only [deliver_get _ hn] at e
          simp only [List.length_modify]
          split at e
          · cases hx : w.clients[j]? with
            | none => rw [hx] at e; simp at e
            | some x => rw [hx] at e; simp at e; rw [← e]; exact h.cached j x hx
          · exact h.cached j cl e
      · exact h.same _ _ (by intro i; rfl) (by intro i; rfl)
  | unpublish cid =>
    simp only [step, unpublish]
    split
    · exact h.same _ _ (by intro i; rfl) (by intro i; rfl)
    · split
      · split
        · refine h.frame _ _ (by intro i; rfl) (by intro i; rfl) (by simp [closeCache]) ?_ (by intro j; rfl)
          intro i c' e
          simp only [closeCache, modify_get] at e
          split at e
          · cases hx : w.caches[i]? with
            | none => rw [hx] at e; simp at e
            | some x => rw [hx] at e; simp at e; exact ⟨x, rfl, by rw [← e], by rw [← e]⟩
          · exact ⟨c', e, rfl, rfl⟩
        · refine h.frame _ _ (by intro i; rfl) (by intro i; rfl) (by simp [closeCache]) ?_ (by intro j; rfl)
          intro i c' e
          simp only [closeCache, modify_get] at e
          cases hx : w.caches[i]? with
          | none => rw [hx] at e; simp at e
          | some x =>
            rw [hx] at e
            refine ⟨x, rfl, ?_⟩
            split at e <;> split at e <;> simp at e <;> rw [← e] <;> simp
        · exact h.same _ _ (by intro i; rfl) (by intro i; rfl)
      · exact h.same _ _ (by intro i; rfl) (by intro i; rfl)
  | play k =>
    simp only [step, play_eq]
    split
    · exact h.same _ _ (by intro i; rfl) (by intro i; rfl)
    · rename_i cid hf
      split
      · exact h.same _ _ (by intro i; rfl) (by intro i; rfl)
      · rename_i c hc
        have hlt : cid < w.caches.length := by
          rcases Nat.lt_or_ge cid w.caches.length with h1 | h1
          · exact h1
          · rw [List.getElem?_eq_none h1] at hc; simp at hc
        have hnew : w.clients.length ∉ c.subs := by
          rw [h.subs cid c hc]
          rintro ⟨cl, a, _⟩
          simp at a
        refine ⟨?_, ?_, ?_, ?_, ?_⟩
        · intro i c' e
          simp only [modify_get] at e
          rw [storeAfter, isRaw_snoc, publishedTo_snoc]
          simp only [isRaw, publishedTo, Bool.or_false, List.append_nil]
          split at e
          · rename_i hi; subst hi; rw [hc] at e; simp at e; rw [← e]; exact h.store cid c hc
          · exact h.store i c' e
        · intro i hi
          simp only [List.length_modify] at hi
          rw [publishedTo_snoc, isRaw_snoc]
          simp [publishedTo, isRaw, h.fresh i hi]
        · intro i c' e
          simp only [modify_get] at e
          split at e
          · rename_i hi; subst hi; rw [hc] at e; simp at e; rw [← e]
            show (c.subs ++ [w.clients.length]).Nodup
            rw [List.nodup_append]
            refine ⟨h.nodup cid c hc, by simp, ?_⟩
            intro a ha b hb
            simp at hb; subst hb; intro hab; subst hab; exact hnew ha
          · exact h.nodup i c' e
        · intro i c' e j
          simp only [modify_get] at e
          simp only [List.getElem?_append]
          split at e
          · rename_i hi; subst hi; rw [hc] at e; simp at e; rw [← e]
            simp only [List.mem_append, List.mem_singleton, h.subs cid c hc j]
            split
            · rename_i hj
              constructor
              · rintro (a | a)
                · exact a
                · omega
              · exact Or.inl
            · rename_i hj
              constructor
              · rintro (⟨cl, a, _⟩ | a)
                · rw [List.getElem?_eq_none (by omega)] at a; simp at a
                · subst a; simp
              · rintro ⟨cl, a, b, d⟩
                right
                rcases Nat.lt_trichotomy j w.clients.length with c1 | c1 | c1
                · omega
                · exact c1
                · rw [List.getElem?_eq_none (by simp; omega)] at a; simp at a
          · rename_i hi
            rw [h.subs i c' e j]
            split
            · rfl
            · rename_i hj
              rw [List.getElem?_eq_none (by omega)]
              simp only [reduceCtorEq, false_and, exists_false, false_iff]
              rintro ⟨cl, a, b, d⟩
              rcases Nat.lt_trichotomy j w.clients.length with c1 | c1 | c1
              · omega
              · subst c1; simp at a; rw [← a] at b; exact hi b
              · rw [List.getElem?_eq_none (by simp; omega)] at a; simp at a
        · intro j cl e
          simp only [List.length_modify]
          simp only [List.getElem?_append] at e
          split at e
          · exact h.cached j cl e
          · rename_i hj
            rcases Nat.lt_trichotomy j w.clients.length with c1 | c1 | c1
            · omega
            · subst c1; simp at e; rw [← e]; exact hlt
            · rw [List.getElem?_eq_none (by simp; omega)] at e; simp at e
  | dump c =>
    simp only [step, dump]
    split
    · exact h.same _ _ (by intro i; rfl) (by intro i; rfl)
    · split
      · exact h.same _ _ (by intro i; rfl) (by intro i; rfl)
      · refine h.frame _ _ (by intro i; rfl) (by intro i; rfl) rfl (fun i c' e => ⟨c', e, rfl, rfl⟩) ?_
        intro j
        simp only [modify_get]
        split
        · cases w.clients[j]? <;> simp
        · rfl
  | leave c =>
    simp only [step, leave]
    split
    · exact h.same _ _ (by intro i; rfl) (by intro i; rfl)
    · rename_i cl hcl
      split
      · exact h.same _ _ (by intro i; rfl) (by intro i; rfl)
      · rename_i hleft
        have hsnocP : ∀ i, publishedTo i (past ++ [(WOp.leave c, WOut.ok)]) = publishedTo i past := by
          intro i; rw [publishedTo_snoc]; simp [publishedTo]
        have hsnocR : ∀ i, isRaw i (past ++ [(WOp.leave c, WOut.ok)]) = isRaw i past := by
          intro i; rw [isRaw_snoc]; simp [isRaw]
        refine ⟨?_, ?_, ?_, ?_, ?_⟩
        · intro i c' e
          simp only [modify_get] at e
          rw [storeAfter, hsnocP, hsnocR]
          split at e
          · cases hx : w.caches[i]? with
            | none => rw [hx] at e; simp at e
            | some x => rw [hx] at e; simp at e; rw [← e]; exact h.store i x hx
          · exact h.store i c' e
        · intro i hi
          simp only [List.length_modify] at hi
          rw [hsnocP, hsnocR]; exact h.fresh i hi
        · intro i c' e
          simp only [modify_get] at e
          split at e
          · cases hx : w.caches[i]? with
            | none => rw [hx] at e; simp at e
            | some x => rw [hx] at e; simp at e; rw [← e]; exact (h.nodup i x hx).erase _
          · exact h.nodup i c' e
        · intro i c' e j
          simp only [modify_get] at e
          simp only [modify_get]
          split at e
          · rename_i hi
            subst hi
            cases hx : w.caches[cl.cache]? with
            | none => rw [hx] at e; simp at e
            | some x =>
              rw [hx] at e; simp at e; rw [← e]
              rw [(h.nodup _ x hx).mem_erase_iff, h.subs _ x hx j]
              by_cases hj : c = j
              · subst hj
                simp [hcl]
              · simp only [if_neg hj]
                constructor
                · rintro ⟨_, h2⟩; exact h2
                · intro h2; exact ⟨Ne.symm hj, h2⟩
          · rename_i hi
            rw [h.subs i c' e j]
            by_cases hj : c = j
            · subst hj
              simp only [if_true, hcl]
              constructor
              · rintro ⟨x, a, b, d⟩; simp at a; subst a; exact absurd b hi
              · rintro ⟨x, a, b, d⟩; simp at a; rw [← a] at d; simp at d
            · simp only [if_neg hj]
        · intro j cl' e
          simp only [List.length_modify]
          simp only [modify_get] at e
          split at e
          · cases hx : w.clients[j]? with
            | none => rw [hx] at e; simp at e
            | some x => rw [hx] at e; simp at e; rw [← e]; exact h.cached j x hx
          · exact h.cached j cl' e
  | edgeRequest k =>
    simp only [step, edgeRequest]
    split
    · exact h.same _ _ (by intro i; rfl) (by intro i; rfl)
    · split
      · exact h.same _ _ (by intro i; rfl) (by intro i; rfl)
      · exact h.frame _ _ (by intro i; rfl) (by intro i; rfl) rfl (fun i c' e => ⟨c', e, rfl, rfl⟩) (fun _ => rfl)
  | edgeOpen e =>
    simp only [step, edgeOpen]
    split
    · exact h.same _ _ (by intro i; rfl) (by intro i; rfl)
    · rename_i ed _
      split
      · have h1 : Inv (w.newCache ed.key (.edge e) (.av Gop.empty))
            (past ++ [(WOp.edgeOpen e, WOut.published w.caches.length)]) := by
          refine h.newCache _ _ _ (by intro i; rw [publishedTo_snoc]; simp [publishedTo]) (by intro i _; rw [isRaw_snoc]; simp [isRaw]) ?_
          rw [isRaw_snoc, (h.fresh _ (Nat.le_refl _)).2]; simp [isRaw]
        exact ⟨h1.store, h1.fresh, h1.nodup, h1.subs, h1.cached⟩
      · exact h.same _ _ (by intro i; rfl) (by intro i; rfl)
  | edgeEnd e =>
    simp only [step, edgeEnd]
    split
    · exact h.same _ _ (by intro i; rfl) (by intro i; rfl)
    · split
      · exact h.frame _ _ (by intro i; rfl) (by intro i; rfl) rfl (fun i c' e => ⟨c', e, rfl, rfl⟩) (fun _ => rfl)
      · refine h.frame _ _ (by intro i; rfl) (by intro i; rfl) (by simp [closeCache]) ?_ (by intro j; rfl)
        intro i c' e
        simp only [closeCache, modify_get] at e
        split at e
        · cases hx : w.caches[i]? with
          | none => rw [hx] at e; simp at e
          | some x => rw [hx] at e; simp at e; exact ⟨x, rfl, by rw [← e], by rw [← e]⟩
        · exact ⟨c', e, rfl, rfl⟩
      · exact h.same _ _ (by intro i; rfl) (by intro i; rfl)
  | edgeDrop e =>
    simp only [step, edgeDrop]
    split
    · exact h.same _ _ (by intro i; rfl) (by intro i; rfl)
    · split
      · split <;> exact h.frame _ _ (by intro i; rfl) (by intro i; rfl) rfl (fun i c' e => ⟨c', e, rfl, rfl⟩) (fun _ => rfl)
      · exact h.same _ _ (by intro i; rfl) (by intro i; rfl)

end World
end Sps
