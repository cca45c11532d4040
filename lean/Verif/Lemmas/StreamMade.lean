import Verif.Lemmas.StreamReg
/-! # Which key a cache was made for -/
namespace Sps.World
open Spec

/-- Key of a cache. -/
def keyOf (w : World) (i : Nat) : Option Key := (w.caches[i]?).map (·.key)

/-- Registry, caches, pulls and the log agree on keys. -/
structure InvK (w : World) (past : Log) : Prop where
  reg : ∀ k i, w.reg.find k = some i → w.keyOf i = some k
  made : ∀ i k, madeUnder i k past ↔ w.keyOf i = some k
  edge : ∀ e k, (.edgeRequest k, .edgeStarted e) ∈ past ↔ (w.edges[e]?).map (·.key) = some k
  opened : ∀ e i, (.edgeOpen e, .published i) ∈ past →
    ∃ k ph, w.edges[e]? = some ⟨k, ph⟩ ∧ (ph = .running i ∨ ph = .done)
  join : ∀ k c i, (.play k, .joined c i) ∈ past → w.keyOf i = some k

theorem InvK.init : InvK World.init [] := by
  refine ⟨?_, ?_, ?_, ?_, ?_⟩ <;> simp [World.init, madeUnder, keyOf, Assoc.find_nil]

theorem keyOf_modify (w : World) (cid : Nat) (f : Cache → Cache) (hf : ∀ c, (f c).key = c.key) (i : Nat) :
    ((w.caches.modify cid f)[i]?).map (·.key) = w.keyOf i := by
  rw [modify_get]
  unfold keyOf
  split
  · cases w.caches[i]? <;> simp [hf]
  · rfl

theorem keyOf_new (w : World) (k : Key) (src : Src) (s : Store) (i : Nat) :
    (w.newCache k src s).keyOf i = if i = w.caches.length then some k else w.keyOf i := by
  simp only [keyOf, newCache, append_get_new]
  split <;> simp

theorem keyOf_ge (w : World) (i : Nat) (h : w.caches.length ≤ i) : w.keyOf i = none := by
  simp [keyOf, h]

/-- An entry that creates nothing and joins nothing changes no fact about the log. -/
theorem InvK.quiet {w w' : World} {past : Log} (h : InvK w past) (x : WOp × WOut)
    (hk : ∀ i, w'.keyOf i = w.keyOf i) (hr : ∀ k i, w'.reg.find k = some i → w.reg.find k = some i)
    (he : ∀ e : Nat, (w'.edges[e]?).map (·.key) = (w.edges[e]?).map (·.key))
    (hp : ∀ (e : Nat) (k : Key) (ph : EdgePhase), w.edges[e]? = some ⟨k, ph⟩ → ph ≠ .starting →
      ∃ ph', w'.edges[e]? = some ⟨k, ph'⟩ ∧ (ph' = ph ∨ ph' = .done))
    (h1 : ∀ k i, x ≠ (.publish k, .published i)) (h2 : ∀ k i, x ≠ (.publishSrt k, .published i))
    (h3 : ∀ e i, x ≠ (.edgeOpen e, .published i)) (h4 : ∀ k e, x ≠ (.edgeRequest k, .edgeStarted e))
    (h5 : ∀ k c i, x = (.play k, .joined c i) → w.keyOf i = some k) : InvK w' (past ++ [x]) := by
  obtain ⟨a, b, c, d, e⟩ := h
  refine ⟨?_, ?_, ?_, ?_, ?_⟩
  · intro k i hi; rw [hk]; exact a k i (hr k i hi)
  · intro i k
    rw [hk, ← b]
    have e1 : (.publish k, .published i) ∈ past ++ [x] ↔ (.publish k, .published i) ∈ past := by
      simp [Ne.symm (h1 k i)]
    have e2 : ∀ k i, (.publishSrt k, .published i) ∈ past ++ [x] ↔ (.publishSrt k, .published i) ∈ past := by
      intro k i
      simp [Ne.symm (h2 k i)]
    have e3 : ∀ e, (.edgeOpen e, .published i) ∈ past ++ [x] ↔ (.edgeOpen e, .published i) ∈ past := by
      intro e
      simp [Ne.symm (h3 e i)]
    have e4 : ∀ e, (.edgeRequest k, .edgeStarted e) ∈ past ++ [x] ↔ (.edgeRequest k, .edgeStarted e) ∈ past := by
      intro e
      simp [Ne.symm (h4 k e)]
    simp only [madeUnder, e1, e2, e3, e4]
  · intro e k
    rw [he, ← c]
    simp [Ne.symm (h4 k e)]
  · intro e i hm
    rw [List.mem_append, List.mem_singleton] at hm
    rcases hm with hm | hm
    · obtain ⟨k, ph, q1, q2⟩ := d e i hm
      have : ph ≠ .starting := by rcases q2 with q2 | q2 <;> simp [q2]
      obtain ⟨ph', q3, q4⟩ := hp e k ph q1 this
      refine ⟨k, ph', q3, ?_⟩
      rcases q4 with q4 | q4
      · rw [q4]; exact q2
      · exact Or.inr q4
    · exact absurd hm.symm (h3 e i)
  · intro k c i hm
    rw [hk]
    rw [List.mem_append, List.mem_singleton] at hm
    rcases hm with hm | hm
    · exact e k c i hm
    · exact h5 k c i hm.symm

theorem InvK.same {w : World} {past : Log} (h : InvK w past) (x : WOp × WOut)
    (hx : x.2 = .refused ∨ x.2 = .ok ∨ x.2 = .bad ∨ x.2 = .noSource ∨ x.2 = .hasCache ∨ (∃ l, x.2 = .pkts l) ∨
      (∃ e, x.2 = .edgeWaits e)) :
    InvK w (past ++ [x]) := by
  refine h.quiet x (fun _ => rfl) (fun _ _ h => h) (fun _ => rfl) (fun e k ph h _ => ⟨ph, h, Or.inl rfl⟩) ?_ ?_ ?_ ?_ ?_ <;>
  · intros
    try intro hc
    grind

theorem step_invK {w : World} {past : Log} (h : InvK w past) (op : WOp) :
    InvK (w.step op).1 (past ++ [(op, (w.step op).2)]) := by
  have hsame := fun x hx => InvK.same h x hx
  cases op with
  | publish k =>
    simp only [step, publish]
    split
    · exact h.same _ (by simp)
    · obtain ⟨a, b, c, d, e⟩ := h
      refine ⟨?_, ?_, ?_, ?_, ?_⟩
      · intro k' i hi
        simp only [newCache, Assoc.find_insert] at hi
        rw [keyOf_new]
        have := a k' i
        have g := keyOf_ge w i
        split at hi
        · simp at hi; subst hi; simp_all
        · have := this hi
          split
          · rename_i hh; rw [g (by omega)] at this; simp at this
          · exact this
      · intro i k'
        rw [keyOf_new]
        have := b i k'
        have g := keyOf_ge w i
        simp only [madeUnder, List.mem_append, List.mem_singleton, Prod.mk.injEq, WOp.publish.injEq,
          WOut.published.injEq, reduceCtorEq, false_and, or_false] at this ⊢
        by_cases hi : i = w.caches.length
        · have : ¬ (w.keyOf i = some k') := by rw [g (by omega)]; simp
          grind
        · grind
      · intro e k'
        simpa [newCache] using c e k'
      · intro e i hm
        simp at hm
        exact d e i hm
      · intro k' c i hm
        simp at hm
        have := e k' c i hm
        rw [keyOf_new]
        have g := keyOf_ge w i
        split
        · rename_i hh; rw [g (by omega)] at this; simp at this
        · exact this
  | publishSrt k =>
    simp only [step, publishSrt]
    split
    · exact h.same _ (by simp)
    · obtain ⟨a, b, c, d, e⟩ := h
      have kn : ∀ i, ((w.newCache k .srtAv (.av Gop.empty)).newCache (tsKey k) .srtRaw (.raw RawTs.empty)).keyOf i =
          if i = w.caches.length + 1 then some (tsKey k) else if i = w.caches.length then some k else w.keyOf i := by
        intro i
        rw [keyOf_new, keyOf_new]
        simp [newCache]
      refine ⟨?_, ?_, ?_, ?_, ?_⟩
      · intro k' i hi
        simp only [newCache, Assoc.find_insert, List.length_append, List.length_singleton] at hi
        rw [kn]
        have := a k' i
        have g := keyOf_ge w i
        split at hi
        · simp at hi; subst hi; simp_all
        · split at hi
          · simp at hi; subst hi; simp_all
          · have := this hi
            grind
      · intro i k'
        rw [kn]
        have := b i k'
        have g := keyOf_ge w i
        simp only [madeUnder, List.mem_append, List.mem_singleton, Prod.mk.injEq, WOp.publishSrt.injEq,
          WOut.published.injEq, reduceCtorEq, false_and, or_false] at this ⊢
        by_cases hi : i = w.caches.length + 1
        · have hn : ¬ (w.keyOf i = some k') := by rw [g (by omega)]; simp
          rw [if_pos hi]
          rw [← this] at hn
          constructor
          · rintro (q | q | ⟨n, k2, q1, q2, q3⟩ | q)
            · grind
            · grind
            · rcases q3 with q3 | ⟨q3, _⟩
              · exact absurd (Or.inr (Or.inr (Or.inl ⟨n, k2, q1, q2, q3⟩))) hn
              · rw [q2, q3]
            · grind
          · intro q
            simp at q
            exact Or.inr (Or.inr (Or.inl ⟨w.caches.length, k, hi, q.symm, Or.inr ⟨rfl, rfl⟩⟩))
        · by_cases hi2 : i = w.caches.length
          · have hn : ¬ (w.keyOf i = some k') := by rw [g (by omega)]; simp
            rw [if_neg hi, if_pos hi2]
            rw [← this] at hn
            constructor
            · rintro (q | q | ⟨n, k2, q1, q2, q3⟩ | q)
              · grind
              · grind
              · rcases q3 with q3 | ⟨_, q3⟩
                · exact absurd (Or.inr (Or.inr (Or.inl ⟨n, k2, q1, q2, q3⟩))) hn
                · omega
              · grind
            · intro q
              simp at q
              exact Or.inr (Or.inl (Or.inr ⟨q.symm, hi2⟩))
          · rw [if_neg hi, if_neg hi2, ← this]
            constructor
            · rintro (q | q | ⟨n, k2, q1, q2, q3⟩ | q)
              · grind
              · grind
              · rcases q3 with q3 | ⟨_, q3⟩
                · exact Or.inr (Or.inr (Or.inl ⟨n, k2, q1, q2, q3⟩))
                · omega
              · grind
            · rintro (q | q | ⟨n, k2, q1, q2, q3⟩ | q)
              · grind
              · grind
              · exact Or.inr (Or.inr (Or.inl ⟨n, k2, q1, q2, Or.inl q3⟩))
              · grind
      · intro e k'
        simpa [newCache] using c e k'
      · intro e i hm
        simp at hm
        exact d e i hm
      · intro k' c i hm
        simp at hm
        have := e k' c i hm
        rw [kn]
        have g := keyOf_ge w i
        grind
  | put cid p =>
    simp only [step, put]
    split
    · exact h.same _ (by simp)
    · split
      · exact h.quiet _ (by intro i; exact keyOf_modify w cid _ (by intro c; rfl) i) (fun _ _ h => h) (fun _ => rfl)
          (fun e k ph h _ => ⟨ph, h, Or.inl rfl⟩) (by simp) (by simp) (by simp) (by simp) (by simp)
      · exact h.same _ (by simp)
  | unpublish cid =>
    simp only [step, unpublish]
    split
    · exact h.same _ (by simp)
    · rename_i c hc
      split
      · split
        · refine h.quiet _ (by intro i; exact keyOf_modify w cid _ (by intro c; rfl) i) ?_ (fun _ => rfl)
            (fun e k ph h _ => ⟨ph, h, Or.inl rfl⟩) (by simp) (by simp) (by simp) (by simp) (by simp)
          intro k i hi
          simp only [Assoc.find_erase] at hi
          split at hi <;> simp_all
        · refine h.quiet _ ?_ ?_ (fun _ => rfl)
            (fun e k ph h _ => ⟨ph, h, Or.inl rfl⟩) (by simp) (by simp) (by simp) (by simp) (by simp)
          · intro i
            have := keyOf_modify (w.closeCache cid) (cid + 1) (fun c => { c with isOpen := false }) (by intro c; rfl) i
            have q2 := keyOf_modify w cid (fun c => { c with isOpen := false }) (by intro c; rfl) i
            exact this.trans q2
          · intro k i hi
            simp only [Assoc.find_erase] at hi
            split at hi
            · simp at hi
            · split at hi <;> simp_all
        · exact h.same _ (by simp)
      · exact h.same _ (by simp)
  | play k =>
    simp only [step, play_eq]
    split
    · exact h.same _ (by simp)
    · rename_i cid hr
      split
      · exact h.same _ (by simp)
      · refine h.quiet _ (by intro i; exact keyOf_modify w cid _ (by intro c; rfl) i) (fun _ _ h => h) (fun _ => rfl)
          (fun e k ph h _ => ⟨ph, h, Or.inl rfl⟩) (by simp) (by simp) (by simp) (by simp) ?_
        intro k' c i hx
        simp only [Prod.mk.injEq, WOp.play.injEq, WOut.joined.injEq] at hx
        obtain ⟨rfl, _, rfl⟩ := hx
        exact h.reg _ _ hr
  | dump c =>
    simp only [step, dump]
    split
    · exact h.same _ (by simp)
    · split
      · exact h.same _ (by simp)
      · exact h.quiet _ (fun _ => rfl) (fun _ _ h => h) (fun _ => rfl)
          (fun e k ph h _ => ⟨ph, h, Or.inl rfl⟩) (by simp) (by simp) (by simp) (by simp) (by simp)
  | leave c =>
    simp only [step, leave]
    split
    · exact h.same _ (by simp)
    · split
      · exact h.same _ (by simp)
      · exact h.quiet _ (by intro i; exact keyOf_modify w _ _ (by intro c; rfl) i) (fun _ _ h => h) (fun _ => rfl)
          (fun e k ph h _ => ⟨ph, h, Or.inl rfl⟩) (by simp) (by simp) (by simp) (by simp) (by simp)
  | edgeRequest k =>
    simp only [step, edgeRequest]
    split
    · exact h.same _ (by simp)
    · split
      · exact h.same _ (by simp)
      · obtain ⟨a, b, c, d, e⟩ := h
        have hnew : ∀ i, (.edgeOpen w.edges.length, .published i) ∉ past := by
          intro i hm
          obtain ⟨_, _, q, _⟩ := d _ _ hm
          simp at q
        refine ⟨fun k i hi => a k i hi, ?_, ?_, ?_, ?_⟩
        · intro i k'
          have := b i k'
          show _ ↔ w.keyOf i = some k'
          rw [← this]
          simp only [madeUnder, List.mem_append, List.mem_singleton, Prod.mk.injEq, WOp.edgeRequest.injEq,
            WOut.edgeStarted.injEq, reduceCtorEq, false_and, or_false]
          constructor
          · rintro (q | q | q | ⟨e, q1, q2⟩)
            · grind
            · grind
            · exact Or.inr (Or.inr (Or.inl q))
            · rcases q2 with q2 | ⟨_, q2⟩
              · exact Or.inr (Or.inr (Or.inr ⟨e, q1, q2⟩))
              · subst q2; exact absurd q1 (hnew i)
          · rintro (q | q | q | ⟨e, q1, q2⟩)
            · grind
            · grind
            · exact Or.inr (Or.inr (Or.inl q))
            · exact Or.inr (Or.inr (Or.inr ⟨e, q1, Or.inl q2⟩))
        · intro e k'
          have := c e k'
          simp only [List.mem_append, List.mem_singleton, Prod.mk.injEq, WOp.edgeRequest.injEq,
            WOut.edgeStarted.injEq]
          rw [append_get_new]
          by_cases he : e = w.edges.length
          · have hn : (w.edges[e]?) = none := by simp [he]
            rw [hn] at this
            simp [he] at this ⊢
            grind
          · simp [he]
            simpa using this
        · intro e i hm
          simp at hm
          obtain ⟨k', ph, q1, q2⟩ := d e i hm
          refine ⟨k', ph, ?_, q2⟩
          show (w.edges ++ [_])[e]? = _
          rw [List.getElem?_append_left (get_len q1)]; exact q1
        · intro k' c i hm
          simp at hm
          exact e k' c i hm
  | edgeOpen e =>
    simp only [step, edgeOpen]
    split
    · exact h.same _ (by simp)
    · rename_i ed hed
      obtain ⟨k, ph⟩ := ed
      split
      · rename_i hp
        simp at hp
        subst hp
        obtain ⟨a, b, c, d, j⟩ := h
        have em : ∀ i : Nat, (w.edges.modify e fun d => { d with phase := .running w.caches.length })[i]? =
            if e = i then some ⟨k, .running w.caches.length⟩ else w.edges[i]? :=
          fun i => edges_modify w e i k _ _ hed
        have kn : ∀ i, ({ w.newCache k (.edge e) (.av Gop.empty) with
          edges := w.edges.modify e fun d => { d with phase := .running w.caches.length } } : World).keyOf i =
          if i = w.caches.length then some k else w.keyOf i := fun i => keyOf_new w k (.edge e) (.av Gop.empty) i
        have hst := (c e k).2 (by simp [hed])
        refine ⟨?_, ?_, ?_, ?_, ?_⟩
        · intro k' i hi
          simp only [newCache, Assoc.find_insert] at hi
          rw [kn]
          have := a k' i
          have g := keyOf_ge w i
          split at hi
          · simp at hi; subst hi; simp_all
          · have := this hi
            grind
        · intro i k'
          rw [kn]
          have := b i k'
          have g := keyOf_ge w i
          simp only [madeUnder, List.mem_append, List.mem_singleton, Prod.mk.injEq, WOp.edgeOpen.injEq,
            WOut.published.injEq, reduceCtorEq, false_and, or_false] at this ⊢
          by_cases hi : i = w.caches.length
          · have hn : ¬ (w.keyOf i = some k') := by rw [g (by omega)]; simp
            rw [if_pos hi]
            rw [← this] at hn
            constructor
            · rintro (q | q | q | ⟨e', q1, q2⟩)
              · grind
              · grind
              · exact absurd (Or.inr (Or.inr (Or.inl q))) hn
              · rcases q1 with q1 | ⟨q1, _⟩
                · exact absurd (Or.inr (Or.inr (Or.inr ⟨e', q1, q2⟩))) hn
                · subst q1
                  have := (c e' k').1 q2
                  rw [hed] at this; simpa using this
            · intro q
              simp at q
              subst q
              exact Or.inr (Or.inr (Or.inr ⟨e, Or.inr ⟨rfl, hi⟩, hst⟩))
          · rw [if_neg hi, ← this]
            constructor
            · rintro (q | q | q | ⟨e', q1, q2⟩)
              · grind
              · grind
              · exact Or.inr (Or.inr (Or.inl q))
              · rcases q1 with q1 | ⟨q1, q3⟩
                · exact Or.inr (Or.inr (Or.inr ⟨e', q1, q2⟩))
                · exact absurd q3 hi
            · rintro (q | q | q | ⟨e', q1, q2⟩)
              · grind
              · grind
              · exact Or.inr (Or.inr (Or.inl q))
              · exact Or.inr (Or.inr (Or.inr ⟨e', Or.inl q1, q2⟩))
        · intro e' k'
          have := c e' k'
          simp only [List.mem_append, List.mem_singleton, Prod.mk.injEq, reduceCtorEq, false_and, or_false]
          rw [em, this]
          by_cases hee : e = e'
          · subst hee; simp [hed]
          · simp [hee]
        · intro e' i hm
          simp only [List.mem_append, List.mem_singleton, Prod.mk.injEq, WOp.edgeOpen.injEq, WOut.published.injEq] at hm
          rcases hm with hm | ⟨rfl, rfl⟩
          · obtain ⟨k', ph, q1, q2⟩ := d e' i hm
            have : e ≠ e' := by
              intro hc; subst hc; rw [hed] at q1
              simp at q1
              rcases q2 with q2 | q2 <;> simp [q2] at q1
            exact ⟨k', ph, by simp only [em, if_neg this]; exact q1, q2⟩
          · exact ⟨k, .running w.caches.length, by simp only [em, if_true], Or.inl rfl⟩
        · intro k' c' i hm
          simp at hm
          have := j k' c' i hm
          rw [kn]
          have g := keyOf_ge w i
          grind
      · exact h.same _ (by simp)
  | edgeEnd e =>
    simp only [step, edgeEnd]
    split
    · exact h.same _ (by simp)
    · rename_i ed hed
      obtain ⟨k, ph⟩ := ed
      have em : ∀ i : Nat, (w.edges.modify e fun d => { d with phase := .done })[i]? =
            if e = i then some ⟨k, .done⟩ else w.edges[i]? :=
          fun i => edges_modify w e i k _ _ hed
      have e1 : ∀ i : Nat, ((w.edges.modify e fun d => { d with phase := .done })[i]?).map (·.key) =
          (w.edges[i]?).map (·.key) := by
        intro i; rw [em]; split
        · rename_i hi; subst hi; simp [hed]
        · rfl
      have e2 : ∀ (i : Nat) (k' : Key) (ph : EdgePhase), w.edges[i]? = some ⟨k', ph⟩ → ph ≠ .starting →
          ∃ ph', (w.edges.modify e fun d => { d with phase := .done })[i]? = some ⟨k', ph'⟩ ∧ (ph' = ph ∨ ph' = .done) := by
        intro i k' ph' hi _
        rw [em]
        by_cases hh : e = i
        · subst hh; rw [hed] at hi; simp at hi; exact ⟨.done, by simp [hi.1], Or.inr rfl⟩
        · exact ⟨ph', by simp [hh, hi], Or.inl rfl⟩
      split
      · exact h.quiet _ (fun _ => rfl) (fun _ _ h => h) e1 e2 (by simp) (by simp) (by simp) (by simp) (by simp)
      · refine h.quiet _ (by intro i; exact keyOf_modify w _ _ (by intro c; rfl) i) ?_ e1 e2
          (by simp) (by simp) (by simp) (by simp) (by simp)
        intro k i hi
        simp only [Assoc.find_erase] at hi
        split at hi <;> simp_all
      · exact h.same _ (by simp)
  | edgeDrop e =>
    simp only [step, edgeDrop]
    split
    · exact h.same _ (by simp)
    · split
      · split
        · refine h.quiet _ (fun _ => rfl) ?_ (fun _ => rfl) (fun e k ph h _ => ⟨ph, h, Or.inl rfl⟩) (by simp) (by simp) (by simp) (by simp) (by simp)
          intro k i hi
          simp only at hi
          split at hi
          · rw [Assoc.find_erase] at hi
            split at hi
            · simp at hi
            · exact hi
          · exact hi
        · exact h.quiet _ (fun _ => rfl) (fun _ _ h => h) (fun _ => rfl) (fun e k ph h _ => ⟨ph, h, Or.inl rfl⟩) (by simp) (by simp) (by simp) (by simp) (by simp)
      · exact h.same _ (by simp)

theorem run_invK (ops : List WOp) {w : World} {past : Log} (h : InvK w past) :
    InvK (w.run ops).1 (past ++ (w.run ops).2) := by
  induction ops generalizing w past with
  | nil => simpa [run] using h
  | cons op ops ih =>
    obtain ⟨a, b⟩ := run_snd_cons w op ops
    have := ih (step_invK h op)
    rw [a, b]; simpa using this

end Sps.World
