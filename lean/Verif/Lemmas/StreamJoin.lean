import Verif.Lemmas.Serve
import Verif.Props.Stream
/-! # What a log says about one player and one plain publisher -/
namespace Sps.World
open Spec StreamProps

theorem step_joined (w : World) (op : WOp) {c cid : Nat} (h : (w.step op).2 = .joined c cid) :
    c = w.clients.length ∧ (w.step op).1.clients.length = w.clients.length + 1 := by
  cases op <;> simp only [step, publish, publishSrt, put, unpublish, play_eq, dump, leave, edgeRequest, edgeOpen, edgeEnd, edgeDrop] at h ⊢
  all_goals (repeat' split at h) <;> simp at h
  simp_all

theorem step_published (w : World) (op : WOp) {cid : Nat} (h : (w.step op).2 = .published cid) :
    cid = w.caches.length ∧ cid < (w.step op).1.caches.length ∧ ((∃ k, op = .publishSrt k) → cid + 1 < (w.step op).1.caches.length) := by
  cases op <;> simp only [step, publish, publishSrt, put, unpublish, play_eq, dump, leave, edgeRequest, edgeOpen, edgeEnd, edgeDrop] at h ⊢
  all_goals (repeat' split at h) <;> simp at h
  all_goals subst h <;> simp_all [newCache]

theorem no_join (c : Nat) (ops : List WOp) : ∀ w : World, c < w.clients.length → ∀ op cid, (op, WOut.joined c cid) ∉ (w.run ops).2 := by
  induction ops with
  | nil => intro w _ op cid; simp [run]
  | cons o ops ih =>
    intro w hc op cid hm
    rw [(run_snd_cons w o ops).1, List.mem_cons] at hm
    rcases hm with hm | hm
    · simp only [Prod.mk.injEq] at hm
      have := (step_joined w o hm.2.symm).1
      omega
    · exact ih _ (Nat.lt_of_lt_of_le hc (step_lengths w o).1) op cid hm

theorem no_publish (cid : Nat) (ops : List WOp) : ∀ w : World, cid < w.caches.length → ∀ op, (op, WOut.published cid) ∉ (w.run ops).2 := by
  induction ops with
  | nil => intro w _ op; simp [run]
  | cons o ops ih =>
    intro w hc op hm
    rw [(run_snd_cons w o ops).1, List.mem_cons] at hm
    rcases hm with hm | hm
    · simp only [Prod.mk.injEq] at hm
      have := (step_published w o hm.2.symm).1
      omega
    · exact ih _ (Nat.lt_of_lt_of_le hc (step_lengths w o).2) op hm

theorem isRaw_mem {cid : Nat} {l : Log} (h : isRaw cid l = true) : ∃ k n, (.publishSrt k, .published n) ∈ l ∧ n + 1 = cid := by
  induction l with
  | nil => simp [isRaw] at h
  | cons x l ih =>
    obtain ⟨op, o⟩ := x
    have hrec : isRaw cid l = true → ∃ k n, (.publishSrt k, .published n) ∈ (op, o) :: l ∧ n + 1 = cid := by
      intro h
      obtain ⟨k, n, h1, h2⟩ := ih h
      exact ⟨k, n, List.mem_cons_of_mem _ h1, h2⟩
    cases op <;> cases o <;> simp only [isRaw] at h <;> first | exact hrec h | skip
    simp only [Bool.or_eq_true, beq_iff_eq] at h
    rcases h with h | h
    · exact ⟨_, _, List.mem_cons_self .., h⟩
    · exact hrec h

/-- A cache that a publisher or a pull was given is not the raw one of an SRT publisher. -/
theorem given_not_raw {op0 : WOp} (cid : Nat) (ops : List WOp) : ∀ w : World, (op0, WOut.published cid) ∈ (w.run ops).2 →
    ∀ k' n, (.publishSrt k', WOut.published n) ∈ (w.run ops).2 → n + 1 ≠ cid := by
  induction ops with
  | nil => intro w h; simp [run] at h
  | cons o ops ih =>
    intro w hm k' n hm' he
    rw [(run_snd_cons w o ops).1, List.mem_cons] at hm hm'
    rcases hm with hm | hm
    · simp only [Prod.mk.injEq] at hm
      obtain ⟨p1, p2, -⟩ := step_published w o hm.2.symm
      rcases hm' with hm' | hm'
      · simp only [Prod.mk.injEq] at hm'
        have := hm.2.trans hm'.2.symm
        simp only [WOut.published.injEq] at this
        omega
      · exact no_publish n ops _ (by omega) _ hm'
    · rcases hm' with hm' | hm'
      · simp only [Prod.mk.injEq] at hm'
        obtain ⟨p1, p2, p3⟩ := step_published w o hm'.2.symm
        exact no_publish cid ops _ (by have := p3 ⟨k', hm'.1.symm⟩; omega) _ hm
      · exact ih _ hm k' n hm' he

theorem isRaw_prefix (cid : Nat) (l l' : Log) (h : isRaw cid (l ++ l') = false) : isRaw cid l = false := by
  induction l with
  | nil => rfl
  | cons x l ih =>
    obtain ⟨op, o⟩ := x
    rw [List.cons_append] at h
    cases op <;> cases o <;> simp only [isRaw] at h ⊢ <;> first | exact ih h | skip
    simp only [Bool.or_eq_false_iff] at h ⊢
    exact ⟨h.1, ih h.2⟩

theorem untilLeave_prefix (c cid : Nat) (l : Log) : untilLeave c cid l <+: publishedTo cid l := by
  induction l with
  | nil => exact List.prefix_refl _
  | cons x l ih =>
    obtain ⟨op, o⟩ := x
    cases op <;> cases o <;> simp only [untilLeave, publishedTo] <;> first | exact ih | skip
    · split
      · exact (List.prefix_cons_inj _).2 ih
      · exact ih
    · split
      · exact List.nil_prefix
      · exact ih

theorem untilLeave_all (c cid : Nat) (l : Log) (h : (.leave c, .ok) ∉ l) : untilLeave c cid l = publishedTo cid l := by
  induction l with
  | nil => rfl
  | cons x l ih =>
    have ih := ih (fun hm => h (List.mem_cons_of_mem _ hm))
    obtain ⟨op, o⟩ := x
    cases op <;> cases o <;> simp only [untilLeave, publishedTo] <;> first | exact ih | skip
    · rw [ih]
    · split
      · rename_i d hd
        exact absurd (by rw [hd]; exact List.mem_cons_self ..) h
      · exact ih

theorem step_leave (w : World) (op : WOp) {c : Nat} (hc : w.clients.length ≤ c) : (op, (w.step op).2) ≠ (.leave c, .ok) := by
  intro h
  simp only [Prod.mk.injEq] at h
  obtain ⟨rfl, h⟩ := h
  simp [step, leave, List.getElem?_eq_none hc] at h

theorem isRaw_of_mem {k : Key} {n : Nat} {l : Log} (h : (.publishSrt k, .published n) ∈ l) : isRaw (n + 1) l = true := by
  induction l with
  | nil => simp at h
  | cons x l ih =>
    rcases List.mem_cons.1 h with rfl | h
    · simp [isRaw]
    · have ih := ih h
      obtain ⟨op, o⟩ := x
      cases op <;> cases o <;> simp [isRaw, ih]

/-- Who joins a cache joins one that exists. -/
theorem step_joined_cache {w : World} {past : Log} (hi : Inv w past) (op : WOp) {c cid : Nat} (h : (w.step op).2 = .joined c cid) :
    cid < (w.step op).1.caches.length := by
  have hi' := step_inv hi op
  obtain ⟨rfl, hl⟩ := step_joined w op h
  have : ∃ cl : Client, (w.step op).1.clients[w.clients.length]? = some cl ∧ cl.cache = cid := by
    cases op <;> simp only [step, publish, publishSrt, put, unpublish, play_eq, dump, leave, edgeRequest, edgeOpen, edgeEnd, edgeDrop] at h ⊢
    all_goals (repeat' split at h) <;> simp at h
    simp_all
  obtain ⟨cl, h1, rfl⟩ := this
  exact hi'.cached _ cl h1

theorem run_fst (ops : List WOp) : ∀ w : World, (w.run ops).2.map Prod.fst = ops := by
  induction ops with
  | nil => intro w; rfl
  | cons o ops ih =>
    intro w
    rw [(run_snd_cons w o ops).1, List.map_cons, ih]

/-- Who joins the raw cache of an SRT publisher joins after the publisher. -/
theorem raw_before {ops : List WOp} {w : World} {L1 L2 : Log} {op : WOp} {c cid : Nat} {k : Key} (hr : World.init.run ops = (w, L1 ++ (op, .joined c (cid + 1)) :: L2))
    (hm : (.publishSrt k, .published cid) ∈ L1 ++ (op, .joined c (cid + 1)) :: L2) : isRaw (cid + 1) L1 = true := by
  rcases List.mem_append.1 hm with hm' | hm'
  · exact isRaw_of_mem hm'
  rcases List.mem_cons.1 hm' with hx | hx
  · simp at hx
  have hops : ops = L1.map Prod.fst ++ (op :: L2.map Prod.fst) := by
    have := run_fst ops World.init
    rw [hr] at this
    rw [← this]
    simp
  rw [hops, run_append] at hr
  generalize hw1 : World.init.run (L1.map Prod.fst) = x1 at hr
  obtain ⟨w1, l1⟩ := x1
  simp only at hr
  have hl1 : l1.length = L1.length := by
    have := run_fst (L1.map Prod.fst) World.init
    rw [hw1] at this
    simpa using congrArg List.length this
  rw [Prod.mk.injEq] at hr
  obtain ⟨h1, h2⟩ := List.append_inj hr.2 hl1
  subst h1
  rw [(run_snd_cons w1 op _).1, List.cons.injEq] at h2
  have hi1 : Inv w1 l1 := by
    have := run_inv (l1.map Prod.fst) Inv.init
    rw [hw1] at this
    exact this
  have hj : (w1.step op).2 = .joined c (cid + 1) := by
    have := h2.1
    simp only [Prod.mk.injEq, true_and] at this
    exact this
  have := step_joined_cache hi1 op hj
  rw [← h2.2] at hx
  exact absurd hx (no_publish cid (L2.map Prod.fst) (w1.step op).1 (by omega) _)

/-- What a player that joined is entitled to, from where it joined. -/
theorem entitled_split (c cid : Nat) (op : WOp) (ops : List WOp) : ∀ {w : World} {past : Log}, w.clients.length ≤ c →
    (op, WOut.joined c cid) ∈ (w.run ops).2 →
    ∃ L1 L2, (w.run ops).2 = L1 ++ (op, .joined c cid) :: L2 ∧
      entitled c past (w.run ops).2 = startupOf cid (past ++ L1) ++ untilLeave c cid L2 := by
  induction ops with
  | nil => intro w past _ h; simp [run] at h
  | cons o ops ih =>
    intro w past hc hm
    obtain ⟨a, b⟩ := run_snd_cons w o ops
    rw [a, List.mem_cons] at hm
    rcases hm with hm | hm
    · simp only [Prod.mk.injEq] at hm
      refine ⟨[], ((w.step o).1.run ops).2, ?_, ?_⟩
      · rw [a, hm.1, hm.2]; rfl
      · rw [a, ← hm.2, entitled_joined, List.append_nil]
    · have hne : ∀ cid', (w.step o).2 ≠ .joined c cid' := by
        intro cid' he
        obtain ⟨h1, h2⟩ := step_joined w o he
        exact no_join c ops _ (by omega) _ _ hm
      have hlen : (w.step o).1.clients.length ≤ c := by
        rcases Nat.lt_or_ge c (w.step o).1.clients.length with h1 | h1
        · exact absurd hm (no_join c ops _ h1 _ _)
        · exact h1
      obtain ⟨L1, L2, e1, e2⟩ := ih (past := past ++ [(o, (w.step o).2)]) hlen hm
      refine ⟨(o, (w.step o).2) :: L1, L2, ?_, ?_⟩
      · rw [a, e1]; rfl
      · rw [a, entitled_other _ _ _ _ _ hne, e2]
        simp [List.append_assoc]

end Sps.World
