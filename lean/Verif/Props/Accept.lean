import Verif.Lemmas.Accept
/-! # Connections (C88) -/
namespace Sps.Accept
open Spec.Accept

/-- **C88** (part): as long as no `accept` fails, whatever the interleaving: the handler of every connection whose coroutine is entered is called (the object is never
gone by then), a connection is open exactly from its arrival to the return of its handler, and it is closed once, never twice. A connection for which no coroutine could be created
is closed at once.

Missing: an `accept` that fails (`C88_negation_fails`). -/
theorem C88_lifetime_partial (ops : List Op) (w : World) (ha : Accepts ops) (h : World.new.run ops = .ok w) :
    w.served = entered ops ∧
    (∀ i, i ∈ w.registry ↔ (arrivals ops)[i]? = some true ∧ i ∉ left ops) ∧
    (∀ i, w.closed.count i = if (arrivals ops)[i]? = some false ∨ i ∈ left ops then 1 else 0) := by
  have hi := inv_run ops [] World.new w inv_new ha h
  rw [List.nil_append] at hi
  refine ⟨hi.served, ?_, ?_⟩
  · intro i
    rw [hi.reg, ← hi.ret_iff]
    have hn := hi.none_iff i
    have hl : w.threads[i]? = none ↔ (arrivals ops)[i]? = none := by
      rw [List.getElem?_eq_none_iff, List.getElem?_eq_none_iff, hi.len]
    rcases ht : w.threads[i]? with _ | _ | _ | _ | _ <;> rcases hr : (arrivals ops)[i]? with _ | _ | _ <;> simp_all
  · intro i
    rw [hi.cnt]
    simp only [hi.none_iff, hi.ret_iff]

/-- **C88**, the steps that are always possible: a new connection is accepted in every state, and one whose coroutine exists is entered and served, whatever the others do.

Missing: an `accept` that fails (`C88_negation_fails`). -/
theorem C88_progress_partial (ops : List Op) (w : World) (ha : Accepts ops) (h : World.new.run ops = .ok w) :
    (∀ t, ∃ w', w.step (.accept .socket t) = .ok w') ∧
    (∀ i, (arrivals ops)[i]? = some true → i ∉ entered ops → ∃ w', w.step (.enter i) = .ok w' ∧ w'.served = w.served ++ [i]) ∧
    (∀ i, i ∈ entered ops → i ∉ left ops → ∃ w', w.step (.leave i) = .ok w' ∧ w'.closed = w.closed ++ [i]) := by
  have hi := inv_run ops [] World.new w inv_new ha h
  rw [List.nil_append] at hi
  refine ⟨?_, ?_, ?_⟩
  · intro t
    cases t <;> simp [World.step, World.accept]
  · intro i h1 h2
    have hn := hi.none_iff i
    have hl : w.threads[i]? = none ↔ (arrivals ops)[i]? = none := by
      rw [List.getElem?_eq_none_iff, List.getElem?_eq_none_iff, hi.len]
    have hr := hi.run_iff i
    have hc : w.threads[i]? = some (some .created) := by
      rcases ht : w.threads[i]? with _ | _ | _ | _ | _ <;> simp_all
    have hm := (hi.reg i).2 (.inl hc)
    exact ⟨_, by simp only [World.step, World.enter, hc]; rw [if_pos hm], rfl⟩
  · intro i h1 h2
    have hc : w.threads[i]? = some (some .running) := by
      rcases (hi.run_iff i).2 h1 with x | x
      · exact x
      · exact absurd ((hi.ret_iff i).1 x) h2
    exact ⟨_, by simp only [World.step, World.leave, hc]; rfl, rfl⟩

/-- **C88** (negation): when `accept` fails once, as when the process has no descriptor left or the client is gone again, the process ends in undefined behaviour, in
whatever state and whatever was to come. -/
theorem C88_negation_fails (ops later : List Op) (w : World) (h : World.new.run ops = .ok w) (g : Got) (hg : g ≠ .socket) (t : Bool) :
    World.new.run (ops ++ .accept g t :: later) = .undef := by
  rw [run_append, h]
  cases g with
  | socket => exact absurd rfl hg
  | noFd => rfl
  | noName => rfl

-- Three connections, the second without a coroutine.
example : World.new.run [.accept .socket true, .accept .socket false, .enter 0, .accept .socket true, .leave 0, .enter 2] =
    .ok ⟨[some .returned, none, some .running], [2], [0, 2], [1, 0]⟩ := by decide +kernel
example : Accepts [.accept .socket true, .accept .socket false, .enter 0, .accept .socket true, .leave 0, .enter 2] := by
  intro g t h; simp at h; rcases h with h | h | h <;> exact h.1

end Sps.Accept
