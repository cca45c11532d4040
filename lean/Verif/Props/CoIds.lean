import Verif.Spec.CoIds
/-!
# Log lines tell connections apart (C117)
-/
namespace Sps.CoIdsProps
open Spec CoIds

/-- What the program keeps after a history. -/
def Inv (s : CoIds) (h : List CoEv) : Prop := s.next = started h ∧ ∀ t, s.ids.find t = runsOn t h

theorem Inv.getId {s : CoIds} {h : List CoEv} (hi : Inv s h) (t : Option Nat) : s.getId t = match t.bind (fun t => runsOn t h) with | some k => (k : Int) | none => -1 := by
  unfold CoIds.getId
  cases t with
  | none => rfl
  | some t =>
    simp only [Option.bind_some, ← hi.2 t]
    split <;> simp_all

theorem runs : ∀ (es : List CoEv) (s : CoIds) (h : List CoEv), Inv s h →
    ((started h + started es < 2 ^ 31 ∧ ∃ s' l, s.run es = some (s', l) ∧ l = (authors h es).map fun a => match a with | some k => (k : Int) | none => -1) ∨
      (2 ^ 31 ≤ started h + started es ∧ (started h < 2 ^ 31 → s.run es = none))) := by
  intro es
  induction es with
  | nil =>
    intro s h hi
    by_cases hl : started h < 2 ^ 31
    · exact .inl ⟨by simpa [started] using hl, s, [], rfl, rfl⟩
    · exact .inr ⟨by simp [started] at hl ⊢; omega, fun h' => absurd h' hl⟩
  | cons e es ih =>
    intro s h hi
    cases e with
    | enter t =>
      have hc : started (.enter t :: es) = started es + 1 := by simp [started]
      have hh : started (.enter t :: h) = started h + 1 := by simp [started]
      by_cases hn : started h + 1 < 2 ^ 31
      · have hi' : Inv { ids := s.ids.insert t s.next, next := s.next + 1 } (.enter t :: h) := by
          refine ⟨by rw [hh, ← hi.1], fun u => ?_⟩
          simp only [Assoc.find_insert, runsOn, hi.1, hi.2 u, eq_comm (a := u)]
        have hrun : s.run (.enter t :: es) = CoIds.run { ids := s.ids.insert t s.next, next := s.next + 1 } es := by
          simp only [CoIds.run, CoIds.setId, hi.1, if_pos hn, Option.bind_some]
        rcases ih _ _ hi' with ⟨h1, s', l, h2, h3⟩ | ⟨h1, h2⟩
        · exact .inl ⟨by omega, s', l, by rw [hrun, h2], by rw [h3]; rfl⟩
        · exact .inr ⟨by omega, fun _ => by rw [hrun]; exact h2 (by omega)⟩
      · refine .inr ⟨by omega, fun _ => ?_⟩
        simp only [CoIds.run, CoIds.setId, hi.1, if_neg hn, Option.bind_none]
    | leave t =>
      have hc : started (.leave t :: es) = started es := by simp [started]
      have hh : started (.leave t :: h) = started h := by simp [started]
      have hi' : Inv (s.removeId t) (.leave t :: h) := by
        refine ⟨by rw [hh]; exact hi.1, fun u => ?_⟩
        simp only [CoIds.removeId, Assoc.find_erase, runsOn, hi.2 u, eq_comm (a := u)]
      have := ih _ _ hi'
      rw [hh] at this
      rw [hc]
      exact this
    | line t =>
      have hc : started (.line t :: es) = started es := by simp [started]
      have hh : started (.line t :: h) = started h := by simp [started]
      have hi' : Inv s (.line t :: h) := ⟨by rw [hh]; exact hi.1, fun u => by rw [hi.2 u]; rfl⟩
      have := ih _ _ hi'
      rw [hh] at this
      rw [hc]
      rcases this with ⟨h1, s', l, h2, h3⟩ | ⟨h1, h2⟩
      · refine .inl ⟨h1, s', s.getId t :: l, by simp only [CoIds.run, h2, Option.map_some], ?_⟩
        rw [h3, hi.getId t]
        rfl
      · exact .inr ⟨h1, fun hl => by simp only [CoIds.run, h2 hl, Option.map_none]⟩

/-- **C117**, for fewer than 2^31 coroutines. Two lines have the same number if and only if the same coroutine wrote them, or none (main program, a thread whose handler has
returned): a connection is told apart from all that run with it and all before and after it, also those on the same thread. Lines that no coroutine wrote have -1, others a number that is not negative.

Missing: 2^31 coroutines and more, where the counter overflows (undefined behaviour). -/
theorem C117_numbers_partial (es : List CoEv) (hn : started es < 2 ^ 31) : ∃ s l, CoIds.run {} es = some (s, l) ∧ l.length = (authors [] es).length ∧
    ∀ (i j : Nat) (a b : Option Nat) (x y : Int), (authors [] es)[i]? = some a → (authors [] es)[j]? = some b → l[i]? = some x → l[j]? = some y →
      (x = y ↔ a = b) ∧ (x = -1 ↔ a = none) ∧ -1 ≤ x := by
  rcases runs es {} [] ⟨rfl, fun t => rfl⟩ with ⟨-, s, l, h1, h2⟩ | ⟨h1, -⟩
  · refine ⟨s, l, h1, by rw [h2, List.length_map], ?_⟩
    intro i j a b x y ha hb hx hy
    rw [h2, List.getElem?_map, ha, Option.map_some, Option.some.injEq] at hx
    rw [h2, List.getElem?_map, hb, Option.map_some, Option.some.injEq] at hy
    subst hx hy
    cases a <;> cases b <;> simp <;> omega
  · have : started ([] : List CoEv) = 0 := rfl
    omega

/-- **C117**, after 2^31 coroutines the number overflows: undefined behaviour. -/
theorem C117_negation_overflow (es : List CoEv) (hn : 2 ^ 31 ≤ started es) : CoIds.run {} es = none := by
  rcases runs es {} [] ⟨rfl, fun t => rfl⟩ with ⟨h1, -⟩ | ⟨-, h2⟩
  · have : started ([] : List CoEv) = 0 := rfl
    omega
  · exact h2 (by decide)

/-- Two connections at once; the first thread is used again; lines outside. -/
def sample : List CoEv := [.line none, .enter 7, .line (some 7), .enter 9, .line (some 9), .line (some 7), .leave 7, .line (some 7), .enter 7, .line (some 7), .line (some 9)]

example : started sample = 3 ∧ authors [] sample = [none, some 0, some 1, some 0, none, some 2, some 1] ∧ (CoIds.run {} sample).map (·.2) = some [-1, 0, 1, 0, -1, 2, 1] := by
  decide +kernel

/-- There are executions with any number of coroutines: one thread, one connection after the other. -/
example (N : Nat) : ∃ es, N ≤ started es := by
  have h : ∀ n, started (List.replicate n [CoEv.enter 1, CoEv.leave 1]).flatten = n := by
    intro n
    induction n with
    | zero => rfl
    | succ n ih => rw [List.replicate_succ, List.flatten_cons]; simpa [started] using ih
  exact ⟨(List.replicate N [.enter 1, .leave 1]).flatten, Nat.le_of_eq (h _).symm⟩

end Sps.CoIdsProps
