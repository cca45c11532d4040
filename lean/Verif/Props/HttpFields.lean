import Verif.Spec.HttpFields
/-!
# C129: the fields of a header are those that were sent
-/
namespace Sps.HttpFields
open Spec.HttpFields HttpHead

theorem calls_values (key : Text) (vs : List Text) (r : List Call) : calls key (vs.map Call.value ++ r) = vs.map (key, ·) ++ calls key r := by
  induction vs with
  | nil => rfl
  | cons v vs ih => simp only [List.map_cons, List.cons_append, calls, ih]

/-- **C129**, what every header gives, whatever came before it: a field for each line of a value, in order. -/
theorem C129_exact (key : Text) (fs : List Field) :
    calls key (fs.flatMap Field.told) = fs.flatMap fun f => (f.name, f.line) :: f.more.map (f.name, ·) := by
  induction fs generalizing key with
  | nil => rfl
  | cons f fs ih => simp only [List.flatMap_cons, Field.told, List.cons_append, calls, calls_values, ih]

/-- **C129**, for headers without folded lines: the fields are those that were sent, each once and in order, with their names and values, and asking for a
name gives the value of the first field of that name.

Missing: folded lines (`C129_negation_folded`). -/
theorem C129_fields_partial (key : Text) (fs : List Field) (h : ∀ f ∈ fs, f.more = []) :
    calls key (fs.flatMap Field.told) = fs.map (fun f => (f.name, f.value)) ∧
      ∀ (u : Url) (k : Text), u.headers = calls key (fs.flatMap Field.told) → u.getHeader k = find k fs := by
  have e : calls key (fs.flatMap Field.told) = fs.map fun f => (f.name, f.value) := by
    rw [C129_exact]
    clear key
    induction fs with
    | nil => rfl
    | cons f fs ih =>
      have hf := h f (by simp)
      simp only [List.flatMap_cons, List.map_cons, ih fun x hx => h x (by simp [hx]), hf, List.map_nil, List.cons_append, List.nil_append,
        Field.value, List.flatMap_nil, List.append_nil]
  refine ⟨e, fun u k hu => ?_⟩
  unfold Url.getHeader
  rw [hu, e]
  clear hu e h key
  induction fs with
  | nil => rfl
  | cons f fs ih =>
    simp only [List.map_cons, Url.lookup, find, List.find?_cons]
    by_cases hk : f.name = k
    · simp [hk]
    · simp only [hk, if_false, decide_false]
      exact ih

theorem lookup_skip (k : Text) (l r : List Header) (h : ∀ x ∈ l, x.1 ≠ k) : Url.lookup k (l ++ r) = Url.lookup k r := by
  induction l with
  | nil => rfl
  | cons x l ih =>
    simp only [List.cons_append, Url.lookup]
    rw [if_neg (h x (by simp)), ih fun y hy => h y (by simp [hy])]

/-- **C129** is false of folded lines, of every one: asking for the name of the field gives the first line of its value, which is not the value. -/
theorem C129_negation_folded (key : Text) (before after : List Field) (f : Field) (hf : f.more ≠ []) (hb : ∀ g ∈ before, g.name ≠ f.name)
    (u : Url) (hu : u.headers = calls key ((before ++ f :: after).flatMap Field.told)) :
    u.getHeader f.name = f.line ∧ find f.name (before ++ f :: after) = f.value ∧ f.line ≠ f.value := by
  refine ⟨?_, ?_, ?_⟩
  · unfold Url.getHeader
    rw [hu, C129_exact, List.flatMap_append, lookup_skip, List.flatMap_cons]
    · simp only [List.cons_append, Url.lookup, if_true]
    · intro x hx
      simp only [List.mem_flatMap, List.mem_cons, List.mem_map] at hx
      obtain ⟨g, hg, rfl | ⟨v, _, rfl⟩⟩ := hx
      · exact hb g hg
      · exact hb g hg
  · have : before.find? (fun g => decide (g.name = f.name)) = none := by
      rw [List.find?_eq_none]
      intro g hg
      simpa using hb g hg
    simp only [find, List.find?_append, this, List.find?_cons, decide_true, Option.none_or, Option.map_some, Option.getD_some]
  · intro h
    have hl := congrArg List.length h
    obtain ⟨v, vs, hv⟩ := List.exists_cons_of_ne_nil hf
    simp only [Field.value, hv, List.flatMap_cons, List.length_append, List.length_cons] at hl
    omega

def sent : List Field := [⟨ascii "Host", ascii "a.b", []⟩, ⟨ascii "X-A", ascii "1", []⟩, ⟨ascii "X-A", ascii "2", []⟩, ⟨ascii "X-B", [], []⟩]
def folded : Field := ⟨ascii "X-C", ascii "one", [ascii "two", ascii "three"]⟩

example : calls (ascii "stale") (sent.flatMap Field.told) = [(ascii "Host", ascii "a.b"), (ascii "X-A", ascii "1"), (ascii "X-A", ascii "2"), (ascii "X-B", [])] ∧
    find (ascii "X-A") sent = ascii "1" ∧ find (ascii "none") sent = [] := by decide +kernel

example : ∀ f ∈ sent, f.more = [] := by decide +kernel

example : (folded.more ≠ []) ∧ (∀ g ∈ sent, g.name ≠ folded.name) ∧ folded.value = ascii "one two three" ∧
    Url.lookup (ascii "X-C") (calls [] ((sent ++ [folded]).flatMap Field.told)) = ascii "one" := by decide +kernel

end Sps.HttpFields
