/-! # `std::map` / `std::set` as association lists -/
namespace Sps

/-- A `std::map<K, V>`. -/
abbrev Assoc (K V : Type) := List (K × V)

namespace Assoc
variable {K V : Type} [DecidableEq K]

/-- `map.find(k)` -/
def find (m : Assoc K V) (k : K) : Option V := (List.find? (fun p => p.1 == k) m).map (·.2)
/-- `map.erase(k)` -/
def erase (m : Assoc K V) (k : K) : Assoc K V := List.filter (fun p => p.1 != k) m
/-- `map[k] = v` -/
def insert (m : Assoc K V) (k : K) (v : V) : Assoc K V := (k, v) :: m.erase k

theorem find_erase (m : Assoc K V) (k k' : K) : (m.erase k).find k' = if k' = k then none else m.find k' := by
  unfold find erase
  rw [List.find?_filter]
  split
  · rename_i h
    subst h
    rw [Option.map_eq_none_iff, List.find?_eq_none]
    simp
  · rename_i h
    congr 1
    congr 1
    funext p
    by_cases hp : p.1 = k'
    · simp [hp, h]
    · simp [hp]

theorem find_insert (m : Assoc K V) (k k' : K) (v : V) :
    (m.insert k v).find k' = if k' = k then some v else m.find k' := by
  unfold insert
  by_cases h : k' = k
  · simp [find, h]
  · have := find_erase m k k'
    rw [if_neg h] at this
    rw [if_neg h, ← this]
    have hk : (k == k') = false := by simpa using Ne.symm h
    simp [find, hk]

theorem find_nil (k : K) : (Assoc.find ([] : Assoc K V) k) = none := rfl

end Assoc
end Sps
