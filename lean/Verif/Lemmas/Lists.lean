/-! # List induction from the end -/
namespace Sps

/-- Induction on a list from its end. -/
theorem snocRec {α : Type} {motive : List α → Prop} (nil : motive [])
    (append_singleton : ∀ l a, motive l → motive (l ++ [a])) (l : List α) : motive l := by
  have key : ∀ r : List α, motive r.reverse := by
    intro r
    induction r with
    | nil => exact nil
    | cons a r ih => rw [List.reverse_cons]; exact append_singleton _ _ ih
  have := key l.reverse
  rwa [List.reverse_reverse] at this

end Sps
