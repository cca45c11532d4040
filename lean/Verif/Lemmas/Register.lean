import Verif.Spec.Register
/-! # Lemmas: registers -/
namespace Sps
open Spec.Register

namespace Registers

theorem mem_reg (r x : Reg) : ∀ xs : List Reg, x ∈ reg r xs → x = r ∨ x ∈ xs
  | [], h => by simpa [reg] using h
  | y :: ys, h => by
    rw [reg] at h
    split at h
    · exact List.mem_cons.1 h
    · split at h
      · exact .inr h
      · rcases List.mem_cons.1 h with rfl | h
        · exact .inr (List.mem_cons_self ..)
        · exact (mem_reg r x ys h).imp id (List.mem_cons_of_mem _)

theorem mem_reg_old (r x : Reg) : ∀ xs : List Reg, x ∈ xs → x ∈ reg r xs
  | y :: ys, h => by
    rw [reg]
    split
    · exact List.mem_cons_of_mem _ h
    · split
      · exact h
      · rcases List.mem_cons.1 h with rfl | h
        · exact List.mem_cons_self ..
        · exact List.mem_cons_of_mem _ (mem_reg_old r x ys h)

theorem mem_reg_new (r : Reg) : ∀ xs : List Reg, (∀ x ∈ xs, x.addr = r.addr → x = r) → r ∈ reg r xs
  | [], _ => by simp [reg]
  | y :: ys, h => by
    rw [reg]
    split
    · exact List.mem_cons_self ..
    · split
      · rename_i he
        rw [h y (List.mem_cons_self ..) he.symm]
        exact List.mem_cons_self ..
      · exact List.mem_cons_of_mem _ (mem_reg_new r ys fun x hx => h x (List.mem_cons_of_mem _ hx))

/-- By address. -/
def Sorted (xs : List Reg) : Prop := xs.Pairwise fun x y => x.addr < y.addr

theorem sorted_reg (r : Reg) : ∀ xs : List Reg, Sorted xs → Sorted (reg r xs)
  | [], _ => by simp [reg, Sorted]
  | y :: ys, h => by
    have h' := List.pairwise_cons.1 h
    rw [reg]
    split
    · rename_i hl
      refine List.pairwise_cons.2 ⟨fun x hx => ?_, h⟩
      rcases List.mem_cons.1 hx with rfl | hx
      · exact hl
      · exact Nat.lt_trans hl (h'.1 x hx)
    · split
      · exact h
      · refine List.pairwise_cons.2 ⟨fun x hx => ?_, sorted_reg r ys h'.2⟩
        rcases mem_reg r x ys hx with rfl | hx
        · omega
        · exact h'.1 x hx

theorem sorted_run : ∀ (ops : List Op) (xs : List Reg), Sorted xs → Sorted (run xs ops)
  | [], _, h => h
  | .reg r :: ops, xs, h => sorted_run ops _ (sorted_reg r xs h)
  | .cancel r :: ops, xs, h => sorted_run ops _ (List.Pairwise.filter _ h)

theorem mem_run : ∀ (ops : List Op) (xs : List Reg), objects (xs.map .reg ++ ops) → ∀ r, r ∈ run xs ops ↔
    (r ∈ xs ∧ ∀ x, .cancel x ∈ ops → x.addr ≠ r.addr) ∨ Registered ops r
  | [], xs, _, r => by
    simp only [run, List.not_mem_nil, false_implies, implies_true, and_true]
    constructor
    · exact .inl
    · rintro (h | ⟨a, b, h, _⟩)
      · exact h
      · simp at h
  | .reg s :: ops, xs, ho, r => by
    have hob : objects ((reg s xs).map .reg ++ ops) := by
      have hm : ∀ x, (Op.reg x ∈ (reg s xs).map Op.reg ++ ops ∨ Op.cancel x ∈ (reg s xs).map Op.reg ++ ops) →
          (Op.reg x ∈ xs.map Op.reg ++ .reg s :: ops ∨ Op.cancel x ∈ xs.map Op.reg ++ .reg s :: ops) := by
        intro x hx
        rcases hx with hx | hx
        · rcases List.mem_append.1 hx with hx | hx
          · obtain ⟨y, hy, he⟩ := List.mem_map.1 hx
            cases he
            rcases mem_reg s _ xs hy with rfl | hy
            · exact .inl (by simp)
            · exact .inl (by simp [hy])
          · exact .inl (by simp [hx])
        · rcases List.mem_append.1 hx with hx | hx
          · simp at hx
          · exact .inr (by simp [hx])
      intro x y hx hy
      exact ho x y (hm x hx) (hm y hy)
    rw [run, mem_run ops _ hob r]
    have hs : ∀ x ∈ xs, x.addr = s.addr → x = s := fun x hx he => ho x s (.inl (by simp [hx])) (.inl (by simp)) he
    constructor
    · rintro (⟨h1, h2⟩ | ⟨a, b, h1, h2⟩)
      · rcases mem_reg s r xs h1 with rfl | h1
        · exact .inr ⟨[], ops, rfl, h2⟩
        · exact .inl ⟨h1, fun x hx => h2 x (by simpa using hx)⟩
      · exact .inr ⟨.reg s :: a, b, by rw [h1]; rfl, h2⟩
    · rintro (⟨h1, h2⟩ | ⟨a, b, h1, h2⟩)
      · exact .inl ⟨mem_reg_old s r xs h1, fun x hx => h2 x (by simp [hx])⟩
      · cases a with
        | nil =>
          simp only [List.nil_append, List.cons.injEq, Op.reg.injEq] at h1
          obtain ⟨rfl, rfl⟩ := h1
          exact .inl ⟨mem_reg_new s xs hs, h2⟩
        | cons o a =>
          simp only [List.cons_append, List.cons.injEq] at h1
          exact .inr ⟨a, b, h1.2, h2⟩
  | .cancel s :: ops, xs, ho, r => by
    have hob : objects ((cancel s xs).map .reg ++ ops) := by
      intro x y hx hy
      have hm : ∀ x, (Op.reg x ∈ (cancel s xs).map Op.reg ++ ops ∨ Op.cancel x ∈ (cancel s xs).map Op.reg ++ ops) →
          (Op.reg x ∈ xs.map Op.reg ++ .cancel s :: ops ∨ Op.cancel x ∈ xs.map Op.reg ++ .cancel s :: ops) := by
        intro x hx
        rcases hx with hx | hx
        · rcases List.mem_append.1 hx with hx | hx
          · obtain ⟨y, hy, he⟩ := List.mem_map.1 hx
            cases he
            exact .inl (by simp [(List.mem_filter.1 hy).1])
          · exact .inl (by simp [hx])
        · rcases List.mem_append.1 hx with hx | hx
          · simp at hx
          · exact .inr (by simp [hx])
      exact ho x y (hm x hx) (hm y hy)
    rw [run, mem_run ops _ hob r]
    constructor
    · rintro (⟨h1, h2⟩ | ⟨a, b, h1, h2⟩)
      · have ⟨h3, h4⟩ := List.mem_filter.1 h1
        refine .inl ⟨h3, fun x hx => ?_⟩
        rcases List.mem_cons.1 hx with hx | hx
        · cases hx
          exact fun he => by simp [he] at h4
        · exact h2 x hx
      · exact .inr ⟨.cancel s :: a, b, by rw [h1]; rfl, h2⟩
    · rintro (⟨h1, h2⟩ | ⟨a, b, h1, h2⟩)
      · refine .inl ⟨List.mem_filter.2 ⟨h1, ?_⟩, fun x hx => h2 x (List.mem_cons_of_mem _ hx)⟩
        have := h2 s (List.mem_cons_self ..)
        simpa using Ne.symm this
      · cases a with
        | nil => simp at h1
        | cons o a =>
          simp only [List.cons_append, List.cons.injEq] at h1
          exact .inr ⟨a, b, h1.2, h2⟩

theorem mem_install (r : Reg) : ∀ (rs xs : List Reg), r ∈ rs.foldl (fun xs r => reg r xs) xs → r ∈ rs ∨ r ∈ xs
  | [], _, h => .inr h
  | s :: rs, xs, h => by
    rcases mem_install r rs _ h with h | h
    · exact .inl (List.mem_cons_of_mem _ h)
    · rcases mem_reg s r xs h with rfl | h
      · exact .inl (List.mem_cons_self ..)
      · exact .inr h

theorem install_mem (r : Reg) : ∀ (rs xs : List Reg), (∀ x ∈ rs ++ xs, ∀ y ∈ rs ++ xs, x.addr = y.addr → x = y) → (r ∈ rs ∨ r ∈ xs) →
    r ∈ rs.foldl (fun xs r => reg r xs) xs
  | [], xs, _, h => by simpa using h
  | s :: rs, xs, hu, h => by
    have hs : s ∈ reg s xs := mem_reg_new s xs fun x hx he => hu x (by simp [hx]) s (by simp) he
    refine install_mem r rs (reg s xs) ?_ ?_
    · have hm : ∀ x, x ∈ rs ++ reg s xs → x ∈ s :: rs ++ xs := by
        intro x hx
        rcases List.mem_append.1 hx with hx | hx
        · simp [hx]
        · rcases mem_reg s x xs hx with rfl | hx
          · simp
          · simp [hx]
      exact fun x hx y hy => hu x (hm x hx) y (hm y hy)
    · rcases h with h | h
      · rcases List.mem_cons.1 h with rfl | h
        · exact .inr hs
        · exact .inl h
      · exact .inr (mem_reg_old s r xs h)

end Registers

namespace Format

theorem matches_iff (ext e junk : Text) (h0 : (0 : UInt8) ∉ ext) (he : (0 : UInt8) ∉ e) : matches' ext e junk = true ↔ ext <+: e := by
  rw [matches', decide_eq_true_eq]
  constructor
  · intro h
    by_cases hl : ext.length ≤ e.length
    · rw [List.take_append_of_le_length hl] at h
      exact h ▸ List.take_prefix _ _
    · exfalso
      apply h0
      rw [← h]
      rw [List.mem_take_iff_getElem]
      refine ⟨e.length, by simp; omega, by simp⟩
  · rintro ⟨t, rfl⟩
    simp

end Format

theorem find_some_iff {α : Type} {p : α → Bool} {xs : List α} (hu : ∀ x ∈ xs, ∀ y ∈ xs, p x = true → p y = true → x = y) (r : α) :
    xs.find? p = some r ↔ r ∈ xs ∧ p r = true := by
  constructor
  · exact fun h => ⟨List.mem_of_find?_eq_some h, List.find?_some h⟩
  · intro ⟨h1, h2⟩
    cases hf : xs.find? p with
    | none => exact absurd h2 (by simpa using List.find?_eq_none.1 hf r h1)
    | some y => rw [hu y (List.mem_of_find?_eq_some hf) r h1 (List.find?_some hf) h2]

end Sps
