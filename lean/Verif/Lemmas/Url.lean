import Verif.Lemmas.HttpBody
/-! Lemmas about queries, headers and decimal numbers. -/
namespace Sps
open Spec Spec.Http

namespace Text

theorem cut_at (c : UInt8) : ∀ (a r : Text), c ∉ a → cut c (a ++ c :: r) = some (a, r)
  | [], r, _ => by simp [cut]
  | b :: a, r, h => by
    have hb : b ≠ c := fun hh => h (by simp [hh])
    rw [List.cons_append, cut, if_neg hb, cut_at c a r (fun hh => h (List.mem_cons_of_mem _ hh))]
    rfl

theorem cut_none (c : UInt8) : ∀ (a : Text), c ∉ a → cut c a = none
  | [], _ => rfl
  | b :: a, h => by
    have hb : b ≠ c := fun hh => h (by simp [hh])
    rw [cut, if_neg hb, cut_none c a (fun hh => h (List.mem_cons_of_mem _ hh))]
    rfl

theorem afterLast_none (c : UInt8) : ∀ (a : Text), c ∉ a → afterLast c a = none
  | [], _ => rfl
  | b :: a, h => by
    have hb : b ≠ c := fun hh => h (by simp [hh])
    rw [afterLast, afterLast_none c a (fun hh => h (List.mem_cons_of_mem _ hh))]
    simp [hb]

theorem afterLast_at (c : UInt8) : ∀ (a r : Text), c ∉ r → afterLast c (a ++ c :: r) = some r
  | [], r, h => by rw [List.nil_append, afterLast, afterLast_none c r h]; simp
  | b :: a, r, h => by rw [List.cons_append, afterLast, afterLast_at c a r h]

theorem digitVal_dec (b : UInt8) : digitVal 10 b = decDigit b := by
  have t : ∀ n : Fin 256, digitVal 10 (UInt8.ofNat n.val) = decDigit (UInt8.ofNat n.val) := by decide +kernel
  have := t ⟨b.toNat, b.toNat_lt⟩
  simpa using this

theorem decDigit_front (b : UInt8) (h : (decDigit b).isSome) : isSpace b = false ∧ b ≠ 45 ∧ b ≠ 43 := by
  have t : ∀ n : Fin 256, (decDigit (UInt8.ofNat n.val)).isSome → isSpace (UInt8.ofNat n.val) = false ∧ UInt8.ofNat n.val ≠ 45 ∧
      UInt8.ofNat n.val ≠ 43 := by decide +kernel
  have := t ⟨b.toNat, b.toNat_lt⟩
  simp only [UInt8.ofNat_toNat] at this
  exact this h

theorem number_dec : ∀ (ds : List UInt8) (acc n : Nat), decValue acc ds = some n → number 10 acc ds = n
  | [], acc, n, h => by unfold decValue at h; cases h; rfl
  | d :: ds, acc, n, h => by
    unfold decValue at h
    cases hd : decDigit d with
    | none => rw [hd] at h; cases h
    | some v =>
      rw [hd] at h
      rw [number, digitVal_dec, hd]
      simp only
      rw [Nat.mul_comm acc 10]
      exact number_dec ds _ n h

theorem atoi_dec {s : Text} {n : Nat} (hs : s ≠ []) (h : decValue 0 s = some n) (hn : n < 2 ^ 31) : atoi s = n := by
  obtain ⟨b, r, rfl⟩ : ∃ b r, s = b :: r := by
    cases s with
    | nil => exact absurd rfl hs
    | cons b r => exact ⟨b, r, rfl⟩
  have hb : (decDigit b).isSome := by
    unfold decValue at h
    cases hd : decDigit b with
    | none => rw [hd] at h; cases h
    | some v => rfl
  have hb := decDigit_front b hb
  have hsg : signed (b :: r) = (false, b :: r) := by
    unfold signed
    rw [List.dropWhile_cons_of_neg (by rw [hb.1]; decide)]
    split
    · rename_i heq; cases heq; exact absurd rfl hb.2.1
    · rename_i heq; cases heq; exact absurd rfl hb.2.2
    · rfl
  unfold atoi
  rw [hsg]
  simp only
  rw [if_neg (by decide), number_dec _ 0 n h, if_neg (by omega)]
  unfold i32
  omega

end Text

namespace Url

theorem query_render : ∀ (ps : List Header) (fuel : Nat), (∀ p ∈ ps, (61 : UInt8) ∉ p.1 ∧ (38 : UInt8) ∉ p.2) → (renderQuery ps).length < fuel →
    query fuel (renderQuery ps) = ps
  | [], fuel + 1, _, _ => rfl
  | [(k, v)], fuel + 1, h, _ => by
    have hk := h (k, v) (by simp)
    unfold query
    have : renderQuery [(k, v)] = k ++ 61 :: v := by simp [renderQuery, show ascii "=" = [61] from by decide +kernel]
    rw [this, Text.cut_at _ _ _ hk.1]
    simp only
    rw [Text.cut_none _ _ hk.2]
  | (k, v) :: p :: ps, fuel + 1, h, hf => by
    have hk := h (k, v) (by simp)
    have e : renderQuery ((k, v) :: p :: ps) = k ++ 61 :: (v ++ 38 :: renderQuery (p :: ps)) := by
      simp [renderQuery, show ascii "=" = [61] from by decide +kernel, show ascii "&" = [38] from by decide +kernel]
    unfold query
    rw [e, Text.cut_at _ _ _ hk.1]
    simp only
    rw [Text.cut_at _ _ _ hk.2]
    simp only
    rw [query_render (p :: ps) fuel (fun x hx => h x (List.mem_cons_of_mem _ hx)) (by rw [e] at hf; simp at hf; omega)]

theorem lookup_first (k v : Text) (c : List Header) : ∀ a : List Header, (∀ h ∈ a, h.1 ≠ k) → lookup k (a ++ (k, v) :: c) = v
  | [], _ => by simp [lookup]
  | h :: a, ha => by rw [List.cons_append, lookup, if_neg (ha h (by simp)), lookup_first k v c a fun x hx => ha x (List.mem_cons_of_mem _ hx)]

theorem lookup_none (k : Text) : ∀ a : List Header, (∀ h ∈ a, h.1 ≠ k) → lookup k a = []
  | [], _ => rfl
  | h :: a, ha => by rw [lookup, if_neg (ha h (by simp)), lookup_none k a fun x hx => ha x (List.mem_cons_of_mem _ hx)]

theorem erase_first (k v : Text) (c : List Header) : ∀ a : List Header, (∀ h ∈ a, h.1 ≠ k) → erase k (a ++ (k, v) :: c) = a ++ c
  | [], _ => by simp [erase]
  | h :: a, ha => by rw [List.cons_append, erase, if_neg (ha h (by simp)), erase_first k v c a fun x hx => ha x (List.mem_cons_of_mem _ hx)]; rfl

theorem erase_none (k : Text) : ∀ a : List Header, (∀ h ∈ a, h.1 ≠ k) → erase k a = a
  | [], _ => rfl
  | h :: a, ha => by rw [erase, if_neg (ha h (by simp)), erase_none k a fun x hx => ha x (List.mem_cons_of_mem _ hx)]

end Url
end Sps
