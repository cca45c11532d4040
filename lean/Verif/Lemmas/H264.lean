import Verif.Model.H264
import Verif.Spec.H264
import Verif.Lemmas.Aligned
/-! Lemmas about the H.264 parser. -/
namespace Sps
open Spec Spec.H264 BitCtx

namespace Nal

/-- A unit with the header fields of its first byte. -/
def of (u : List UInt8) : Nal := { refIdc := (u.headD 0).toNat / 32 % 4, type := (u.headD 0).toNat % 32, data := u }

theorem header_table : ∀ b : Fin 256, ((header.run (BitCtx.init [UInt8.ofNat b.val])).map (·.1)) =
    some (b.val / 128, b.val / 32 % 4, b.val % 32) := by decide +kernel

theorem parse_cons (b : UInt8) (t : List UInt8) : parse (b :: t) =
    if b.toNat < 128 then some (Err.SUCCESS, some (of (b :: t))) else some (Err.ERROR_H264_DECODER, none) := by
  have h := header_table ⟨b.toNat, b.toNat_lt⟩
  simp only [UInt8.ofNat_toNat] at h
  obtain ⟨⟨x, c⟩, e, hx⟩ := Option.map_eq_some_iff.1 h
  subst hx
  have hb := b.toNat_lt
  simp only [parse, List.length_cons, List.take_succ_cons, List.take_zero, e, Option.map_some]
  rw [if_neg (by omega)]
  by_cases hl : b.toNat < 128
  · rw [if_pos hl, if_neg (by simp <;> omega)]; rfl
  · rw [if_neg hl, if_pos (by omega)]

theorem parse_ok {u : List UInt8} (h : unitOk u) : parse u = some (Err.SUCCESS, some (of u)) := by
  obtain ⟨h1, h2, _⟩ := h
  cases u with
  | nil => exact absurd rfl h1
  | cons b t => rw [parse_cons, if_pos (h2 b (by simp))]

theorem parse_total (u : List UInt8) : ∃ r, parse u = some r := by
  cases u with
  | nil => exact ⟨_, rfl⟩
  | cons b t => rw [parse_cons]; split <;> exact ⟨_, rfl⟩

theorem parse_data {u : List UInt8} {e : Err} {n : Nal} (h : parse u = some (e, some n)) : n = of u ∧ u ≠ [] := by
  cases u with
  | nil => simp [parse] at h
  | cons b t =>
    rw [parse_cons] at h
    split at h
    · simp at h; exact ⟨h.2.symm, by simp⟩
    · simp at h

theorem of_type {u : List UInt8} (h : u ≠ []) : (of u).type = unitType u := by
  cases u with
  | nil => exact absurd rfl h
  | cons b t => rfl

end Nal

/-! ### Start codes -/

theorem find_cons3 (a b c : UInt8) (r : List UInt8) (h : r ≠ []) : findStartCode (a :: b :: c :: r) (a :: b :: c :: r).length =
    if a = 0 ∧ b = 0 ∧ c = 1 then some (some 0)
    else (findStartCode (b :: c :: r) (b :: c :: r).length).map fun x => x.map (· + 1) := by
  have : 0 < r.length := List.length_pos_iff.2 h
  simp only [List.length_cons]
  rw [findStartCode, if_pos (by omega)]
  rfl

theorem infix_cons {l r : List UInt8} {a : UInt8} (h : ¬ l <:+: a :: r) : ¬ l <:+: r := fun ⟨s, t, e⟩ => h ⟨a :: s, t, by simp [← e]⟩

/-- No start code: nothing is found. -/
theorem find_none : ∀ u : List UInt8, ¬ [0, 0, 1] <:+: u → findStartCode u u.length = some none
  | [], _ => rfl
  | [a], _ => rfl
  | [a, b], _ => rfl
  | [a, b, c], _ => rfl
  | a :: b :: c :: d :: r, h => by
    rw [find_cons3 _ _ _ _ (by simp), if_neg, find_none _ (infix_cons h)]
    · rfl
    · rintro ⟨rfl, rfl, rfl⟩
      exact h ⟨[], d :: r, by simp⟩

theorem find_zeros (v : List UInt8) (hv : v ≠ []) : ∀ z : Nat,
    findStartCode (List.replicate z 0 ++ 0 :: 0 :: 1 :: v) (List.replicate z 0 ++ 0 :: 0 :: 1 :: v).length = some (some z)
  | 0 => by
    rw [List.replicate_zero, List.nil_append, find_cons3 _ _ _ _ hv]; simp
  | z + 1 => by
    have e : List.replicate (z + 1) (0 : UInt8) ++ 0 :: 0 :: 1 :: v = 0 :: (List.replicate z 0 ++ 0 :: 0 :: 1 :: v) := by
      simp [List.replicate_succ]
    have ih := find_zeros v hv z
    rw [e]
    match z, ih with
    | 0, ih =>
      simp only [List.replicate_zero, List.nil_append] at ih ⊢
      rw [find_cons3 _ _ _ _ (by simp), if_neg (by decide), ih]; rfl
    | 1, ih =>
      simp only [List.replicate_succ, List.replicate_zero, List.nil_append, List.cons_append] at ih ⊢
      rw [find_cons3 _ _ _ _ (by simp), if_neg (by decide), ih]; rfl
    | z + 2, ih =>
      simp only [List.replicate_succ, List.cons_append] at ih ⊢
      rw [find_cons3 _ _ _ _ (by simp), if_neg (by decide), ih]; rfl

/-- The first start code after a unit without one is the one that follows it. -/
theorem find_unit (z : Nat) (v : List UInt8) (hv : v ≠ []) : ∀ u : List UInt8, ¬ [0, 0, 1] <:+: u →
    findStartCode (u ++ (List.replicate z 0 ++ 0 :: 0 :: 1 :: v)) (u ++ (List.replicate z 0 ++ 0 :: 0 :: 1 :: v)).length =
      some (some (u.length + z))
  | [], _ => by simpa using find_zeros v hv z
  | [a], h => by
    have ih := find_unit z v hv [] (by simp)
    rw [List.nil_append] at ih
    rw [List.cons_append, List.nil_append]
    match z, ih with
    | 0, ih =>
      simp only [List.replicate_zero, List.nil_append] at ih ⊢
      rw [find_cons3 _ _ _ _ (by simp), if_neg (by simp), ih]; simp
    | z + 1, ih =>
      have e : ∃ r, List.replicate (z + 1) (0 : UInt8) ++ 0 :: 0 :: 1 :: v = 0 :: 0 :: r ∧ r ≠ [] := by
        cases z with
        | zero => exact ⟨0 :: 1 :: v, by simp, by simp⟩
        | succ z => exact ⟨_, by simp [List.replicate_succ]; rfl, by simp⟩
      obtain ⟨r, e, hr⟩ := e
      rw [e] at ih ⊢
      rw [find_cons3 _ _ _ _ hr, if_neg (by simp), ih]; simp; omega
  | [a, b], h => by
    have ih := find_unit z v hv [b] (infix_cons h)
    rw [List.cons_append, List.nil_append] at ih
    rw [List.cons_append, List.cons_append, List.nil_append]
    have e : ∃ r, List.replicate z (0 : UInt8) ++ 0 :: 0 :: 1 :: v = 0 :: r ∧ r ≠ [] := by
      cases z with
      | zero => exact ⟨0 :: 1 :: v, by simp, by simp⟩
      | succ z => exact ⟨_, by simp [List.replicate_succ]; rfl, by simp⟩
    obtain ⟨r, e, hr⟩ := e
    rw [e] at ih ⊢
    rw [find_cons3 _ _ _ _ hr, if_neg (by simp), ih]; simp; omega
  | a :: b :: c :: r, h => by
    have ih := find_unit z v hv (b :: c :: r) (infix_cons h)
    rw [List.cons_append, List.cons_append] at ih
    rw [List.cons_append, List.cons_append, List.cons_append, find_cons3 _ _ _ _ (by simp), if_neg, ih]
    · simp; omega
    · rintro ⟨rfl, rfl, rfl⟩
      exact h ⟨[], r, by simp⟩

/-- What is found is a start code with a byte behind it, and nothing outside the memory is looked at. -/
theorem find_spec : ∀ u : List UInt8, findStartCode u u.length = some none ∨
    ∃ i v, findStartCode u u.length = some (some i) ∧ u.drop i = 0 :: 0 :: 1 :: v ∧ v ≠ []
  | [] => Or.inl rfl
  | [_] => Or.inl rfl
  | [_, _] => Or.inl rfl
  | [_, _, _] => Or.inl rfl
  | a :: b :: c :: d :: r => by
    rw [find_cons3 _ _ _ _ (by simp)]
    by_cases h : a = 0 ∧ b = 0 ∧ c = 1
    · obtain ⟨rfl, rfl, rfl⟩ := h
      exact Or.inr ⟨0, d :: r, by simp, rfl, by simp⟩
    · rw [if_neg h]
      rcases find_spec (b :: c :: d :: r) with e | ⟨i, v, e, hd, hv⟩
      · rw [e]; exact Or.inl rfl
      · rw [e]; exact Or.inr ⟨i + 1, v, rfl, by simpa using hd, hv⟩

namespace NaluParser

theorem slice_eq {c : BitCtx} {r : List UInt8} (h : Al c r) (n : Nat) (hn : n ≤ r.length) : slice c n = some (r.take n) := by
  have := h.length; have := h.pos_le
  unfold slice
  rw [if_pos ⟨h.rem, by omega⟩, h.rest]

theorem sub64_eq (a b : Nat) (h : b ≤ a) (h2 : a < 2 ^ 64) : sub64 a b = a - b := by unfold sub64; omega

theorem no_code_shift {u : List UInt8} (h : ¬ [0, 0, 1] <:+: u) : ¬ [0, 0, 1] <:+: (0 :: 1 :: u : List UInt8) := by
  rintro ⟨s, t, e⟩
  match s, e with
  | [], e => simp at e
  | [_], e => simp at e
  | _ :: _ :: s, e =>
    simp only [List.cons_append, List.append_assoc, List.cons.injEq] at e
    exact h ⟨s, t, by simpa using e.2.2⟩

/-- In Annex B mode the next unit ends before the next start code. -/
theorem nextSize_more (p : NaluParser) (hp : p.isAvc = false) {c : BitCtx} (z y : Nat) (u v : List UInt8)
    (hu : ¬ [0, 0, 1] <:+: u) (hv : v ≠ [])
    (h : Al c (List.replicate z 0 ++ 0 :: 0 :: 1 :: (u ++ (List.replicate y 0 ++ 0 :: 0 :: 1 :: v)))) :
    ∃ c', nextSize p c = some (Except.ok (u.length + y, c')) ∧ Al c' (u ++ (List.replicate y 0 ++ 0 :: 0 :: 1 :: v)) := by
  have hs := h.small; have hl := h.length; have hpos := h.pos_le
  obtain ⟨c', e, a, _⟩ := h.skip (z + 3) (by simp <;> omega)
  have ed : (List.replicate z (0 : UInt8) ++ 0 :: 0 :: 1 :: (u ++ (List.replicate y 0 ++ 0 :: 0 :: 1 :: v))).drop (z + 3) =
      u ++ (List.replicate y 0 ++ 0 :: 0 :: 1 :: v) := by
    rw [show z + 3 = (List.replicate z (0 : UInt8)).length + 3 by simp, ← List.drop_drop, List.drop_left]; rfl
  have ed1 : (List.replicate z (0 : UInt8) ++ 0 :: 0 :: 1 :: (u ++ (List.replicate y 0 ++ 0 :: 0 :: 1 :: v))).drop (z + 1) =
      (0 :: 1 :: u) ++ (List.replicate y 0 ++ 0 :: 0 :: 1 :: v) := by
    rw [show z + 1 = (List.replicate z (0 : UInt8)).length + 1 by simp, ← List.drop_drop, List.drop_left]; rfl
  rw [ed] at a
  refine ⟨c', ?_, a⟩
  unfold nextSize
  rw [if_neg (by simp [hp])]
  dsimp only
  rw [h.rest, h.size, find_zeros _ (by simp)]
  simp only [Option.bind_some]
  rw [ed1]
  have el : sub64 (sub64
      (List.replicate z (0 : UInt8) ++ 0 :: 0 :: 1 :: (u ++ (List.replicate y 0 ++ 0 :: 0 :: 1 :: v))).length z) 1 =
      ((0 :: 1 :: u) ++ (List.replicate y 0 ++ 0 :: 0 :: 1 :: v)).length := by
    rw [hl]
    rw [sub64_eq _ z (by rw [← hl]; simp <;> omega) (by omega), sub64_eq _ 1 (by rw [← hl]; simp <;> omega) (by omega), ← hl]
    simp <;> omega
  rw [el, find_unit y v hv _ (no_code_shift hu)]
  simp only [Option.bind_some]
  rw [if_pos (by simp at hl; omega), e]
  simp only [Option.map_some, List.length_cons, unitSize]
  rw [sub64_eq _ 3 (by omega) (by simp at hl; omega)]
  congr 3; omega

/-- The last unit ends with the buffer. -/
theorem nextSize_last (p : NaluParser) (hp : p.isAvc = false) {c : BitCtx} (z : Nat) (u : List UInt8) (hne : u ≠ [])
    (hu : ¬ [0, 0, 1] <:+: u) (h : Al c (List.replicate z 0 ++ 0 :: 0 :: 1 :: u)) :
    ∃ c', nextSize p c = some (Except.ok (u.length, c')) ∧ Al c' u := by
  have hs := h.small; have hl := h.length; have hpos := h.pos_le
  obtain ⟨c', e, a, _⟩ := h.skip (z + 3) (by simp)
  have ed : (List.replicate z (0 : UInt8) ++ 0 :: 0 :: 1 :: u).drop (z + 3) = u := by
    rw [show z + 3 = (List.replicate z (0 : UInt8)).length + 3 by simp, ← List.drop_drop, List.drop_left]; rfl
  have ed1 : (List.replicate z (0 : UInt8) ++ 0 :: 0 :: 1 :: u).drop (z + 1) = 0 :: 1 :: u := by
    rw [show z + 1 = (List.replicate z (0 : UInt8)).length + 1 by simp, ← List.drop_drop, List.drop_left]; rfl
  rw [ed] at a
  refine ⟨c', ?_, a⟩
  unfold nextSize
  rw [if_neg (by simp [hp])]
  dsimp only
  rw [h.rest, h.size, find_zeros _ hne]
  simp only [Option.bind_some]
  rw [ed1]
  have el0 : sub64 (List.replicate z (0 : UInt8) ++ 0 :: 0 :: 1 :: u).length z = u.length + 3 := by
    rw [hl, sub64_eq _ z (by rw [← hl]; simp <;> omega) (by omega), ← hl]; simp
  have el : sub64 (u.length + 3) 1 = (0 :: 1 :: u).length := by
    rw [sub64_eq _ 1 (by omega) (by simp at hl; omega)]; simp
  rw [el0, el, find_none _ (no_code_shift hu)]
  simp only [Option.bind_some]
  rw [if_pos (by simp at hl; omega), e]
  simp only [Option.map_some, unitSize]
  rw [el0, sub64_eq _ 3 (by omega) (by simp at hl; omega)]
  congr 3

theorem annexB_cons (z : Nat) (u : List UInt8) (us : List (Nat × List UInt8)) :
    annexB ((z, u) :: us) = List.replicate z 0 ++ 0 :: 0 :: 1 :: (u ++ annexB us) := by simp [annexB]

theorem infix_zeros {u : List UInt8} (y : Nat) (h : ¬ [0, 0, 1] <:+: u) : ¬ [0, 0, 1] <:+: u ++ List.replicate y (0 : UInt8) := by
  intro hc
  have hr : ([0, 0, 1] : List UInt8).reverse <:+: (u ++ List.replicate y (0 : UInt8)).reverse := List.reverse_infix.2 hc
  rw [List.reverse_append, List.reverse_replicate] at hr
  apply h
  rw [← List.reverse_infix]
  clear hc h
  induction y with
  | zero => simpa using hr
  | succ y ih =>
    apply ih
    obtain ⟨s, t, e⟩ := hr
    rw [List.replicate_succ, List.cons_append] at e
    cases s with
    | nil => simp at e
    | cons a s => simp at e; exact ⟨s, t, by simpa using e.2⟩

theorem unitOk_zeros {u : List UInt8} (y : Nat) (h : unitOk u) : unitOk (u ++ List.replicate y 0) := by
  obtain ⟨a, b, c⟩ := h
  refine ⟨by simp [a], ?_, infix_zeros y c⟩
  cases u with
  | nil => exact absurd rfl a
  | cons x t => simpa using b

/-- The loop of `decode_data` on an Annex B stream. -/
theorem dataLoop_annexB (p : NaluParser) (hp : p.isAvc = false) : ∀ (us : List (Nat × List UInt8)) (z : Nat) (u : List UInt8)
    (fuel : Nat) (c : BitCtx) (out : List Nal), Al c (annexB ((z, u) :: us)) → (annexB ((z, u) :: us)).length < fuel →
    (∀ x ∈ (z, u) :: us, unitOk x.2) →
    dataLoop p fuel c out = some (Err.SUCCESS, out ++ (withZeros ((z, u) :: us)).map Nal.of)
  | [], z, u, fuel + 1, c, out, h, hf, hok => by
    have hu := hok (z, u) (by simp)
    rw [annexB_cons] at h hf
    simp only [annexB, List.flatMap_nil, List.append_nil] at h hf
    have hs := h.small; have hl := h.length
    have hne : 0 < u.length := List.length_pos_iff.2 hu.nonempty
    obtain ⟨c1, e1, a1⟩ := nextSize_last p hp z u hu.nonempty hu.code h
    obtain ⟨c2, e2, a2, _⟩ := a1.skip u.length (Nat.le_refl _)
    rw [dataLoop, if_neg (by rw [h.acquire 4 (by omega) (by simp <;> omega)]; simp), e1]
    simp only [Option.bind_some]
    rw [if_neg (by rw [a1.acquire _ (by simp at hl; omega) (Nat.le_refl _)]; simp), slice_eq a1 _ (Nat.le_refl _)]
    simp only [Option.bind_some, List.take_length, Nal.parse_ok hu, e2]
    rw [List.drop_length] at a2
    obtain ⟨fuel, rfl⟩ : ∃ f, fuel = f + 1 := ⟨fuel - 1, by simp at hf; omega⟩
    rw [dataLoop, if_pos (by rw [a2.acquire_fail 4 (by omega) (by simp)]; simp)]
    rfl
  | (y, v) :: us, z, u, fuel + 1, c, out, h, hf, hok => by
    have hu := hok (z, u) (by simp)
    have hv := hok (y, v) (by simp)
    have hvne : 0 < v.length := List.length_pos_iff.2 hv.nonempty
    rw [annexB_cons, annexB_cons] at h hf
    have hs := h.small; have hl := h.length
    obtain ⟨c1, e1, a1⟩ := nextSize_more p hp z y u (v ++ annexB us) hu.code (by simp [hv.nonempty]) h
    obtain ⟨c2, e2, a2, _⟩ := a1.skip (u.length + y) (by simp <;> omega)
    have ed : (u ++ (List.replicate y 0 ++ 0 :: 0 :: 1 :: (v ++ annexB us))).drop (u.length + y) = annexB ((0, v) :: us) := by
      rw [annexB_cons, ← List.append_assoc, show u.length + y = (u ++ List.replicate y (0 : UInt8)).length by simp, List.drop_left]; rfl
    have et : (u ++ (List.replicate y 0 ++ 0 :: 0 :: 1 :: (v ++ annexB us))).take (u.length + y) = u ++ List.replicate y 0 := by
      rw [← List.append_assoc, show u.length + y = (u ++ List.replicate y (0 : UInt8)).length by simp, List.take_left]
    rw [dataLoop, if_neg (by rw [h.acquire 4 (by omega) (by simp <;> omega)]; simp), e1]
    simp only [Option.bind_some]
    rw [if_neg (by rw [a1.acquire _ (by simp at hl; omega) (by simp <;> omega)]; simp), slice_eq a1 _ (by simp <;> omega), et]
    simp only [Option.bind_some, Nal.parse_ok (unitOk_zeros y hu), e2]
    rw [ed] at a2
    have hz : withZeros ((0, v) :: us) = withZeros ((y, v) :: us) := by
      match us with
      | [] => rfl
      | _ :: _ => rfl
    have hf' : (annexB ((0, v) :: us)).length < fuel := by rw [annexB_cons]; simp at hf ⊢; omega
    rw [dataLoop_annexB p hp us 0 v fuel c2 _ a2 hf' (by
      intro x hx
      rcases List.mem_cons.1 hx with rfl | hx
      · exact hv
      · exact hok x (by simp [hx])), hz]
    simp [withZeros]

/-- `decode_data` never leaves the buffer in Annex B mode. -/
theorem dataLoop_safe (p : NaluParser) (hp : p.isAvc = false) : ∀ (fuel : Nat) (c : BitCtx) (r : List UInt8) (out : List Nal),
    Al c r → r.length < fuel → ∃ x, dataLoop p fuel c out = some x
  | 0, _, _, _, _, hf => by omega
  | fuel + 1, c, r, out, h, hf => by
    have hs := h.small; have hl := h.length; have hpos := h.pos_le
    rw [dataLoop]
    by_cases h4 : 4 ≤ r.length
    · rw [if_neg (by rw [h.acquire 4 (by omega) h4]; simp)]
      unfold nextSize
      rw [if_neg (by simp [hp])]
      dsimp only
      rw [h.rest, h.size]
      rcases find_spec r with e | ⟨i, v, e, hd, hv⟩
      · rw [e]; exact ⟨_, rfl⟩
      · rw [e]
        simp only [Option.bind_some]
        have hvl : 0 < v.length := List.length_pos_iff.2 hv
        have hlen : r.length = i + 3 + v.length := by
          have := congrArg List.length hd; simp at this; omega
        have ed1 : r.drop (i + 1) = 0 :: 1 :: v := by rw [← List.drop_drop, hd]; rfl
        have ed3 : r.drop (i + 3) = v := by rw [← List.drop_drop, hd]; rfl
        rw [ed1]
        have el : sub64 (sub64 r.length i) 1 = (0 :: 1 :: v).length := by
          rw [sub64_eq _ i (by omega) (by omega), sub64_eq _ 1 (by omega) (by omega)]; simp; omega
        obtain ⟨c1, e1, a1, _⟩ := h.skip (i + 3) (by omega)
        rw [ed3] at a1
        have key : ∃ n, n ≤ v.length ∧ (findStartCode (0 :: 1 :: v) (0 :: 1 :: v).length).map (unitSize r.length i) = some n := by
          rcases find_spec (0 :: 1 :: v) with e2 | ⟨j, w, e2, hd2, hw⟩
          · rw [e2]
            refine ⟨_, ?_, rfl⟩
            dsimp only [unitSize]
            rw [sub64_eq _ i (by omega) (by omega), sub64_eq _ 3 (by omega) (by omega)]; omega
          · rw [e2]
            refine ⟨_, ?_, rfl⟩
            dsimp only [unitSize]
            have hj : 2 ≤ j := by
              match j, hd2 with
              | 0, hd2 => simp at hd2
              | 1, hd2 => simp at hd2
              | j + 2, _ => omega
            have := congrArg List.length hd2
            simp at this
            rw [sub64_eq _ 3 (by omega) (by omega)]; omega
        obtain ⟨n, hn, ek⟩ := key
        rw [el]
        obtain ⟨e2, hf2, hn2⟩ := Option.map_eq_some_iff.1 ek
        rw [hf2]
        simp only [Option.bind_some]
        rw [if_pos (by omega), e1]
        simp only [Option.map_some, Option.bind_some]
        rw [hn2, if_neg (by rw [a1.acquire n (by omega) hn]; simp), slice_eq a1 n hn]
        simp only [Option.bind_some]
        obtain ⟨q, hq⟩ := Nal.parse_total (v.take n)
        rw [hq]
        simp only [Option.bind_some]
        obtain ⟨qe, qn⟩ := q
        cases qn with
        | none => exact ⟨_, rfl⟩
        | some nal =>
          obtain ⟨c2, e2, a2, _⟩ := a1.skip n hn
          simp only [e2, Option.bind_some]
          exact dataLoop_safe p hp fuel c2 _ _ a2 (by simp <;> omega)
    · rw [if_pos (by rw [h.acquire_fail 4 (by omega) (by omega)]; simp)]; exact ⟨_, rfl⟩

/-- The loop on length-prefixed units with four-byte lengths. -/
theorem dataLoop_prefixed (p : NaluParser) (hp : p.isAvc = true) (hl4 : p.lenSize = 3) : ∀ (us : List (List UInt8)) (fuel : Nat)
    (c : BitCtx) (out : List Nal), Al c (prefixed 4 us) → (prefixed 4 us).length < fuel →
    (∀ u ∈ us, u ≠ [] ∧ ∀ b ∈ u.head?, b.toNat < 128) →
    dataLoop p fuel c out = some (Err.SUCCESS, out ++ us.map Nal.of)
  | [], fuel + 1, c, out, h, hf, hok => by
    rw [dataLoop, if_pos (by rw [h.acquire_fail 4 (by omega) (by simp [prefixed])]; simp)]; simp
  | u :: us, fuel + 1, c, out, h, hf, hok => by
    obtain ⟨hne, hb⟩ := hok u (by simp)
    have hs := h.small; have hl := h.length
    have hpl : 0 < u.length := List.length_pos_iff.2 hne
    have ec : prefixed 4 (u :: us) = beBytes 4 u.length ++ (u ++ prefixed 4 us) := by simp [prefixed]
    rw [ec] at h hl hf
    have hbl := beBytes_len 4 u.length
    simp only [List.length_append, hbl] at hl hf
    obtain ⟨c1, e1, a1, _⟩ := h.read 4 (by omega) (by simp [hbl])
    rw [List.take_left' hbl, List.drop_left' hbl, beVal_beBytes, Nat.mod_eq_of_lt (by omega)] at *
    obtain ⟨c2, e2, a2, _⟩ := a1.skip u.length (by simp)
    rw [List.drop_left] at a2
    rw [dataLoop, if_neg (by rw [h.acquire 4 (by omega) (by simp [hbl])]; simp)]
    unfold nextSize
    rw [if_pos hp, hl4, show ((3 : Int) + 1).toNat * 8 = 8 * 4 by decide, e1]
    simp only [Option.map_some, Option.bind_some]
    rw [if_neg (by rw [a1.acquire _ (by omega) (by simp)]; simp), slice_eq a1 _ (by simp), List.take_left]
    have hparse : Nal.parse u = some (Err.SUCCESS, some (Nal.of u)) := by
      cases u with
      | nil => exact absurd rfl hne
      | cons b t => rw [Nal.parse_cons, if_pos (hb b (by simp))]
    simp only [Option.bind_some, hparse, e2]
    rw [dataLoop_prefixed p hp hl4 us fuel c2 _ a2 (by omega) (fun x hx => hok x (by simp [hx]))]
    simp

end NaluParser
end Sps
