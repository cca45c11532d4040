import Verif.Lemmas.H264
/-! The H.264 parser on buffers of any content. -/
namespace Sps
open Spec Spec.H264 BitCtx

theorem find_none_last : ∀ u : List UInt8, ¬ [0, 0, 1] <:+: u.dropLast → findStartCode u u.length = some none
  | [], _ => rfl
  | [a], _ => rfl
  | [a, b], _ => rfl
  | [a, b, c], _ => rfl
  | a :: b :: c :: d :: r, h => by
    rw [List.dropLast_cons_of_ne_nil (by simp)] at h
    rw [find_cons3 _ _ _ _ (by simp), if_neg, find_none_last _ (infix_cons h)]
    · rfl
    · rintro ⟨rfl, rfl, rfl⟩
      refine h ⟨[], (d :: r).dropLast, ?_⟩
      rw [List.dropLast_cons_of_ne_nil (x := (0 : UInt8)) (by simp), List.dropLast_cons_of_ne_nil (x := (1 : UInt8)) (by simp)]
      rfl

/-- What `find_start_code` finds: the first start code that has a byte behind it. -/
theorem find_first : ∀ u : List UInt8, (findStartCode u u.length = some none ∧ ¬ [0, 0, 1] <:+: u.dropLast) ∨
    ∃ j v, u = j ++ 0 :: 0 :: 1 :: v ∧ v ≠ [] ∧ ¬ [0, 0, 1] <:+: j ∧ findStartCode u u.length = some (some j.length)
  | [] => Or.inl ⟨rfl, by decide⟩
  | [_] => Or.inl ⟨rfl, by simp⟩
  | [_, _] => Or.inl ⟨rfl, fun h => by have := h.length_le; simp at this⟩
  | [_, _, _] => Or.inl ⟨rfl, fun h => by have := h.length_le; simp at this⟩
  | a :: b :: c :: d :: r => by
    rw [find_cons3 _ _ _ _ (by simp)]
    by_cases h : a = 0 ∧ b = 0 ∧ c = 1
    · obtain ⟨rfl, rfl, rfl⟩ := h
      exact Or.inr ⟨[], d :: r, rfl, by simp, by simp, by simp⟩
    · rw [if_neg h]
      rcases find_first (b :: c :: d :: r) with ⟨e, hn⟩ | ⟨j, v, e, hv, hj, hf⟩
      · rw [e]
        refine Or.inl ⟨rfl, ?_⟩
        rw [List.dropLast_cons_of_ne_nil (by simp)]
        rintro ⟨s, t, hs⟩
        cases s with
        | nil =>
          rw [List.dropLast_cons_of_ne_nil (by simp), List.dropLast_cons_of_ne_nil (by simp)] at hs
          simp only [List.nil_append, List.cons_append, List.cons.injEq] at hs
          exact h ⟨hs.1.symm, hs.2.1.symm, hs.2.2.1.symm⟩
        | cons x s =>
          simp only [List.cons_append, List.cons.injEq] at hs
          exact hn ⟨s, t, by simpa using hs.2⟩
      · rw [hf]
        refine Or.inr ⟨a :: j, v, by rw [e]; rfl, hv, ?_, rfl⟩
        rintro ⟨s, t, hs⟩
        cases s with
        | nil =>
          simp only [List.nil_append, List.cons_append, List.cons.injEq] at hs
          rw [← hs.2] at e
          simp only [List.cons_append, List.cons.injEq] at e
          exact h ⟨hs.1.symm, e.1, e.2.1⟩
        | cons x s =>
          simp only [List.cons_append, List.cons.injEq] at hs
          exact hj ⟨s, t, by simpa using hs.2⟩

theorem find_at (v : List UInt8) (hv : v ≠ []) (j : List UInt8) (hj : ¬ [0, 0, 1] <:+: j) :
    findStartCode (j ++ 0 :: 0 :: 1 :: v) (j ++ 0 :: 0 :: 1 :: v).length = some (some j.length) := by
  have := find_unit 0 v hv j hj
  simpa using this

namespace NaluParser

/-- The next unit of a buffer whose first start code is behind `j`. -/
theorem nextSize_at (p : NaluParser) (hp : p.isAvc = false) {c : BitCtx} {j v : List UInt8} (hj : ¬ [0, 0, 1] <:+: j) (hv : v ≠ [])
    (h : Al c (j ++ 0 :: 0 :: 1 :: v)) {e : Option Nat} (he : findStartCode (0 :: 1 :: v) (0 :: 1 :: v).length = some e) :
    ∃ c', nextSize p c = some (Except.ok (unitSize (j ++ 0 :: 0 :: 1 :: v).length j.length e, c')) ∧ Al c' v := by
  have hs := h.small; have hl := h.length; have hpos := h.pos_le
  obtain ⟨c', e1, a, _⟩ := h.skip (j.length + 3) (by simp)
  have ed : (j ++ 0 :: 0 :: 1 :: v).drop (j.length + 3) = v := by rw [← List.drop_drop, List.drop_left]; rfl
  have ed1 : (j ++ 0 :: 0 :: 1 :: v).drop (j.length + 1) = 0 :: 1 :: v := by rw [← List.drop_drop, List.drop_left]; rfl
  rw [ed] at a
  refine ⟨c', ?_, a⟩
  unfold nextSize
  rw [if_neg (by simp [hp])]
  dsimp only
  rw [h.rest, h.size, find_at v hv j hj]
  simp only [Option.bind_some]
  rw [ed1]
  have el : sub64 (sub64 (j ++ 0 :: 0 :: 1 :: v).length j.length) 1 = (0 :: 1 :: v).length := by
    rw [hl]
    rw [sub64_eq _ j.length (by rw [← hl]; simp) (by omega), sub64_eq _ 1 (by rw [← hl]; simp <;> omega) (by omega), ← hl]
    simp
  rw [el, he]
  simp only [Option.bind_some]
  rw [if_pos (by simp at hl; omega), e1]
  simp

theorem unitSize_none {n : Nat} (j : List UInt8) (v : List UInt8) (h : (j ++ 0 :: 0 :: 1 :: v).length < 2 ^ 64) (hn : n = v.length) :
    unitSize (j ++ 0 :: 0 :: 1 :: v).length j.length none = n := by
  simp only [unitSize]
  have hl : (j ++ 0 :: 0 :: 1 :: v).length = j.length + (v.length + 3) := by simp
  rw [hl] at h ⊢
  rw [sub64_eq _ j.length (by omega) (by omega), sub64_eq _ 3 (by omega) (by omega), hn]; omega

theorem unitSize_some (t s u : Nat) (h : u < 2 ^ 63) : unitSize t s (some (u + 2)) = u := by
  simp only [unitSize]
  rw [sub64_eq _ 3 (by omega) (by omega)]; omega

theorem Coded.head {b : List UInt8} {us : List (List UInt8)} (h : Coded b us) : ∃ w, b = 0 :: 0 :: 1 :: w ∧ w ≠ [] := by
  cases h with
  | last hu => exact ⟨_, rfl, hu.nonempty⟩
  | more hu _ => exact ⟨_, rfl, by simp [hu.nonempty]⟩

theorem Nal.parse_last {u : List UInt8} (h : lastOk u) : Nal.parse u = some (Err.SUCCESS, some (Nal.of u)) := by
  obtain ⟨h1, h2, _⟩ := h
  cases u with
  | nil => exact absurd rfl h1
  | cons b t => rw [Nal.parse_cons, if_pos (h2 b (by simp))]

theorem no_code_last {u : List UInt8} (h : ¬ [0, 0, 1] <:+: u.dropLast) (hu : u ≠ []) : ¬ [0, 0, 1] <:+: (0 :: 1 :: u : List UInt8).dropLast := by
  rw [List.dropLast_cons_of_ne_nil (by simp), List.dropLast_cons_of_ne_nil hu]
  exact no_code_shift h

/-- The units of a buffer are what the loop returns. -/
theorem dataLoop_coded (p : NaluParser) (hp : p.isAvc = false) {b : List UInt8} {us : List (List UInt8)} (hb : Coded b us) :
    ∀ (j : List UInt8) (fuel : Nat) (c : BitCtx) (out : List Nal), ¬ [0, 0, 1] <:+: j → Al c (j ++ b) → (j ++ b).length < fuel →
      dataLoop p fuel c out = some (Err.SUCCESS, out ++ us.map Nal.of) := by
  induction hb with
  | @last u hu =>
    intro j fuel c out hj h hf
    have hs := h.small; have hl := h.length
    have hpl : 0 < u.length := List.length_pos_iff.2 hu.nonempty
    obtain ⟨fuel, rfl⟩ : ∃ f, fuel = f + 2 := ⟨fuel - 2, by simp at hf; omega⟩
    obtain ⟨c1, e1, a1⟩ := nextSize_at p hp hj hu.nonempty h (find_none_last _ (no_code_last hu.code hu.nonempty))
    rw [unitSize_none (n := u.length) j u (by omega) rfl] at e1
    obtain ⟨c2, e2, a2, _⟩ := a1.skip u.length (Nat.le_refl _)
    rw [dataLoop, if_neg (by rw [h.acquire 4 (by omega) (by simp <;> omega)]; simp), e1]
    simp only [Option.bind_some]
    rw [if_neg (by rw [a1.acquire _ (by simp at hl; omega) (Nat.le_refl _)]; simp), slice_eq a1 _ (Nat.le_refl _)]
    simp only [Option.bind_some, List.take_length, Nal.parse_last hu, e2]
    rw [List.drop_length] at a2
    rw [dataLoop, if_pos (by rw [a2.acquire_fail 4 (by omega) (by simp)]; simp)]
    rfl
  | @more u r us hu hr ih =>
    intro j fuel c out hj h hf
    have hs := h.small; have hl := h.length
    have hpl : 0 < u.length := List.length_pos_iff.2 hu.nonempty
    obtain ⟨w, rfl, hw⟩ := Coded.head hr
    obtain ⟨fuel, rfl⟩ : ∃ f, fuel = f + 1 := ⟨fuel - 1, by simp at hf; omega⟩
    have hfind : findStartCode (0 :: 1 :: (u ++ 0 :: 0 :: 1 :: w)) (0 :: 1 :: (u ++ 0 :: 0 :: 1 :: w)).length = some (some (u.length + 2)) := by
      have := find_at w hw (0 :: 1 :: u) (no_code_shift hu.code)
      simpa using this
    obtain ⟨c1, e1, a1⟩ := nextSize_at p hp hj (by simp) h hfind
    rw [unitSize_some _ _ _ (by simp at hl; omega)] at e1
    obtain ⟨c2, e2, a2, _⟩ := a1.skip u.length (by simp)
    rw [dataLoop, if_neg (by rw [h.acquire 4 (by omega) (by simp <;> omega)]; simp), e1]
    simp only [Option.bind_some]
    rw [if_neg (by rw [a1.acquire _ (by simp at hl; omega) (by simp)]; simp), slice_eq a1 _ (by simp), List.take_left]
    simp only [Option.bind_some, Nal.parse_ok hu, e2]
    rw [List.drop_left] at a2
    rw [ih [] fuel c2 _ (by simp) a2 (by simp at hf ⊢; omega)]
    simp

theorem found_coded {w : List UInt8} {us : List (List UInt8)} (hw : w ≠ []) (h : Found (0 :: 0 :: 1 :: w) us) : Coded (0 :: 0 :: 1 :: w) us := by
  rcases h with ⟨h, _⟩ | ⟨j, b, e, hj, hb⟩
  · have := List.length_pos_iff.2 hw; simp at h; omega
  · obtain ⟨v, rfl, hv⟩ := Coded.head hb
    match j, e, hj with
    | [], e, _ => rw [e]; exact hb
    | [x], e, _ => simp at e
    | [x, y], e, _ => simp at e
    | x :: y :: z :: j, e, hj =>
      simp only [List.cons_append, List.cons.injEq] at e
      obtain ⟨rfl, rfl, rfl, _⟩ := e
      exact absurd ⟨[], j, by simp⟩ hj

/-- What the loop returns with success are the units of the buffer. -/
theorem dataLoop_found (p : NaluParser) (hp : p.isAvc = false) : ∀ (fuel : Nat) (c : BitCtx) (r : List UInt8) (out : List Nal),
    Al c r → r.length < fuel → ∃ e us, dataLoop p fuel c out = some (e, out ++ us.map Nal.of) ∧ (e = Err.SUCCESS ∧ Found r us ∨ e = Err.ERROR_H264_DECODER)
  | 0, _, _, _, _, hf => by omega
  | fuel + 1, c, r, out, h, hf => by
    have hs := h.small; have hl := h.length
    by_cases h4 : 4 ≤ r.length
    · rw [dataLoop, if_neg (by rw [h.acquire 4 (by omega) h4]; simp)]
      rcases find_first r with ⟨e, hn⟩ | ⟨j, v, rfl, hv, hj, _⟩
      · refine ⟨_, [], ?_, Or.inr rfl⟩
        unfold nextSize
        rw [if_neg (by simp [hp])]
        dsimp only
        rw [h.rest, h.size, e]
        simp
      · have hvl : 0 < v.length := List.length_pos_iff.2 hv
        rcases find_first (0 :: 1 :: v) with ⟨e, hn⟩ | ⟨i, w, ei, hw, hi, e⟩
        · obtain ⟨c1, e1, a1⟩ := nextSize_at p hp hj hv h e
          rw [unitSize_none (n := v.length) j v (by omega) rfl] at e1
          rw [e1]
          simp only [Option.bind_some]
          rw [if_neg (by rw [a1.acquire _ (by simp at hl; omega) (Nat.le_refl _)]; simp), slice_eq a1 _ (Nat.le_refl _)]
          simp only [Option.bind_some, List.take_length]
          cases v with
          | nil => exact absurd rfl hv
          | cons x v =>
            rw [Nal.parse_cons]
            by_cases hx : x.toNat < 128
            · obtain ⟨c2, e2, a2, _⟩ := a1.skip (x :: v).length (Nat.le_refl _)
              rw [if_pos hx]
              simp only [Option.bind_some, e2]
              rw [List.drop_length] at a2
              obtain ⟨fuel, rfl⟩ : ∃ f, fuel = f + 1 := ⟨fuel - 1, by simp at hf; omega⟩
              rw [dataLoop, if_pos (by rw [a2.acquire_fail 4 (by omega) (by simp)]; simp)]
              refine ⟨_, [x :: v], rfl, Or.inl ⟨rfl, Or.inr ⟨j, _, rfl, hj, .last ⟨by simp, by simpa using hx, ?_⟩⟩⟩⟩
              rw [List.dropLast_cons_of_ne_nil (by simp), List.dropLast_cons_of_ne_nil (by simp)] at hn
              exact infix_cons (infix_cons hn)
            · rw [if_neg hx]
              exact ⟨_, [], by simp, Or.inr rfl⟩
        · obtain ⟨u, rfl, rfl⟩ : ∃ u, i = 0 :: 1 :: u ∧ v = u ++ 0 :: 0 :: 1 :: w := by
            match i, ei with
            | [], ei => simp at ei
            | [x], ei => simp at ei
            | x :: y :: u, ei =>
              simp only [List.cons_append, List.cons.injEq] at ei
              obtain ⟨rfl, rfl, ei⟩ := ei
              exact ⟨u, rfl, ei⟩
          have hcode : ¬ [0, 0, 1] <:+: u := infix_cons (infix_cons hi)
          obtain ⟨c1, e1, a1⟩ := nextSize_at p hp hj hv h e
          simp only [List.length_cons] at e1
          rw [show u.length + 1 + 1 = u.length + 2 from rfl, unitSize_some _ _ _ (by simp at hl; omega)] at e1
          rw [e1]
          simp only [Option.bind_some]
          rw [if_neg (by rw [a1.acquire _ (by simp at hl; omega) (by simp)]; simp), slice_eq a1 _ (by simp), List.take_left]
          simp only [Option.bind_some]
          cases u with
          | nil => exact ⟨_, [], by simp [Nal.parse], Or.inr rfl⟩
          | cons x u =>
            rw [Nal.parse_cons]
            by_cases hx : x.toNat < 128
            · obtain ⟨c2, e2, a2, _⟩ := a1.skip (x :: u).length (by simp)
              rw [if_pos hx]
              simp only [Option.bind_some, e2]
              rw [List.drop_left] at a2
              obtain ⟨e', us, hd, hq⟩ := dataLoop_found p hp fuel c2 _ (out ++ [Nal.of (x :: u)]) a2 (by simp at hf ⊢; omega)
              refine ⟨e', (x :: u) :: us, by rw [hd]; simp, ?_⟩
              rcases hq with ⟨he, hq⟩ | hq
              · exact Or.inl ⟨he, Or.inr ⟨j, _, rfl, hj, .more ⟨by simp, by simpa using hx, hcode⟩ (found_coded hw hq)⟩⟩
              · exact Or.inr hq
            · rw [if_neg hx]
              exact ⟨_, [], by simp, Or.inr rfl⟩
    · refine ⟨_, [], ?_, Or.inl ⟨rfl, Or.inl ⟨by omega, rfl⟩⟩⟩
      rw [dataLoop, if_pos (by rw [h.acquire_fail 4 (by omega) (by omega)]; simp)]
      simp

/-- `decode` returns exactly the units of the buffer, or an error. -/
theorem decode_iff (p : NaluParser) (hp : p.isAvc = false) (b : List UInt8) (hs : b.length < 2 ^ 29) (us : List (List UInt8)) :
    Found b us ↔ p.decode b false [] = some (Err.SUCCESS, p, us.map Nal.of) := by
  have ha := Al.init b hs
  unfold decode decodeData
  rw [if_neg (by simp), if_neg (by simp [hp])]
  constructor
  · rintro (⟨h4, rfl⟩ | ⟨j, t, rfl, hj, ht⟩)
    · rw [dataLoop, if_pos (by rw [ha.acquire_fail 4 (by omega) (by omega)]; simp)]; rfl
    · rw [dataLoop_coded p hp ht j _ _ [] hj ha (Nat.lt_succ_self _)]; rfl
  · intro hd
    obtain ⟨e, vs, h1, h2⟩ := dataLoop_found p hp (b.length + 1) _ b [] ha (Nat.lt_succ_self _)
    rw [h1] at hd
    simp only [List.nil_append, Option.map_some, Option.some.injEq, Prod.mk.injEq, true_and] at hd
    obtain ⟨rfl, hd⟩ := hd
    have : vs = us := by
      have := congrArg (List.map Nal.data) hd
      simpa [List.map_map, Function.comp_def, Nal.of] using this
    subst this
    rcases h2 with ⟨_, h2⟩ | h2
    · exact h2
    · cases h2

theorem decode_found (p : NaluParser) (hp : p.isAvc = false) (b : List UInt8) (hs : b.length < 2 ^ 29) {p' : NaluParser} {ns : List Nal}
    (h : p.decode b false [] = some (Err.SUCCESS, p', ns)) : ∃ us, ns = us.map Nal.of ∧ p' = p ∧ Found b us := by
  have ha := Al.init b hs
  obtain ⟨e, vs, h1, h2⟩ := dataLoop_found p hp (b.length + 1) _ b [] ha (Nat.lt_succ_self _)
  unfold decode decodeData at h
  rw [if_neg (by simp), if_neg (by simp [hp]), h1] at h
  simp only [List.nil_append, Option.map_some, Option.some.injEq, Prod.mk.injEq] at h
  obtain ⟨rfl, rfl, rfl⟩ := h
  rcases h2 with ⟨_, h2⟩ | h2
  · exact ⟨vs, rfl, rfl, h2⟩
  · cases h2

theorem coded_nonempty {b : List UInt8} {us : List (List UInt8)} (h : Coded b us) : ∀ u ∈ us, u ≠ [] := by
  induction h with
  | last hu => intro u h; rw [List.mem_singleton.1 h]; exact hu.nonempty
  | more hu _ ih =>
    intro u h
    rcases List.mem_cons.1 h with rfl | h
    · exact hu.nonempty
    · exact ih u h

theorem found_nonempty {b : List UInt8} {us : List (List UInt8)} (h : Found b us) : ∀ u ∈ us, u ≠ [] := by
  rcases h with ⟨_, rfl⟩ | ⟨_, _, _, _, h⟩
  · simp
  · exact coded_nonempty h

/-- A buffer without units is refused. -/
theorem decode_refused (p : NaluParser) (hp : p.isAvc = false) (b : List UInt8) (hs : b.length < 2 ^ 29) (h : ∀ us, ¬ Found b us) :
    ∃ ns, p.decode b false [] = some (Err.ERROR_H264_DECODER, p, ns) := by
  have ha := Al.init b hs
  obtain ⟨e, vs, h1, h2⟩ := dataLoop_found p hp (b.length + 1) _ b [] ha (Nat.lt_succ_self _)
  rcases h2 with ⟨_, h2⟩ | rfl
  · exact absurd h2 (h _)
  · refine ⟨vs.map Nal.of, ?_⟩
    unfold decode decodeData
    rw [if_neg (by simp), if_neg (by simp [hp]), h1]
    rfl

end NaluParser
end Sps
