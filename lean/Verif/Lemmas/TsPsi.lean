import Verif.Lemmas.Ts
/-! # Sections of arbitrary payloads -/
namespace Sps.BProg
open Spec
variable {α β : Type}

/-- A read that succeeds in a payload `q`, `b` bits before which belong to the packet. -/
theorem rd_some {q : List UInt8} {b off w v o : Nat} {s : List Bool}
    (h : onBits (rd w) (b + off) ((bitsOf q).drop off) = some (v, o, s)) (hw : w ≤ 32) :
    v = field q off w ∧ o = b + (off + w) ∧ s = (bitsOf q).drop (off + w) ∧ w ≤ 8 * q.length - off := by
  unfold rd at h
  simp only [onBits] at h
  split at h
  · rename_i hn
    rw [List.length_drop, bitsOf_length] at hn
    simp only [Option.some.injEq, Prod.mk.injEq, List.drop_drop] at h
    obtain ⟨rfl, rfl, rfl⟩ := h
    refine ⟨?_, by omega, rfl, hn⟩
    unfold field
    apply Nat.mod_eq_of_lt
    refine Nat.lt_of_lt_of_le (bitsVal_lt _) (Nat.pow_le_pow_right (by decide) ?_)
    rw [List.length_take]; omega
  · simp at h

theorem bind_some {p : BProg α} {f : α → BProg β} {off o : Nat} {s r : List Bool} {v : β}
    (h : onBits (p >>= f) off s = some (v, o, r)) :
    ∃ a o1 s1, onBits p off s = some (a, o1, s1) ∧ onBits (f a) o1 s1 = some (v, o, r) := by
  rw [on_bind, Option.bind_eq_some_iff] at h
  obtain ⟨⟨a, o1, s1⟩, h1, h2⟩ := h
  exact ⟨a, o1, s1, h1, h2⟩

theorem acq_some {n off o : Nat} {s r : List Bool} {e : Err} (h : onBits (acq n) off s = some (e, o, r)) : o = off ∧ r = s := by
  unfold acq at h
  simp only [onBits] at h
  split at h <;> simp only [Option.some.injEq, Prod.mk.injEq] at h <;> exact ⟨h.2.1.symm, h.2.2.symm⟩

theorem rdBytes_some {q : List UInt8} {b off n o : Nat} {s : List Bool} {d : List UInt8}
    (h : onBits (rdBytes n) (b + off) ((bitsOf q).drop off) = some (d, o, s)) :
    o = b + (off + 8 * n) ∧ s = (bitsOf q).drop (off + 8 * n) := by
  unfold rdBytes at h
  simp only [onBits] at h
  split at h
  · simp only [Option.some.injEq, Prod.mk.injEq, List.drop_drop] at h
    exact ⟨by omega, h.2.2.symm⟩
  · simp at h

theorem pure_some {off o : Nat} {s r : List Bool} {a v : α} (h : onBits (pure a) off s = some (v, o, r)) :
    v = a ∧ o = off ∧ r = s := by
  rw [on_pure] at h
  simp only [Option.some.injEq, Prod.mk.injEq] at h
  exact ⟨h.1.symm, h.2.1.symm, h.2.2.symm⟩

theorem rd_bind_some {q : List UInt8} {b off w o : Nat} {s : List Bool} {f : Nat → BProg β} {v : β}
    (h : onBits (rd w >>= f) (b + off) ((bitsOf q).drop off) = some (v, o, s)) (hw : w ≤ 32) :
    onBits (f (field q off w)) (b + (off + w)) ((bitsOf q).drop (off + w)) = some (v, o, s) ∧ w ≤ 8 * q.length - off := by
  obtain ⟨_, _, _, hx, h⟩ := bind_some h
  obtain ⟨rfl, rfl, rfl, hle⟩ := rd_some hx hw
  exact ⟨h, hle⟩

/-- One successful read. -/
macro "inv_rd" h:ident : tactic =>
  `(tactic| (have hle := (rd_bind_some $h (by decide)).2; replace $h:ident := (rd_bind_some $h (by decide)).1))

end Sps.BProg

namespace Sps.Ts
open Spec BProg

theorem sectionHeader_some {q : List UInt8} {b u len o : Nat} {s : List Bool} (hu : u < 2)
    (h : onBits (sectionHeader u) (b + 0) ((bitsOf q).drop 0) = some (len, o, s)) :
    len = field q (8 * u + 12) 12 ∧ o = b + 8 * (u + 8) ∧ s = (bitsOf q).drop (8 * (u + 8)) := by
  unfold sectionHeader at h
  obtain ⟨_, o1, s1, hf, h⟩ := bind_some h
  have : o1 = b + 8 * u ∧ s1 = (bitsOf q).drop (8 * u) := by
    unfold onFlag at hf
    rcases (by omega : u = 0 ∨ u = 1) with rfl | rfl
    · rw [if_neg (by decide)] at hf
      exact (pure_some hf).2
    · rw [if_pos (by decide)] at hf
      inv_rd hf
      exact (pure_some hf).2
  obtain ⟨rfl, rfl⟩ := this
  iterate 11 inv_rd h
  obtain ⟨rfl, rfl, rfl⟩ := pure_some h
  refine ⟨rfl, by omega, ?_⟩
  congr 1

theorem patLoop_some {q : List UInt8} {b : Nat} : ∀ (fuel left off : Nat) {ps : List Nat} {o : Nat} {s : List Bool}, left ≤ fuel →
    onBits (patLoop fuel left) (b + off) ((bitsOf q).drop off) = some (ps, o, s) →
    ∀ pid ∈ ps, ∃ i, 4 * i < left ∧ pid = field q (off + 32 * i + 19) 13 := by
  intro fuel
  induction fuel with
  | zero =>
    intro left off ps o s hl h
    obtain rfl : left = 0 := by omega
    obtain ⟨rfl, _, _⟩ := pure_some h
    simp
  | succ fuel ih =>
    intro left off ps o s hl h
    cases left with
    | zero =>
      obtain ⟨rfl, _, _⟩ := pure_some h
      simp
    | succ left =>
      simp only [patLoop] at h
      iterate 3 inv_rd h
      obtain ⟨ps1, _, _, hr, h⟩ := bind_some h
      obtain ⟨rfl, _, _⟩ := pure_some h
      intro pid hp
      rcases List.mem_cons.1 hp with rfl | hp
      · refine ⟨0, by omega, ?_⟩
        congr 1
      · obtain ⟨i, hi, rfl⟩ := ih (left + 1 - 4) _ (by omega) hr pid hp
        refine ⟨i + 1, by omega, ?_⟩
        congr 1; omega

theorem pat_some {q : List UInt8} {b u : Nat} {e : Err} {ps : List Nat} {o : Nat} {s : List Bool} (hu : u < 2)
    (h : onBits (psi [] u patBody) b (bitsOf q) = some ((e, ps), o, s)) : ∀ pid ∈ ps, Spec.Ts.patLists q u pid := by
  unfold psi at h
  rw [show b = b + 0 from rfl, ← List.drop_zero (l := bitsOf q)] at h
  obtain ⟨e1, _, _, hx, h⟩ := bind_some h
  obtain ⟨rfl, rfl⟩ := acq_some hx
  split at h
  · obtain ⟨hps, _⟩ := pure_some h
    simp only [Prod.mk.injEq] at hps
    rw [hps.2]; simp
  obtain ⟨len, _, _, hx, h⟩ := bind_some h
  obtain ⟨rfl, rfl, rfl⟩ := sectionHeader_some hu hx
  obtain ⟨r, _, _, hx, h⟩ := bind_some h
  obtain ⟨_, _, _, _, h⟩ := bind_some h
  obtain ⟨rfl, _, _⟩ := pure_some h
  clear h
  unfold patBody at hx
  split at hx
  · obtain ⟨e2, _, _, hy, hx⟩ := bind_some hx
    obtain ⟨rfl, rfl⟩ := acq_some hy
    split at hx
    · obtain ⟨hps, _⟩ := pure_some hx
      simp only [Prod.mk.injEq] at hps
      rw [hps.2]; simp
    · obtain ⟨ps1, _, _, hy, hx⟩ := bind_some hx
      obtain ⟨hps, _⟩ := pure_some hx
      simp only [Prod.mk.injEq] at hps
      rw [hps.2]
      intro pid hp
      obtain ⟨i, hi, rfl⟩ := patLoop_some _ _ _ (Nat.le_refl _) hy pid hp
      exact ⟨i, by omega, rfl⟩
  · obtain ⟨hps, _⟩ := pure_some hx
    simp only [Prod.mk.injEq] at hps
    rw [hps.2]; simp

theorem descriptors_some {q : List UInt8} {b off n o : Nat} {e : Err} {s : List Bool} (he : e = Err.SUCCESS)
    (h : onBits (descriptors n) (b + off) ((bitsOf q).drop off) = some (e, o, s)) :
    o = b + (off + 8 * n) ∧ s = (bitsOf q).drop (off + 8 * n) := by
  unfold descriptors at h
  split at h
  · obtain ⟨e2, _, _, hy, h⟩ := bind_some h
    obtain ⟨rfl, rfl⟩ := acq_some hy
    split at h
    · rename_i hne
      obtain ⟨rfl, _⟩ := pure_some h
      exact absurd he hne
    · obtain ⟨_, _, _, hy, h⟩ := bind_some h
      obtain ⟨rfl, rfl⟩ := rdBytes_some hy
      obtain ⟨_, rfl, rfl⟩ := pure_some h
      exact ⟨rfl, rfl⟩
  · rename_i hn
    obtain ⟨_, rfl, rfl⟩ := pure_some h
    obtain rfl : n = 0 := by omega
    exact ⟨rfl, rfl⟩

theorem pmtLoop_some {q : List UInt8} {b : Nat} : ∀ (fuel off : Nat) (left : Int) {e : Err} {es : List (Nat × Nat)} {o : Nat}
    {s : List Bool}, onBits (pmtLoop fuel left) (b + off) ((bitsOf q).drop off) = some ((e, es), o, s) →
    ∀ x ∈ es, Spec.Ts.EntryAt q off left x.1 x.2 := by
  intro fuel
  induction fuel with
  | zero =>
    intro off left e es o s h
    obtain ⟨hes, _⟩ := pure_some h
    simp only [Prod.mk.injEq] at hes
    rw [hes.2]; simp
  | succ fuel ih =>
    intro off left e es o s h
    simp only [pmtLoop] at h
    split at h
    · rename_i hl
      iterate 5 inv_rd h
      obtain ⟨e1, _, _, hx, h⟩ := bind_some h
      split at h
      · obtain ⟨hes, _⟩ := pure_some h
        simp only [Prod.mk.injEq] at hes
        rw [hes.2]; simp
      · rename_i he
        obtain ⟨rfl, rfl⟩ := descriptors_some (by simpa using he) hx
        obtain ⟨⟨e2, es2⟩, _, _, hr, h⟩ := bind_some h
        simp only at h
        split at h
        · obtain ⟨hes, _⟩ := pure_some h
          simp only [Prod.mk.injEq] at hes
          rw [hes.2]; simp
        · obtain ⟨hes, _⟩ := pure_some h
          simp only [Prod.mk.injEq] at hes
          rw [hes.2]
          intro x hx
          rcases List.mem_cons.1 hx with rfl | hx
          · have := Spec.Ts.EntryAt.here (q := q) (off := off) hl
            simpa only [Nat.add_assoc, Nat.reduceAdd] using this
          · have := ih _ _ hr x hx
            simp only [Nat.add_assoc, Nat.reduceAdd] at this
            exact .next hl (by simpa only [Nat.add_assoc] using this)
    · obtain ⟨hes, _⟩ := pure_some h
      simp only [Prod.mk.injEq] at hes
      rw [hes.2]; simp

theorem pmt_some {q : List UInt8} {b u : Nat} {e : Err} {es : List (Nat × Nat)} {o : Nat} {s : List Bool} (hu : u < 2)
    (h : onBits (psi [] u pmtBody) b (bitsOf q) = some ((e, es), o, s)) : ∀ x ∈ es, Spec.Ts.pmtLists q u x.1 x.2 := by
  unfold psi at h
  rw [show b = b + 0 from rfl, ← List.drop_zero (l := bitsOf q)] at h
  obtain ⟨e1, _, _, hx, h⟩ := bind_some h
  obtain ⟨rfl, rfl⟩ := acq_some hx
  split at h
  · obtain ⟨hps, _⟩ := pure_some h
    simp only [Prod.mk.injEq] at hps
    rw [hps.2]; simp
  obtain ⟨len, _, _, hx, h⟩ := bind_some h
  obtain ⟨rfl, rfl, rfl⟩ := sectionHeader_some hu hx
  obtain ⟨r, _, _, hx, h⟩ := bind_some h
  obtain ⟨_, _, _, _, h⟩ := bind_some h
  obtain ⟨rfl, _, _⟩ := pure_some h
  clear h
  unfold pmtBody at hx
  obtain ⟨e2, _, _, hy, hx⟩ := bind_some hx
  obtain ⟨rfl, rfl⟩ := acq_some hy
  split at hx
  · obtain ⟨hps, _⟩ := pure_some hx
    simp only [Prod.mk.injEq] at hps
    rw [hps.2]; simp
  iterate 5 inv_rd hx
  obtain ⟨e1, _, _, hy, hx⟩ := bind_some hx
  split at hx
  · obtain ⟨hes, _⟩ := pure_some hx
    simp only [Prod.mk.injEq] at hes
    rw [hes.2]; simp
  · rename_i he
    obtain ⟨rfl, rfl⟩ := descriptors_some (by simpa using he) hy
    intro x hm
    have := pmtLoop_some _ _ _ hx x hm
    unfold Spec.Ts.pmtLists
    simp only [Nat.add_assoc, Nat.reduceAdd] at this ⊢
    rw [show ∀ y : Nat, 8 * (u + 8) + (32 + 8 * y) = 8 * (u + 12) + 8 * y by intro y; omega] at this
    have e : ∀ x y : Int, x - 5 - 4 - y - 4 = x - 13 - y := by intro x y; omega
    rw [e] at this
    exact this

end Sps.Ts
