import Verif.Spec.Accept
/-! # Lemmas on connections -/
namespace Sps.Accept
open Spec.Accept

theorem run_append (w : World) (a b : List Op) : w.run (a ++ b) = match w.run a with | .ok w' => w'.run b | r => r := by
  induction a generalizing w with
  | nil => simp [World.run]
  | cons o os ih =>
    simp only [List.cons_append, World.run]
    cases w.step o <;> simp [ih]

/-- What is true after every history. -/
structure Inv (ops : List Op) (w : World) : Prop where
  len : w.threads.length = (arrivals ops).length
  served : w.served = entered ops
  reg : ∀ i : Nat, i ∈ w.registry ↔ (w.threads[i]? = some (some .created) ∨ w.threads[i]? = some (some .running))
  nodup : w.registry.Nodup
  cnt : ∀ i : Nat, w.closed.count i = if (w.threads[i]? = some none ∨ w.threads[i]? = some (some .returned)) then 1 else 0
  none_iff : ∀ i : Nat, w.threads[i]? = some none ↔ (arrivals ops)[i]? = some false
  ret_iff : ∀ i : Nat, w.threads[i]? = some (some .returned) ↔ i ∈ left ops
  run_iff : ∀ i : Nat, (w.threads[i]? = some (some .running) ∨ w.threads[i]? = some (some .returned)) ↔ i ∈ entered ops

theorem inv_step {ops : List Op} {w w' : World} {o : Op} (h : Inv ops w) (ha : ∀ g t, o = .accept g t → g = .socket) (hs : w.step o = .ok w') : Inv (ops ++ [o]) w' := by
  cases o with
  | accept g t =>
    have hg := ha g t rfl
    subst hg
    have a1 : arrivals (ops ++ [.accept .socket t]) = arrivals ops ++ [t] := by simp [arrivals]
    have a2 : entered (ops ++ [.accept .socket t]) = entered ops := by simp [entered]
    have a3 : left (ops ++ [.accept .socket t]) = left ops := by simp [left]
    have hno : w.threads[w.threads.length]? = none := by simp
    have nreg : w.threads.length ∉ w.registry := fun hc => by
      rcases (h.reg _).1 hc with x | x <;> simp [hno] at x
    have ncl : w.closed.count w.threads.length = 0 := by rw [h.cnt]; simp [hno]
    have nl : w.threads.length ∉ left ops := fun hc => by have := (h.ret_iff _).2 hc; simp [hno] at this
    have ne : w.threads.length ∉ entered ops := fun hc => by rcases (h.run_iff _).2 hc with x | x <;> simp [hno] at x
    have sp : ∀ i : Nat, i < w.threads.length ∨ i = w.threads.length ∨ w.threads.length < i := fun i => by omega
    have out : ∀ (i : Nat) x, w.threads.length < i → (w.threads ++ [x])[i]? = none := fun i x hi => by
      rw [List.getElem?_eq_none]; simp; omega
    have inn : ∀ (i : Nat) x, i < w.threads.length → (w.threads ++ [x])[i]? = w.threads[i]? := fun i x hi => List.getElem?_append_left hi
    have old : ∀ i : Nat, w.threads.length < i → w.threads[i]? = none := fun i hi => List.getElem?_eq_none (by omega)
    simp only [World.step, World.accept] at hs
    cases t with
    | true =>
      simp only [if_true, Res.ok.injEq] at hs
      subst hs
      refine ⟨by simp [a1, h.len], by simp [a2, h.served], ?_, ?_, ?_, ?_, ?_, ?_⟩
      · intro i
        rcases sp i with hi | hi | hi
        · simp only [inn i _ hi, List.mem_append, List.mem_singleton, h.reg]; simp; omega
        · subst hi; simp
        · simp only [out i _ hi, List.mem_append, List.mem_singleton, h.reg, old i hi]; simp; omega
      · simp only [List.nodup_append, List.nodup_cons, List.not_mem_nil, not_false_eq_true, List.nodup_nil, and_true, List.mem_singleton, forall_eq]
        exact ⟨h.nodup, trivial, fun a hx e => nreg (e ▸ hx)⟩
      · intro i
        rcases sp i with hi | hi | hi
        · simp only [inn i _ hi, h.cnt]
        · subst hi; simpa using ncl
        · simp only [out i _ hi, h.cnt, old i hi]
      · intro i
        rw [a1]
        rcases sp i with hi | hi | hi
        · rw [inn i _ hi, h.none_iff, List.getElem?_append_left (by rw [← h.len]; exact hi)]
        · subst hi; simp [h.len]
        · rw [out i _ hi, List.getElem?_eq_none (by simp [← h.len]; omega)]; simp
      · intro i
        rw [a3]
        rcases sp i with hi | hi | hi
        · rw [inn i _ hi, h.ret_iff]
        · subst hi; simp [nl]
        · rw [out i _ hi, ← h.ret_iff, old i hi]
      · intro i
        rw [a2]
        rcases sp i with hi | hi | hi
        · rw [inn i _ hi, h.run_iff]
        · subst hi; simp [ne]
        · rw [out i _ hi, ← h.run_iff, old i hi]
    | false =>
      simp only [Bool.false_eq_true, if_false, Res.ok.injEq] at hs
      subst hs
      refine ⟨by simp [a1, h.len], by simp [a2, h.served], ?_, h.nodup, ?_, ?_, ?_, ?_⟩
      · intro i
        rcases sp i with hi | hi | hi
        · simp only [inn i _ hi, h.reg]
        · subst hi; simp [nreg]
        · simp only [out i _ hi, h.reg, old i hi]
      · intro i
        rcases sp i with hi | hi | hi
        · simp only [inn i _ hi, List.count_append, h.cnt]
          rw [List.count_singleton]; simp; omega
        · subst hi; simp [ncl]
        · simp only [out i _ hi, List.count_append, h.cnt, old i hi]
          rw [List.count_singleton]; simp; omega
      · intro i
        rw [a1]
        rcases sp i with hi | hi | hi
        · rw [inn i _ hi, h.none_iff, List.getElem?_append_left (by rw [← h.len]; exact hi)]
        · subst hi; simp [h.len]
        · rw [out i _ hi, List.getElem?_eq_none (by simp [← h.len]; omega)]; simp
      · intro i
        rw [a3]
        rcases sp i with hi | hi | hi
        · rw [inn i _ hi, h.ret_iff]
        · subst hi; simp [nl]
        · rw [out i _ hi, ← h.ret_iff, old i hi]
      · intro i
        rw [a2]
        rcases sp i with hi | hi | hi
        · rw [inn i _ hi, h.run_iff]
        · subst hi; simp [ne]
        · rw [out i _ hi, ← h.run_iff, old i hi]
  | enter k =>
    have a1 : arrivals (ops ++ [.enter k]) = arrivals ops := by simp [arrivals]
    have a2 : entered (ops ++ [.enter k]) = entered ops ++ [k] := by simp [entered]
    have a3 : left (ops ++ [.enter k]) = left ops := by simp [left]
    simp only [World.step, World.enter] at hs
    split at hs
    · rename_i hk
      have hkr : k ∈ w.registry := (h.reg k).2 (.inl hk)
      rw [if_pos hkr] at hs
      simp only [Res.ok.injEq] at hs
      subst hs
      obtain ⟨hkl, _⟩ := List.getElem?_eq_some_iff.1 hk
      have self : (w.threads.set k (some .running))[k]? = some (some .running) := by simp [hkl]
      have oth : ∀ i : Nat, i ≠ k → (w.threads.set k (some .running))[i]? = w.threads[i]? := fun i hi => List.getElem?_set_ne (Ne.symm hi)
      refine ⟨by simp [a1, h.len], by simp [a2, h.served], ?_, h.nodup, ?_, ?_, ?_, ?_⟩
      · intro i
        by_cases hi : i = k
        · subst hi; simp [self, hkr]
        · simp only [oth i hi, h.reg]
      · intro i
        by_cases hi : i = k
        · subst hi; simp [self, h.cnt, hk]
        · simp only [oth i hi, h.cnt]
      · intro i
        rw [a1]
        by_cases hi : i = k
        · subst hi; rw [self, ← h.none_iff, hk]; simp
        · rw [oth i hi, h.none_iff]
      · intro i
        rw [a3]
        by_cases hi : i = k
        · subst hi; rw [self, ← h.ret_iff, hk]; simp
        · rw [oth i hi, h.ret_iff]
      · intro i
        rw [a2]
        by_cases hi : i = k
        · subst hi; simp [self]
        · rw [oth i hi, h.run_iff]; simp [hi]
    · cases hs
  | leave k =>
    have a1 : arrivals (ops ++ [.leave k]) = arrivals ops := by simp [arrivals]
    have a2 : entered (ops ++ [.leave k]) = entered ops := by simp [entered]
    have a3 : left (ops ++ [.leave k]) = left ops ++ [k] := by simp [left]
    simp only [World.step, World.leave] at hs
    split at hs
    · rename_i hk
      simp only [Res.ok.injEq] at hs
      subst hs
      obtain ⟨hkl, _⟩ := List.getElem?_eq_some_iff.1 hk
      have self : (w.threads.set k (some .returned))[k]? = some (some .returned) := by simp [hkl]
      have oth : ∀ i : Nat, i ≠ k → (w.threads.set k (some .returned))[i]? = w.threads[i]? := fun i hi => List.getElem?_set_ne (Ne.symm hi)
      refine ⟨by simp [a1, h.len], by simp [a2, h.served], ?_, h.nodup.filter _, ?_, ?_, ?_, ?_⟩
      · intro i
        by_cases hi : i = k
        · subst hi; simp [self]
        · simp only [oth i hi, List.mem_filter, h.reg]; simp [hi]
      · intro i
        by_cases hi : i = k
        · subst hi; simp [self, h.cnt, hk]
        · simp only [oth i hi, List.count_append, h.cnt]
          rw [List.count_singleton]; simp [Ne.symm hi]
      · intro i
        rw [a1]
        by_cases hi : i = k
        · subst hi; rw [self, ← h.none_iff, hk]; simp
        · rw [oth i hi, h.none_iff]
      · intro i
        rw [a3]
        by_cases hi : i = k
        · subst hi; simp [self]
        · rw [oth i hi, h.ret_iff]; simp [hi]
      · intro i
        rw [a2]
        by_cases hi : i = k
        · subst hi; rw [self, ← h.run_iff, hk]; simp
        · rw [oth i hi, h.run_iff]
    · cases hs

theorem inv_run (ops : List Op) : ∀ (pre : List Op) (w w' : World), Inv pre w → Accepts ops → w.run ops = .ok w' → Inv (pre ++ ops) w' := by
  induction ops with
  | nil => intro pre w w' h _ hr; simp only [World.run, Res.ok.injEq] at hr; subst hr; simpa using h
  | cons o os ih =>
    intro pre w w' h ha hr
    simp only [World.run] at hr
    cases hs : w.step o with
    | ok w1 =>
      simp only [hs] at hr
      have := ih (pre ++ [o]) w1 w' (inv_step h (fun g t e => ha g t (e ▸ List.mem_cons_self ..)) hs) (fun g t hm => ha g t (List.mem_cons_of_mem _ hm)) hr
      simpa using this
    | undef => simp [hs] at hr
    | never => simp [hs] at hr

theorem inv_new : Inv [] World.new := by
  refine ⟨rfl, rfl, ?_, List.nodup_nil, ?_, ?_, ?_, ?_⟩ <;> intro i <;> simp [World.new, arrivals, left, entered]

end Sps.Accept
