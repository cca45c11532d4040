import Verif.Lemmas.StreamFree
/-! # The key of the raw copy of an SRT stream -/
namespace Sps.World
open Spec

/-- An entry of the key of a raw copy leads to the raw copy of an SRT publisher. -/
theorem raw_entry {k : Key} {w : World} {past : Log} (hL : Live w) (h2 : Inv2 w past) (hK : InvK w past) (hF : Fed w past) (hf : rawFree k past = true) {i : Nat}
    (hr : w.reg.find (tsKey k) = some i) : ∃ j, i = j + 1 ∧ w.view j = some (k, .srtAv, true) := by
  obtain ⟨s, hs⟩ := hL.reg _ i hr
  have ha := h2.active i
  rw [hs] at ha
  simp only [true_and] at ha
  cases s with
  | plain => simp at ha; exact absurd ha (rawFree_active hf i)
  | srtAv => simp at ha; exact absurd ha (rawFree_active hf i)
  | edge e =>
    exfalso
    obtain ⟨d, d1, d2, -⟩ := h2.edgeSrc i _ e _ hs
    exact pullOpened_false (rawFree_pullOpened hf) (hF _ _ _ _ hs) ((hK.edge e _).2 (by rw [d1]; simp [d2]))
  | srtRaw =>
    obtain ⟨j, k', e1, e2, e3⟩ := raw_key h2 hs
    rw [← tsKey_inj e2] at e3
    exact ⟨j, e1, e3⟩

theorem run_raw_from {k : Key} (hk : plainKey k = true) (ops : List WOp) {w : World} {past : Log} (h : InvOne k w) (ht : InvOne (tsKey k) w) (hL : Live w) (h2 : Inv2 w past) (hK : InvK w past) (hF : Fed w past)
    (hp : apart k (past ++ (w.run ops).2)) (hf : rawFree k (past ++ (w.run ops).2) = true) : InvOne (tsKey k) (w.run ops).1 := by
  induction ops generalizing w past with
  | nil => simpa [run] using ht
  | cons op ops ih =>
    obtain ⟨a, b⟩ := run_snd_cons w op ops
    rw [a] at hp hf
    rw [b]
    refine ih (step_one h h2 op (fun ht => noPub hk h2 (hp past _ _ rfl (ht.logged h2 hK hF))) (fun k' _ c => absurd c (plain_ne hk k')))
      (step_one ht h2 op (fun ht => absurd (ht.logged h2 hK hF) (untouched (rawFree_pullOpened hf))) ?_) (step_live hL h2 op) (step_inv2 h2 op) (step_invK hK op) (step_pullFed hF op) ?_ ?_
    · intro k' _ c hr
      have := tsKey_inj c
      subst this
      cases hc : w.reg.find (tsKey k') with
      | none => rfl
      | some i =>
        obtain ⟨j, -, hj⟩ := raw_entry hL h2 hK hF (rawFree_left hf) hc
        have := h.reg1 j _ hj (by simp)
        rw [hr] at this
        simp at this
    · rw [List.append_assoc]; exact hp
    · rw [List.append_assoc]; exact hf

/-- The key of the raw copy of a stream. -/
theorem run_raw {k : Key} (hk : plainKey k = true) (ops : List WOp) (hp : apart k (World.init.run ops).2) (hf : rawFree k (World.init.run ops).2 = true) :
    InvOne (tsKey k) (World.init.run ops).1 :=
  run_raw_from hk ops (InvOne.init k) (InvOne.init _) Live.init Inv2.init InvK.init Fed.init hp hf

/-- Where an entry of the log is from. -/
theorem run_at_from (ops : List WOp) : ∀ {w : World} {l1 l2 : Log} {op : WOp} {o : WOut}, (w.run ops).2 = l1 ++ (op, o) :: l2 →
    ∃ pre post, ops = pre ++ op :: post ∧ (w.run pre).2 = l1 ∧ ((w.run pre).1.step op).2 = o := by
  induction ops with
  | nil => intro w l1 l2 op o h; simp [run] at h
  | cons x ops ih =>
    intro w l1 l2 op o h
    obtain ⟨a, b⟩ := run_snd_cons w x ops
    rw [a] at h
    cases l1 with
    | nil =>
      simp only [List.nil_append, List.cons.injEq, Prod.mk.injEq] at h
      obtain ⟨⟨rfl, h1⟩, -⟩ := h
      exact ⟨[], ops, rfl, by simp [run], by simpa [run] using h1⟩
    | cons y l1 =>
      simp only [List.cons_append, List.cons.injEq] at h
      obtain ⟨rfl, h2⟩ := h
      obtain ⟨pre, post, h3, h4, h5⟩ := ih h2
      refine ⟨x :: pre, post, by rw [h3]; rfl, ?_, ?_⟩
      · rw [(run_snd_cons w x pre).1, h4]
      · rw [(run_snd_cons w x pre).2, h5]

theorem run_at (ops : List WOp) {l1 l2 : Log} {op : WOp} {o : WOut} (h : (World.init.run ops).2 = l1 ++ (op, o) :: l2) :
    ∃ pre post, ops = pre ++ op :: post ∧ (World.init.run pre).2 = l1 ∧ ((World.init.run pre).1.step op).2 = o := run_at_from ops h

end Sps.World
