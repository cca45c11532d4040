import Verif.Lemmas.StreamKeys
/-! # The registries: which cache a key leads to, which pull a key has -/
namespace Sps.World
open Spec

/-- Does a key start like the raw copy of an SRT stream? -/
def tsLike (k : Key) : Bool := (tsKey []).isPrefixOf k

theorem tsLike_tsKey (k : Key) : tsLike (tsKey k) = true := by
  simp [tsLike, tsKey]

theorem tsKey_inj {k k' : Key} (h : tsKey k = tsKey k') : k = k' := by
  simpa [tsKey] using h

/-! ### Pulls -/

/-- The log knows which pulls are running. -/
def Pulls (w : World) (past : Log) : Prop := ∀ e, pullKey e past = match w.edges[e]? with
    | none => none
    | some d => if d.phase = .done then none else some d.key

theorem Pulls.init : Pulls World.init [] := by intro e; simp [pullKey, pullKeyFrom, World.init]

theorem Pulls.congr {w w' : World} {past past' : Log} (h : Pulls w past) (he : w'.edges = w.edges)
    (hp : ∀ e, pullKey e past' = pullKey e past) : Pulls w' past' := by
  intro e; rw [he, hp]; exact h e

theorem step_pulls {w : World} {past : Log} (h : Pulls w past) (op : WOp) : Pulls (w.step op).1 (past ++ [(op, (w.step op).2)]) := by
  cases op with
  | edgeRequest k =>
    simp only [step, edgeRequest]
    split
    · exact h.congr rfl (fun e => by rw [pullKey_snoc]; rfl)
    · split
      · exact h.congr rfl (fun e => by rw [pullKey_snoc]; rfl)
      · intro e
        rw [pullKey_snoc]
        simp only [append_get_new]
        change (if w.edges.length = e then some k else pullKey e past) = _
        by_cases he : e = w.edges.length
        · simp [he]
        · simp only [if_neg he, if_neg (Ne.symm he)]; exact h e
  | edgeOpen e =>
    simp only [step, edgeOpen]
    split
    · exact h.congr rfl (fun e => by rw [pullKey_snoc]; rfl)
    · rename_i ed hed
      obtain ⟨k, ph⟩ := ed
      split
      · rename_i hp
        simp at hp
        subst hp
        intro i
        rw [pullKey_snoc]
        change pullKey i past = match (w.edges.modify e fun d => { d with phase := .running w.caches.length })[i]? with
          | none => none
          | some d => if d.phase = .done then none else some d.key
        rw [edges_modify w e i k _ _ hed]
        by_cases hi : e = i
        · subst hi
          rw [h e, hed]
          simp
        · simp only [if_neg hi]; exact h i
      · exact h.congr rfl (fun e => by rw [pullKey_snoc]; rfl)
  | edgeEnd e =>
    simp only [step, edgeEnd]
    split
    · exact h.congr rfl (fun e => by rw [pullKey_snoc]; rfl)
    · rename_i ed hed
      obtain ⟨k, ph⟩ := ed
      have key : ∀ i, pullKey i (past ++ [(WOp.edgeEnd e, WOut.ok)]) = match (w.edges.modify e fun d => { d with phase := .done })[i]? with
          | none => none
          | some d => if d.phase = .done then none else some d.key := by
        intro i
        rw [pullKey_snoc]
        change (if e = i then none else pullKey i past) = _
        rw [edges_modify w e i k _ _ hed]
        by_cases hi : e = i
        · simp [hi]
        · simp only [if_neg hi]; exact h i
      split
      · exact key
      · exact key
      · exact h.congr rfl (fun e => by rw [pullKey_snoc]; rfl)
  | publish k =>
    simp only [step, publish]
    split <;> exact h.congr rfl (fun e => by rw [pullKey_snoc]; rfl)
  | publishSrt k =>
    simp only [step, publishSrt]
    split <;> exact h.congr rfl (fun e => by rw [pullKey_snoc]; rfl)
  | put cid p =>
    simp only [step, put]
    repeat' split
    all_goals exact h.congr rfl (fun e => by rw [pullKey_snoc]; rfl)
  | unpublish cid =>
    simp only [step, unpublish]
    repeat' split
    all_goals exact h.congr rfl (fun e => by rw [pullKey_snoc]; rfl)
  | play k =>
    simp only [step, play_eq]
    repeat' split
    all_goals exact h.congr rfl (fun e => by rw [pullKey_snoc]; rfl)
  | dump c =>
    simp only [step, dump]
    repeat' split
    all_goals exact h.congr rfl (fun e => by rw [pullKey_snoc]; rfl)
  | leave c =>
    simp only [step, leave]
    repeat' split
    all_goals exact h.congr rfl (fun e => by rw [pullKey_snoc]; rfl)
  | edgeDrop e =>
    simp only [step, edgeDrop]
    repeat' split
    all_goals exact h.congr rfl (fun e => by rw [pullKey_snoc]; rfl)

theorem run_pulls (ops : List WOp) {w : World} {past : Log} (h : Pulls w past) : Pulls (w.run ops).1 (past ++ (w.run ops).2) := by
  induction ops generalizing w past with
  | nil => simpa [run] using h
  | cons op ops ih =>
    obtain ⟨a, b⟩ := run_snd_cons w op ops
    have := ih (step_pulls h op)
    rw [a, b]; simpa using this

end Sps.World
