import Verif.Lemmas.Stream
/-! # Delivery to one player over a whole execution -/
namespace Sps.World
open Spec

/-- What one piece does to one player's queue. -/
theorem step_client {w : World} {past : Log} (h : Inv w past) (op : WOp) {c : Nat} {cl : Client}
    (hc : w.clients[c]? = some cl) :
    ∃ cl', (w.step op).1.clients[c]? = some cl' ∧ cl'.cache = cl.cache ∧
      (cl.left = true → cl' = cl ∧ received c [(op, (w.step op).2)] = []) ∧
      (cl.left = false →
        received c [(op, (w.step op).2)] ++ cl'.q.pbs = cl.q.pbs ++ untilLeave c cl.cache [(op, (w.step op).2)] ∧
        (cl'.left = true ↔ op = .leave c)) := by
  have hlt : c < w.clients.length := by
    rcases Nat.lt_or_ge c w.clients.length with h1 | h1
    · exact h1
    · rw [List.getElem?_eq_none h1] at hc; simp at hc
  cases op with
  | publish k =>
    refine ⟨cl, ?_, rfl, ?_⟩
    · simp only [step, publish]; split <;> exact hc
    · simp only [step, publish]; split <;> simp_all [received, untilLeave]
  | publishSrt k =>
    refine ⟨cl, ?_, rfl, ?_⟩
    · simp only [step, publishSrt]; split <;> exact hc
    · simp only [step, publishSrt]; split <;> simp_all [received, untilLeave]
  | put cid p =>
    simp only [step, put]
    split
    · exact ⟨cl, hc, rfl, by simp_all [received, untilLeave]⟩
    · rename_i k hk
      split
      · have hn := h.nodup cid k hk
        have hsub := h.subs cid k hk c
        simp only [deliver_get _ hn, hc]
        by_cases hm : c ∈ k.subs
        · obtain ⟨cl0, e0, e1, e2⟩ := hsub.1 hm
          rw [hc] at e0
          simp at e0
          subst e0
          refine ⟨{ cl with q := cl.q.put (some p) }, by simp [hm], rfl, by simp [e2], fun _ => ⟨?_, by simp [e2]⟩⟩
          simp [received, untilLeave, Queue.put, e1]
        · refine ⟨cl, by simp [hm], rfl, fun _ => ⟨rfl, rfl⟩, fun hl => ⟨?_, by simp [hl]⟩⟩
          have hne : cid ≠ cl.cache := by
            intro he
            exact hm (hsub.2 ⟨cl, hc, he.symm, hl⟩)
          simp [received, untilLeave, hne]
      · exact ⟨cl, hc, rfl, by simp_all [received, untilLeave]⟩
  | unpublish cid =>
    refine ⟨cl, ?_, rfl, ?_⟩
    · simp only [step, unpublish]
      split
      · exact hc
      · split
        · split <;> exact hc
        · exact hc
    · simp only [step, unpublish]
      split
      · simp_all [received, untilLeave]
      · split
        · split <;> simp_all [received, untilLeave]
        · simp_all [received, untilLeave]
  | play k =>
    refine ⟨cl, ?_, rfl, ?_⟩
    · simp only [step, play_eq]
      split
      · exact hc
      · split
        · exact hc
        · simp only [List.getElem?_append, if_pos hlt]; exact hc
    · simp only [step, play_eq]
      split
      · simp_all [received, untilLeave]
      · split <;> simp_all [received, untilLeave]
  | dump d =>
    simp only [step, dump]
    split
    · exact ⟨cl, hc, rfl, by simp_all [received, untilLeave]⟩
    · rename_i dl hd
      split
      · exact ⟨cl, hc, rfl, by simp_all [received, untilLeave]⟩
      · rename_i hleft
        simp only [modify_get]
        by_cases hdc : d = c
        · subst hdc
          rw [hd] at hc
          simp at hc
          subst hc
          refine ⟨{ dl with q := (dl.q.dumpClient []).2.2 }, by simp [hd], rfl, by simp_all, fun hl => ⟨?_, by simp [hl]⟩⟩
          simp only [received, untilLeave, if_true, Queue.dumpClient, Queue.size]
          by_cases h0 : dl.q.pbs.length = 0
          · have : dl.q.pbs = [] := List.length_eq_zero_iff.1 h0
            simp [this]
          · simp [h0, Queue.dump]
        · refine ⟨cl, by simp [hdc, hc], rfl, ?_, ?_⟩ <;> simp_all [received, untilLeave]
  | leave d =>
    simp only [step, leave]
    split
    · refine ⟨cl, hc, rfl, by simp_all [received, untilLeave], fun hl => ⟨by simp [received, untilLeave], ?_⟩⟩
      rename_i hd
      simp only [hl, Bool.false_eq_true, false_iff]
      intro he; cases he; rw [hc] at hd; simp at hd
    · rename_i dl hd
      split
      · rename_i hleft
        refine ⟨cl, hc, rfl, by simp_all [received, untilLeave], fun hl => ⟨by simp [received, untilLeave], ?_⟩⟩
        simp only [hl, Bool.false_eq_true, false_iff]
        intro he; cases he; rw [hc] at hd; simp at hd; subst hd; rw [hl] at hleft; simp at hleft
      · simp only [modify_get]
        by_cases hdc : d = c
        · subst hdc
          rw [hd] at hc
          simp at hc
          subst hc
          refine ⟨{ dl with left := true }, by simp [hd], rfl, by simp_all, fun hl => ⟨by simp [received, untilLeave], by simp⟩⟩
        · refine ⟨cl, by simp [hdc, hc], rfl, ?_, ?_⟩ <;> simp_all [received, untilLeave]
  | edgeRequest k =>
    refine ⟨cl, ?_, rfl, ?_⟩
    · simp only [step, edgeRequest]
      split
      · exact hc
      · split <;> exact hc
    · simp only [step, edgeRequest]
      split
      · simp_all [received, untilLeave]
      · split <;> simp_all [received, untilLeave]
  | edgeOpen e =>
    refine ⟨cl, ?_, rfl, ?_⟩
    · simp only [step, edgeOpen]
      split
      · exact hc
      · split <;> exact hc
    · simp only [step, edgeOpen]
      split
      · simp_all [received, untilLeave]
      · split <;> simp_all [received, untilLeave]
  | edgeEnd e =>
    refine ⟨cl, ?_, rfl, ?_⟩
    · simp only [step, edgeEnd]
      split
      · exact hc
      · split <;> exact hc
    · simp only [step, edgeEnd]
      split
      · simp_all [received, untilLeave]
      · split <;> simp_all [received, untilLeave]
  | edgeDrop e =>
    refine ⟨cl, ?_, rfl, ?_⟩
    · simp only [step, edgeDrop]
      split
      · exact hc
      · split
        · split <;> exact hc
        · exact hc
    · simp only [step, edgeDrop]
      split
      · simp_all [received, untilLeave]
      · split
        · split <;> simp_all [received, untilLeave]
        · simp_all [received, untilLeave]

theorem received_cons (c : Nat) (x : WOp × WOut) (l : Log) : received c (x :: l) = received c [x] ++ received c l := by
  obtain ⟨op, o⟩ := x
  cases op <;> cases o <;> simp [received]
  split <;> simp

theorem untilLeave_cons (c i : Nat) (x : WOp × WOut) (l : Log) (hx : x.1 ≠ .leave c) :
    untilLeave c i (x :: l) = untilLeave c i [x] ++ untilLeave c i l := by
  obtain ⟨op, o⟩ := x
  cases op with
  | put d p => cases o <;> simp only [untilLeave, List.nil_append]; split <;> simp
  | leave d =>
    have : d ≠ c := fun he => hx (by rw [he])
    cases o <;> simp only [untilLeave, List.nil_append]
    simp [this]
  | _ => cases o <;> simp [untilLeave]

theorem entitled_joined (c cid : Nat) (op : WOp) (past l : Log) :
    entitled c past ((op, .joined c cid) :: l) = startupOf cid past ++ untilLeave c cid l := by
  simp [entitled]

theorem entitled_other (c : Nat) (op : WOp) (o : WOut) (past l : Log) (ho : ∀ cid, o ≠ .joined c cid) :
    entitled c past ((op, o) :: l) = entitled c (past ++ [(op, o)]) l := by
  cases o <;> simp only [entitled]
  rename_i d cid
  have : d ≠ c := fun he => ho cid (by rw [he])
  simp [this]

theorem run_snd_cons (w : World) (op : WOp) (ops : List WOp) :
    (w.run (op :: ops)).2 = (op, (w.step op).2) :: ((w.step op).1.run ops).2 ∧
    (w.run (op :: ops)).1 = ((w.step op).1.run ops).1 := by
  simp [run]

/-- A player that left gets nothing more. -/
theorem run_left (ops : List WOp) : ∀ {w : World} {past : Log}, Inv w past → ∀ {c : Nat} {cl : Client},
    w.clients[c]? = some cl → cl.left = true →
    received c (w.run ops).2 = [] ∧ pendingOf (w.run ops).1 c = cl.q.pbs := by
  induction ops with
  | nil => intro w past _ c cl hc _; simp [run, received, pendingOf, hc]
  | cons op ops ih =>
    intro w past h c cl hc hl
    obtain ⟨cl', e, _, h1, _⟩ := step_client h op hc
    obtain ⟨rfl, h2⟩ := h1 hl
    obtain ⟨a, b⟩ := run_snd_cons w op ops
    obtain ⟨i1, i2⟩ := ih (step_inv h op) e hl
    rw [a, b, received_cons, h2, i1, i2]; simp

/-- What a joined player gets from now on. -/
theorem run_joined (ops : List WOp) : ∀ {w : World} {past : Log}, Inv w past → ∀ {c : Nat} {cl : Client},
    w.clients[c]? = some cl → cl.left = false →
    received c (w.run ops).2 ++ pendingOf (w.run ops).1 c = cl.q.pbs ++ untilLeave c cl.cache (w.run ops).2 := by
  induction ops with
  | nil => intro w past _ c cl hc _; simp [run, received, pendingOf, hc, untilLeave]
  | cons op ops ih =>
    intro w past h c cl hc hl
    obtain ⟨cl', e, hcache, _, h1⟩ := step_client h op hc
    obtain ⟨h2, h3⟩ := h1 hl
    obtain ⟨a, b⟩ := run_snd_cons w op ops
    by_cases hleft : cl'.left = true
    · obtain ⟨i1, i2⟩ := run_left ops (step_inv h op) e hleft
      have hop := h3.1 hleft
      have hok : (w.step op).2 = .ok := by
        rw [hop]; simp [step, leave, hc, hl]
      rw [a, b, received_cons, i1, i2, List.append_nil, h2]
      rw [hop] at hok ⊢
      simp [hok, untilLeave]
    · have hleft' : cl'.left = false := by simpa using hleft
      have i := ih (step_inv h op) e hleft'
      rw [a, b, received_cons, List.append_assoc, i, ← List.append_assoc, h2, hcache, List.append_assoc]
      congr 1
      have hnop : op ≠ .leave c := fun he => hleft (h3.2 he)
      rw [← untilLeave_cons c cl.cache _ _ hnop]

/-- A number not given to a player yet has received nothing in one piece, unless the piece joins it. -/
theorem step_absent {w : World} {past : Log} (h : Inv w past) (op : WOp) {c : Nat} (hc : w.clients.length ≤ c) :
    received c [(op, (w.step op).2)] = [] ∧
    ((∃ cid cl, (w.step op).2 = .joined c cid ∧ (w.step op).1.clients[c]? = some cl ∧ cl.cache = cid ∧
        cl.left = false ∧ cl.q.pbs = startupOf cid past) ∨
     ((∀ cid, (w.step op).2 ≠ .joined c cid) ∧ (w.step op).1.clients.length ≤ c)) := by
  have hnone : w.clients[c]? = none := List.getElem?_eq_none hc
  cases op with
  | publish k => simp only [step, publish]; split <;> exact ⟨rfl, Or.inr ⟨by simp, hc⟩⟩
  | publishSrt k => simp only [step, publishSrt]; split <;> exact ⟨rfl, Or.inr ⟨by simp, hc⟩⟩
  | put cid p =>
    simp only [step, put]
    split
    · exact ⟨rfl, Or.inr ⟨by simp, hc⟩⟩
    · split
      · exact ⟨rfl, Or.inr ⟨by simp, by rw [deliver_length]; exact hc⟩⟩
      · exact ⟨rfl, Or.inr ⟨by simp, hc⟩⟩
  | unpublish cid =>
    simp only [step, unpublish]
    split
    · exact ⟨rfl, Or.inr ⟨by simp, hc⟩⟩
    · split
      · split <;> exact ⟨rfl, Or.inr ⟨by simp, hc⟩⟩
      · exact ⟨rfl, Or.inr ⟨by simp, hc⟩⟩
  | play k =>
    simp only [step, play_eq]
    split
    · exact ⟨rfl, Or.inr ⟨by simp, hc⟩⟩
    · rename_i cid _
      split
      · exact ⟨rfl, Or.inr ⟨by simp, hc⟩⟩
      · rename_i k' hk
        refine ⟨rfl, ?_⟩
        by_cases he : w.clients.length = c
        · left
          refine ⟨cid, ⟨cid, ⟨k'.store.dump.1⟩, false⟩, by simp [he], ?_, rfl, rfl, ?_⟩
          · subst he; simp
          · show k'.store.dump.1 = _
            rw [h.store cid k' hk, storeAfter, startupOf]
            split
            · simp only [Store.dump]; rw [raw_dump]; simp
            · simp only [Store.dump]; rw [gop_dump]; simp
        · right
          refine ⟨by intro cid' hj; simp at hj; exact he hj.1, by simp; omega⟩
  | dump d =>
    simp only [step, dump]
    split
    · exact ⟨rfl, Or.inr ⟨by simp, hc⟩⟩
    · rename_i dl hd
      have hne : d ≠ c := by intro e; rw [e, hnone] at hd; simp at hd
      split
      · exact ⟨rfl, Or.inr ⟨by simp, hc⟩⟩
      · exact ⟨by simp [received, hne], Or.inr ⟨by simp, by simpa using hc⟩⟩
  | leave d =>
    simp only [step, leave]
    split
    · exact ⟨rfl, Or.inr ⟨by simp, hc⟩⟩
    · split
      · exact ⟨rfl, Or.inr ⟨by simp, hc⟩⟩
      · exact ⟨rfl, Or.inr ⟨by simp, by simpa using hc⟩⟩
  | edgeRequest k =>
    simp only [step, edgeRequest]
    split
    · exact ⟨rfl, Or.inr ⟨by simp, hc⟩⟩
    · split <;> exact ⟨rfl, Or.inr ⟨by simp, hc⟩⟩
  | edgeOpen e =>
    simp only [step, edgeOpen]
    split
    · exact ⟨rfl, Or.inr ⟨by simp, hc⟩⟩
    · split <;> exact ⟨rfl, Or.inr ⟨by simp, hc⟩⟩
  | edgeEnd e =>
    simp only [step, edgeEnd]
    split
    · exact ⟨rfl, Or.inr ⟨by simp, hc⟩⟩
    · split <;> exact ⟨rfl, Or.inr ⟨by simp, hc⟩⟩
  | edgeDrop e =>
    simp only [step, edgeDrop]
    split
    · exact ⟨rfl, Or.inr ⟨by simp, hc⟩⟩
    · split
      · split <;> exact ⟨rfl, Or.inr ⟨by simp, hc⟩⟩
      · exact ⟨rfl, Or.inr ⟨by simp, hc⟩⟩

/-- Delivery to one player over a whole execution. -/
theorem run_entitled (ops : List WOp) : ∀ {w : World} {past : Log}, Inv w past → ∀ {c : Nat}, w.clients.length ≤ c →
    received c (w.run ops).2 ++ pendingOf (w.run ops).1 c = entitled c past (w.run ops).2 := by
  induction ops with
  | nil =>
    intro w past _ c hc
    have : w.clients[c]? = none := List.getElem?_eq_none hc
    simp [run, received, pendingOf, this, entitled]
  | cons op ops ih =>
    intro w past h c hc
    obtain ⟨a, b⟩ := run_snd_cons w op ops
    obtain ⟨h1, h2⟩ := step_absent h op hc
    rw [a, b, received_cons, h1, List.nil_append]
    rcases h2 with ⟨cid, cl, e1, e2, e3, e4, e5⟩ | ⟨e1, e2⟩
    · rw [run_joined ops (step_inv h op) e2 e4, e5, e3, e1, entitled_joined]
    · rw [ih (step_inv h op) e2, entitled_other _ _ _ _ _ e1]

end Sps.World
