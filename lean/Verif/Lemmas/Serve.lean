import Verif.Spec.Serve
import Verif.Lemmas.FlvMux
import Verif.Lemmas.StreamKeys
import Verif.Lemmas.StreamRun
/-! # Lemmas about stream requests over HTTP -/
namespace Sps.World
open Spec

theorem step_lengths (w : World) (op : WOp) :
    w.clients.length ≤ (w.step op).1.clients.length ∧ w.caches.length ≤ (w.step op).1.caches.length := by
  cases op <;> simp only [step, publish, publishSrt, put, unpublish, play_eq, dump, leave, edgeRequest, edgeOpen, edgeEnd, edgeDrop]
  all_goals (repeat' split) <;> simp [newCache, closeCache, deliver_length]

theorem step_edges_length (w : World) (op : WOp) : w.edges.length ≤ (w.step op).1.edges.length := by
  cases op <;> simp only [step, publish, publishSrt, put, unpublish, play_eq, dump, leave, edgeRequest, edgeOpen, edgeEnd, edgeDrop]
  all_goals (repeat' split) <;> simp [newCache, closeCache]

theorem view_lt {w : World} {i : Nat} {x : Key × Src × Bool} (h : w.view i = some x) : i < w.caches.length := by
  rcases Nat.lt_or_ge i w.caches.length with h1 | h1
  · exact h1
  · rw [view_ge w i h1] at h; simp at h

/-- A closed cache stays closed, whoever fed it. -/
theorem step_closed (w : World) (op : WOp) {i : Nat} {k : Key} {s : Src} (h : w.view i = some (k, s, false)) :
    (w.step op).1.view i = some (k, s, false) := by
  have hlt := view_lt h
  cases op with
  | publish k' =>
    simp only [step, publish]; split
    · exact h
    · rw [view_newCache, if_neg (by omega)]; exact h
  | publishSrt k' =>
    simp only [step, publishSrt]; split
    · exact h
    · rw [view_newCache, if_neg (by simp [newCache]; omega), view_newCache, if_neg (by omega)]; exact h
  | put c p =>
    simp only [step, put]; split
    · exact h
    · split
      · rw [view_modify w _ c _ rfl i (by simp)]; exact h
      · exact h
  | unpublish c =>
    simp only [step, unpublish]; split
    · exact h
    · split
      · split
        · show (w.closeCache c).view i = _
          rw [view_close]; split <;> simp [h]
        · show ((w.closeCache c).closeCache (c + 1)).view i = _
          rw [view_close, view_close]; split <;> split <;> simp [h]
        · exact h
      · exact h
  | play k' =>
    simp only [step, play_eq]; split
    · exact h
    · split
      · exact h
      · rw [view_modify w _ _ _ rfl i (by simp)]; exact h
  | dump c =>
    simp only [step, dump]; split
    · exact h
    · split <;> exact h
  | leave c =>
    simp only [step, leave]; split
    · exact h
    · split
      · exact h
      · rw [view_modify w _ _ _ rfl i (by simp)]; exact h
  | edgeRequest k' =>
    simp only [step, edgeRequest]; split
    · exact h
    · split <;> exact h
  | edgeOpen e =>
    simp only [step, edgeOpen]; split
    · exact h
    · split
      · show (w.newCache _ _ _).view i = _
        rw [view_newCache, if_neg (by omega)]; exact h
      · exact h
  | edgeEnd e =>
    simp only [step, edgeEnd]; split
    · exact h
    · split
      · exact h
      · show (w.closeCache _).view i = _
        rw [view_close]; split <;> simp [h]
      · exact h
  | edgeDrop e =>
    simp only [step, edgeDrop]; split
    · exact h
    · split
      · split <;> exact h
      · exact h

/-- Only its publisher closes a cache that a publisher feeds. -/
theorem step_fed {w : World} {past : Log} (hi : Inv2 w past) (op : WOp) {i : Nat} {k : Key} {s : Src} (hs : s = .plain ∨ s = .srtAv)
    (h : w.view i = some (k, s, true)) (hop : op ≠ .unpublish i) : (w.step op).1.view i = some (k, s, true) := by
  have hlt := view_lt h
  cases op with
  | publish k' =>
    simp only [step, publish]; split
    · exact h
    · rw [view_newCache, if_neg (by omega)]; exact h
  | publishSrt k' =>
    simp only [step, publishSrt]; split
    · exact h
    · rw [view_newCache, if_neg (by simp [newCache]; omega), view_newCache, if_neg (by omega)]; exact h
  | put c p =>
    simp only [step, put]; split
    · exact h
    · split
      · rw [view_modify w _ c _ rfl i (by simp)]; exact h
      · exact h
  | unpublish c =>
    have hc : c ≠ i := fun he => hop (by rw [he])
    simp only [step, unpublish]; split
    · exact h
    · rename_i cc hcc
      split
      · split
        · show (w.closeCache c).view i = _
          rw [view_close, if_neg hc]; exact h
        · rename_i hsrc
          have hv := view_some hcc
          rw [hsrc] at hv
          have ht := hi.twin c _ _ hv
          have hc1 : c + 1 ≠ i := by
            intro he; rw [he, h] at ht; rcases hs with rfl | rfl <;> simp at ht
          show ((w.closeCache c).closeCache (c + 1)).view i = _
          rw [view_close, if_neg hc1, view_close, if_neg hc]; exact h
        · exact h
      · exact h
  | play k' =>
    simp only [step, play_eq]; split
    · exact h
    · split
      · exact h
      · rw [view_modify w _ _ _ rfl i (by simp)]; exact h
  | dump c =>
    simp only [step, dump]; split
    · exact h
    · split <;> exact h
  | leave c =>
    simp only [step, leave]; split
    · exact h
    · split
      · exact h
      · rw [view_modify w _ _ _ rfl i (by simp)]; exact h
  | edgeRequest k' =>
    simp only [step, edgeRequest]; split
    · exact h
    · split <;> exact h
  | edgeOpen e =>
    simp only [step, edgeOpen]; split
    · exact h
    · split
      · show (w.newCache _ _ _).view i = _
        rw [view_newCache, if_neg (by omega)]; exact h
      · exact h
  | edgeEnd e =>
    simp only [step, edgeEnd]; split
    · exact h
    · rename_i ed hed
      split
      · exact h
      · rename_i cid hph
        have hed2 : w.edges[e]? = some ⟨ed.key, .running cid⟩ := by rw [hed, ← hph]
        obtain ⟨b, hb⟩ := hi.edge e ed.key cid hed2
        have hne : cid ≠ i := by
          intro he; rw [he, h] at hb; rcases hs with rfl | rfl <;> simp at hb
        show (w.closeCache _).view i = _
        rw [view_close, if_neg hne]; exact h
      · exact h
  | edgeDrop e =>
    simp only [step, edgeDrop]; split
    · exact h
    · split
      · split <;> exact h
      · exact h

/-- Only its publisher closes a cache that a plain publisher feeds. -/
theorem step_open {w : World} {past : Log} (hi : Inv2 w past) (op : WOp) {i : Nat} {k : Key}
    (h : w.view i = some (k, .plain, true)) (hop : op ≠ .unpublish i) : (w.step op).1.view i = some (k, .plain, true) := step_fed hi op (.inl rfl) h hop

theorem put_closed {w : World} {i : Nat} {k : Key} {s : Src} (h : w.view i = some (k, s, false)) (p : AVPkt) :
    (w.put i p).2 = .bad := by
  unfold view at h
  unfold put
  cases hc : w.caches[i]? with
  | none => rfl
  | some c =>
    rw [hc] at h
    simp at h
    simp [h.2.2]

theorem put_open {w : World} {i : Nat} {k : Key} {s : Src} (h : w.view i = some (k, s, true)) (p : AVPkt) :
    (w.put i p).2 = .ok := by
  unfold view at h
  unfold put
  cases hc : w.caches[i]? with
  | none => rw [hc] at h; simp at h
  | some c =>
    rw [hc] at h
    simp at h
    simp [h.2.2]

theorem unpublish_open {w : World} {i : Nat} {k : Key} (h : w.view i = some (k, .plain, true)) :
    (w.unpublish i).1.view i = some (k, .plain, false) := by
  have h0 := h
  unfold view at h
  unfold unpublish
  cases hc : w.caches[i]? with
  | none => rw [hc] at h; simp at h
  | some c =>
    rw [hc] at h
    simp at h
    simp only [h.2.2, if_true, h.2.1]
    show (w.closeCache i).view i = _
    rw [view_close, if_pos rfl, h0]; rfl

theorem put_view (w : World) (c : Nat) (p : AVPkt) (i : Nat) : (w.put c p).1.view i = w.view i := by
  unfold put
  split
  · rfl
  · split
    · rw [view_modify w _ c _ rfl i (by simp)]
    · rfl

theorem unpublish_srt {w : World} {i : Nat} {k : Key} (h : w.view i = some (k, .srtAv, true)) :
    (w.unpublish i).1.view i = some (k, .srtAv, false) := by
  have h0 := h
  unfold view at h
  unfold unpublish
  cases hc : w.caches[i]? with
  | none => rw [hc] at h; simp at h
  | some c =>
    rw [hc] at h
    simp at h
    simp only [h.2.2, if_true, h.2.1]
    show ((w.closeCache i).closeCache (i + 1)).view i = _
    rw [view_close, if_neg (by omega), view_close, if_pos rfl, h0]; rfl

theorem received_append (c : Nat) (l l' : Log) : received c (l ++ l') = received c l ++ received c l' := by
  induction l with
  | nil => rfl
  | cons x l ih => rw [List.cons_append, received_cons, ih, ← List.append_assoc, ← received_cons]

theorem received_other {c : Nat} {op : WOp} (o : WOut) (h : op ≠ .dump c) : received c [(op, o)] = [] := by
  cases op <;> cases o <;> simp [received]
  rename_i d _
  intro he
  exact absurd (by rw [he]) h

theorem published_other {cid : Nat} {op : WOp} (o : WOut) (h : ∀ p, op ≠ .put cid p) : publishedTo cid [(op, o)] = [] := by
  cases op <;> cases o <;> simp [publishedTo]
  rename_i d p
  exact fun he => absurd (by rw [he]) (h p)

theorem published_bad {cid : Nat} {p : AVPkt} : publishedTo cid [(.put cid p, .bad)] = [] := rfl

theorem run_inv (ops : List WOp) {w : World} {past : Log} (h : Inv w past) : Inv (w.run ops).1 (past ++ (w.run ops).2) := by
  induction ops generalizing w past with
  | nil => simpa [run] using h
  | cons op ops ih =>
    obtain ⟨a, b⟩ := run_snd_cons w op ops
    have := ih (step_inv h op)
    rw [a, b]
    simpa [List.append_assoc] using this

end Sps.World

namespace Sps.HttpStream
open Spec FlvMuxer

/-- The response object of a player once the head is out. -/
def rspSent : HttpRsp := { rsp0 with sent := true }

theorem sink_write (s : Sink) (d : List UInt8) (h : ∀ e ∈ s.fails, ¬ isRefusal e) :
    (∀ e ∈ (s.write d).2.fails, ¬ isRefusal e) ∧ ((s.write d).1 ≠ Err.SUCCESS → ¬ isRefusal (s.write d).1) := by
  unfold Sink.write
  cases hf : s.fails with
  | nil => simp [hf]
  | cons e es =>
    rw [hf] at h
    by_cases he : e = Err.SUCCESS
    · simp only [if_pos he]
      exact ⟨fun x hx => h x (List.mem_cons_of_mem _ hx), fun hx => absurd he hx⟩
    · simp only [if_neg he]
      exact ⟨fun x hx => h x (List.mem_cons_of_mem _ hx), fun _ => h e (by simp)⟩

/-- Good states of a player's response. -/
def Good (x : HttpRsp × Sink) : Prop := x.1 = rspSent ∧ ∀ e ∈ x.2.fails, ¬ isRefusal e

theorem write_good (reason : Int → Text) (s : Sink) (d : List UInt8) :
    write reason (rspSent, s) d = if d.length > 0 then ((s.write d).1, (rspSent, (s.write d).2)) else (Err.SUCCESS, (rspSent, s)) := by
  simp only [write, HttpRsp.write, HttpRsp.writeBody, rspSent, rsp0, HttpRsp.init, if_true, ne_eq, not_true_eq_false, if_false,
    Bool.false_eq_true]
  by_cases hd : d.length > 0
  · simp only [if_pos hd]
    split <;> rfl
  · simp only [if_neg hd]
    simp

theorem appends_http (reason : Int → Text) :
    Appends (write reason) (fun x => x.2.out) Good (fun x => x.2.fails = []) (fun e => ¬ isRefusal e) where
  pre := by
    rintro ⟨r, s⟩ d ⟨hr, hf⟩
    have hr : r = rspSent := hr
    subst hr
    rw [write_good]
    by_cases hd : d.length > 0
    · simp only [if_pos hd]
      have hs := sink_write s d hf
      rcases write_cases s d with ⟨a, b⟩ | ⟨a, b⟩
      · exact ⟨d, b, List.prefix_refl _, fun _ => ⟨rfl, rfl, hs.1⟩, hs.2⟩
      · exact ⟨[], by rw [b]; simp, by simp, fun h => absurd h a, hs.2⟩
    · simp only [if_neg hd]
      have : d = [] := by cases d <;> simp_all
      subst this
      exact ⟨[], by simp, by simp, fun _ => ⟨rfl, rfl, hf⟩, fun h => absurd rfl h⟩
  live := by
    rintro ⟨r, s⟩ d ⟨hr, hf⟩ h
    have hr : r = rspSent := hr
    subst hr
    rw [write_good]
    by_cases hd : d.length > 0
    · simp only [if_pos hd, write_ok s d h]
      exact ⟨trivial, h⟩
    · simp only [if_neg hd]
      exact ⟨trivial, h⟩

theorem headText_rsp0 (reason : Int → Text) : rsp0.headText reason = okHead reason := by
  simp only [HttpRsp.headText, rsp0, HttpRsp.init, HttpRsp.framing, okHead]
  have h : Text.decInt 200 = ascii "200" := by decide +kernel
  have h1 : ascii "HTTP/1.1 200 " = ascii "HTTP/1.1 " ++ ascii "200" ++ ascii " " := by decide +kernel
  simp [h, h1, Text.crlf, List.append_assoc]

theorem writeHeader_spec (reason : Int → Text) (s : Sink) (hf : ∀ e ∈ s.fails, ¬ isRefusal e) :
    ∃ e x sent, writeHeaderTo (write reason) none (rsp0, s) = (e, x) ∧ x.2.out = s.out ++ sent ∧ sent <+: okHead reason ++ Flv.fileHeader ∧
      (e = Err.SUCCESS → sent = okHead reason ++ Flv.fileHeader ∧ Good x) ∧ (e ≠ Err.SUCCESS → ¬ isRefusal e) ∧
      (s.fails = [] → e = Err.SUCCESS ∧ x.2.fails = []) := by
  have hw : writeHeaderTo (write reason) none (rsp0, s) =
      if (s.write (okHead reason)).1 ≠ Err.SUCCESS then ((s.write (okHead reason)).1, (rspSent, (s.write (okHead reason)).2))
      else write reason (rspSent, (s.write (okHead reason)).2) Flv.fileHeader := by
    simp only [writeHeaderTo, write, HttpRsp.write, HttpRsp.writeHeader, headText_rsp0]
    have h0 : rsp0.sent = false := rfl
    have h1 : rspSent.sent = true := rfl
    simp only [h0, Bool.false_eq_true, if_false]
    by_cases he : (s.write (okHead reason)).1 = Err.SUCCESS
    · simp only [he, h1]; rfl
    · simp only [ne_eq, he, not_false_eq_true, if_true]; rfl
  have hs := sink_write s (okHead reason) hf
  rcases write_cases s (okHead reason) with ⟨a, b⟩ | ⟨a, b⟩
  · obtain ⟨sent, p1, p2, p3, p4⟩ := (appends_http reason).pre (rspSent, (s.write (okHead reason)).2) Flv.fileHeader ⟨rfl, hs.1⟩
    refine ⟨_, _, okHead reason ++ sent, by rw [hw, if_neg (by simpa using a)], ?_, ?_, ?_, p4, ?_⟩
    · rw [p1, b, List.append_assoc]
    · exact (List.prefix_append_right_inj _).2 p2
    · intro h; exact ⟨by rw [(p3 h).1], (p3 h).2⟩
    · intro h
      exact (appends_http reason).live _ _ ⟨rfl, hs.1⟩ (by rw [write_ok s _ h]; exact h)
  · refine ⟨_, _, [], by rw [hw, if_pos a], by simpa using b, by simp, fun h => absurd h a, hs.2, ?_⟩
    intro h
    rw [write_ok s _ h] at a
    exact absurd rfl a

theorem close_player (reason : Int → Text) (c : Nat) (e : Err) (r : HttpRsp) (s : Sink) (he : ¬ isRefusal e) :
    close reason (.player c) e r s = ⟨.done (.player c) e, r, s⟩ := by
  unfold isRefusal at he
  simp only [close, finish]
  rw [if_neg (fun h => he (.inl h)), if_neg (fun h => he (.inr h))]

end Sps.HttpStream
