import Verif.Spec.Relay
import Verif.Lemmas.ServeInv
/-! # The invariant of pulls -/
namespace Sps.World
open Spec

/-- Only the end of the pull closes the cache that a pull feeds. -/
theorem step_open_edge {w : World} {past : Log} (hi : Inv2 w past) (op : WOp) {i : Nat} {k : Key} {e0 : Nat}
    (h : w.view i = some (k, .edge e0, true)) (hop : op ≠ .edgeEnd e0) : (w.step op).1.view i = some (k, .edge e0, true) := by
  have hlt := view_lt h
  cases op with
  | publish k' =>
    simp only [step, publish]; split
    · exact h
    · rw [view_newCache, if_neg (by omega)]; exact h
  | publishSrt k' =>
    simp only [step, publishSrt]; split
    · exact h
    · rw [view_newCache, if_neg (by simp [newCache]; omega), view_newCache, if_neg (by omega)]; exact h
  | put c p =>
    simp only [step, put]; split
    · exact h
    · split
      · rw [view_modify w _ c _ rfl i (by simp)]; exact h
      · exact h
  | unpublish c =>
    simp only [step, unpublish]; split
    · exact h
    · rename_i cc hcc
      have hv := view_some hcc
      split
      · split
        · rename_i hs
          rw [hs] at hv
          have hc : c ≠ i := by rintro rfl; rw [h] at hv; simp at hv
          show (w.closeCache c).view i = _
          rw [view_close, if_neg hc]; exact h
        · rename_i hs
          rw [hs] at hv
          have hc : c ≠ i := by rintro rfl; rw [h] at hv; simp at hv
          have ht := hi.twin c _ _ hv
          have hc1 : c + 1 ≠ i := by
            intro he; rw [he, h] at ht; simp at ht
          show ((w.closeCache c).closeCache (c + 1)).view i = _
          rw [view_close, if_neg hc1, view_close, if_neg hc]; exact h
        · exact h
      · exact h
  | play k' =>
    simp only [step, play_eq]; split
    · exact h
    · split
      · exact h
      · rw [view_modify w _ _ _ rfl i (by simp)]; exact h
  | dump c =>
    simp only [step, dump]; split
    · exact h
    · split <;> exact h
  | leave c =>
    simp only [step, leave]; split
    · exact h
    · split
      · exact h
      · rw [view_modify w _ _ _ rfl i (by simp)]; exact h
  | edgeRequest k' =>
    simp only [step, edgeRequest]; split
    · exact h
    · split <;> exact h
  | edgeOpen e =>
    simp only [step, edgeOpen]; split
    · exact h
    · split
      · show (w.newCache _ _ _).view i = _
        rw [view_newCache, if_neg (by omega)]; exact h
      · exact h
  | edgeEnd e =>
    simp only [step, edgeEnd]; split
    · exact h
    · rename_i ed hed
      split
      · exact h
      · rename_i cid hph
        have hed2 : w.edges[e]? = some ⟨ed.key, .running cid⟩ := by rw [hed, ← hph]
        obtain ⟨b, hb⟩ := hi.edge e ed.key cid hed2
        have hne : cid ≠ i := by
          rintro rfl
          rw [h] at hb
          simp at hb
          exact hop (by rw [hb.2.1])
        show (w.closeCache _).view i = _
        rw [view_close, if_neg hne]; exact h
      · exact h
  | edgeDrop e =>
    simp only [step, edgeDrop]; split
    · exact h
    · split
      · split <;> exact h
      · exact h

/-- Only its own pieces change a pull. -/
theorem step_edge {w : World} (op : WOp) {e : Nat} {x : Edge} (h : w.edges[e]? = some x) (h1 : op ≠ .edgeOpen e) (h2 : op ≠ .edgeEnd e) :
    (w.step op).1.edges[e]? = some x := by
  have hlt := get_len h
  cases op <;> simp only [step, publish, publishSrt, put, unpublish, play_eq, dump, leave, edgeRequest, edgeOpen, edgeEnd, edgeDrop]
  case edgeOpen e' =>
    have : e' ≠ e := by rintro rfl; exact h1 rfl
    split
    · exact h
    · split
      · show (w.edges.modify e' _)[e]? = _
        rw [List.getElem?_modify]; simp [this, h]
      · exact h
  case edgeEnd e' =>
    have : e' ≠ e := by rintro rfl; exact h2 rfl
    split
    · exact h
    · split
      · show (w.edges.modify e' _)[e]? = _
        rw [List.getElem?_modify]; simp [this, h]
      · show (w.edges.modify e' _)[e]? = _
        rw [List.getElem?_modify]; simp [this, h]
      · exact h
  case edgeRequest k =>
    split
    · exact h
    · split
      · exact h
      · show (w.edges ++ _)[e]? = _
        rw [List.getElem?_append_left hlt]; exact h
  all_goals (repeat' split) <;> first | exact h | (simp [newCache, closeCache]; exact h)

/-- New pulls. -/
theorem step_started (w : World) (op : WOp) :
    (∃ e, (w.step op).2 = .edgeStarted e ∧ e = w.edges.length ∧ (w.step op).1.edges.length = w.edges.length + 1 ∧ ∃ k, (w.step op).1.edges[e]? = some ⟨k, .starting⟩) ∨
    ((∀ e, (w.step op).2 ≠ .edgeStarted e) ∧ (w.step op).1.edges.length = w.edges.length) := by
  cases op <;> simp only [step, publish, publishSrt, put, unpublish, play_eq, dump, leave, edgeRequest, edgeOpen, edgeEnd, edgeDrop]
  case edgeRequest k =>
    split
    · exact .inr ⟨by simp, rfl⟩
    · split
      · exact .inr ⟨by simp, rfl⟩
      · exact .inl ⟨_, rfl, rfl, by simp, k, by simp⟩
  all_goals (repeat' split) <;> exact .inr ⟨by simp, by simp [newCache, closeCache]⟩

end Sps.World

namespace Sps.Relay
open Spec Spec.Http World Sys HttpStream FlvDemuxer RProg StreamProps

/-- A request that stands for the buffer of a pull. -/
def carrier (mem : List UInt8) : Req := ⟨.mk .root [] (fun _ => none) [], {}, ⟨[], 0⟩, [], mem, [], .http⟩

/-- What is true of a pull; `past` are the pieces so far. -/
def PullOk (past : List Op) (L : Log) (w : World) (e : Nat) : Pull → Prop
  | .asks _ => ∃ k, w.edges[e]? = some ⟨k, .starting⟩
  | .reads cid rd headed => (∃ k, w.edges[e]? = some ⟨k, .running cid⟩ ∧ w.view cid = some (k, .edge e, true)) ∧ (.edgeOpen e, .published cid) ∈ L ∧
      ∃ ch cl io mem, .answer e (.opened 200 ch cl io) mem ∈ past ∧
        ∀ b closed, BodyComes ch cl io b closed → Progress (carrier mem) b closed rd headed (publishedTo cid L)
  | .other cid => ∃ k, w.edges[e]? = some ⟨k, .running cid⟩
  | .over none => True
  | .over (some cid) => (∃ k, w.view cid = some (k, .edge e, false)) ∧ (.edgeOpen e, .published cid) ∈ L ∧
      ∃ ch cl io mem, .answer e (.opened 200 ch cl io) mem ∈ past ∧
        ∀ b closed, BodyComes ch cl io b closed → ∃ n0, ∀ n, n0 ≤ n → uploaded (carrier mem) b closed n = publishedTo cid L

theorem PullOk.mono {past more : List Op} {L : Log} {w : World} {e : Nat} {p : Pull} (h : PullOk past L w e p) : PullOk (past ++ more) L w e p := by
  cases p with
  | asks u => exact h
  | reads cid rd headed =>
    obtain ⟨a, b, ch, cl, io, mem, c, d⟩ := h
    exact ⟨a, b, ch, cl, io, mem, List.mem_append_left _ c, d⟩
  | other cid => exact h
  | over cid =>
    cases cid with
    | none => trivial
    | some cid =>
      obtain ⟨a, b, ch, cl, io, mem, c, d⟩ := h
      exact ⟨a, b, ch, cl, io, mem, List.mem_append_left _ c, d⟩

theorem PullOk.frame {past : List Op} {L : Log} {w : World} {e : Nat} {p : Pull} (h : PullOk past L w e p) (hi : Inv2 w L) (op : WOp)
    (h1 : op ≠ .edgeOpen e) (h2 : op ≠ .edgeEnd e) (h3 : ∀ cid x, op = .put cid x → feeds cid p = false) :
    PullOk past (L ++ [(op, (w.step op).2)]) (w.step op).1 e p := by
  cases p with
  | asks u =>
    obtain ⟨k, h⟩ := h
    exact ⟨k, step_edge op h h1 h2⟩
  | reads cid rd headed =>
    obtain ⟨⟨k, a1, a2⟩, b, ch, cl, io, mem, c, d⟩ := h
    refine ⟨⟨k, step_edge op a1 h1 h2, step_open_edge hi op a2 h2⟩, List.mem_append_left _ b, ch, cl, io, mem, c, ?_⟩
    have : publishedTo cid [(op, (w.step op).2)] = [] := by
      apply published_other
      rintro x rfl
      have := h3 cid x rfl
      simp [feeds] at this
    rw [publishedTo_append, this, List.append_nil]
    exact d
  | other cid =>
    obtain ⟨k, h⟩ := h
    exact ⟨k, step_edge op h h1 h2⟩
  | over cid =>
    cases cid with
    | none => trivial
    | some cid =>
      obtain ⟨⟨k, a⟩, b, ch, cl, io, mem, c, d⟩ := h
      refine ⟨⟨k, step_closed w op a⟩, List.mem_append_left _ b, ch, cl, io, mem, c, ?_⟩
      have : publishedTo cid [(op, (w.step op).2)] = [] := by
        by_cases hp : ∃ x, op = .put cid x
        · obtain ⟨x, rfl⟩ := hp
          simp only [World.step, put_closed a x]; rfl
        · exact published_other _ (fun x he => hp ⟨x, he⟩)
      rw [publishedTo_append, this, List.append_nil]
      exact d

/-- The invariant of all pulls. -/
structure RInv (past : List Op) (L : Log) (w : World) (pulls : List Pull) : Prop where
  len : pulls.length = w.edges.length
  ok : ∀ (e : Nat) p, pulls[e]? = some p → PullOk past L w e p

theorem started_nil (u : Option Url) : started u [] = [] := rfl

theorem started_cons (u : Option Url) (x : WOp × WOut) (l : Log) : started u (x :: l) = started u [x] ++ started u l := by
  unfold started
  rw [← List.filterMap_append]; rfl

/-- A piece that is not one of a pull. -/
theorem RInv.op {past : List Op} {L : Log} {w : World} {pulls : List Pull} (h : RInv past L w pulls) (hi : Inv2 w L) (op : WOp)
    (h1 : ∀ e, op ≠ .edgeOpen e) (h2 : ∀ e, op ≠ .edgeEnd e) (h3 : ∀ cid x, op = .put cid x → ∀ (e : Nat) p, pulls[e]? = some p → feeds cid p = false) (u : Option Url) :
    RInv past (L ++ [(op, (w.step op).2)]) (w.step op).1 (pulls ++ started u [(op, (w.step op).2)]) := by
  rcases step_started w op with ⟨e, s1, s2, s3, k, s4⟩ | ⟨s1, s2⟩
  · have hs : started u [(op, (w.step op).2)] = [.asks u] := by simp [started, s1]
    rw [hs]
    refine ⟨by simp [h.len, s3], ?_⟩
    intro i p hp
    rcases Nat.lt_trichotomy i pulls.length with hlt | heq | hgt
    · rw [List.getElem?_append_left hlt] at hp
      exact (h.ok i p hp).frame hi op (h1 i) (h2 i) (fun cid x hx => h3 cid x hx i p hp)
    · subst heq
      simp only [List.getElem?_concat_length, Option.some.injEq] at hp
      subst hp
      exact ⟨k, by rw [h.len, ← s2]; exact s4⟩
    · rw [List.getElem?_eq_none (by simp; omega)] at hp
      simp at hp
  · have hs : started u [(op, (w.step op).2)] = [] := by
      unfold started
      cases ho : (w.step op).2 <;> simp
      rename_i e
      exact absurd ho (s1 e)
    rw [hs, List.append_nil]
    refine ⟨by rw [h.len, s2], ?_⟩
    intro i p hp
    exact (h.ok i p hp).frame hi op (h1 i) (h2 i) (fun cid x hx => h3 cid x hx i p hp)

theorem feeds_started {cid : Nat} {u : Option Url} {l : Log} {pulls : List Pull} (h : ∀ (e : Nat) p, pulls[e]? = some p → feeds cid p = false) :
    ∀ (e : Nat) p, (pulls ++ started u l)[e]? = some p → feeds cid p = false := by
  intro e p hp
  rcases Nat.lt_or_ge e pulls.length with hlt | hge
  · rw [List.getElem?_append_left hlt] at hp
    exact h e p hp
  · rw [List.getElem?_append_right hge] at hp
    have := List.mem_of_getElem? hp
    unfold started at this
    rw [List.mem_filterMap] at this
    obtain ⟨x, -, hx⟩ := this
    split at hx
    · simp only [Option.some.injEq] at hx
      subst hx
      rfl
    · simp at hx

theorem RInv.ops (u : Option Url) (ops : List WOp) : ∀ {past : List Op} {L : Log} {w : World} {pulls : List Pull}, RInv past L w pulls → Inv2 w L →
    (∀ op ∈ ops, (∀ e, op ≠ .edgeOpen e) ∧ (∀ e, op ≠ .edgeEnd e) ∧ ∀ cid x, op = .put cid x → ∀ (e : Nat) p, pulls[e]? = some p → feeds cid p = false) →
    RInv past (L ++ (w.run ops).2) (w.run ops).1 (pulls ++ started u (w.run ops).2) := by
  induction ops with
  | nil => intro past L w pulls h _ _; simpa [World.run, started] using h
  | cons op ops ih =>
    intro past L w pulls h hi ho
    obtain ⟨a, b⟩ := run_snd_cons w op ops
    obtain ⟨o1, o2, o3⟩ := ho op (by simp)
    have := ih (h.op hi op o1 o2 o3 u) (step_inv2 hi op) (fun o hm => ?_)
    · rw [a, b, started_cons]
      simpa [List.append_assoc] using this
    · obtain ⟨p1, p2, p3⟩ := ho o (by simp [hm])
      exact ⟨p1, p2, fun cid x hx => feeds_started (p3 cid x hx)⟩

theorem RInv.mono {past more : List Op} {L : Log} {w : World} {pulls : List Pull} (h : RInv past L w pulls) : RInv (past ++ more) L w pulls :=
  ⟨h.len, fun e p hp => (h.ok e p hp).mono⟩

end Sps.Relay

namespace Sps.Sys
open Spec HttpStream World

/-- The pieces of the stream world that a piece of the server makes. -/
def Plain (s : Sys) (o : WOp) : Prop :=
  (∀ e, o ≠ .edgeOpen e) ∧ (∀ e, o ≠ .edgeEnd e) ∧ ∀ cid p, o = .put cid p → ∃ (i : Nat) (k : Conn), s.conns[i]? = some k ∧ k.job.owns (.put cid p) = true

theorem plain_of (s : Sys) {o : WOp} (h1 : ∀ e, o ≠ .edgeOpen e) (h2 : ∀ e, o ≠ .edgeEnd e) (h3 : ∀ cid p, o ≠ .put cid p) : Plain s o :=
  ⟨h1, h2, fun cid p h => absurd h (h3 cid p)⟩

theorem startView_log (env : Site.Env) (s : Sys) (w : World) (c : Nat) (f : Reg) (tag : List UInt8) (r : HttpRsp) (snk : Sink) :
    ∀ x ∈ (startView env w c f tag r snk).2.1, Plain s x.1 := by
  unfold startView
  split
  · split
    split
    · simp only [List.mem_singleton]
      rintro x rfl
      exact plain_of s (by simp) (by simp) (by simp)
    · simp
  · simp

theorem afterAttach_log (env : Site.Env) (s : Sys) (k : Key) (y : StreamHandler.Join × World) (tag : List UInt8) (r : HttpRsp) (snk : Sink) :
    ∀ x ∈ (afterAttach env k y tag r snk).2.1, Plain s x.1 := by
  unfold afterAttach
  split
  · rename_i c cid f w
    have := startView_log env s w c f tag r snk
    split
    rename_i h
    rw [h] at this
    simp only [List.mem_cons]
    rintro x (rfl | hx)
    · exact plain_of s (by simp) (by simp) (by simp)
    · exact this x hx
  · simp
  · simp

theorem rtmpAttach_log (s : Sys) (k : Key) (y : StreamHandler.Join × World) (fails : List Err) :
    ∀ x ∈ (rtmpAttach k y fails).2.1, Plain s x.1 := by
  unfold rtmpAttach
  split
  · simp only [List.mem_singleton]
    rintro x rfl
    exact plain_of s (by simp) (by simp) (by simp)
  · simp
  · simp

theorem rtmpRequest_log (env : Site.Env) (s : Sys) (q : Req) (pub : Bool) (ms : List RtmpMsg) (cl : Err) :
    ∀ x ∈ (s.rtmpRequest env q pub ms cl).2, Plain s x.1 := by
  unfold rtmpRequest
  split
  · split
    · simp only [List.mem_singleton]
      rintro x rfl
      exact plain_of s (by simp) (by simp) (by simp)
    · simp
  · split
    · simp only [List.mem_singleton]
      rintro x rfl
      exact plain_of s (by simp) (by simp) (by simp)
    · exact rtmpAttach_log s _ _ _

theorem httpRequest_log (env : Site.Env) (s : Sys) (q : Req) : ∀ x ∈ (s.httpRequest env q).2, Plain s x.1 := by
  unfold httpRequest
  dsimp only
  split
  · split
    · simp only [List.mem_singleton]
      rintro x rfl
      exact plain_of s (by simp) (by simp) (by simp)
    · simp
  · split
    · simp only [List.mem_singleton]
      rintro x rfl
      exact plain_of s (by simp) (by simp) (by simp)
    · exact afterAttach_log env s _ _ _ _ _

theorem srtRequest_log (s : Sys) (q : Req) : ∀ x ∈ (s.srtRequest q).2, Plain s x.1 := by
  unfold srtRequest
  dsimp only
  split
  · split
    · simp only [List.mem_singleton]
      rintro x rfl
      exact plain_of s (by simp) (by simp) (by simp)
    · simp
  · split
    · simp only [List.mem_singleton]
      rintro x rfl
      exact plain_of s (by simp) (by simp) (by simp)
    · simp

theorem putAll_log (cid : Nat) (ps : List AVPkt) (w : World) : ∀ x ∈ (putAll cid w ps).2, ∃ p, x.1 = .put cid p := by
  induction ps generalizing w with
  | nil => simp [putAll]
  | cons p ps ih =>
    simp only [putAll, List.mem_cons]
    rintro x (rfl | hx)
    · exact ⟨p, rfl⟩
    · exact ih _ x hx

theorem request_log (env : Site.Env) (s : Sys) (q : Req) : ∀ x ∈ (s.request env q).2, Plain s x.1 := by
  unfold request
  split
  · exact httpRequest_log env s q
  · exact rtmpRequest_log env s q _ _ _
  · exact srtRequest_log s q

theorem wake_log (env : Site.Env) (s : Sys) (i : Nat) (ret : Err) : ∀ x ∈ (s.wake env i ret).2, Plain s x.1 := by
  unfold wake
  split
  · rename_i u tag own r snk hi
    have h0 : ∀ x ∈ (dropPull s.w own).2, Plain s x.1 := by
      cases own with
      | none => simp [dropPull]
      | some e =>
        simp only [dropPull, List.mem_singleton]
        rintro x rfl
        exact plain_of s (by simp) (by simp) (by simp)
    split
    rename_i w l0 hd
    rw [hd] at h0
    have h1 := afterAttach_log env s (StreamHandler.key u) (StreamHandler.attach env.outs env.junk ret u w) tag r snk
    split
    rename_i h
    rw [h] at h1
    intro x hx
    rcases List.mem_append.1 hx with hx | hx
    · exact h0 x hx
    · exact h1 x hx
  · rename_i u fails own r snk hi
    have h0 : ∀ x ∈ (dropPull s.w own).2, Plain s x.1 := by
      cases own with
      | none => simp [dropPull]
      | some e =>
        simp only [dropPull, List.mem_singleton]
        rintro x rfl
        exact plain_of s (by simp) (by simp) (by simp)
    split
    rename_i w l0 hd
    rw [hd] at h0
    have h1 := rtmpAttach_log s (StreamHandler.key u) (StreamHandler.attach env.outs env.junk ret u w) fails
    split
    rename_i h
    rw [h] at h1
    intro x hx
    rcases List.mem_append.1 hx with hx | hx
    · exact h0 x hx
    · exact h1 x hx
  · simp

theorem step_log {env : Site.Env} {s s' : Sys} {op : Op} {l : Log} (h : s.step env op = some (s', l)) : ∀ x ∈ l, op = .other x.1 ∨ Plain s x.1 := by
  cases op with
  | other o =>
    simp only [Sys.step] at h
    split at h
    · simp only [Option.some.injEq, Prod.mk.injEq] at h
      rw [← h.2]; simp
    · simp only [Option.some.injEq, Prod.mk.injEq] at h
      rw [← h.2]
      simp only [List.mem_singleton]
      rintro x rfl
      exact .inl rfl
  | request q =>
    simp only [Sys.step, Option.some.injEq] at h
    have := request_log env s q
    rw [h] at this
    exact fun x hx => .inr (this x hx)
  | wake i ret =>
    simp only [Sys.step, Option.some.injEq] at h
    have := wake_log env s i ret
    rw [h] at this
    exact fun x hx => .inr (this x hx)
  | run i =>
    intro x hx
    refine .inr ?_
    simp only [Sys.step] at h
    split at h
    · rename_i cid rd hd r snk hi
      unfold runPub at h
      have hend : ∀ e, s.endPub env i cid e r snk = (s', l) → Plain s x.1 := by
        intro e he
        unfold endPub at he
        simp only [Prod.mk.injEq] at he
        rw [← he.2] at hx
        simp only [List.mem_singleton] at hx
        subst hx
        exact plain_of s (by simp) (by simp) (by simp)
      split at h
      · cases hr : FlvDemuxer.readPacket.runOn rd with
        | none => rw [hr] at h; simp at h
        | some y =>
          obtain ⟨⟨e, o⟩, rd'⟩ := y
          rw [hr] at h
          simp only [Option.map_some, Option.some.injEq] at h
          cases o with
          | none => exact hend _ h
          | some p =>
            simp only [Prod.mk.injEq] at h
            rw [← h.2] at hx
            simp only [List.mem_singleton] at hx
            subst hx
            refine ⟨by simp, by simp, fun cid' p' he => ?_⟩
            simp only [WOp.put.injEq] at he
            obtain ⟨rfl, -⟩ := he
            exact ⟨i, _, hi, by simp [Job.owns]⟩
      · cases hr : FlvDemuxer.readHeader.runOn rd with
        | none => rw [hr] at h; simp at h
        | some y =>
          obtain ⟨⟨e, o⟩, rd'⟩ := y
          rw [hr] at h
          simp only [Option.map_some, Option.some.injEq] at h
          cases o with
          | none => exact hend _ h
          | some p =>
            simp only [Prod.mk.injEq] at h
            rw [← h.2] at hx
            simp at hx
    · rename_i c mux r snk hi
      have hend : ∀ w ps e r snk, s.endView env w [(.dump c, .pkts ps)] i c e r snk = (s', l) → Plain s x.1 := by
        intro w ps e r snk he
        unfold endView at he
        simp only [Prod.mk.injEq] at he
        rw [← he.2] at hx
        simp only [List.cons_append, List.nil_append, List.mem_cons, List.not_mem_nil, or_false] at hx
        rcases hx with rfl | rfl
        · exact plain_of s (by simp) (by simp) (by simp)
        · exact plain_of s (by simp) (by simp) (by simp)
      unfold runView at h
      split at h
      · simp only [Option.some.injEq] at h
        exact hend _ _ _ _ _ h
      · rename_i w ps _ hd
        cases hr : mux.writePacketsTo (write env.reason) ps (r, snk) with
        | none => rw [hr] at h; simp at h
        | some y =>
          obtain ⟨e, m', r', snk'⟩ := y
          rw [hr] at h
          simp only [Option.map_some, Option.some.injEq] at h
          split at h
          · exact hend _ _ _ _ _ h
          · simp only [Prod.mk.injEq] at h
            rw [← h.2] at hx
            simp only [List.mem_singleton] at hx
            subst hx
            exact plain_of s (by simp) (by simp) (by simp)
      · simp only [Option.some.injEq, Prod.mk.injEq] at h
        rw [← h.2] at hx; simp at hx
    · rename_i c r snk hi
      unfold runNull at h
      split at h
      · simp only [Option.some.injEq] at h
        unfold endView at h
        simp only [Prod.mk.injEq] at h
        rw [← h.2] at hx
        simp only [List.cons_append, List.nil_append, List.mem_cons, List.not_mem_nil, or_false] at hx
        rcases hx with rfl | rfl
        · exact plain_of s (by simp) (by simp) (by simp)
        · exact plain_of s (by simp) (by simp) (by simp)
      · split at h
        · simp at h
        · simp only [Option.some.injEq, Prod.mk.injEq] at h
          rw [← h.2] at hx
          simp only [List.mem_singleton] at hx
          subst hx
          exact plain_of s (by simp) (by simp) (by simp)
      · simp only [Option.some.injEq, Prod.mk.injEq] at h
        rw [← h.2] at hx; simp at hx
    · rename_i cid ms closed r snk hi
      unfold runRtmpPub at h
      cases hr : RtmpDemuxer.readPacket closed ms with
      | none => rw [hr] at h; simp at h
      | some y =>
        obtain ⟨⟨e, o⟩, ms'⟩ := y
        rw [hr] at h
        simp only [Option.map_some, Option.some.injEq] at h
        cases o with
        | none =>
          simp only [Prod.mk.injEq] at h
          rw [← h.2] at hx
          simp only [List.mem_singleton] at hx
          subst hx
          exact plain_of s (by simp) (by simp) (by simp)
        | some p =>
          simp only [Prod.mk.injEq] at h
          rw [← h.2] at hx
          simp only [List.mem_singleton] at hx
          subst hx
          refine ⟨by simp, by simp, fun cid' p' he => ?_⟩
          simp only [WOp.put.injEq] at he
          obtain ⟨rfl, -⟩ := he
          exact ⟨i, _, hi, by simp [Job.owns]⟩
    · rename_i c ms r snk hi
      have hend : ∀ w ps e snk, s.endRtmpView w [(.dump c, .pkts ps)] i c e snk = (s', l) → Plain s x.1 := by
        intro w ps e snk he
        unfold endRtmpView at he
        simp only [Prod.mk.injEq] at he
        rw [← he.2] at hx
        simp only [List.cons_append, List.nil_append, List.mem_cons, List.not_mem_nil, or_false] at hx
        rcases hx with rfl | rfl
        · exact plain_of s (by simp) (by simp) (by simp)
        · exact plain_of s (by simp) (by simp) (by simp)
      unfold runRtmpView at h
      split at h
      · simp only [Option.some.injEq] at h
        exact hend _ _ _ _ h
      · rename_i w ps _ hd
        cases hr : rtmpWrite ps ms with
        | mk e ms' =>
          rw [hr] at h
          simp only [Option.some.injEq] at h
          split at h
          · exact hend _ _ _ _ h
          · simp only [Prod.mk.injEq] at h
            rw [← h.2] at hx
            simp only [List.mem_singleton] at hx
            subst hx
            exact plain_of s (by simp) (by simp) (by simp)
      · simp only [Option.some.injEq, Prod.mk.injEq] at h
        rw [← h.2] at hx; simp at hx
    · rename_i cid rd ctx st r snk hi
      have hput : ∀ y : WOp × WOut, (∃ p, y.1 = .put cid p) ∨ (∃ p, y.1 = .put (cid + 1) p) → Plain s y.1 := by
        intro y hy
        refine ⟨?_, ?_, fun cid' p' he => ?_⟩
        · rcases hy with ⟨p, hy⟩ | ⟨p, hy⟩ <;> rw [hy] <;> simp
        · rcases hy with ⟨p, hy⟩ | ⟨p, hy⟩ <;> rw [hy] <;> simp
        · refine ⟨i, _, hi, ?_⟩
          rcases hy with ⟨p, hy⟩ | ⟨p, hy⟩ <;>
          · rw [hy] at he
            simp only [WOp.put.injEq] at he
            obtain ⟨rfl, -⟩ := he
            simp [Job.owns]
      have hend : ∀ w l0 e, (∀ y ∈ l0, ∃ p, y.1 = .put (cid + 1) p) → s.endSrtPub w l0 i cid e r snk = (s', l) → Plain s x.1 := by
        intro w l0 e h0 he
        unfold endSrtPub at he
        simp only [Prod.mk.injEq] at he
        rw [← he.2, List.mem_append, List.mem_singleton] at hx
        rcases hx with hx | rfl
        · exact hput x (.inr (h0 x hx))
        · exact plain_of s (by simp) (by simp) (by simp)
      unfold runSrtPub at h
      split at h
      · rename_i p st1 hp
        simp only [Option.some.injEq, Prod.mk.injEq] at h
        rw [← h.2, List.mem_singleton] at hx
        exact hput x (.inl ⟨p, by rw [hx]⟩)
      · cases hac : rd.acquire 188 with
        | none => rw [hac] at h; simp at h
        | some a =>
          obtain ⟨e, rd1⟩ := a
          rw [hac] at h
          simp only [Option.bind_some] at h
          split at h
          · simp only [Option.some.injEq] at h
            exact hend _ _ _ (by simp) h
          · cases hby : rd1.bytes 188 with
            | none => rw [hby] at h; simp at h
            | some y =>
              rw [hby] at h
              simp only [Option.bind_some] at h
              cases hda : TsCtx.decodeAll TsTap.handler 189 ctx (st, []) y.1 with
              | none => rw [hda] at h; simp at h
              | some z =>
                obtain ⟨e, ctx1, st1, raw⟩ := z
                rw [hda] at h
                simp only [Option.map_some, Option.some.injEq] at h
                have hl := putAll_log (cid + 1) raw s.w
                split at h
                · exact hend _ _ _ hl h
                · simp only [Prod.mk.injEq] at h
                  rw [← h.2] at hx
                  exact hput x (.inr (hl x hx))
    · rename_i c r snk hi
      simp only [Option.some.injEq] at h
      have hend : ∀ w ps e snk, s.endSrtView w [(.dump c, .pkts ps)] i c e r snk = (s', l) → Plain s x.1 := by
        intro w ps e snk he
        unfold endSrtView at he
        simp only [Prod.mk.injEq] at he
        rw [← he.2] at hx
        simp only [List.cons_append, List.nil_append, List.mem_cons, List.not_mem_nil, or_false] at hx
        rcases hx with rfl | rfl
        · exact plain_of s (by simp) (by simp) (by simp)
        · exact plain_of s (by simp) (by simp) (by simp)
      unfold runSrtView at h
      split at h
      · exact hend _ _ _ _ h
      · dsimp only at h
        split at h
        · exact hend _ _ _ _ h
        · simp only [Prod.mk.injEq] at h
          rw [← h.2] at hx
          simp only [List.mem_singleton] at hx
          subst hx
          exact plain_of s (by simp) (by simp) (by simp)
      · simp only [Prod.mk.injEq] at h
        rw [← h.2] at hx; simp at hx
    · simp only [Option.some.injEq, Prod.mk.injEq] at h
      rw [← h.2] at hx; simp at hx

end Sps.Sys

namespace Sps.Relay
open Spec Spec.Http World Sys HttpStream FlvDemuxer RProg StreamProps

theorem requestsIn_cons (op : Op) (ops : List Op) : requestsIn (op :: ops) = requestsIn [op] ++ requestsIn ops := by
  unfold requestsIn
  rw [← List.filterMap_append]; rfl

theorem run_one (env : Site.Env) (s : Sys) (op : Sys.Op) : Sys.run env s [op] = s.step env op := by
  simp only [Sys.run]
  cases s.step env op with
  | none => rfl
  | some x => obtain ⟨a, b⟩ := x; simp

theorem also_step {env : Env} {r r' : Relay} {e : Nat} {op : WOp} {p : Pull} {l : Log} (h : r.also env e op p = some (r', l)) :
    r.sys.step env.site (.other op) = some (r'.sys, l) ∧ r'.pulls = r.pulls.set e p := by
  unfold also at h
  cases hs : r.sys.step env.site (.other op) with
  | none => rw [hs] at h; simp at h
  | some x =>
    obtain ⟨s, l'⟩ := x
    rw [hs] at h
    simp only [Option.map_some, Option.some.injEq, Prod.mk.injEq] at h
    obtain ⟨rfl, rfl⟩ := h
    exact ⟨rfl, rfl⟩

/-- A piece is none or one of the server without relaying. -/
theorem step_sys {env : Env} {r r' : Relay} {op : Op} {l : Log} (h : r.step env op = some (r', l)) :
    ∃ sops, Sys.run env.site r.sys sops = some (r'.sys, l) ∧ requestsOf sops = requestsIn [op] := by
  have hal : ∀ {e : Nat} {o : WOp} {p : Pull}, r.also env e o p = some (r', l) → ∃ sops, Sys.run env.site r.sys sops = some (r'.sys, l) ∧ requestsOf sops = [] := by
    intro e o p ha
    exact ⟨[.other o], by rw [run_one]; exact (also_step ha).1, rfl⟩
  have hno : some (r, ([] : Log)) = some (r', l) → ∃ sops, Sys.run env.site r.sys sops = some (r'.sys, l) ∧ requestsOf sops = [] := by
    intro hx
    simp only [Option.some.injEq, Prod.mk.injEq] at hx
    obtain ⟨rfl, rfl⟩ := hx
    exact ⟨[], rfl, rfl⟩
  cases op with
  | sys o u =>
    simp only [step] at h
    split at h
    · rename_i hres
      have : requestsIn [.sys o u] = [] := by
        cases o <;> simp [reserved] at hres
        rfl
      rw [this]
      exact hno h
    · cases hs : r.sys.step env.site o with
      | none => rw [hs] at h; simp at h
      | some x =>
        obtain ⟨s, l'⟩ := x
        rw [hs] at h
        simp only [Option.map_some, Option.some.injEq, Prod.mk.injEq] at h
        obtain ⟨rfl, rfl⟩ := h
        exact ⟨[o], by rw [run_one]; exact hs, by cases o <;> rfl⟩
  | answer e a mem =>
    have : requestsIn [.answer e a mem] = [] := rfl
    rw [this]
    simp only [step] at h
    split at h
    · unfold answer at h
      split at h
      · exact hal h
      · split at h
        · simp at h
        · exact hal h
        · exact hal h
    · exact hno h
  | pass e =>
    have : requestsIn [.pass e] = [] := rfl
    rw [this]
    simp only [step] at h
    split at h
    · rename_i cid rd hd he
      unfold pass at h
      split at h
      · cases hr : readPacket.runOn rd with
        | none => rw [hr] at h; simp at h
        | some y =>
          obtain ⟨⟨e', o⟩, rd'⟩ := y
          rw [hr] at h
          cases o with
          | none => exact hal h
          | some p => exact hal h
      · cases hr : readHeader.runOn rd with
        | none => rw [hr] at h; simp at h
        | some y =>
          obtain ⟨⟨e', o⟩, rd'⟩ := y
          rw [hr] at h
          cases o with
          | none => exact hal h
          | some p =>
            simp only [Option.bind_some, Option.some.injEq, Prod.mk.injEq] at h
            obtain ⟨rfl, rfl⟩ := h
            exact ⟨[], rfl, rfl⟩
    · exact hal h
    · exact hno h

theorem run_append_sys {env : Site.Env} (a b : List Sys.Op) : ∀ {s s1 s2 : Sys} {l1 l2 : Log}, Sys.run env s a = some (s1, l1) → Sys.run env s1 b = some (s2, l2) →
    Sys.run env s (a ++ b) = some (s2, l1 ++ l2) := by
  induction a with
  | nil =>
    intro s s1 s2 l1 l2 h1 h2
    simp only [Sys.run, Option.some.injEq, Prod.mk.injEq] at h1
    obtain ⟨rfl, rfl⟩ := h1
    simpa using h2
  | cons o a ih =>
    intro s s1 s2 l1 l2 h1 h2
    simp only [Sys.run, List.cons_append] at h1 ⊢
    cases hs : s.step env o with
    | none => rw [hs] at h1; simp at h1
    | some x =>
      obtain ⟨s', l'⟩ := x
      rw [hs] at h1
      simp only [Option.bind_eq_bind, Option.bind_some] at h1 ⊢
      cases hr : Sys.run env s' a with
      | none => rw [hr] at h1; simp at h1
      | some y =>
        obtain ⟨s'', l''⟩ := y
        rw [hr] at h1
        simp only [Option.bind_some, Option.pure_def, Option.some.injEq, Prod.mk.injEq] at h1
        obtain ⟨rfl, rfl⟩ := h1
        rw [ih hr h2]
        simp

theorem run_cons {env : Env} {r r' : Relay} {op : Op} {ops : List Op} {l : Log} (h : run env r (op :: ops) = some (r', l)) :
    ∃ r1 l1 l2, r.step env op = some (r1, l1) ∧ run env r1 ops = some (r', l2) ∧ l = l1 ++ l2 := by
  simp only [run] at h
  cases hs : r.step env op with
  | none => rw [hs] at h; simp at h
  | some x =>
    obtain ⟨r1, l1⟩ := x
    rw [hs] at h
    simp only [Option.bind_eq_bind, Option.bind_some] at h
    cases hr : run env r1 ops with
    | none => rw [hr] at h; simp at h
    | some y =>
      obtain ⟨r2, l2⟩ := y
      rw [hr] at h
      simp only [Option.bind_some, Option.pure_def, Option.some.injEq, Prod.mk.injEq] at h
      obtain ⟨rfl, rfl⟩ := h
      exact ⟨r1, l1, l2, rfl, hr, rfl⟩

/-- An execution is one of the server without relaying. -/
theorem run_sys {env : Env} (ops : List Op) : ∀ {r r' : Relay} {l : Log}, run env r ops = some (r', l) →
    ∃ sops, Sys.run env.site r.sys sops = some (r'.sys, l) ∧ requestsOf sops = requestsIn ops := by
  induction ops with
  | nil =>
    intro r r' l h
    simp only [run, Option.some.injEq, Prod.mk.injEq] at h
    obtain ⟨rfl, rfl⟩ := h
    exact ⟨[], rfl, rfl⟩
  | cons op ops ih =>
    intro r r' l h
    obtain ⟨r1, l1, l2, h1, h2, rfl⟩ := run_cons h
    obtain ⟨a, a1, a2⟩ := step_sys h1
    obtain ⟨b, b1, b2⟩ := ih h2
    refine ⟨a ++ b, run_append_sys a b a1 b1, ?_⟩
    rw [requestsIn_cons, ← a2, ← b2]
    unfold requestsOf
    rw [List.filterMap_append]

/-- One pull changes. -/
theorem RInv.set {past : List Op} {L : Log} {w : World} {pulls : List Pull} (h : RInv past L w pulls) (hi : Inv2 w L) {e : Nat} {op : WOp} {p : Pull}
    (hlen : (w.step op).1.edges.length = w.edges.length)
    (ho : ∀ (i : Nat) q, i ≠ e → pulls[i]? = some q → op ≠ .edgeOpen i ∧ op ≠ .edgeEnd i ∧ ∀ cid x, op = .put cid x → feeds cid q = false)
    (hp : PullOk past (L ++ [(op, (w.step op).2)]) (w.step op).1 e p) :
    RInv past (L ++ [(op, (w.step op).2)]) (w.step op).1 (pulls.set e p) := by
  refine ⟨by rw [List.length_set, h.len, hlen], ?_⟩
  intro i q hq
  by_cases hie : i = e
  · subst hie
    rw [List.getElem?_set] at hq
    simp only [if_true] at hq
    split at hq
    · simp only [Option.some.injEq] at hq
      subst hq
      exact hp
    · simp at hq
  · rw [List.getElem?_set_ne (Ne.symm hie)] at hq
    obtain ⟨a, b, c⟩ := ho i q hie hq
    exact (h.ok i q hq).frame hi op a b c

theorem edgeOpen_len (w : World) (e : Nat) : (w.step (.edgeOpen e)).1.edges.length = w.edges.length := by
  simp only [World.step, edgeOpen]
  split
  · rfl
  · split <;> simp

theorem edgeEnd_len (w : World) (e : Nat) : (w.step (.edgeEnd e)).1.edges.length = w.edges.length := by
  simp only [World.step, edgeEnd]
  split
  · rfl
  · split <;> simp

theorem put_len (w : World) (cid : Nat) (p : AVPkt) : (w.step (.put cid p)).1.edges.length = w.edges.length := by
  simp only [World.step, put]
  split
  · rfl
  · split <;> rfl

/-- The cache of a pull is not that of a publisher. -/
theorem not_owned {env : Site.Env} {rqs : List Req} {L : Log} {s : Sys} (h : SInv env rqs L s) {cid e : Nat} {k : Key} {b : Bool}
    (hv : s.w.view cid = some (k, .edge e, b)) {i : Nat} {kc : Conn} (hi : s.conns[i]? = some kc) (p : AVPkt) : kc.job.owns (.put cid p) = false := by
  have hlt := get_len hi
  rw [h.len] at hlt
  have hc := h.ok i kc _ hi (List.getElem?_eq_getElem hlt)
  unfold ConnOk at hc
  cases hj : kc.job <;> simp only [Job.owns, beq_eq_false_iff_ne, ne_eq, Bool.or_eq_false_iff]
  case srtPub =>
    rw [hj] at hc
    obtain ⟨-, ⟨key, h2⟩, -⟩ := hc
    have h3 := h.inv2.twin _ _ _ h2
    constructor <;> rintro rfl <;> simp_all
  all_goals
    rw [hj] at hc
    obtain ⟨-, ⟨key, h2⟩, -⟩ := hc
    rintro rfl
    rw [hv] at h2
    simp at h2

theorem put_unowned {env : Site.Env} {rqs : List Req} {L : Log} {s : Sys} (h : SInv env rqs L s) {cid e : Nat} {k : Key} {b : Bool}
    (hv : s.w.view cid = some (k, .edge e, b)) (p : AVPkt) : s.owned (.put cid p) = false := by
  unfold owned
  rw [List.any_eq_false]
  intro kc hm
  obtain ⟨i, hi⟩ := List.mem_iff_getElem?.1 hm
  simp [not_owned h hv hi p]

theorem edge_unowned (s : Sys) (e : Nat) : s.owned (.edgeOpen e) = false ∧ s.owned (.edgeEnd e) = false := by
  unfold owned
  constructor <;> (rw [List.any_eq_false]; intro kc _; cases kc.job <;> simp [Job.owns])

/-- The cache of a pull that reads is its own. -/
theorem RInv.alone {past : List Op} {L : Log} {w : World} {pulls : List Pull} (h : RInv past L w pulls) {e cid : Nat} {rd : SReader HttpSrc} {hd : Bool}
    (he : pulls[e]? = some (.reads cid rd hd)) {i : Nat} {q : Pull} (hi : i ≠ e) (hq : pulls[i]? = some q) : feeds cid q = false := by
  obtain ⟨⟨k, -, h2⟩, -⟩ := h.ok e _ he
  cases q with
  | reads c rd' hd' =>
    obtain ⟨⟨k', -, h2'⟩, -⟩ := h.ok i _ hq
    simp only [feeds, beq_eq_false_iff_ne, ne_eq]
    rintro rfl
    rw [h2] at h2'
    simp only [Option.some.injEq, Prod.mk.injEq, Src.edge.injEq] at h2'
    exact hi h2'.2.1.symm
  | asks u => rfl
  | other c => rfl
  | over c => rfl

/-- What a pull does that opens. -/
theorem edgeOpen_starting {w : World} {e : Nat} {k : Key} (h : w.edges[e]? = some ⟨k, .starting⟩) :
    (w.step (.edgeOpen e)).2 = .published w.caches.length ∧ (w.step (.edgeOpen e)).1.edges[e]? = some ⟨k, .running w.caches.length⟩ ∧
      (w.step (.edgeOpen e)).1.view w.caches.length = some (k, .edge e, true) := by
  simp only [World.step, edgeOpen, h]
  refine ⟨trivial, ?_, ?_⟩
  · rw [List.getElem?_modify, h]; simp
  · show (w.newCache _ _ _).view _ = _
    rw [view_newCache, if_pos rfl]

/-- What a pull does that ends. -/
theorem edgeEnd_running {w : World} {e cid : Nat} {k : Key} {b : Bool} (h : w.edges[e]? = some ⟨k, .running cid⟩) (hv : w.view cid = some (k, .edge e, b)) :
    (w.step (.edgeEnd e)).1.view cid = some (k, .edge e, false) := by
  simp only [World.step, edgeEnd, h]
  show (w.closeCache cid).view cid = _
  rw [view_close, if_pos rfl, hv]; rfl

theorem other_log {env : Site.Env} {s s' : Sys} {o : WOp} {l : Log} (ho : s.owned o = false) (h : s.step env (.other o) = some (s', l)) :
    s'.w = (s.w.step o).1 ∧ l = [(o, (s.w.step o).2)] := by
  simp only [Sys.step, ho, Bool.false_eq_true, if_false, Option.some.injEq, Prod.mk.injEq] at h
  obtain ⟨rfl, rfl⟩ := h
  exact ⟨rfl, rfl⟩

theorem step_rinv {env : Env} {rqs : List Req} {past : List Op} {L : Log} {r r' : Relay} {op : Op} {l : Log} (hs : SInv env.site rqs L r.sys)
    (hr : RInv past L r.sys.w r.pulls) (hs' : ∃ rqs', SInv env.site rqs' (L ++ l) r'.sys) (hbp : buffersOk past) (hb : buffersOk [op]) (h : r.step env op = some (r', l)) :
    RInv (past ++ [op]) (L ++ l) r'.sys.w r'.pulls := by
  have hno : some (r, ([] : Log)) = some (r', l) → RInv (past ++ [op]) (L ++ l) r'.sys.w r'.pulls := by
    intro hx
    simp only [Option.some.injEq, Prod.mk.injEq] at hx
    obtain ⟨rfl, rfl⟩ := hx
    rw [List.append_nil]
    exact hr.mono
  have hend : ∀ {e : Nat} {p : Pull}, PullOk (past ++ [op]) (L ++ [(.edgeEnd e, (r.sys.w.step (.edgeEnd e)).2)]) (r.sys.w.step (.edgeEnd e)).1 e p →
      r.also env e (.edgeEnd e) p = some (r', l) → RInv (past ++ [op]) (L ++ l) r'.sys.w r'.pulls := by
    intro e p hp ha
    obtain ⟨a1, a2⟩ := also_step ha
    obtain ⟨b1, rfl⟩ := other_log (edge_unowned _ e).2 a1
    rw [b1, a2]
    refine hr.mono.set hs.inv2 (edgeEnd_len _ e) (fun i q hie _ => ⟨by simp, ?_, by simp⟩) hp
    simp only [ne_eq, WOp.edgeEnd.injEq]; exact Ne.symm hie
  cases op with
  | sys o u =>
    simp only [step] at h
    split at h
    · exact hno h
    · rename_i hres
      cases hx : r.sys.step env.site o with
      | none => rw [hx] at h; simp at h
      | some x =>
        obtain ⟨s, l'⟩ := x
        rw [hx] at h
        simp only [Option.map_some, Option.some.injEq, Prod.mk.injEq] at h
        obtain ⟨rfl, rfl⟩ := h
        obtain ⟨rqs', hs'⟩ := hs'
        have hw := hs'.world
        rw [List.map_append, run_append, hs.world] at hw
        simp only [Prod.mk.injEq] at hw
        obtain ⟨w1, w2⟩ := hw
        have w2 := List.append_cancel_left w2
        have := RInv.ops (asked env u o) (l'.map Prod.fst) (hr.mono (more := [.sys o u])) hs.inv2 ?_
        · rw [w1, w2] at this
          exact this
        · intro o' ho'
          obtain ⟨y, hy, rfl⟩ := List.mem_map.1 ho'
          rcases Sys.step_log hx y hy with hoth | ⟨p1, p2, p3⟩
          · subst hoth
            have hres : r.reserved (.other y.1) = false := by simpa using hres
            refine ⟨?_, ?_, ?_⟩
            · rintro e he; rw [he] at hres; simp [reserved] at hres
            · rintro e he; rw [he] at hres; simp [reserved] at hres
            · rintro cid x he e p hp
              rw [he] at hres
              simp only [reserved, List.any_eq_false] at hres
              simpa using hres p (List.mem_of_getElem? hp)
          · refine ⟨p1, p2, ?_⟩
            intro cid x he e p hp
            obtain ⟨i, k, hi, hk⟩ := p3 cid x he
            cases p with
            | reads c rd' hd' =>
              obtain ⟨⟨k', -, hv⟩, -⟩ := hr.ok e _ hp
              simp only [feeds, beq_eq_false_iff_ne, ne_eq]
              rintro rfl
              exact absurd hk (by simp [not_owned hs hv hi x])
            | asks u => rfl
            | other c => rfl
            | over c => rfl
  | answer e a mem =>
    simp only [step] at h
    split at h
    · rename_i u he
      obtain ⟨k, hk⟩ := hr.ok e _ he
      unfold answer at h
      split at h
      · exact hend (by trivial) h
      · rename_i u
        split at h
        · simp at h
        · rename_i f st ch cl io hver
          obtain ⟨a1, a2⟩ := also_step h
          obtain ⟨b1, rfl⟩ := other_log (edge_unowned _ e).1 a1
          obtain ⟨c1, c2, c3⟩ := edgeOpen_starting hk
          rw [b1, a2]
          refine hr.mono.set hs.inv2 (edgeOpen_len _ e) (fun i q hie _ => ⟨?_, by simp, by simp⟩) ?_
          · simp only [ne_eq, WOp.edgeOpen.injEq]; exact Ne.symm hie
          · split
            · have hst : st = 200 := by
                unfold Edge.verdict at hver
                split at hver
                · simp at hver
                · simp only at hver
                  split at hver
                  · simp at hver
                  · split at hver
                    · simp at hver
                    · rename_i h200
                      simpa using h200
              subst hst
              refine ⟨⟨k, c2, c3⟩, List.mem_append_right _ (by rw [c1]; exact List.mem_singleton.2 rfl), ch, cl, io, mem, by simp, ?_⟩
              intro b closed hbody
              obtain ⟨hcl, R, hR, kk, hkk⟩ := hbody.elim (fun hb => HttpSrc.serves_body hb .client) fun hb => HttpSrc.serves_cut hb.2 .client (.inr hb.1)
              refine ⟨hcl, R, b, hR, SReader.Holds.init (hb e (.opened 200 ch cl io) mem (by simp)).2 hkk, ?_⟩
              rw [if_neg (by simp)]
              refine ⟨?_, rfl⟩
              rw [publishedTo_append, (hs.inv.fresh _ (Nat.le_refl _)).1]
              rfl
            · exact ⟨k, c2⟩
        · exact hend (by trivial) h
    · exact hno h
  | pass e =>
    simp only [step] at h
    split at h
    · rename_i cid rd hd he
      have hok := hr.ok e _ he
      obtain ⟨⟨k, h1, h2⟩, h3, ch, cl, io, mem, h4, h5⟩ := hok
      have hmem : 15 ≤ (carrier mem).mem.length := (hbp e _ mem h4).1
      have hover : (∀ b closed, BodyComes ch cl io b closed → ∃ n0, ∀ n, n0 ≤ n → publishedTo cid L = uploaded (carrier mem) b closed n) →
          r.also env e (.edgeEnd e) (.over (some cid)) = some (r', l) → RInv (past ++ [.pass e]) (L ++ l) r'.sys.w r'.pulls := by
        intro hall ha
        refine hend (e := e) (p := .over (some cid)) ⟨⟨k, edgeEnd_running h1 h2⟩, List.mem_append_left _ h3, ch, cl, io, mem, List.mem_append_left _ h4, ?_⟩ ha
        intro b closed hbody
        obtain ⟨n0, hn⟩ := hall b closed hbody
        refine ⟨n0, fun n hnn => ?_⟩
        rw [publishedTo_append, published_other _ (by simp), List.append_nil]
        exact (hn n hnn).symm
      unfold pass at h
      split at h
      · rename_i hdt
        subst hdt
        cases hrd : readPacket.runOn rd with
        | none => rw [hrd] at h; simp at h
        | some y =>
          obtain ⟨⟨e', o⟩, rd'⟩ := y
          rw [hrd] at h
          simp only [Option.bind_some] at h
          cases o with
          | none => exact hover (fun b closed hbody => (h5 b closed hbody).packet_fail hmem hrd) h
          | some p =>
            obtain ⟨a1, a2⟩ := also_step h
            obtain ⟨b1, rfl⟩ := other_log (put_unowned hs h2 p) a1
            rw [b1, a2]
            refine hr.mono.set hs.inv2 (put_len _ _ _) (fun i q hie hq => ⟨by simp, by simp, ?_⟩) ?_
            · intro c x hx
              simp only [WOp.put.injEq] at hx
              rw [← hx.1]
              exact hr.alone he hie hq
            · refine ⟨⟨k, step_edge _ h1 (by simp) (by simp), step_open_edge hs.inv2 _ h2 (by simp)⟩, List.mem_append_left _ h3, ch, cl, io, mem,
                List.mem_append_left _ h4, ?_⟩
              intro b closed hbody
              have hput := put_open h2 p
              have hpub : publishedTo cid (L ++ [(.put cid p, (r.sys.w.put cid p).2)]) = publishedTo cid L ++ [p] := by
                rw [publishedTo_append, hput]; simp [publishedTo]
              show Progress _ _ _ _ _ (publishedTo cid (L ++ [(.put cid p, (r.sys.w.put cid p).2)]))
              rw [hpub]
              exact (h5 b closed hbody).packet hmem hrd
      · rename_i hdt
        have hdt : hd = false := by simpa using hdt
        subst hdt
        cases hrd : readHeader.runOn rd with
        | none => rw [hrd] at h; simp at h
        | some y =>
          obtain ⟨⟨e', o⟩, rd'⟩ := y
          rw [hrd] at h
          simp only [Option.bind_some] at h
          cases o with
          | none => exact hover (fun b closed hbody => (h5 b closed hbody).header_fail hmem hrd) h
          | some p =>
            simp only [Option.some.injEq, Prod.mk.injEq] at h
            obtain ⟨rfl, rfl⟩ := h
            rw [List.append_nil]
            refine ⟨by simp [hr.len], ?_⟩
            intro i q hq
            by_cases hie : i = e
            · subst hie
              rw [List.getElem?_set] at hq
              simp only [if_true, get_len he] at hq
              simp only [Option.some.injEq] at hq
              subst hq
              exact ⟨⟨k, h1, h2⟩, h3, ch, cl, io, mem, List.mem_append_left _ h4, fun b closed hbody => (h5 b closed hbody).header hmem hrd⟩
            · rw [List.getElem?_set_ne (Ne.symm hie)] at hq
              exact (hr.ok i q hq).mono
    · exact hend (by trivial) h
    · exact hno h

theorem run_rinv {env : Env} (ops : List Op) : ∀ {rqs : List Req} {past : List Op} {L : Log} {r r' : Relay} {l : Log}, SInv env.site rqs L r.sys → (∀ q ∈ rqs, ReqOk q) →
    RInv past L r.sys.w r.pulls → buffersOk past → buffersOk ops → (∀ q ∈ requestsIn ops, ReqOk q) → run env r ops = some (r', l) → fitsFlv (L ++ l) →
    RInv (past ++ ops) (L ++ l) r'.sys.w r'.pulls := by
  induction ops with
  | nil =>
    intro rqs past L r r' l _ _ h _ _ _ he _
    simp only [run, Option.some.injEq, Prod.mk.injEq] at he
    obtain ⟨rfl, rfl⟩ := he
    simpa using h
  | cons op ops ih =>
    intro rqs past L r r' l hs hqs h hbp hb hop he hfit
    obtain ⟨r1, l1, l2, h1, h2, rfl⟩ := run_cons he
    rw [requestsIn_cons] at hop
    have hfit1 : fitsFlv (L ++ l1) := by
      intro cid p hp
      apply hfit cid p
      rw [← List.append_assoc, publishedTo_append]
      exact List.mem_append_left _ hp
    obtain ⟨sops, s1, s2⟩ := step_sys h1
    have hop1 : ∀ q ∈ requestsOf sops, ReqOk q := fun q hq => hop q (List.mem_append_left _ (by rw [← s2]; exact hq))
    have hs1 := Sys.run_inv sops hs hqs hop1 s1 hfit1
    have hb1 : buffersOk [op] := fun e a mem hm => hb e a mem (by simp only [List.mem_singleton] at hm; simp [hm])
    have hr1 := step_rinv hs h ⟨_, hs1⟩ hbp hb1 h1
    have := ih hs1 ?_ hr1 ?_ (fun e a mem hm => hb e a mem (List.mem_cons_of_mem _ hm)) (fun q hq => hop q (List.mem_append_right _ hq)) h2
      (by rw [List.append_assoc]; exact hfit)
    · simpa [List.append_assoc] using this
    · intro q hq
      rcases List.mem_append.1 hq with hq | hq
      · exact hqs q hq
      · exact hop1 q hq
    · intro e a mem hm
      rcases List.mem_append.1 hm with hm | hm
      · exact hbp e a mem hm
      · exact hb1 e a mem hm

/-- The invariant of every execution. -/
theorem run_init {env : Env} {ops : List Op} (hop : ∀ q ∈ requestsIn ops, ReqOk q) (hb : buffersOk ops) {r : Relay} {L : Log}
    (he : run env init ops = some (r, L)) (hfit : fitsFlv L) : RInv ops L r.sys.w r.pulls := by
  have h0 : RInv [] [] init.sys.w init.pulls := ⟨rfl, by simp [init]⟩
  have := run_rinv ops (SInv.init env.site) (by simp) h0 (by simp [buffersOk]) hb hop he (by simpa using hfit)
  simpa using this

end Sps.Relay
