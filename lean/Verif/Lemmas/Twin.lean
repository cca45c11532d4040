import Verif.Lemmas.Isolation
/-!
# An execution with and one without a player's passes
-/
namespace Sps
namespace Sys
open World HttpStream Spec

/-! ## Pieces of others are the same -/

theorem attach_cong {c : Nat} {w w' : World} (h : Same c w w') (outs : List Reg) (junk : Text) (ret : Err) (u : Url) :
    (StreamHandler.attach outs junk ret u w').1 = (StreamHandler.attach outs junk ret u w).1 ∧
    Same c (StreamHandler.attach outs junk ret u w).2 (StreamHandler.attach outs junk ret u w').2 := by
  simp only [StreamHandler.attach, h.reg]
  split
  · exact ⟨rfl, h⟩
  · split
    · exact ⟨rfl, h⟩
    · have := same_step h (.play (StreamHandler.key u)) (by simp [about])
      simp only [World.step] at this
      revert this
      generalize w.play (StreamHandler.key u) = a
      generalize w'.play (StreamHandler.key u) = a'
      obtain ⟨w1, o⟩ := a
      obtain ⟨w1', o'⟩ := a'
      rintro ⟨h1, h2⟩
      simp only at h1 h2
      subst h1
      cases o' <;> exact ⟨rfl, h2⟩

theorem play_cong {c : Nat} {w w' : World} (h : Same c w w') (outs : List Reg) (junk : Text) (m : Conf.Module) (u : Url) :
    (StreamHandler.play outs junk m u w').1 = (StreamHandler.play outs junk m u w).1 ∧
    Same c (StreamHandler.play outs junk m u w).2 (StreamHandler.play outs junk m u w').2 := by
  simp only [StreamHandler.play, h.reg]
  split
  · exact ⟨rfl, (same_step h (.edgeRequest (StreamHandler.key u)) (by simp [about])).2⟩
  · exact attach_cong h _ _ _ _

theorem publish_cong {c : Nat} {w w' : World} (h : Same c w w') (ins : List Reg) (junk : Text) (m : Conf.Module) (u : Url) :
    (StreamHandler.publish ins junk m u w').1 = (StreamHandler.publish ins junk m u w).1 ∧
    Same c (StreamHandler.publish ins junk m u w).2 (StreamHandler.publish ins junk m u w').2 := by
  simp only [StreamHandler.publish]
  split
  · exact ⟨rfl, h⟩
  · split
    · exact ⟨rfl, h⟩
    · have := same_step h (.publish (StreamHandler.key u)) (by simp [about])
      simp only [World.step] at this
      revert this
      generalize w.publish (StreamHandler.key u) = a
      generalize w'.publish (StreamHandler.key u) = a'
      obtain ⟨w1, o⟩ := a
      obtain ⟨w1', o'⟩ := a'
      rintro ⟨h1, h2⟩
      simp only at h1 h2
      subst h1
      cases o' <;> exact ⟨rfl, h2⟩

theorem startView_cong {c d : Nat} {w w' : World} (h : Same c w w') (hd : d ≠ c) (env : Site.Env) (f : Reg) (tag : List UInt8) (r : HttpRsp) (s : Sink) :
    (startView env w' d f tag r s).2 = (startView env w d f tag r s).2 ∧
    Same c (startView env w d f tag r s).1 (startView env w' d f tag r s).1 := by
  have hl := same_step h (.leave d) (by simp [about, hd])
  simp only [World.step] at hl
  simp only [startView]
  split
  · split
    · exact ⟨by simp only [hl.1], hl.2⟩
    · exact ⟨rfl, h⟩
  · exact ⟨rfl, h⟩

theorem afterAttach_cong {c : Nat} {w w' : World} (h : Same c w w') (env : Site.Env) (key : Key) (outs : List Reg) (junk : Text) (ret : Err) (u : Url)
    (tag : List UInt8) (r : HttpRsp) (s : Sink) :
    (afterAttach env key (StreamHandler.attach outs junk ret u w') tag r s).2 = (afterAttach env key (StreamHandler.attach outs junk ret u w) tag r s).2 ∧
    Same c (afterAttach env key (StreamHandler.attach outs junk ret u w) tag r s).1 (afterAttach env key (StreamHandler.attach outs junk ret u w') tag r s).1 := by
  have ha := attach_cong h outs junk ret u
  have hn := fun x w1 => attach_len outs junk ret u w (x := x) (w' := w1)
  revert ha hn
  cases StreamHandler.attach outs junk ret u w with
  | mk x w1 =>
    cases StreamHandler.attach outs junk ret u w' with
    | mk x' w1' =>
      rintro ⟨h1, h2⟩ hn
      simp only at h1 h2
      subst h1
      cases x' with
      | refused e => exact ⟨rfl, h2⟩
      | pull => exact ⟨rfl, h2⟩
      | joined d cid f =>
        have hd := ((hn _ _ rfl).2 _ _ _ rfl).1
        have hc := h.1
        have := startView_cong h2 (show d ≠ c by omega) env f tag r s
        exact ⟨by simp only [afterAttach, this.1], this.2⟩

theorem rtmpAttach_cong {c : Nat} {w w' : World} (h : Same c w w') (key : Key) (outs : List Reg) (junk : Text) (ret : Err) (u : Url) (fails : List Err) :
    (rtmpAttach key (StreamHandler.attach outs junk ret u w') fails).2 = (rtmpAttach key (StreamHandler.attach outs junk ret u w) fails).2 ∧
    Same c (rtmpAttach key (StreamHandler.attach outs junk ret u w) fails).1 (rtmpAttach key (StreamHandler.attach outs junk ret u w') fails).1 := by
  have ha := attach_cong h outs junk ret u
  revert ha
  cases StreamHandler.attach outs junk ret u w with
  | mk x w1 =>
    cases StreamHandler.attach outs junk ret u w' with
    | mk x' w1' =>
      rintro ⟨h1, h2⟩
      simp only at h1 h2
      subst h1
      cases x' with
      | refused e => exact ⟨rfl, h2⟩
      | pull => exact ⟨rfl, h2⟩
      | joined d cid f => exact ⟨rfl, h2⟩

/-- Two systems that differ only in player `i` and its client `c`. -/
structure Twin (i c : Nat) (s s' : Sys) : Prop where
  same : Same c s.w s'.w
  len : s'.conns.length = s.conns.length
  others : ∀ j : Nat, j ≠ i → s'.conns[j]? = s.conns[j]?
  here : ∃ k, s.conns[i]? = some k ∧ Rests c k.job
  here' : ∃ k, s'.conns[i]? = some k ∧ Rests c k.job
  apart : ∀ (j : Nat) (k : Conn), j ≠ i → s.conns[j]? = some k → seat k.job ≠ some c

/-- The same, for a piece of someone else. -/
structure Cong (i c : Nat) (s s' : Sys) (x x' : Sys × Log) : Prop where
  same : Same c x.1.w x'.1.w
  log : x'.2 = x.2
  conns : (x.1.conns = s.conns ∧ x'.1.conns = s'.conns) ∨ (∃ k, x.1.conns = s.conns ++ [k] ∧ x'.1.conns = s'.conns ++ [k]) ∨
    ∃ j k, j ≠ i ∧ x.1.conns = s.conns.set j k ∧ x'.1.conns = s'.conns.set j k

theorem Twin.lt {i c : Nat} {s s' : Sys} (h : Twin i c s s') : i < s.conns.length := by
  obtain ⟨k, hk, _⟩ := h.here
  exact (List.getElem?_eq_some_iff.1 hk).1

theorem Twin.next {i c : Nat} {s s' : Sys} (h : Twin i c s s') {x x' : Sys × Log} {a : Option Nat} (hs : Shape a s x.1) (hc : Cong i c s s' x x') : Twin i c x.1 x'.1 := by
  have hi := h.lt
  have hap := hs.apart h.same.1 hi h.apart
  have hil : i < s'.conns.length := by rw [h.len]; exact hi
  rcases hc.conns with ⟨h1, h2⟩ | ⟨k, h1, h2⟩ | ⟨j, k, hj, h1, h2⟩
  · exact ⟨hc.same, by rw [h1, h2]; exact h.len, by rw [h1, h2]; exact h.others, by rw [h1]; exact h.here, by rw [h2]; exact h.here', hap⟩
  · refine ⟨hc.same, by rw [h1, h2]; simp [h.len], ?_, ?_, ?_, hap⟩
    · intro j hj
      rw [h1, h2, List.getElem?_append, List.getElem?_append, h.len]
      split
      · exact h.others j hj
      · rfl
    · rw [h1, List.getElem?_append_left hi]; exact h.here
    · rw [h2, List.getElem?_append_left hil]; exact h.here'
  · refine ⟨hc.same, by rw [h1, h2]; simp [h.len], ?_, ?_, ?_, hap⟩
    · intro a ha
      rw [h1, h2, List.getElem?_set, List.getElem?_set, h.len, h.others a ha]
    · rw [h1, List.getElem?_set_ne hj]; exact h.here
    · rw [h2, List.getElem?_set_ne hj]; exact h.here'

theorem httpRequest_cong {i c : Nat} {s s' : Sys} (h : Same c s.w s'.w) (env : Site.Env) (q : Req) :
    Cong i c s s' (s.httpRequest env q) (s'.httpRequest env q) := by
  simp only [httpRequest]
  split
  · have := publish_cong h env.ins env.junk q.host q.url
    revert this
    cases StreamHandler.publish env.ins env.junk q.host q.url s.w with
    | mk x w1 =>
      cases StreamHandler.publish env.ins env.junk q.host q.url s'.w with
      | mk x' w1' =>
        rintro ⟨h1, h2⟩
        simp only at h1 h2
        subst h1
        cases x' with
        | accepted cid f => exact ⟨h2, rfl, .inr (.inl ⟨_, rfl, rfl⟩)⟩
        | refused e => exact ⟨h2, rfl, .inr (.inl ⟨_, rfl, rfl⟩)⟩
  · have he := same_step h (.edgeRequest (StreamHandler.key q.url)) (by simp [about])
    simp only [World.step] at he
    simp only [StreamHandler.play, h.reg]
    by_cases hp : (s.w.reg.find (StreamHandler.key q.url)).isNone ∧ Host.edge q.host
    · simp only [if_pos hp]
      exact ⟨he.2, by simp only [he.1], .inr (.inl ⟨_, rfl, by simp only [he.1]⟩)⟩
    · simp only [if_neg hp]
      have ha := attach_cong h env.outs env.junk Err.SUCCESS q.url
      have hb := afterAttach_cong h env (StreamHandler.key q.url) env.outs env.junk Err.SUCCESS q.url q.tag rsp0 { out := [], fails := q.fails }
      revert ha hb
      generalize StreamHandler.attach env.outs env.junk Err.SUCCESS q.url s.w = a
      generalize StreamHandler.attach env.outs env.junk Err.SUCCESS q.url s'.w = a'
      obtain ⟨x, w1⟩ := a
      obtain ⟨x', w1'⟩ := a'
      rintro ⟨h1, h2⟩ hb
      simp only at h1 h2
      subst h1
      cases x' with
      | pull => exact ⟨h2, by simp only [he.1], .inr (.inl ⟨_, rfl, by simp only [he.1]⟩)⟩
      | refused e => exact ⟨hb.2, by simp only [hb.1], .inr (.inl ⟨_, rfl, by simp only [hb.1]⟩)⟩
      | joined d cid f => exact ⟨hb.2, by simp only [hb.1], .inr (.inl ⟨_, rfl, by simp only [hb.1]⟩)⟩

theorem rtmpRequest_cong {i c : Nat} {s s' : Sys} (h : Same c s.w s'.w) (env : Site.Env) (q : Req) (pub : Bool) (ms : List RtmpMsg) (closed : Err) :
    Cong i c s s' (s.rtmpRequest env q pub ms closed) (s'.rtmpRequest env q pub ms closed) := by
  simp only [rtmpRequest]
  split
  · have := publish_cong h env.ins env.junk q.host q.url
    revert this
    cases StreamHandler.publish env.ins env.junk q.host q.url s.w with
    | mk x w1 =>
      cases StreamHandler.publish env.ins env.junk q.host q.url s'.w with
      | mk x' w1' =>
        rintro ⟨h1, h2⟩
        simp only at h1 h2
        subst h1
        cases x' with
        | accepted cid f => exact ⟨h2, rfl, .inr (.inl ⟨_, rfl, rfl⟩)⟩
        | refused e => exact ⟨h2, rfl, .inr (.inl ⟨_, rfl, rfl⟩)⟩
  · have he := same_step h (.edgeRequest (StreamHandler.key q.url)) (by simp [about])
    simp only [World.step] at he
    simp only [StreamHandler.play, h.reg]
    by_cases hp : (s.w.reg.find (StreamHandler.key q.url)).isNone ∧ Host.edge q.host
    · simp only [if_pos hp]
      exact ⟨he.2, by simp only [he.1], .inr (.inl ⟨_, rfl, by simp only [he.1]⟩)⟩
    · simp only [if_neg hp]
      have ha := attach_cong h env.outs env.junk Err.SUCCESS q.url
      have hb := rtmpAttach_cong h (StreamHandler.key q.url) env.outs env.junk Err.SUCCESS q.url q.fails
      revert ha hb
      generalize StreamHandler.attach env.outs env.junk Err.SUCCESS q.url s.w = a
      generalize StreamHandler.attach env.outs env.junk Err.SUCCESS q.url s'.w = a'
      obtain ⟨x, w1⟩ := a
      obtain ⟨x', w1'⟩ := a'
      rintro ⟨h1, h2⟩ hb
      simp only at h1 h2
      subst h1
      cases x' with
      | pull => exact ⟨h2, by simp only [he.1], .inr (.inl ⟨_, rfl, by simp only [he.1]⟩)⟩
      | refused e => exact ⟨hb.2, by simp only [hb.1], .inr (.inl ⟨_, rfl, by simp only [hb.1]⟩)⟩
      | joined d cid f => exact ⟨hb.2, by simp only [hb.1], .inr (.inl ⟨_, rfl, by simp only [hb.1]⟩)⟩

theorem srtRequest_cong {i c : Nat} {s s' : Sys} (h : Same c s.w s'.w) (q : Req) : Cong i c s s' (s.srtRequest q) (s'.srtRequest q) := by
  simp only [srtRequest]
  split
  · have := same_step h (.play (tsKey (srtKey q.url))) (by simp [about])
    simp only [World.step] at this
    revert this
    generalize s.w.play (tsKey (srtKey q.url)) = a
    generalize s'.w.play (tsKey (srtKey q.url)) = a'
    obtain ⟨w1, o⟩ := a
    obtain ⟨w1', o'⟩ := a'
    rintro ⟨h1, h2⟩
    simp only at h1 h2
    subst h1
    cases o' <;> exact ⟨h2, rfl, .inr (.inl ⟨_, rfl, rfl⟩)⟩
  · have := same_step h (.publishSrt (srtKey q.url)) (by simp [about])
    simp only [World.step] at this
    revert this
    generalize s.w.publishSrt (srtKey q.url) = a
    generalize s'.w.publishSrt (srtKey q.url) = a'
    obtain ⟨w1, o⟩ := a
    obtain ⟨w1', o'⟩ := a'
    rintro ⟨h1, h2⟩
    simp only at h1 h2
    subst h1
    cases o' <;> exact ⟨h2, rfl, .inr (.inl ⟨_, rfl, rfl⟩)⟩

theorem dropPull_cong {c : Nat} {w w' : World} (h : Same c w w') (own : Option Nat) : (dropPull w' own).2 = (dropPull w own).2 ∧ Same c (dropPull w own).1 (dropPull w' own).1 := by
  cases own with
  | none => exact ⟨rfl, h⟩
  | some e =>
    have := same_step h (.edgeDrop e) (by simp [about])
    simp only [World.step] at this
    exact ⟨by simp only [dropPull, this.1], this.2⟩

theorem wake_cong {i c : Nat} {s s' : Sys} (h : Twin i c s s') (env : Site.Env) (j : Nat) (ret : Err) :
    Cong i c s s' (s.wake env j ret) (s'.wake env j ret) := by
  by_cases hj : j = i
  · subst hj
    obtain ⟨⟨job, r, snk⟩, h1, h2⟩ := h.here
    obtain ⟨⟨job', r', snk'⟩, h1', h2'⟩ := h.here'
    have hno : ∀ (x : Sys) (k : Conn), x.conns[j]? = some k → Rests c k.job → x.wake env j ret = (x, []) := by
      rintro x ⟨job, r, snk⟩ hx hr
      simp only [wake, hx]
      rcases hr with ⟨_, _, rfl⟩ | hr
      · rfl
      · cases job <;> first | rfl | cases hr
    rw [hno s _ h1 h2, hno s' _ h1' h2']
    exact ⟨h.same, rfl, .inl ⟨rfl, rfl⟩⟩
  · simp only [wake, h.others j hj]
    split
    · rename_i u tag own r snk _
      have hd := dropPull_cong h.same own
      have := afterAttach_cong hd.2 env (StreamHandler.key u) env.outs env.junk ret u tag r snk
      exact ⟨this.2, by simp only [hd.1, this.1], .inr (.inr ⟨j, _, hj, rfl, by simp only [this.1]⟩)⟩
    · rename_i u fails own _ _ _
      have hd := dropPull_cong h.same own
      have := rtmpAttach_cong hd.2 (StreamHandler.key u) env.outs env.junk ret u fails
      exact ⟨this.2, by simp only [hd.1, this.1], .inr (.inr ⟨j, _, hj, rfl, by simp only [this.1]⟩)⟩
    · exact ⟨h.same, rfl, .inl ⟨rfl, rfl⟩⟩

theorem endPub_cong {i c : Nat} {s s' : Sys} (h : Same c s.w s'.w) (env : Site.Env) {j : Nat} (hj : j ≠ i) (cid : Nat) (e : Err) (r : HttpRsp) (snk : Sink) :
    Cong i c s s' (endPub env s j cid e r snk) (endPub env s' j cid e r snk) := by
  have := same_step h (.unpublish cid) (by simp [about])
  simp only [World.step] at this
  exact ⟨this.2, by simp only [endPub, this.1], .inr (.inr ⟨j, _, hj, rfl, rfl⟩)⟩

theorem runPub_cong {i c : Nat} {s s' : Sys} (h : Same c s.w s'.w) (env : Site.Env) {j : Nat} (hj : j ≠ i) (cid : Nat) (rd : SReader HttpSrc) (headed : Bool)
    (r : HttpRsp) (snk : Sink) {x : Sys × Log} (hx : runPub env s j cid rd headed r snk = some x) :
    ∃ x', runPub env s' j cid rd headed r snk = some x' ∧ Cong i c s s' x x' := by
  simp only [runPub] at hx ⊢
  split at hx
  all_goals
    rename_i hh
    rw [Option.map_eq_some_iff] at hx
    obtain ⟨a, ha, hx⟩ := hx
    simp only [hh, if_true, if_false, Bool.false_eq_true, ha, Option.map_some]
    refine ⟨_, rfl, ?_⟩
    split at hx <;> subst hx
  · rename_i p _
    have := same_step h (.put cid p) (by simp [about])
    simp only [World.step] at this
    exact ⟨this.2, by simp only [this.1], .inr (.inr ⟨j, _, hj, rfl, rfl⟩)⟩
  · exact endPub_cong h env hj _ _ _ _
  · exact ⟨h, rfl, .inr (.inr ⟨j, _, hj, rfl, rfl⟩)⟩
  · exact endPub_cong h env hj _ _ _ _

theorem runRtmpPub_cong {i c : Nat} {s s' : Sys} (h : Same c s.w s'.w) {j : Nat} (hj : j ≠ i) (cid : Nat) (ms : List RtmpMsg) (closed : Err)
    {x : Sys × Log} (hx : runRtmpPub s j cid ms closed = some x) :
    ∃ x', runRtmpPub s' j cid ms closed = some x' ∧ Cong i c s s' x x' := by
  simp only [runRtmpPub] at hx ⊢
  rw [Option.map_eq_some_iff] at hx
  obtain ⟨a, ha, hx⟩ := hx
  simp only [ha, Option.map_some]
  refine ⟨_, rfl, ?_⟩
  split at hx <;> subst hx
  · rename_i p _
    have := same_step h (.put cid p) (by simp [about])
    simp only [World.step] at this
    exact ⟨this.2, by simp only [this.1], .inr (.inr ⟨j, _, hj, rfl, rfl⟩)⟩
  · have := same_step h (.unpublish cid) (by simp [about])
    simp only [World.step] at this
    exact ⟨this.2, by simp only [this.1], .inr (.inr ⟨j, _, hj, rfl, rfl⟩)⟩

theorem putAll_cong {c : Nat} (cid : Nat) : ∀ (ps : List AVPkt) {w w' : World}, Same c w w' →
    (putAll cid w' ps).2 = (putAll cid w ps).2 ∧ Same c (putAll cid w ps).1 (putAll cid w' ps).1
  | [], _, _, h => ⟨rfl, h⟩
  | p :: ps, w, w', h => by
    have h1 := same_step h (.put cid p) (by simp [about])
    simp only [World.step] at h1
    have h2 := putAll_cong cid ps h1.2
    exact ⟨by simp only [putAll, h1.1, h2.1], h2.2⟩

theorem runSrtPub_cong {i c : Nat} {s s' : Sys} (h : Same c s.w s'.w) {j : Nat} (hj : j ≠ i) (cid : Nat) (rd : Reader) (ctx : TsCtx) (st : TsCodec)
    (r : HttpRsp) (snk : Sink) {x : Sys × Log} (hx : runSrtPub s j cid rd ctx st r snk = some x) :
    ∃ x', runSrtPub s' j cid rd ctx st r snk = some x' ∧ Cong i c s s' x x' := by
  simp only [runSrtPub] at hx ⊢
  cases hp : st.pop with
  | some y =>
    obtain ⟨p, st'⟩ := y
    simp only [hp] at hx ⊢
    cases hx
    have := same_step h (.put cid p) (by simp [about])
    simp only [World.step] at this
    exact ⟨_, rfl, this.2, by simp only [this.1], .inr (.inr ⟨j, _, hj, rfl, rfl⟩)⟩
  | none =>
    simp only [hp] at hx ⊢
    rw [Option.bind_eq_some_iff] at hx
    obtain ⟨⟨e, rd'⟩, ha, hx⟩ := hx
    simp only [ha, Option.bind_some]
    simp only at hx
    by_cases he : e ≠ Err.SUCCESS
    · simp only [if_pos he] at hx ⊢
      cases hx
      have := same_step h (.unpublish cid) (by simp [about])
      simp only [World.step] at this
      exact ⟨_, rfl, this.2, by simp only [endSrtPub, this.1], .inr (.inr ⟨j, _, hj, rfl, rfl⟩)⟩
    · simp only [if_neg he] at hx ⊢
      rw [Option.bind_eq_some_iff] at hx
      obtain ⟨y, hb, hx⟩ := hx
      rw [Option.map_eq_some_iff] at hx
      obtain ⟨⟨e2, ctx', st', raw⟩, hd, hx⟩ := hx
      simp only [hb, Option.bind_some, hd, Option.map_some]
      simp only at hx
      refine ⟨_, rfl, ?_⟩
      have hpa := putAll_cong (c := c) (cid + 1) raw h
      split at hx
      · rename_i he2
        subst hx
        simp only [if_pos he2]
        have := same_step hpa.2 (.unpublish cid) (by simp [about])
        simp only [World.step] at this
        exact ⟨this.2, by simp only [endSrtPub, this.1, hpa.1], .inr (.inr ⟨j, _, hj, rfl, rfl⟩)⟩
      · rename_i he2
        subst hx
        simp only [if_neg he2]
        exact ⟨hpa.2, hpa.1, .inr (.inr ⟨j, _, hj, rfl, rfl⟩)⟩

theorem leave_cong {c d : Nat} {w w' : World} (h : Same c w w') (hd : d ≠ c) : (w'.leave d).2 = (w.leave d).2 ∧ Same c (w.leave d).1 (w'.leave d).1 :=
  same_step h (.leave d) (by simp [about, hd])

theorem dump_cong {c d : Nat} {w w' : World} (h : Same c w w') (hd : d ≠ c) : (w'.dump d).2 = (w.dump d).2 ∧ Same c (w.dump d).1 (w'.dump d).1 :=
  same_step h (.dump d) (by simp [about, hd])

theorem runView_cong {i c : Nat} {s s' : Sys} (h : Same c s.w s'.w) (env : Site.Env) {j : Nat} (hj : j ≠ i) {d : Nat} (hd : d ≠ c) (mux : FlvMuxer)
    (r : HttpRsp) (snk : Sink) {x : Sys × Log} (hx : runView env s j d mux r snk = some x) :
    ∃ x', runView env s' j d mux r snk = some x' ∧ Cong i c s s' x x' := by
  have hdc := dump_cong h hd
  simp only [runView] at hx ⊢
  revert hx hdc
  generalize s.w.dump d = a
  generalize s'.w.dump d = a'
  obtain ⟨w1, o⟩ := a
  obtain ⟨w1', o'⟩ := a'
  intro hx ⟨h1, h2⟩
  simp only at h1 h2
  subst h1
  have hl := leave_cong h2 hd
  have hend : ∀ l e r snk, Cong i c s s' (endView env s w1 l j d e r snk) (endView env s' w1' l j d e r snk) := fun l e r snk =>
    ⟨hl.2, by simp only [endView, hl.1], .inr (.inr ⟨j, _, hj, rfl, rfl⟩)⟩
  cases o' with
  | pkts ps =>
    cases ps with
    | nil => cases hx; exact ⟨_, rfl, hend _ _ _ _⟩
    | cons p ps =>
      simp only at hx ⊢
      rw [Option.map_eq_some_iff] at hx
      obtain ⟨⟨e, m, r1, s1⟩, ha, hx⟩ := hx
      simp only [ha, Option.map_some]
      refine ⟨_, rfl, ?_⟩
      simp only at hx
      split at hx
      · rename_i he
        subst hx
        simp only [if_pos he]
        exact hend _ _ _ _
      · rename_i he
        subst hx
        simp only [if_neg he]
        exact ⟨h2, rfl, .inr (.inr ⟨j, _, hj, rfl, rfl⟩)⟩
  | _ => cases hx; exact ⟨_, rfl, h, rfl, .inl ⟨rfl, rfl⟩⟩

theorem runNull_cong {i c : Nat} {s s' : Sys} (h : Same c s.w s'.w) (env : Site.Env) {j : Nat} (hj : j ≠ i) {d : Nat} (hd : d ≠ c)
    (r : HttpRsp) (snk : Sink) {x : Sys × Log} (hx : runNull env s j d r snk = some x) :
    ∃ x', runNull env s' j d r snk = some x' ∧ Cong i c s s' x x' := by
  have hdc := dump_cong h hd
  simp only [runNull] at hx ⊢
  revert hx hdc
  generalize s.w.dump d = a
  generalize s'.w.dump d = a'
  obtain ⟨w1, o⟩ := a
  obtain ⟨w1', o'⟩ := a'
  intro hx ⟨h1, h2⟩
  simp only at h1 h2
  subst h1
  have hl := leave_cong h2 hd
  have hend : ∀ l e r snk, Cong i c s s' (endView env s w1 l j d e r snk) (endView env s' w1' l j d e r snk) := fun l e r snk =>
    ⟨hl.2, by simp only [endView, hl.1], .inr (.inr ⟨j, _, hj, rfl, rfl⟩)⟩
  cases o' with
  | pkts ps =>
    cases ps with
    | nil => cases hx; exact ⟨_, rfl, hend _ _ _ _⟩
    | cons p ps =>
      simp only at hx ⊢
      split at hx
      · cases hx
      · rename_i he
        cases hx
        simp only [if_neg he]
        exact ⟨_, rfl, h2, rfl, .inl ⟨rfl, rfl⟩⟩
  | _ => cases hx; exact ⟨_, rfl, h, rfl, .inl ⟨rfl, rfl⟩⟩

theorem runRtmpView_cong {i c : Nat} {s s' : Sys} (h : Same c s.w s'.w) {j : Nat} (hj : j ≠ i) {d : Nat} (hd : d ≠ c)
    (snk : MsgSink) {x : Sys × Log} (hx : runRtmpView s j d snk = some x) :
    ∃ x', runRtmpView s' j d snk = some x' ∧ Cong i c s s' x x' := by
  have hdc := dump_cong h hd
  simp only [runRtmpView] at hx ⊢
  revert hx hdc
  generalize s.w.dump d = a
  generalize s'.w.dump d = a'
  obtain ⟨w1, o⟩ := a
  obtain ⟨w1', o'⟩ := a'
  intro hx ⟨h1, h2⟩
  simp only at h1 h2
  subst h1
  have hl := leave_cong h2 hd
  have hend : ∀ l e snk, Cong i c s s' (endRtmpView s w1 l j d e snk) (endRtmpView s' w1' l j d e snk) := fun l e snk =>
    ⟨hl.2, by simp only [endRtmpView, hl.1], .inr (.inr ⟨j, _, hj, rfl, rfl⟩)⟩
  cases o' with
  | pkts ps =>
    cases ps with
    | nil => cases hx; exact ⟨_, rfl, hend _ _ _⟩
    | cons p ps =>
      simp only at hx ⊢
      simp only [Option.some.injEq] at hx
      refine ⟨_, rfl, ?_⟩
      generalize rtmpWrite (p :: ps) snk = y at hx ⊢
      obtain ⟨e, s1⟩ := y
      simp only at hx ⊢
      split at hx
      · rename_i he
        subst hx
        simp only [if_pos he]
        exact hend _ _ _
      · rename_i he
        subst hx
        simp only [if_neg he]
        exact ⟨h2, rfl, .inr (.inr ⟨j, _, hj, rfl, rfl⟩)⟩
  | _ => cases hx; exact ⟨_, rfl, h, rfl, .inl ⟨rfl, rfl⟩⟩

theorem runSrtView_cong {i c : Nat} {s s' : Sys} (h : Same c s.w s'.w) {j : Nat} (hj : j ≠ i) {d : Nat} (hd : d ≠ c)
    (r : HttpRsp) (snk : Sink) : Cong i c s s' (runSrtView s j d r snk) (runSrtView s' j d r snk) := by
  have hdc := dump_cong h hd
  simp only [runSrtView]
  revert hdc
  generalize s.w.dump d = a
  generalize s'.w.dump d = a'
  obtain ⟨w1, o⟩ := a
  obtain ⟨w1', o'⟩ := a'
  intro ⟨h1, h2⟩
  simp only at h1 h2
  subst h1
  have hl := leave_cong h2 hd
  have hend : ∀ l e r snk, Cong i c s s' (endSrtView s w1 l j d e r snk) (endSrtView s' w1' l j d e r snk) := fun l e r snk =>
    ⟨hl.2, by simp only [endSrtView, hl.1], .inr (.inr ⟨j, _, hj, rfl, rfl⟩)⟩
  cases o' with
  | pkts ps =>
    cases ps with
    | nil => exact hend _ _ _ _
    | cons p ps =>
      simp only
      split
      · exact hend _ _ _ _
      · exact ⟨h2, rfl, .inr (.inr ⟨j, _, hj, rfl, rfl⟩)⟩
  | _ => exact ⟨h, rfl, .inl ⟨rfl, rfl⟩⟩

theorem run_cong {i c : Nat} {s s' : Sys} (h : Twin i c s s') (env : Site.Env) {j : Nat} (hj : j ≠ i) {x : Sys × Log} (hx : s.step env (.run j) = some x) :
    ∃ x', s'.step env (.run j) = some x' ∧ Cong i c s s' x x' := by
  simp only [step, h.others j hj] at hx ⊢
  have hap := fun k => h.apart j k hj
  generalize s.conns[j]? = o at hx hap ⊢
  rcases o with _ | ⟨job, r, snk⟩
  · cases hx; exact ⟨_, rfl, h.same, rfl, .inl ⟨rfl, rfl⟩⟩
  · have hs := hap _ rfl
    cases job with
    | flvPub cid rd headed => exact runPub_cong h.same env hj _ _ _ _ _ hx
    | view d mux => exact runView_cong h.same env hj (by intro e; exact hs (by rw [e]; rfl)) _ _ _ hx
    | nullView d => exact runNull_cong h.same env hj (by intro e; exact hs (by rw [e]; rfl)) _ _ hx
    | rtmpPub cid ms closed => exact runRtmpPub_cong h.same hj _ _ _ hx
    | rtmpView d sk => exact runRtmpView_cong h.same hj (by intro e; exact hs (by rw [e]; rfl)) _ hx
    | srtPub cid rd ctx st => exact runSrtPub_cong h.same hj _ _ _ _ _ _ hx
    | srtView d =>
      cases hx
      exact ⟨_, rfl, runSrtView_cong h.same hj (by intro e; exact hs (by rw [e]; rfl)) _ _⟩
    | _ => cases hx; exact ⟨_, rfl, h.same, rfl, .inl ⟨rfl, rfl⟩⟩

theorem owned_cong {i c : Nat} {s s' : Sys} (h : Twin i c s s') {op : WOp} (ho : ¬ about c op) : s'.owned op = s.owned op := by
  have hr : ∀ j : Job, Rests c j → j.owns op = false := by
    intro j hj
    rcases hj with ⟨_, _, rfl⟩ | hj
    · rfl
    · cases j <;> cases hj <;> cases op <;> first | rfl | skip
      all_goals
        simp only [Job.owns, beq_eq_false_iff_ne]
        intro e
        subst e
        exact ho (by simp [about])
  have hiff : ∀ x : Sys, x.owned op = true ↔ ∃ (j : Nat) (k : Conn), x.conns[j]? = some k ∧ k.job.owns op = true := by
    intro x
    simp only [owned, List.any_eq_true]
    constructor
    · rintro ⟨k, hk, ho⟩
      obtain ⟨j, hj⟩ := List.getElem?_of_mem hk
      exact ⟨j, k, hj, ho⟩
    · rintro ⟨j, k, hj, ho⟩
      exact ⟨k, List.mem_of_getElem? hj, ho⟩
  rw [Bool.eq_iff_iff, hiff, hiff]
  constructor
  · rintro ⟨j, k, hj, hk⟩
    by_cases hji : j = i
    · subst hji
      obtain ⟨k', h1, h2⟩ := h.here'
      rw [h1] at hj
      cases hj
      rw [hr _ h2] at hk
      cases hk
    · exact ⟨j, k, by rw [← h.others j hji]; exact hj, hk⟩
  · rintro ⟨j, k, hj, hk⟩
    by_cases hji : j = i
    · subst hji
      obtain ⟨k', h1, h2⟩ := h.here
      rw [h1] at hj
      cases hj
      rw [hr _ h2] at hk
      cases hk
    · exact ⟨j, k, by rw [h.others j hji]; exact hj, hk⟩

theorem published_nil {op : WOp} {c : Nat} (ho : about c op) (o : WOut) (cid : Nat) : publishedTo cid [(op, o)] = [] := by
  apply published_other
  intro p
  rcases ho with rfl | rfl <;> simp

theorem same_about {c : Nat} {w w' : World} (h : Same c w w') {op : WOp} (ho : about c op) : Same c (w.step op).1 w' := by
  rcases ho with rfl | rfl
  · exact same_dump h
  · exact same_leave h

theorem Twin.world {i c : Nat} {s s' : Sys} (h : Twin i c s s') {w w' : World} (hw : Same c w w') : Twin i c ⟨w, s.conns⟩ ⟨w', s'.conns⟩ :=
  ⟨hw, h.len, h.others, h.here, h.here', h.apart⟩

/-- A piece of anyone but the player. -/
theorem Twin.step {i c : Nat} {s s' : Sys} (h : Twin i c s s') {env : Site.Env} {op : Op} (ho : op ≠ .run i) {t : Sys} {l : Log}
    (hs : s.step env op = some (t, l)) :
    ∃ t' l', s'.step env op = some (t', l') ∧ Twin i c t t' ∧ ∀ cid, publishedTo cid l' = publishedTo cid l := by
  have hsh := step_shape env s op hs
  cases op with
  | other op =>
    by_cases hc : about c op
    · have hx : ∀ x : Sys, x.step env (.other op) = some (x, []) ∨ x.step env (.other op) = some (⟨(x.w.step op).1, x.conns⟩, [(op, (x.w.step op).2)]) := by
        intro x
        simp only [Sys.step]
        split
        · exact .inl rfl
        · exact .inr rfl
      have h1 : Twin i c t s' ∧ ∀ cid, publishedTo cid l = [] := by
        rcases hx s with e | e <;> rw [e] at hs <;> cases hs
        · exact ⟨h, fun _ => rfl⟩
        · exact ⟨h.world (same_about h.same hc), published_nil hc _⟩
      rcases hx s' with e | e
      · exact ⟨_, _, e, h1.1, fun cid => (h1.2 cid).symm⟩
      · exact ⟨_, _, e, h1.1.world (same_about h1.1.same.symm hc).symm, fun cid => by rw [h1.2, published_nil hc]⟩
    · simp only [Sys.step, owned_cong h hc] at hs ⊢
      have := same_step h.same op hc
      by_cases hw : s.owned op = true
      · rw [if_pos hw] at hs ⊢
        cases hs
        exact ⟨_, _, rfl, h, fun _ => rfl⟩
      · rw [if_neg hw] at hs ⊢
        cases hs
        refine ⟨_, _, rfl, h.world this.2, ?_⟩
        intro cid
        rw [this.1]
  | request q =>
    have : Cong i c s s' (s.request env q) (s'.request env q) := by
      simp only [request]
      split
      · exact httpRequest_cong h.same env q
      · exact rtmpRequest_cong h.same env q _ _ _
      · exact srtRequest_cong h.same q
    simp only [Sys.step, Option.some.injEq] at hs
    rw [hs] at this
    refine ⟨(s'.request env q).1, (s'.request env q).2, rfl, h.next hsh this, ?_⟩
    intro cid
    rw [this.log]
  | wake j ret =>
    have := wake_cong h env j ret
    simp only [Sys.step, Option.some.injEq] at hs
    rw [hs] at this
    refine ⟨(s'.wake env j ret).1, (s'.wake env j ret).2, rfl, h.next hsh this, ?_⟩
    intro cid
    rw [this.log]
  | run j =>
    obtain ⟨⟨t', l'⟩, hx, hc⟩ := run_cong h env (fun e => ho (by rw [e])) hs
    have hl : l' = l := hc.log
    exact ⟨t', l', hx, h.next hsh hc, fun _ => by rw [hl]⟩

/-- A pass of the player. -/
theorem Twin.pass {i c : Nat} {s s' : Sys} (h : Twin i c s s') {env : Site.Env} {t : Sys} {l : Log} (hs : s.step env (.run i) = some (t, l)) :
    Twin i c t s' ∧ ∀ cid, publishedTo cid l = [] := by
  obtain ⟨⟨job, r, snk⟩, hk, hr⟩ := h.here
  have hset : ∀ (w : World) (k : Conn), Same c w s'.w → Rests c k.job → Twin i c ⟨w, s.conns.set i k⟩ s' := by
    intro w k hw hk'
    have hi := h.lt
    refine ⟨hw, by simpa using h.len, ?_, ⟨k, by simp [hi], hk'⟩, h.here', ?_⟩
    · intro j hj
      rw [List.getElem?_set_ne (Ne.symm hj)]
      exact h.others j hj
    · intro j k hj hk
      rw [List.getElem?_set_ne (Ne.symm hj)] at hk
      exact h.apart j k hj hk
  have hd := same_dump h.same
  have hpub : ∀ (o : WOut) cid, publishedTo cid [(.dump c, o)] = [] := fun o cid => published_nil (.inl rfl) o cid
  have hpub2 : ∀ (o o2 : WOut) cid, publishedTo cid ([(.dump c, o)] ++ [(.leave c, o2)]) = [] := by
    intro o o2 cid
    rfl
  simp only [Sys.step, hk] at hs
  rcases hr with ⟨_, _, hr⟩ | hr
  · simp only at hr
    subst hr
    cases hs
    exact ⟨h, fun _ => rfl⟩
  · cases job <;> cases hr <;> simp only at hs
    · simp only [runView, endView] at hs
      split at hs
      · rename_i hw
        rw [hw] at hd
        cases hs
        exact ⟨hset _ _ (same_leave hd) (.inl ⟨_, _, rfl⟩), hpub2 _ _⟩
      · rename_i hw
        rw [hw] at hd
        rw [Option.map_eq_some_iff] at hs
        obtain ⟨x, _, hx⟩ := hs
        split at hx
        · cases hx
          exact ⟨hset _ _ (same_leave hd) (.inl ⟨_, _, rfl⟩), hpub2 _ _⟩
        · cases hx
          exact ⟨hset _ _ hd (.inr rfl), hpub _⟩
      · cases hs
        exact ⟨h, fun _ => rfl⟩
    · simp only [runNull, endView] at hs
      split at hs
      · rename_i hw
        rw [hw] at hd
        cases hs
        exact ⟨hset _ _ (same_leave hd) (.inl ⟨_, _, rfl⟩), hpub2 _ _⟩
      · rename_i hw
        rw [hw] at hd
        split at hs
        · cases hs
        · cases hs
          exact ⟨h.world hd, hpub _⟩
      · cases hs
        exact ⟨h, fun _ => rfl⟩
    · simp only [runRtmpView, endRtmpView] at hs
      split at hs
      · rename_i hw
        rw [hw] at hd
        cases hs
        exact ⟨hset _ _ (same_leave hd) (.inl ⟨_, _, rfl⟩), hpub2 _ _⟩
      · rename_i hw
        rw [hw] at hd
        split at hs
        · cases hs
          exact ⟨hset _ _ (same_leave hd) (.inl ⟨_, _, rfl⟩), hpub2 _ _⟩
        · cases hs
          exact ⟨hset _ _ hd (.inr rfl), hpub _⟩
      · cases hs
        exact ⟨h, fun _ => rfl⟩
    · cases hs
      exact ⟨h, fun _ => rfl⟩
    · simp only [runSrtView, endSrtView] at hs
      split at hs
      · rename_i hw
        rw [hw] at hd
        cases hs
        exact ⟨hset _ _ (same_leave hd) (.inl ⟨_, _, rfl⟩), hpub2 _ _⟩
      · rename_i hw
        rw [hw] at hd
        split at hs
        · cases hs
          exact ⟨hset _ _ (same_leave hd) (.inl ⟨_, _, rfl⟩), hpub2 _ _⟩
        · cases hs
          exact ⟨hset _ _ hd (.inr rfl), hpub _⟩
      · cases hs
        exact ⟨h, fun _ => rfl⟩

/-! ## Before the player has a client -/

/-- A request that was refused, or waits. -/
def Idle (j : Job) : Prop := (∃ was e, j = .done was e) ∨ (∃ u tag own, j = .waits u tag own) ∨ ∃ u fails own, j = .rtmpWaits u fails own

theorem play_request (env : Site.Env) (s : Sys) (q : Req) (hq : asksToPlay q) : ∃ k, (s.request env q).1.conns = s.conns ++ [k] ∧
    (Idle k.job ∨ seat k.job = some s.w.clients.length ∧ s.w.clients.length < (s.request env q).1.w.clients.length) := by
  have hfit : ∀ {w' : World} {k : Conn}, Fits s.w w' k → Rests s.w.clients.length k.job →
      Idle k.job ∨ seat k.job = some s.w.clients.length ∧ s.w.clients.length < w'.clients.length := by
    intro w' k hf hr
    rcases hr with hr | hr
    · exact .inl (.inl hr)
    · exact .inr ⟨hr, (hf.2 _ hr).2⟩
  simp only [asksToPlay] at hq
  simp only [request]
  split at hq
  · rename_i hv
    simp only [hv, httpRequest, if_neg hq]
    split
    · exact ⟨_, rfl, .inl (.inr (.inl ⟨_, _, _, rfl⟩))⟩
    · rename_i hp
      rcases play_shape (outs := env.outs) (junk := env.junk) (h := q.host) (u := q.url) (w := s.w) with h | h
      · exact absurd h (by intro e; exact hp _ e)
      · rw [h]
        obtain ⟨h1, h2⟩ := afterAttach_shape (eta3 (afterAttach env (StreamHandler.key q.url) (StreamHandler.attach env.outs env.junk Err.SUCCESS q.url s.w) q.tag rsp0
          { out := [], fails := q.fails }))
        exact ⟨_, rfl, hfit h1 h2⟩
  · rename_i pub ms closed hv
    subst hq
    simp only [hv, rtmpRequest, Bool.false_eq_true, if_false]
    split
    · exact ⟨_, rfl, .inl (.inr (.inr ⟨_, _, _, rfl⟩))⟩
    · rename_i hp
      rcases play_shape (outs := env.outs) (junk := env.junk) (h := q.host) (u := q.url) (w := s.w) with h | h
      · exact absurd h (by intro e; exact hp _ e)
      · rw [h]
        obtain ⟨h1, h2⟩ := rtmpAttach_shape (eta3 (rtmpAttach (StreamHandler.key q.url) (StreamHandler.attach env.outs env.junk Err.SUCCESS q.url s.w) q.fails))
        exact ⟨_, rfl, hfit h1 h2⟩
  · rename_i hv
    simp only [hv, srtRequest, if_pos hq]
    split
    · rename_i hp
      obtain ⟨rfl, h2⟩ := (play_len hp).2 _ _ rfl
      exact ⟨_, rfl, .inr ⟨rfl, h2⟩⟩
    · exact ⟨_, rfl, .inl (.inl ⟨_, _, rfl⟩)⟩

theorem idle_wake (env : Site.Env) (s : Sys) {i : Nat} {k : Conn} (hk : s.conns[i]? = some k) (hi : Idle k.job) (ret : Err) :
    ∃ k', (s.wake env i ret).1.conns = s.conns.set i k' ∧
      (Idle k'.job ∨ seat k'.job = some s.w.clients.length ∧ s.w.clients.length < (s.wake env i ret).1.w.clients.length) := by
  have hfit : ∀ {w w' : World} {k : Conn}, w.clients.length = s.w.clients.length → Fits w w' k → Rests w.clients.length k.job →
      Idle k.job ∨ seat k.job = some s.w.clients.length ∧ s.w.clients.length < w'.clients.length := by
    intro w w' k hl hf hr
    rw [← hl]
    rcases hr with hr | hr
    · exact .inl (.inl hr)
    · exact .inr ⟨hr, (hf.2 _ hr).2⟩
  obtain ⟨job, r, snk⟩ := k
  simp only [wake, hk]
  rcases hi with ⟨was, e, rfl⟩ | ⟨u, tag, own, rfl⟩ | ⟨u, fails, own, rfl⟩
  · refine ⟨⟨.done was e, r, snk⟩, ?_, .inl (.inl ⟨_, _, rfl⟩)⟩
    · show s.conns = _
      apply List.ext_getElem?
      intro j
      rw [List.getElem?_set]
      split
      · rename_i hij
        subst hij
        rw [hk, if_pos (List.getElem?_eq_some_iff.1 hk).1]
      · rfl
  · obtain ⟨h1, h2⟩ := afterAttach_shape (eta3 (afterAttach env (StreamHandler.key u) (StreamHandler.attach env.outs env.junk ret u (dropPull s.w own).1) tag r snk))
    exact ⟨_, rfl, hfit (dropPull_len _ _).symm h1 h2⟩
  · obtain ⟨h1, h2⟩ := rtmpAttach_shape (eta3 (rtmpAttach (StreamHandler.key u) (StreamHandler.attach env.outs env.junk ret u (dropPull s.w own).1) fails))
    exact ⟨_, rfl, hfit (dropPull_len _ _).symm h1 h2⟩

theorem request_len (s : Sys) (env : Site.Env) (q : Req) : (s.request env q).1.conns.length = s.conns.length + 1 := by
  simp only [request]
  split
  · simp only [httpRequest]
    split <;> split <;> simp
  · simp only [rtmpRequest]
    split <;> split <;> simp
  · simp only [srtRequest]
    split <;> split <;> simp

/-- The executions so far, with and without the passes of `i`. -/
inductive Beside (i : Nat) (s s' : Sys) : Prop
  | before (he : s' = s) (hs : Seated s) (hi : s.conns.length ≤ i)
  | idle (he : s' = s) (hs : Seated s) (k : Conn) (hk : s.conns[i]? = some k) (hi : Idle k.job)
  | twin (c : Nat) (h : Twin i c s s')

theorem Twin.refl {i c : Nat} {s : Sys} {k : Conn} (hc : c < s.w.clients.length) (hk : s.conns[i]? = some k) (hr : seat k.job = some c)
    (ha : ∀ (j : Nat) (k : Conn), j ≠ i → s.conns[j]? = some k → seat k.job ≠ some c) : Twin i c s s :=
  ⟨Same.refl hc, rfl, fun _ _ => rfl, ⟨k, hk, .inr hr⟩, ⟨k, hk, .inr hr⟩, ha⟩

theorem Beside.step {i : Nat} {s s' : Sys} (h : Beside i s s') {env : Site.Env} {op : Op} (ho : op ≠ .run i) {t : Sys} {l : Log}
    (hq : s.conns.length = i → ∀ q, op = .request q → asksToPlay q) (hs : s.step env op = some (t, l)) :
    ∃ t' l', s'.step env op = some (t', l') ∧ Beside i t t' ∧ ∀ cid, publishedTo cid l' = publishedTo cid l := by
  have hsh := step_shape env s op hs
  cases h with
  | before he hse hi =>
    subst he
    refine ⟨t, l, hs, ?_, fun _ => rfl⟩
    have hst := hsh.seated hse
    by_cases hti : t.conns.length ≤ i
    · exact .before rfl hst hti
    · -- the request has come
      cases hsh with
      | same h hl => rw [h] at hti; exact absurd hi hti
      | set j _ k0 k hk h hf => rw [h] at hti; simp at hti; omega
      | push ha k h hf =>
        have hei : s'.conns.length = i := by rw [h] at hti; simp at hti; omega
        cases op with
        | request q =>
          obtain ⟨k', h1, h2⟩ := play_request env s' q (hq hei q rfl)
          simp only [Sys.step, Option.some.injEq] at hs
          rw [hs] at h1 h2
          have hk : t.conns[i]? = some k' := by rw [h1, ← hei]; simp
          rcases h2 with h2 | ⟨h2, h3⟩
          · exact .idle rfl hst k' hk h2
          · refine .twin _ (Twin.refl h3 hk h2 ?_)
            intro j kj hj hkj hc
            have hjl : j < s'.conns.length := by
              have := (List.getElem?_eq_some_iff.1 hkj).1
              rw [h1] at this
              simp at this
              omega
            rw [h1, List.getElem?_append_left hjl] at hkj
            exact absurd (hse j kj _ hkj hc) (by omega)
        | other op =>
          simp only [Sys.step] at hs
          have : t.conns = s'.conns := by split at hs <;> cases hs <;> rfl
          rw [this] at hti
          exact absurd hi hti
        | wake j ret => cases ha
        | run j => cases ha
  | idle he hse k hk hi =>
    subst he
    refine ⟨t, l, hs, ?_, fun _ => rfl⟩
    have hst := hsh.seated hse
    have hil := (List.getElem?_eq_some_iff.1 hk).1
    by_cases ha : op.actor = some i
    · cases op with
      | wake j ret =>
        simp only [Op.actor, Option.some.injEq] at ha
        subst ha
        obtain ⟨k', h1, h2⟩ := idle_wake env s' hk hi ret
        simp only [Sys.step, Option.some.injEq] at hs
        rw [hs] at h1 h2
        have hk' : t.conns[j]? = some k' := by rw [h1]; simp [hil]
        rcases h2 with h2 | ⟨h2, h3⟩
        · exact .idle rfl hst k' hk' h2
        · refine .twin _ (Twin.refl h3 hk' h2 ?_)
          intro a ka haj hka hc
          rw [h1, List.getElem?_set_ne (Ne.symm haj)] at hka
          exact absurd (hse a ka _ hka hc) (by omega)
      | run j => simp only [Op.actor, Option.some.injEq] at ha; exact absurd (by rw [ha]) ho
      | other _ => cases ha
      | request _ => cases ha
    · exact .idle rfl hst k (by rw [hsh.stays ha hil]; exact hk) hi
  | twin c h =>
    obtain ⟨t', l', h1, h2, h3⟩ := h.step ho hs
    exact ⟨t', l', h1, .twin c h2, h3⟩

theorem Beside.pass {i : Nat} {s s' : Sys} (h : Beside i s s') {env : Site.Env} {t : Sys} {l : Log} (hs : s.step env (.run i) = some (t, l)) :
    Beside i t s' ∧ ∀ cid, publishedTo cid l = [] := by
  cases h with
  | before he hse hi =>
    have : s.conns[i]? = none := List.getElem?_eq_none hi
    simp only [Sys.step, this] at hs
    cases hs
    exact ⟨.before he hse hi, fun _ => rfl⟩
  | idle he hse k hk hi =>
    obtain ⟨job, r, snk⟩ := k
    simp only [Sys.step, hk] at hs
    have : t = s ∧ l = [] := by
      simp only [Idle] at hi
      rcases hi with ⟨_, _, rfl⟩ | ⟨_, _, _, rfl⟩ | ⟨_, _, _, rfl⟩ <;> cases hs <;> exact ⟨rfl, rfl⟩
    obtain ⟨rfl, rfl⟩ := this
    exact ⟨.idle he hse _ hk hi, fun _ => rfl⟩
  | twin c h =>
    obtain ⟨h1, h2⟩ := h.pass hs
    exact ⟨.twin c h1, h2⟩

/-- An execution and the same without the passes of `i`. -/
theorem Beside.run {i : Nat} {env : Site.Env} (ops : List Op) : ∀ {s s' : Sys}, Beside i s s' →
    (s.conns.length ≤ i → ∀ q, (requestsOf ops)[i - s.conns.length]? = some q → asksToPlay q) → ∀ {t : Sys} {L : Log}, s.run env ops = some (t, L) →
    ∃ t' L', s'.run env (without i ops) = some (t', L') ∧ Beside i t t' ∧ ∀ cid, publishedTo cid L' = publishedTo cid L := by
  induction ops with
  | nil =>
    intro s s' h _ t L hr
    cases hr
    exact ⟨s', [], rfl, h, fun _ => rfl⟩
  | cons op ops ih =>
    intro s s' h hq t L hr
    simp only [Sys.run, Option.bind_eq_bind, Option.bind_eq_some_iff] at hr
    obtain ⟨⟨s1, l1⟩, hs, ⟨s2, l2⟩, hr, he⟩ := hr
    cases he
    have hsh := step_shape env s op hs
    have hlen : s.conns.length ≤ s1.conns.length := by
      cases hsh with
      | same h _ => rw [h]
      | push _ k h _ => rw [h]; simp
      | set _ _ _ _ _ h _ => rw [h]; simp
    have hq1 : s1.conns.length ≤ i → ∀ q, (requestsOf ops)[i - s1.conns.length]? = some q → asksToPlay q := by
      intro hi q hqq
      have hrq : ∀ q', op = .request q' → s1.conns.length = s.conns.length + 1 := by
        rintro q' rfl
        cases hsh with
        | same h _ =>
          have := request_len s env q'
          simp only [Sys.step, Option.some.injEq] at hs
          rw [hs] at this
          exact this
        | push _ k h _ => rw [h]; simp
        | set _ ha _ _ _ h _ => cases ha
      refine hq (by omega) q ?_
      cases op with
      | request q' =>
        have := hrq q' rfl
        have e : i - s.conns.length = (i - s1.conns.length) + 1 := by omega
        rw [e]
        exact hqq
      | _ =>
        have hno : s1.conns.length = s.conns.length := by
          cases hsh with
          | same h _ => rw [h]
          | push ha k h _ =>
            first
              | (cases ha; done)
              | (simp only [Sys.step] at hs; split at hs <;> cases hs <;> simp at h)
          | set _ _ _ _ _ h _ => rw [h]; simp
        rw [hno] at hqq
        exact hqq
    by_cases ho : op = .run i
    · subst ho
      obtain ⟨h1, h2⟩ := h.pass hs
      obtain ⟨t', L', h3, h4, h5⟩ := ih h1 hq1 hr
      refine ⟨t', L', ?_, h4, fun cid => by rw [StreamProps.publishedTo_append, h2, h5]; rfl⟩
      simpa [without] using h3
    · obtain ⟨t1', l1', h1, h2, h3⟩ := h.step ho (fun hi q e => hq (by omega) q (by subst e; rw [hi]; simp [requestsOf])) hs
      obtain ⟨t', L', h4, h5, h6⟩ := ih h2 hq1 hr
      refine ⟨t', l1' ++ L', ?_, h5, fun cid => by rw [StreamProps.publishedTo_append, StreamProps.publishedTo_append, h3, h6]⟩
      have hw : without i (op :: ops) = op :: without i ops := by
        cases op <;> simp only [without, List.filter_cons, if_true]
        rename_i j
        have : (j != i) = true := by simp only [bne_iff_ne, ne_eq]; intro e; exact ho (by rw [e])
        simp [this]
      rw [hw]
      simp only [Sys.run, h1, h4, Option.bind_eq_bind, Option.bind_some]
      rfl

end Sys
end Sps
