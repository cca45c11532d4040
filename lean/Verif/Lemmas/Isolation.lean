import Verif.Lemmas.Isolate
import Verif.Lemmas.ServeInv
/-!
# A player and the rest of the server
-/
namespace Sps
namespace Sys
open World HttpStream Spec

/-- The client a job plays from. -/
def seat : Job → Option Nat
  | .view c _ | .nullView c | .rtmpView c _ | .srtView c | .otherView c => some c
  | _ => none

/-- A player of client `c`, or one that has gone. -/
def Rests (c : Nat) (j : Job) : Prop := (∃ was e, j = .done was e) ∨ seat j = some c

theorem seat_close (reason : Int → Text) (was : Role) (e : Err) (r : HttpRsp) (s : Sink) : seat (close reason was e r s).job = none := rfl

/-! ## The shape of a piece -/

theorem eta3 {α β γ : Type} (x : α × β × γ) : x = (x.1, x.2.1, x.2.2) := rfl

theorem play_len {w w' : World} {k : Key} {o : WOut} (h : w.play k = (w', o)) : w.clients.length ≤ w'.clients.length ∧
    ∀ c cid, o = .joined c cid → c = w.clients.length ∧ c < w'.clients.length := by
  have h1 := (step_lengths w (.play k)).1
  simp only [World.step, h] at h1
  refine ⟨h1, ?_⟩
  intro c cid ho
  subst ho
  simp only [World.play_eq] at h
  split at h
  · simp at h
  · split at h
    · simp at h
    · simp only [Prod.mk.injEq, WOut.joined.injEq] at h
      obtain ⟨rfl, h2, _⟩ := h
      simp [← h2]

/-- New seats are new clients. -/
def Fits (w w' : World) (k : Conn) : Prop := w.clients.length ≤ w'.clients.length ∧
  ∀ c, seat k.job = some c → c = w.clients.length ∧ c < w'.clients.length

theorem attach_len (outs : List Reg) (junk : Text) (ret : Err) (u : Url) (w : World) {x : StreamHandler.Join} {w' : World}
    (h : StreamHandler.attach outs junk ret u w = (x, w')) : w.clients.length ≤ w'.clients.length ∧
    ∀ c cid f, x = .joined c cid f → c = w.clients.length ∧ c < w'.clients.length := by
  simp only [StreamHandler.attach] at h
  split at h
  · cases h; exact ⟨Nat.le_refl _, by simp⟩
  · split at h
    · cases h; exact ⟨Nat.le_refl _, by simp⟩
    · split at h
      · rename_i hp
        cases h
        have := play_len hp
        exact ⟨this.1, by intro c cid f e; cases e; exact this.2 _ _ rfl⟩
      · rename_i hp
        have hl := (step_lengths w (.play (StreamHandler.key u))).1
        simp only [World.step, hp] at hl
        cases h
        exact ⟨hl, by simp⟩

theorem leave_len (w : World) (c : Nat) : (w.leave c).1.clients.length = w.clients.length := by
  simp only [World.leave]
  split
  · rfl
  · split <;> simp

theorem dump_len (w : World) (c : Nat) : (w.dump c).1.clients.length = w.clients.length := by
  simp only [World.dump]
  split
  · rfl
  · split <;> simp

theorem startView_shape (env : Site.Env) (w : World) (c : Nat) (f : Reg) (tag : List UInt8) (r : HttpRsp) (s : Sink) {w' : World} {l : Log} {k : Conn}
    (h : startView env w c f tag r s = (w', l, k)) : w'.clients.length = w.clients.length ∧ Rests c k.job := by
  simp only [startView] at h
  split at h
  · split at h
    · cases h; exact ⟨leave_len _ _, .inl ⟨_, _, rfl⟩⟩
    · cases h; exact ⟨rfl, .inr rfl⟩
  · cases h; exact ⟨rfl, .inr rfl⟩

theorem afterAttach_shape {env : Site.Env} {outs : List Reg} {junk : Text} {ret : Err} {u : Url} {w : World} {tag : List UInt8} {r : HttpRsp} {s : Sink}
    {key : Key} {w' : World} {l : Log} {k : Conn}
    (h : afterAttach env key (StreamHandler.attach outs junk ret u w) tag r s = (w', l, k)) : Fits w w' k ∧ Rests w.clients.length k.job := by
  cases hx : StreamHandler.attach outs junk ret u w with
  | mk x w1 =>
    rw [hx] at h
    have ha := attach_len outs junk ret u w hx
    cases x with
    | refused e => simp only [afterAttach] at h; cases h; exact ⟨⟨ha.1, by simp [seat_close]⟩, .inl ⟨_, _, rfl⟩⟩
    | pull => simp only [afterAttach] at h; cases h; exact ⟨⟨ha.1, by simp [seat]⟩, .inl ⟨_, _, rfl⟩⟩
    | joined c cid f =>
      simp only [afterAttach] at h
      have hs := startView_shape env w1 c f tag r s (eta3 (startView env w1 c f tag r s))
      cases h
      obtain ⟨rfl, h2⟩ := ha.2 c cid f rfl
      refine ⟨⟨by rw [hs.1]; exact ha.1, ?_⟩, hs.2⟩
      intro d hd
      rcases hs.2 with ⟨_, _, h3⟩ | h3
      · rw [h3] at hd; cases hd
      · rw [h3] at hd; cases hd; exact ⟨rfl, by rw [hs.1]; exact h2⟩

theorem rtmpAttach_shape {outs : List Reg} {junk : Text} {ret : Err} {u : Url} {w : World} {fails : List Err}
    {key : Key} {w' : World} {l : Log} {k : Conn}
    (h : rtmpAttach key (StreamHandler.attach outs junk ret u w) fails = (w', l, k)) : Fits w w' k ∧ Rests w.clients.length k.job := by
  cases hx : StreamHandler.attach outs junk ret u w with
  | mk x w1 =>
    rw [hx] at h
    have ha := attach_len outs junk ret u w hx
    cases x with
    | refused e => simp only [rtmpAttach] at h; cases h; exact ⟨⟨ha.1, by simp [seat, bare]⟩, .inl ⟨_, _, rfl⟩⟩
    | pull => simp only [rtmpAttach] at h; cases h; exact ⟨⟨ha.1, by simp [seat, bare]⟩, .inl ⟨_, _, rfl⟩⟩
    | joined c cid f =>
      simp only [rtmpAttach] at h
      cases h
      obtain ⟨rfl, h2⟩ := ha.2 c cid f rfl
      have : seat (bare (if f.word = ascii "-" then .rtmpView w.clients.length { out := [], fails := fails } else .otherView w.clients.length)).job
          = some w.clients.length := by
        split <;> rfl
      exact ⟨⟨ha.1, by intro d hd; rw [this] at hd; cases hd; exact ⟨rfl, h2⟩⟩, .inr this⟩

/-- The connection whose piece this is. -/
def Op.actor : Op → Option Nat
  | .wake i _ | .run i => some i
  | _ => none

/-- How the connections change in a piece. -/
inductive Shape (a : Option Nat) (s t : Sys) : Prop
  | same (h : t.conns = s.conns) (hl : s.w.clients.length ≤ t.w.clients.length)
  | push (ha : a = none) (k : Conn) (h : t.conns = s.conns ++ [k]) (hf : Fits s.w t.w k)
  | set (j : Nat) (ha : a = some j) (k0 k : Conn) (hk : s.conns[j]? = some k0) (h : t.conns = s.conns.set j k)
      (hf : Fits s.w t.w k ∨ s.w.clients.length ≤ t.w.clients.length ∧ (seat k.job = none ∨ seat k.job = seat k0.job))

theorem publish_len {ins : List Reg} {junk : Text} {h : Conf.Module} {u : Url} {w w' : World} {x : StreamHandler.Admit}
    (hp : StreamHandler.publish ins junk h u w = (x, w')) : w.clients.length ≤ w'.clients.length := by
  simp only [StreamHandler.publish] at hp
  split at hp
  · cases hp; exact Nat.le_refl _
  · split at hp
    · cases hp; exact Nat.le_refl _
    · have := (step_lengths w (.publish (StreamHandler.key u))).1
      simp only [World.step] at this
      split at hp <;> rename_i hq <;> cases hp <;> rw [hq] at this <;> exact this

theorem play_shape {outs : List Reg} {junk : Text} {h : Conf.Module} {u : Url} {w : World} :
    (StreamHandler.play outs junk h u w = (.pull, (w.edgeRequest (StreamHandler.key u)).1)) ∨
    StreamHandler.play outs junk h u w = StreamHandler.attach outs junk Err.SUCCESS u w := by
  simp only [StreamHandler.play]
  split
  · exact .inl rfl
  · exact .inr rfl

theorem httpRequest_shape (env : Site.Env) (s : Sys) (q : Req) : Shape none s (s.httpRequest env q).1 := by
  simp only [httpRequest]
  split
  · split
    · rename_i hp
      have := publish_len hp
      refine .push rfl _ rfl ⟨this, ?_⟩
      intro c hc
      simp only at hc
      split at hc <;> cases hc
    · rename_i hp
      have := publish_len hp
      exact .push rfl _ rfl ⟨this, by simp [seat_close]⟩
  · split
    · rename_i hp
      have hl := (step_lengths s.w (.edgeRequest (StreamHandler.key q.url))).1
      rcases play_shape (outs := env.outs) (junk := env.junk) (h := q.host) (u := q.url) (w := s.w) with h | h
      · rw [h] at hp
        cases hp
        exact .push rfl _ rfl ⟨hl, by simp [seat]⟩
      · rw [h] at hp
        exact .push rfl _ rfl ⟨(attach_len _ _ _ _ _ hp).1, by simp [seat]⟩
    · rename_i hp
      rcases play_shape (outs := env.outs) (junk := env.junk) (h := q.host) (u := q.url) (w := s.w) with h | h
      · exact absurd h (by intro e; exact hp _ e)
      · rw [h]
        exact .push rfl _ rfl (afterAttach_shape (eta3 (afterAttach _ _ _ _ _ _))).1

theorem rtmpRequest_shape (env : Site.Env) (s : Sys) (q : Req) (pub : Bool) (ms : List RtmpMsg) (closed : Err) : Shape none s (s.rtmpRequest env q pub ms closed).1 := by
  simp only [rtmpRequest]
  split
  · split
    · rename_i hp
      have := publish_len hp
      refine .push rfl _ rfl ⟨this, ?_⟩
      intro c hc
      simp only [bare] at hc
      split at hc <;> cases hc
    · rename_i hp
      have := publish_len hp
      exact .push rfl _ rfl ⟨this, by simp [bare, seat]⟩
  · split
    · rename_i hp
      have hl := (step_lengths s.w (.edgeRequest (StreamHandler.key q.url))).1
      rcases play_shape (outs := env.outs) (junk := env.junk) (h := q.host) (u := q.url) (w := s.w) with h | h
      · rw [h] at hp
        cases hp
        exact .push rfl _ rfl ⟨hl, by simp [bare, seat]⟩
      · rw [h] at hp
        exact .push rfl _ rfl ⟨(attach_len _ _ _ _ _ hp).1, by simp [bare, seat]⟩
    · rename_i hp
      rcases play_shape (outs := env.outs) (junk := env.junk) (h := q.host) (u := q.url) (w := s.w) with h | h
      · exact absurd h (by intro e; exact hp _ e)
      · rw [h]
        exact .push rfl _ rfl (rtmpAttach_shape (eta3 (rtmpAttach _ _ _))).1

theorem srtRequest_shape (s : Sys) (q : Req) : Shape none s (s.srtRequest q).1 := by
  simp only [srtRequest]
  split
  · split
    · rename_i hp
      have := play_len hp
      exact .push rfl _ rfl ⟨this.1, by intro d hd; simp only [seat] at hd; cases hd; exact this.2 _ _ rfl⟩
    · rename_i hp
      exact .push rfl _ rfl ⟨(play_len hp).1, by simp [seat]⟩
  · have hl := (step_lengths s.w (.publishSrt (srtKey q.url))).1
    simp only [World.step] at hl
    split
    · rename_i hp
      rw [hp] at hl
      exact .push rfl _ rfl ⟨hl, by simp [seat]⟩
    · rename_i hp
      rw [hp] at hl
      exact .push rfl _ rfl ⟨hl, by simp [seat]⟩

theorem dropPull_len (w : World) (own : Option Nat) : w.clients.length = (dropPull w own).1.clients.length := by
  cases own with
  | none => rfl
  | some e =>
    simp only [dropPull, World.edgeDrop]
    split
    · rfl
    · split
      · split <;> rfl
      · rfl

theorem wake_shape (env : Site.Env) (s : Sys) (i : Nat) (ret : Err) : Shape (some i) s (s.wake env i ret).1 := by
  simp only [wake]
  split
  · rename_i u tag own r snk hk
    refine .set i rfl _ _ hk rfl (.inl ?_)
    have := (afterAttach_shape (eta3 (afterAttach env (StreamHandler.key u) (StreamHandler.attach env.outs env.junk ret u (dropPull s.w own).1) tag r snk))).1
    simp only [Fits, ← dropPull_len] at this
    exact this
  · rename_i u fails own _ _ hk
    refine .set i rfl _ _ hk rfl (.inl ?_)
    have := (rtmpAttach_shape (eta3 (rtmpAttach (StreamHandler.key u) (StreamHandler.attach env.outs env.junk ret u (dropPull s.w own).1) fails))).1
    simp only [Fits, ← dropPull_len] at this
    exact this
  · exact .same rfl (Nat.le_refl _)

theorem putAll_len (cid : Nat) : ∀ (ps : List AVPkt) (w : World), w.clients.length ≤ (putAll cid w ps).1.clients.length
  | [], _ => Nat.le_refl _
  | p :: ps, w => Nat.le_trans (step_lengths w (.put cid p)).1 (putAll_len cid ps _)

theorem run_shape (env : Site.Env) (s : Sys) (i : Nat) {t : Sys} {l : Log} (h : s.step env (.run i) = some (t, l)) : Shape (some i) s t := by
  simp only [step] at h
  split at h
  · rename_i cid rd headed r snk hk
    have hu := (step_lengths s.w (.unpublish cid)).1
    simp only [runPub, endPub] at h
    split at h
    all_goals
      rw [Option.map_eq_some_iff] at h
      obtain ⟨x, _, hx⟩ := h
      split at hx
    · rename_i p _ _
      have hp := (step_lengths s.w (.put cid p)).1
      cases hx
      exact .set i rfl _ _ hk rfl (.inr ⟨hp, .inl rfl⟩)
    · cases hx
      exact .set i rfl _ _ hk rfl (.inr ⟨hu, .inl rfl⟩)
    · cases hx
      exact .set i rfl _ _ hk rfl (.inr ⟨Nat.le_refl _, .inl rfl⟩)
    · cases hx
      exact .set i rfl _ _ hk rfl (.inr ⟨hu, .inl rfl⟩)
  · rename_i c mux r snk hk
    have hd := dump_len s.w c
    simp only [runView, endView] at h
    split at h
    · rename_i hw
      rw [hw] at hd
      cases h
      refine .set i rfl _ _ hk rfl (.inr ⟨?_, .inl rfl⟩)
      simp only [leave_len]
      exact Nat.le_of_eq hd.symm
    · rename_i hw
      rw [hw] at hd
      rw [Option.map_eq_some_iff] at h
      obtain ⟨x, _, hx⟩ := h
      split at hx
      · cases hx
        refine .set i rfl _ _ hk rfl (.inr ⟨?_, .inl rfl⟩)
        simp only [leave_len]
        exact Nat.le_of_eq hd.symm
      · cases hx
        exact .set i rfl _ _ hk rfl (.inr ⟨Nat.le_of_eq hd.symm, .inr rfl⟩)
    · cases h
      exact .same rfl (Nat.le_refl _)
  · rename_i c r snk hk
    have hd := dump_len s.w c
    simp only [runNull, endView] at h
    split at h
    · rename_i hw
      rw [hw] at hd
      cases h
      refine .set i rfl _ _ hk rfl (.inr ⟨?_, .inl rfl⟩)
      simp only [leave_len]
      exact Nat.le_of_eq hd.symm
    · rename_i hw
      rw [hw] at hd
      split at h
      · cases h
      · cases h
        exact .same rfl (Nat.le_of_eq hd.symm)
    · cases h
      exact .same rfl (Nat.le_refl _)
  · rename_i cid ms closed _ _ hk
    have hu := (step_lengths s.w (.unpublish cid)).1
    simp only [runRtmpPub] at h
    rw [Option.map_eq_some_iff] at h
    obtain ⟨x, _, hx⟩ := h
    split at hx
    · rename_i p _ _
      have hp := (step_lengths s.w (.put cid p)).1
      cases hx
      exact .set i rfl _ _ hk rfl (.inr ⟨hp, .inl rfl⟩)
    · cases hx
      exact .set i rfl _ _ hk rfl (.inr ⟨hu, .inl rfl⟩)
  · rename_i c snk _ _ hk
    have hd := dump_len s.w c
    simp only [runRtmpView, endRtmpView] at h
    split at h
    · rename_i hw
      rw [hw] at hd
      cases h
      refine .set i rfl _ _ hk rfl (.inr ⟨?_, .inl rfl⟩)
      simp only [leave_len]
      exact Nat.le_of_eq hd.symm
    · rename_i hw
      rw [hw] at hd
      split at h
      · cases h
        refine .set i rfl _ _ hk rfl (.inr ⟨?_, .inl rfl⟩)
        simp only [leave_len]
        exact Nat.le_of_eq hd.symm
      · cases h
        exact .set i rfl _ _ hk rfl (.inr ⟨Nat.le_of_eq hd.symm, .inr rfl⟩)
    · cases h
      exact .same rfl (Nat.le_refl _)
  · rename_i cid rd ctx st r snk hk
    simp only [runSrtPub, endSrtPub] at h
    split at h
    · rename_i p _ _
      have hp := (step_lengths s.w (.put cid p)).1
      cases h
      exact .set i rfl _ _ hk rfl (.inr ⟨hp, .inl rfl⟩)
    · rw [Option.bind_eq_some_iff] at h
      obtain ⟨x, _, hx⟩ := h
      split at hx
      · cases hx
        exact .set i rfl _ _ hk rfl (.inr ⟨(step_lengths s.w (.unpublish cid)).1, .inl rfl⟩)
      · rw [Option.bind_eq_some_iff] at hx
        obtain ⟨y, _, hy⟩ := hx
        rw [Option.map_eq_some_iff] at hy
        obtain ⟨z, _, hz⟩ := hy
        obtain ⟨e, ctx', st', raw⟩ := z
        simp only at hz
        have hp := putAll_len (cid + 1) raw s.w
        split at hz
        · cases hz
          exact .set i rfl _ _ hk rfl (.inr ⟨Nat.le_trans hp (step_lengths _ (.unpublish cid)).1, .inl rfl⟩)
        · cases hz
          exact .set i rfl _ _ hk rfl (.inr ⟨hp, .inl rfl⟩)
  · rename_i c r snk hk
    have hd := dump_len s.w c
    simp only [runSrtView, endSrtView] at h
    split at h
    · rename_i hw
      rw [hw] at hd
      cases h
      refine .set i rfl _ _ hk rfl (.inr ⟨?_, .inl rfl⟩)
      simp only [leave_len]
      exact Nat.le_of_eq hd.symm
    · rename_i hw
      rw [hw] at hd
      split at h
      · cases h
        refine .set i rfl _ _ hk rfl (.inr ⟨?_, .inl rfl⟩)
        simp only [leave_len]
        exact Nat.le_of_eq hd.symm
      · cases h
        exact .set i rfl _ _ hk rfl (.inr ⟨Nat.le_of_eq hd.symm, .inr rfl⟩)
    · cases h
      exact .same rfl (Nat.le_refl _)
  · cases h
    exact .same rfl (Nat.le_refl _)

theorem step_shape (env : Site.Env) (s : Sys) (op : Op) {t : Sys} {l : Log} (h : s.step env op = some (t, l)) : Shape op.actor s t := by
  cases op with
  | other op =>
    simp only [step] at h
    split at h
    · cases h; exact .same rfl (Nat.le_refl _)
    · have := (step_lengths s.w op).1
      cases h; exact .same rfl this
  | request q =>
    simp only [step, Option.some.injEq] at h
    have : t = (s.request env q).1 := by rw [h]
    rw [this]
    simp only [request]
    split
    · exact httpRequest_shape env s q
    · exact rtmpRequest_shape env s q _ _ _
    · exact srtRequest_shape s q
  | wake i ret =>
    simp only [step, Option.some.injEq] at h
    have : t = (s.wake env i ret).1 := by rw [h]
    rw [this]
    exact wake_shape env s i ret
  | run i => exact run_shape env s i h

/-- Players have clients. -/
def Seated (s : Sys) : Prop := ∀ (j : Nat) (k : Conn) (c : Nat), s.conns[j]? = some k → seat k.job = some c → c < s.w.clients.length

theorem Shape.seated {a : Option Nat} {s t : Sys} (h : Shape a s t) (hs : Seated s) : Seated t := by
  cases h with
  | same h hl => intro j k c hj hc; rw [h] at hj; exact Nat.lt_of_lt_of_le (hs j k c hj hc) hl
  | push _ k' h hf =>
    intro j k c hj hc
    rw [h, List.getElem?_append] at hj
    split at hj
    · exact Nat.lt_of_lt_of_le (hs j k c hj hc) hf.1
    · rename_i hlt
      rw [List.getElem?_singleton] at hj
      split at hj
      · cases hj; exact (hf.2 c hc).2
      · cases hj
  | set i _ k0 k' hk h hf =>
    intro j k c hj hc
    rw [h, List.getElem?_set] at hj
    split at hj
    · rename_i hij
      subst hij
      split at hj
      · cases hj
        rcases hf with hf | ⟨hl, hf | hf⟩
        · exact (hf.2 c hc).2
        · rw [hf] at hc; cases hc
        · rw [hf] at hc; exact Nat.lt_of_lt_of_le (hs _ k0 c hk hc) hl
      · cases hj
    · rcases hf with hf | ⟨hl, _⟩
      · exact Nat.lt_of_lt_of_le (hs j k c hj hc) hf.1
      · exact Nat.lt_of_lt_of_le (hs j k c hj hc) hl

/-- Only the one whose piece it is changes. -/
theorem Shape.stays {a : Option Nat} {s t : Sys} (h : Shape a s t) {i : Nat} (ha : a ≠ some i) (hi : i < s.conns.length) : t.conns[i]? = s.conns[i]? := by
  cases h with
  | same h hl => rw [h]
  | push _ k' h hf => rw [h, List.getElem?_append_left hi]
  | set j hj k0 k' hk h hf => rw [h, List.getElem?_set_ne (fun e => ha (by rw [hj, e]))]

/-- Nobody else gets the client of a player. -/
theorem Shape.apart {a : Option Nat} {s t : Sys} (h : Shape a s t) {i c : Nat} (hc : c < s.w.clients.length) (hi : i < s.conns.length)
    (hs : ∀ (j : Nat) (k : Conn), j ≠ i → s.conns[j]? = some k → seat k.job ≠ some c) :
    ∀ (j : Nat) (k : Conn), j ≠ i → t.conns[j]? = some k → seat k.job ≠ some c := by
  intro j k hj hk he
  cases h with
  | same h hl => rw [h] at hk; exact hs j k hj hk he
  | push _ k' h hf =>
    rw [h, List.getElem?_append] at hk
    split at hk
    · exact hs j k hj hk he
    · rw [List.getElem?_singleton] at hk
      split at hk
      · cases hk; have := (hf.2 c he).1; omega
      · cases hk
  | set b _ k0 k' hk0 h hf =>
    rw [h, List.getElem?_set] at hk
    split at hk
    · rename_i haj
      subst haj
      split at hk
      · cases hk
        rcases hf with hf | ⟨hl, hf | hf⟩
        · have := (hf.2 c he).1; omega
        · rw [hf] at he; cases he
        · rw [hf] at he; exact hs _ k0 hj hk0 he
      · cases hk
    · exact hs j k hj hk he

end Sys
end Sps
