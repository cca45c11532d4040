import Verif.Lemmas.Ends
/-!
# Players of a stream that has ended
-/
namespace Sps.Sys
open World HttpStream Spec StreamProps

/-- A player and how it plays. -/
def playsTo : Job → Option (Nat × Nat)
  | .view c _ => some (0, c)
  | .rtmpView c _ => some (1, c)
  | .srtView c => some (2, c)
  | _ => none

/-- Writing to the player does not fail. -/
def Healthy (k : Conn) : Prop :=
  match k.job with
  | .rtmpView _ snk => snk.fails = []
  | _ => k.snk.fails = []

/-- The player after its last wait. -/
def over (k : Conn) : Conn :=
  match k.job with
  | .view c _ => ⟨.done (.player c) Err.ERROR_SOCKET_TIMEOUT, k.rsp, k.snk⟩
  | .rtmpView c snk => bare (.done (.rtmpPlayer c snk.out) Err.ERROR_SOCKET_TIMEOUT)
  | .srtView c => ⟨.done (.srtPlayer c) Err.ERROR_SOCKET_TIMEOUT, k.rsp, k.snk⟩
  | _ => k

theorem over_done {k : Conn} {x : Nat × Nat} (h : playsTo k.job = some x) : ∃ was, (over k).job = .done was Err.ERROR_SOCKET_TIMEOUT := by
  obtain ⟨job, r, snk⟩ := k
  cases job <;> simp only [playsTo, reduceCtorEq] at h <;> exact ⟨_, rfl⟩

/-- Players that have left are logged. -/
theorem left_logged (ops : List WOp) : ∀ {w : World} {past : Log}, Inv w past → (∀ (c : Nat) (cl : Client), w.clients[c]? = some cl → cl.left = true → (.leave c, .ok) ∈ past) →
    ∀ (c : Nat) (cl : Client), (w.run ops).1.clients[c]? = some cl → cl.left = true → (.leave c, .ok) ∈ past ++ (w.run ops).2 := by
  induction ops with
  | nil => intro w past _ h c cl hc hl; simpa [World.run] using h c cl hc hl
  | cons op ops ih =>
    intro w past hi h c cl hc hl
    obtain ⟨a, b⟩ := run_snd_cons w op ops
    rw [b] at hc
    rw [a]
    have := ih (World.step_inv hi op) (past := past ++ [(op, (w.step op).2)]) (by
      intro d dl hd hdl
      rcases Nat.lt_or_ge d w.clients.length with hlt | hge
      · obtain ⟨d0, hd0⟩ : ∃ d0, w.clients[d]? = some d0 := ⟨_, List.getElem?_eq_getElem hlt⟩
        obtain ⟨d', e, _, h1, h2⟩ := step_client hi op hd0
        rw [hd] at e
        cases e
        by_cases hl0 : d0.left = true
        · exact List.mem_append_left _ (h d d0 hd0 hl0)
        · have hl0 : d0.left = false := by simpa using hl0
          have hop := (h2 hl0).2.1 hdl
          subst hop
          apply List.mem_append_right
          have : (w.step (.leave d)).2 = .ok := by simp [World.step, World.leave, hd0, hl0]
          rw [this]
          exact List.mem_singleton.2 rfl
      · obtain ⟨_, ⟨cid, d', _, e, _, hf, _⟩ | ⟨_, hlen⟩⟩ := step_absent hi op hge
        · rw [hd] at e; cases e; rw [hf] at hdl; cases hdl
        · rw [List.getElem?_eq_none hlen] at hd; cases hd) c cl hc hl
    rwa [List.append_assoc, List.singleton_append] at this

/-- A player's client is there. -/
theorem playing_client {env : Site.Env} {rqs : List Req} {L : Log} {s : Sys} (h : SInv env rqs L s) {j : Nat} {k : Conn} (hk : s.conns[j]? = some k) {x : Nat × Nat}
    (hp : playsTo k.job = some x) : ∃ cl, s.w.clients[x.2]? = some cl ∧ cl.left = false := by
  have hj : j < rqs.length := by
    rw [← h.len]
    rcases Nat.lt_or_ge j s.conns.length with h' | h'
    · exact h'
    · rw [List.getElem?_eq_none h'] at hk; cases hk
  have hc := h.ok j k _ hk (List.getElem?_eq_getElem hj)
  have key : x.2 < s.w.clients.length ∧ (.leave x.2, .ok) ∉ L := by
    obtain ⟨job, r, snk⟩ := k
    unfold ConnOk at hc
    cases job <;> simp only [playsTo, reduceCtorEq, Option.some.injEq] at hp <;> subst hp <;> simp only at hc
    · exact ⟨hc.2.1, hc.2.2.2.2.2.2.2⟩
    · exact ⟨hc.2.1, hc.2.2.2⟩
    · exact ⟨hc.2.1, hc.2.2.2⟩
  refine ⟨_, List.getElem?_eq_getElem key.1, ?_⟩
  by_cases hl : (s.w.clients[x.2]).left = true
  · have := left_logged (L.map Prod.fst) World.Inv.init (by intro c cl hc; simp [World.init] at hc) x.2
    rw [h.world] at this
    exact absurd (by simpa using this _ (List.getElem?_eq_getElem key.1) hl) key.2
  · simpa using hl

theorem dump_at {w : World} {c : Nat} {cl : Client} (hc : w.clients[c]? = some cl) (hl : cl.left = false) :
    (w.dump c).2 = .pkts (pendingOf w c) ∧ pendingOf (w.dump c).1 c = [] := by
  have hlt : c < w.clients.length := by
    rcases Nat.lt_or_ge c w.clients.length with h' | h'
    · exact h'
    · rw [List.getElem?_eq_none h'] at hc; cases hc
  have hx : w.clients[c] = cl := by
    rw [List.getElem?_eq_getElem hlt] at hc; cases hc; rfl
  have hq : (cl.q.dumpClient []).1 = cl.q.pbs ∧ (cl.q.dumpClient []).2.2.pbs = [] := by
    simp only [Queue.dumpClient]
    split
    · rename_i h0
      have : cl.q.pbs = [] := List.length_eq_zero_iff.1 h0
      simp [this]
    · simp [Queue.dump]
  simp only [World.dump, hc, hl, pendingOf]
  refine ⟨by simp [hq.1], ?_⟩
  simp [hlt, hx, hq.2]

theorem leave_pending (w : World) (c d : Nat) : pendingOf (w.leave c).1 d = pendingOf w d := by
  simp only [World.leave]
  split
  · rfl
  · split
    · rfl
    · simp only [pendingOf, List.getElem?_modify]
      cases w.clients[d]? with
      | none => rfl
      | some x =>
        simp only [Option.map_eq_map, Option.map_some]
        split <;> rfl

theorem rtmpWrite_live (ps : List AVPkt) : ∀ {snk : MsgSink}, snk.fails = [] → ∃ snk', rtmpWrite ps snk = (Err.SUCCESS, snk') ∧ snk'.fails = [] := by
  induction ps with
  | nil => intro snk h; exact ⟨snk, rfl, h⟩
  | cons p ps ih =>
    intro snk h
    have : ∃ snk1, RtmpMuxer.writePacket 20 p snk = (Err.SUCCESS, snk1) ∧ snk1.fails = [] := by
      have he : (RtmpMuxer.encode 20 p).1 = Err.SUCCESS := by
        simp only [RtmpMuxer.encode]
        split
        · rfl
        · split
          · rw [if_neg (by decide)]
          · split
            · rw [if_neg (by decide)]; split <;> rfl
            · rfl
      unfold RtmpMuxer.writePacket
      cases hx : RtmpMuxer.encode 20 p with
      | mk e o =>
        rw [hx] at he
        cases o with
        | none => exact ⟨snk, by rw [← he], h⟩
        | some m => exact ⟨{ snk with out := snk.out ++ [m] }, by simp only [MsgSink.write, h], h⟩
    obtain ⟨snk1, h1, h2⟩ := this
    obtain ⟨snk', h3, h4⟩ := ih h2
    exact ⟨snk', by simp only [rtmpWrite, h1, ne_eq, not_true_eq_false, if_false]; exact h3, h4⟩

theorem srtWrite_live (ps : List AVPkt) : ∀ {snk : Sink}, snk.fails = [] → ∃ snk', srtWrite ps snk = (Err.SUCCESS, snk') ∧ snk'.fails = [] := by
  induction ps with
  | nil => intro snk h; exact ⟨snk, rfl, h⟩
  | cons p ps ih =>
    intro snk h
    obtain ⟨snk', h3, h4⟩ := ih (snk := { snk with out := snk.out ++ p.payload }) h
    exact ⟨snk', by simp only [srtWrite, FlvMuxer.write_ok snk _ h, ne_eq, not_true_eq_false, if_false]; exact h3, h4⟩

/-- A turn of a player. -/
theorem turn {env : Site.Env} {rqs : List Req} {L : Log} {s : Sys} (h : SInv env rqs L s) {j : Nat} {k : Conn} (hk : s.conns[j]? = some k) {x : Nat × Nat}
    (hp : playsTo k.job = some x) {s' : Sys} {l : Log} (he : s.step env (.run j) = some (s', l)) (hfit : fitsFlv (L ++ l)) :
    (pendingOf s.w x.2 = [] → s'.conns[j]? = some (over k)) ∧ pendingOf s'.w x.2 = [] ∧
    ((∃ k' was e, s'.conns[j]? = some k' ∧ k'.job = .done was e) ∨ ∃ k', s'.conns[j]? = some k' ∧ playsTo k'.job = some x) ∧
    (Healthy k → (x.1 = 0 → ∀ p ∈ pendingOf s.w x.2, Flv.carries p = true) → pendingOf s.w x.2 ≠ [] →
      ∃ k', s'.conns[j]? = some k' ∧ playsTo k'.job = some x ∧ Healthy k') := by
  obtain ⟨cl, hc, hl⟩ := playing_client h hk hp
  obtain ⟨d1, d2⟩ := dump_at hc hl
  obtain ⟨w1, hw1⟩ : ∃ w1, s.w.dump x.2 = (w1, .pkts (pendingOf s.w x.2)) := ⟨_, Prod.ext rfl d1⟩
  rw [hw1] at d2
  simp only at d2
  have hset : ∀ k', (s.conns.set j k')[j]? = some k' := fun k' => getElem?_set_self' hk
  obtain ⟨job, r, snk⟩ := k
  cases job <;> simp only [playsTo, reduceCtorEq, Option.some.injEq] at hp <;> subst hp <;> simp only at hw1 d2 ⊢ <;> simp only [step, hk] at he
  case view c mux =>
    have hto : ¬ isRefusal Err.ERROR_SOCKET_TIMEOUT := by unfold isRefusal; decide
    cases hps : pendingOf s.w c with
    | nil =>
      rw [hps] at hw1
      simp only [runView, hw1, endView, close_player _ _ _ _ _ hto] at he
      cases he
      exact ⟨fun _ => hset _, by rw [leave_pending]; exact d2, .inl ⟨_, _, _, hset _, rfl⟩, fun _ _ hne => absurd rfl hne⟩
    | cons p ps =>
      rw [hps] at hw1
      simp only [runView, hw1] at he
      rw [Option.map_eq_some_iff] at he
      obtain ⟨⟨e, mux', r', snk'⟩, hm, he⟩ := he
      refine ⟨fun hn => absurd hn (by simp), ?_, ?_, ?_⟩
      · simp only at he
        split at he <;> cases he
        · rw [leave_pending]; exact d2
        · exact d2
      · simp only at he
        split at he <;> cases he
        · exact .inl ⟨_, _, _, hset _, rfl⟩
        · exact .inr ⟨_, hset _, rfl⟩
      · intro hh hcar _
        have hj : j < rqs.length := by
          rw [← h.len]
          rcases Nat.lt_or_ge j s.conns.length with h' | h'
          · exact h'
          · rw [List.getElem?_eq_none h'] at hk; cases hk
        have hok := h.ok j _ _ hk (List.getElem?_eq_getElem hj)
        obtain ⟨-, -, h3, -, h5, -, -, -⟩ := hok
        have hsmall : ∀ y ∈ p :: ps, (Flv.body y).length < 2 ^ 24 := by
          have hworld : World.init.run ((L ++ [(WOp.dump c, WOut.pkts (p :: ps))]).map Prod.fst) = (w1, L ++ [(.dump c, .pkts (p :: ps))]) := by
            rw [List.map_append, World.run_append, h.world]
            simp [World.run, dump_pkts hw1]
          intro y hy
          refine received_small hworld ?_ c y ?_
          · intro cid' p' hp'
            apply hfit cid' p'
            rw [publishedTo_append, published_other _ (by simp), List.append_nil] at hp'
            rw [publishedTo_append]
            exact List.mem_append_left _ hp'
          · rw [received_append, received_pkts]
            exact List.mem_append_right _ hy
        have hE : ¬ isRefusal Err.ERROR_FLV_UNKNOWN_TAG_TYPE := by unfold isRefusal; decide
        obtain ⟨e', m', ⟨r2, snk2⟩, sent, a1, -, -, -, -, a6⟩ := FlvMuxer.writePacketsTo_spec (appends_http env.reason) hE (p :: ps) mux (r, snk) h5 h3 hsmall
        rw [hm] at a1
        cases a1
        obtain ⟨b1, b2⟩ := a6 (hcar trivial) hh
        subst b1
        simp only [ne_eq, not_true_eq_false, if_false] at he
        cases he
        exact ⟨_, hset _, rfl, b2⟩
  case rtmpView c ms =>
    cases hps : pendingOf s.w c with
    | nil =>
      rw [hps] at hw1
      simp only [runRtmpView, hw1, endRtmpView] at he
      cases he
      exact ⟨fun _ => hset _, by rw [leave_pending]; exact d2, .inl ⟨_, _, _, hset _, rfl⟩, fun _ _ hne => absurd rfl hne⟩
    | cons p ps =>
      rw [hps] at hw1
      simp only [runRtmpView, hw1, Option.some.injEq] at he
      refine ⟨fun hn => absurd hn (by simp), ?_, ?_, ?_⟩
      · split at he <;> cases he
        · simp only [endRtmpView, leave_pending]; exact d2
        · exact d2
      · split at he <;> cases he
        · exact .inl ⟨_, _, _, hset _, rfl⟩
        · exact .inr ⟨_, hset _, rfl⟩
      · intro hh _ _
        obtain ⟨ms', h1, h2⟩ := rtmpWrite_live (p :: ps) (snk := ms) hh
        simp only [h1, ne_eq, not_true_eq_false, if_false] at he
        cases he
        exact ⟨_, hset _, rfl, h2⟩
  case srtView c =>
    cases hps : pendingOf s.w c with
    | nil =>
      rw [hps] at hw1
      simp only [runSrtView, hw1, endSrtView] at he
      cases he
      exact ⟨fun _ => hset _, by rw [leave_pending]; exact d2, .inl ⟨_, _, _, hset _, rfl⟩, fun _ _ hne => absurd rfl hne⟩
    | cons p ps =>
      rw [hps] at hw1
      simp only [runSrtView, hw1, Option.some.injEq] at he
      refine ⟨fun hn => absurd hn (by simp), ?_, ?_, ?_⟩
      · split at he <;> cases he
        · simp only [endSrtView, leave_pending]; exact d2
        · exact d2
      · split at he <;> cases he
        · exact .inl ⟨_, _, _, hset _, rfl⟩
        · exact .inr ⟨_, hset _, rfl⟩
      · intro hh _ _
        obtain ⟨snk', h1, h2⟩ := srtWrite_live (p :: ps) (snk := snk) hh
        simp only [h1, ne_eq, not_true_eq_false, if_false] at he
        cases he
        exact ⟨_, hset _, rfl, h2⟩

/-- While the source of its stream has stopped, what is pending for a player only becomes less. -/
theorem quiet_step {env : Site.Env} {rqs rqs' : List Req} {L l : Log} {s s' : Sys} (h : SInv env rqs L s) (h' : SInv env rqs' (L ++ l) s') {c cid : Nat} {cl : Client}
    (hc : s.w.clients[c]? = some cl) (hl : cl.left = false) (hcid : cl.cache = cid) {key : Key} {src : Src} (hv : s.w.view cid = some (key, src, false)) :
    received c l ++ pendingOf s'.w c = pendingOf s.w c := by
  have hw := run_world h h'
  have h1 := run_joined (l.map Prod.fst) h.inv hc hl
  have h2 := closed_quiet (l.map Prod.fst) hv
  rw [hw] at h1 h2
  simp only at h1 h2
  have h3 := untilLeave_prefix c cid l
  rw [h2] at h3
  rw [hcid, List.prefix_nil.1 h3, List.append_nil] at h1
  rw [h1]
  simp only [pendingOf, hc]

theorem run_closed {cid : Nat} {key : Key} {src : Src} (ops : List WOp) : ∀ {w : World}, w.view cid = some (key, src, false) → (w.run ops).1.view cid = some (key, src, false) := by
  induction ops with
  | nil => intro w h; exact h
  | cons op ops ih => intro w h; rw [(run_snd_cons w op ops).2]; exact ih (step_closed w op h)

theorem fitsFlv_prefix {a b : Log} (h : fitsFlv (a ++ b)) : fitsFlv a := fun cid p hp => h cid p (by rw [publishedTo_append]; exact List.mem_append_left _ hp)

theorem playsTo_waits {k : Conn} {x : Nat × Nat} (hp : playsTo k.job = some x) : (∀ u tag own, k.job ≠ .waits u tag own) ∧ ∀ u fails own, k.job ≠ .rtmpWaits u fails own :=
  ⟨fun u tag own he => (by rw [he] at hp; cases hp), fun u fails own he => (by rw [he] at hp; cases hp)⟩

/-- The client of a player after a piece that is not its own end. -/
theorem client_cache {env : Site.Env} {rqs rqs' : List Req} {L l : Log} {s s' : Sys} (h : SInv env rqs L s) (h' : SInv env rqs' (L ++ l) s') {c cid : Nat} {cl : Client}
    (hc : s.w.clients[c]? = some cl) (hcid : cl.cache = cid) : ∃ cl', s'.w.clients[c]? = some cl' ∧ cl'.cache = cid := by
  have hw := run_world h h'
  have gen : ∀ (ops : List WOp) {w : World} {past : Log} {cl : Client}, Inv w past → w.clients[c]? = some cl → cl.cache = cid → ∃ cl', (w.run ops).1.clients[c]? = some cl' ∧ cl'.cache = cid := by
    intro ops
    induction ops with
    | nil => intro w past cl _ hc hcid; exact ⟨cl, hc, hcid⟩
    | cons op ops ih =>
      intro w past cl hi hc hcid
      obtain ⟨cl', e, e2, _⟩ := step_client hi op hc
      rw [(run_snd_cons w op ops).2]
      exact ih (World.step_inv hi op) e (by rw [e2, hcid])
  have := gen (l.map Prod.fst) h.inv hc hcid
  rwa [hw] at this

/-- A player of a stream that has ended: after two turns, or one if nothing is pending, it has ended. -/
theorem ends_player {env : Site.Env} {j cid : Nat} {key : Key} {src : Src} {x : Nat × Nat} (ops : List Op) : ∀ {rqs : List Req} {L l : Log} {s s' : Sys} {k : Conn} {cl : Client},
    SInv env rqs L s → (∀ q ∈ rqs, ReqOk q) → (∀ q ∈ requestsOf ops, ReqOk q) → Sys.run env s ops = some (s', l) → fitsFlv (L ++ l) →
    s.conns[j]? = some k → playsTo k.job = some x → s.w.clients[x.2]? = some cl → cl.cache = cid → s.w.view cid = some (key, src, false) →
    (pendingOf s.w x.2 = [] ∧ 1 ≤ turns j ops ∨ 2 ≤ turns j ops) →
    (∃ k' was e, s'.conns[j]? = some k' ∧ k'.job = .done was e) ∧
    (Healthy k → (x.1 = 0 → ∀ p ∈ pendingOf s.w x.2, Flv.carries p = true) →
      ∃ B1 B2 t l1 l2 k1, ops = B1 ++ .run j :: B2 ∧ l = l1 ++ l2 ∧ Sys.run env s B1 = some (t, l1) ∧ t.conns[j]? = some k1 ∧ playsTo k1.job = some x ∧ pendingOf t.w x.2 = [] ∧
        s'.conns[j]? = some (over k1)) := by
  induction ops with
  | nil => intro rqs L l s s' k cl _ _ _ _ _ _ _ _ _ _ ht; simp [turns] at ht
  | cons op ops ih =>
    intro rqs L l s s' k cl hi hqs hop h hfit hk hp hc hcid hv ht
    simp only [Sys.run, Option.bind_eq_bind, Option.bind_eq_some_iff] at h
    obtain ⟨⟨s1, l1⟩, h1, ⟨s2, l2⟩, h2, h3⟩ := h
    simp only [Option.pure_def, Option.some.injEq, Prod.mk.injEq] at h3
    obtain ⟨rfl, rfl⟩ := h3
    simp only at h2
    rw [← List.append_assoc] at hfit
    have hop1 : ∀ q ∈ requestsOf [op], ReqOk q := by
      intro q hm; apply hop
      have := requestsOf_cons op ops
      rw [this]; exact List.mem_append_left _ hm
    have hop2 : ∀ q ∈ requestsOf ops, ReqOk q := by
      intro q hm; apply hop
      have := requestsOf_cons op ops
      rw [this]; exact List.mem_append_right _ hm
    have hi1 := step_inv hi hqs op hop1 h1 (fitsFlv_prefix hfit)
    have hqs1 : ∀ q ∈ rqs ++ requestsOf [op], ReqOk q := by
      intro q hm
      rcases List.mem_append.1 hm with hm | hm
      · exact hqs q hm
      · exact hop1 q hm
    obtain ⟨cl1, hc1, hcid1⟩ := client_cache hi hi1 hc hcid
    have hv1 : s1.w.view cid = some (key, src, false) := by
      have := run_closed (l1.map Prod.fst) hv
      rwa [run_world hi hi1] at this
    have hleft : cl.left = false := by
      obtain ⟨cl0, g1, g2⟩ := playing_client hi hk hp
      rw [hc] at g1; cases g1; exact g2
    have hq := quiet_step hi hi1 hc hleft hcid hv
    by_cases ho : op = .run j
    · subst ho
      have hn : turns j (.run j :: ops) = 1 + turns j ops := by rw [turns_cons]; simp
      rw [hn] at ht
      obtain ⟨t1, t2, t3, t4⟩ := turn hi hk hp h1 (fitsFlv_prefix hfit)
      by_cases hpn : pendingOf s.w x.2 = []
      · have hk1 := t1 hpn
        obtain ⟨was, hd⟩ := over_done hp
        refine ⟨⟨_, _, _, run_done hd ops h2 hk1, hd⟩, fun _ _ => ?_⟩
        exact ⟨[], ops, s, [], l1 ++ l2, k, rfl, rfl, rfl, hk, hp, hpn, run_done hd ops h2 hk1⟩
      · have ht2 : 1 ≤ turns j ops := by
          rcases ht with ⟨h0, _⟩ | h0
          · exact absurd h0 hpn
          · omega
        constructor
        · rcases t3 with ⟨k', was, e, hk', hd⟩ | ⟨k', hk', hp'⟩
          · exact ⟨k', was, e, run_done hd ops h2 hk', hd⟩
          · exact (ih hi1 hqs1 hop2 h2 hfit hk' hp' hc1 hcid1 hv1 (.inl ⟨t2, ht2⟩)).1
        · intro hh hcar
          obtain ⟨k', hk', hp', hh'⟩ := t4 hh hcar hpn
          obtain ⟨B1, B2, t, m1, m2, k1, e1, e2, e3, e4, e5, e6, e7⟩ := (ih hi1 hqs1 hop2 h2 hfit hk' hp' hc1 hcid1 hv1 (.inl ⟨t2, ht2⟩)).2 hh' (fun _ p hm => by rw [t2] at hm; cases hm)
          refine ⟨.run j :: B1, B2, t, l1 ++ m1, m2, k1, by rw [e1]; rfl, by rw [e2, List.append_assoc], ?_, e4, e5, e6, e7⟩
          simp only [Sys.run, h1, Option.bind_eq_bind, Option.bind_some, e3]; rfl
    · have hk1 := frame h1 hk (playsTo_waits hp) ho
      have hn : turns j (op :: ops) = turns j ops := by
        rw [turns_cons]
        cases op <;> simp only
        rename_i i
        have : i ≠ j := fun he => ho (by rw [he])
        simp [this]
      rw [hn] at ht
      have hrec : received x.2 l1 ++ pendingOf s1.w x.2 = pendingOf s.w x.2 := hq
      have ht' : pendingOf s1.w x.2 = [] ∧ 1 ≤ turns j ops ∨ 2 ≤ turns j ops := by
        rcases ht with ⟨h0, h0'⟩ | h0
        · rw [h0] at hrec; exact .inl ⟨(List.append_eq_nil_iff.1 hrec).2, h0'⟩
        · exact .inr h0
      have hI := ih hi1 hqs1 hop2 h2 hfit hk1 hp hc1 hcid1 hv1 ht'
      refine ⟨hI.1, fun hh hcar => ?_⟩
      obtain ⟨B1, B2, t, m1, m2, k1, e1, e2, e3, e4, e5, e6, e7⟩ := hI.2 hh (fun h0 p hm => hcar h0 p (by rw [← hrec]; exact List.mem_append_right _ hm))
      refine ⟨op :: B1, B2, t, l1 ++ m1, m2, k1, by rw [e1]; rfl, by rw [e2, List.append_assoc], ?_, e4, e5, e6, e7⟩
      simp only [Sys.run, h1, Option.bind_eq_bind, Option.bind_some, e3]; rfl

/-- How the job of a new publisher begins. -/
def Begins (q : Req) : Job → Prop
  | .flvPub _ rd hd => hd = false ∧ rd = SReader.on q.mem (body q)
  | .rtmpPub _ ms cl => q.via = .rtmp true ms cl
  | _ => True

theorem begins_of_seat {q : Req} {c : Nat} {j : Job} (h : Rests c j) : Begins q j := by
  rcases h with ⟨was, e, rfl⟩ | h
  · trivial
  · cases j <;> first | trivial | cases h

theorem request_begins (env : Site.Env) (s : Sys) (q : Req) : ∃ k0, (s.request env q).1.conns = s.conns ++ [k0] ∧ Begins q k0.job := by
  have play : ∀ x, StreamHandler.play env.outs env.junk q.host q.url s.w = x → (∀ w, x ≠ (.pull, w)) → x = StreamHandler.attach env.outs env.junk Err.SUCCESS q.url s.w := by
    intro x hx hn
    subst hx
    unfold StreamHandler.play at hn ⊢
    split
    · rename_i h; exact absurd (by rw [if_pos h]) (hn _)
    · rfl
  unfold request
  split
  · simp only [httpRequest]
    split
    · split
      · refine ⟨_, rfl, ?_⟩
        simp only
        split
        · exact ⟨rfl, rfl⟩
        · trivial
      · exact ⟨_, rfl, trivial⟩
    · split
      · exact ⟨_, rfl, trivial⟩
      · rename_i x hx
        refine ⟨_, rfl, ?_⟩
        rw [play _ rfl hx]
        exact begins_of_seat (afterAttach_shape (eta3 _)).2
  · rename_i publishing ms cl hv
    simp only [rtmpRequest]
    split
    · rename_i hpub
      subst hpub
      split
      · refine ⟨_, rfl, ?_⟩
        simp only [bare]
        split
        · exact hv
        · trivial
      · exact ⟨_, rfl, trivial⟩
    · split
      · exact ⟨_, rfl, trivial⟩
      · rename_i x hx
        refine ⟨_, rfl, ?_⟩
        rw [play _ rfl hx]
        exact begins_of_seat (rtmpAttach_shape (eta3 _)).2
  · simp only [srtRequest]
    split
    · split
      · exact ⟨_, rfl, trivial⟩
      · exact ⟨_, rfl, trivial⟩
    · split
      · exact ⟨_, rfl, trivial⟩
      · exact ⟨_, rfl, trivial⟩

/-- A client that has joined is a client of what it joined. -/
theorem joined_cache {op : WOp} {c cid : Nat} (ops : List WOp) : ∀ {w : World} {past : Log}, Inv w past → (op, .joined c cid) ∈ (w.run ops).2 →
    ∃ cl, (w.run ops).1.clients[c]? = some cl ∧ cl.cache = cid := by
  induction ops with
  | nil => intro w past _ h; cases h
  | cons o ops ih =>
    intro w past hi h
    obtain ⟨a, b⟩ := run_snd_cons w o ops
    rw [a] at h
    rw [b]
    rcases List.mem_cons.1 h with h | h
    · simp only [Prod.mk.injEq] at h
      obtain ⟨rfl, h⟩ := h
      have hlt : w.clients.length ≤ c := by
        cases op <;> simp only [World.step, World.publish, World.publishSrt, World.unpublish, World.put, World.play, World.dump, World.leave, World.edgeRequest, World.edgeOpen, World.edgeEnd, World.edgeDrop] at h <;>
          repeat (split at h <;> try cases h)
        all_goals first | exact Nat.le_refl _ | cases h
      obtain ⟨_, ⟨cid', cl, e1, e2, e3, _⟩ | ⟨e1, _⟩⟩ := step_absent hi op hlt
      · rw [← h] at e1
        cases e1
        have gen : ∀ (ops : List WOp) {w : World} {past : Log} {cl : Client}, Inv w past → w.clients[c]? = some cl → cl.cache = cid → ∃ cl', (w.run ops).1.clients[c]? = some cl' ∧ cl'.cache = cid := by
          intro ops
          induction ops with
          | nil => intro w past cl _ hc hcid; exact ⟨cl, hc, hcid⟩
          | cons op ops ih =>
            intro w past cl hi hc hcid
            obtain ⟨cl', e, e2, _⟩ := step_client hi op hc
            rw [(run_snd_cons w op ops).2]
            exact ih (World.step_inv hi op) e (by rw [e2, hcid])
        exact gen ops (World.step_inv hi op) e2 e3
      · exact absurd h.symm (e1 cid)
    · exact ih (World.step_inv hi o) h

end Sps.Sys
