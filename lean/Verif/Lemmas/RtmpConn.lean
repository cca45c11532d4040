import Verif.Lemmas.ServeInv
import Verif.Lemmas.StreamOne
import Verif.Model.RtmpConn
import Verif.Spec.RtmpConn
/-!
# Lemmas about requests that reach a running publisher
-/
namespace Sps.Sys
open Spec HttpStream World StreamProps

theorem run_split (env : Site.Env) (a b : List Op) : ∀ (s : Sys) {s2 : Sys} {L : Log}, Sys.run env s (a ++ b) = some (s2, L) →
    ∃ s1 L1 L2, Sys.run env s a = some (s1, L1) ∧ Sys.run env s1 b = some (s2, L2) ∧ L = L1 ++ L2 := by
  induction a with
  | nil => exact fun s s2 L h => ⟨s, [], L, rfl, h, rfl⟩
  | cons op a ih =>
    intro s s2 L h
    rw [List.cons_append, Sys.run] at h
    cases hs : s.step env op with
    | none => simp [hs] at h
    | some x =>
      obtain ⟨s', l⟩ := x
      rw [hs] at h
      simp only [Option.bind_eq_bind, Option.bind_some] at h
      cases hr : Sys.run env s' (a ++ b) with
      | none => simp [hr] at h
      | some y =>
        obtain ⟨s3, l3⟩ := y
        rw [hr] at h
        simp only [Option.bind_some, Option.pure_def, Option.some.injEq, Prod.mk.injEq] at h
        obtain ⟨rfl, rfl⟩ := h
        obtain ⟨s1, L1, L2, h1, h2, rfl⟩ := ih s' hr
        exact ⟨s1, l ++ L1, L2, by simp [Sys.run, hs, h1], h2, by simp⟩

theorem fst_eq {α β : Type} {p : α × β} {a : α} {b : β} (h : p = (a, b)) : p.1 = a := by rw [h]

/-- What a connection is for, of those that serve a stream or have done so. -/
def kind : Job → Option (Nat × Nat)
  | .view c _ | .done (.player c) _ => some (0, c)
  | .flvPub c _ _ | .done (.publisher c) _ => some (1, c)
  | .rtmpView c _ | .done (.rtmpPlayer c _) _ => some (2, c)
  | .rtmpPub c _ _ | .done (.rtmpPublisher c) _ => some (3, c)
  | .srtView c | .done (.srtPlayer c) _ => some (4, c)
  | .srtPub c _ _ _ | .done (.srtPublisher c) _ => some (5, c)
  | _ => none

theorem set_kind {conns : List Conn} {i j : Nat} {k k' : Conn} {x : Nat × Nat} (hi : conns[i]? = some k') (hj : conns[j]? = some k) (hx : kind k.job = some x)
    {n : Conn} (hn : kind n.job = kind k'.job) : ∃ m, (conns.set i n)[j]? = some m ∧ kind m.job = some x := by
  by_cases h : i = j
  · subst h
    rw [hi] at hj
    cases hj
    refine ⟨n, ?_, hn.trans hx⟩
    rw [List.getElem?_set_self]
    exact (List.getElem?_eq_some_iff.1 hi).1
  · exact ⟨k, by rw [List.getElem?_set_ne h]; exact hj, hx⟩

theorem set_kind' {conns : List Conn} {i j : Nat} {k k' : Conn} {x : Nat × Nat} (hi : conns[i]? = some k') (hj : conns[j]? = some k) (hx : kind k.job = some x)
    (n : Conn) (hn : kind k'.job = none) : ∃ m, (conns.set i n)[j]? = some m ∧ kind m.job = some x := by
  by_cases h : i = j
  · subst h
    rw [hi] at hj
    cases hj
    rw [hn] at hx
    exact absurd hx (by simp)
  · exact ⟨k, by rw [List.getElem?_set_ne h]; exact hj, hx⟩

theorem close_kind (reason : Int → Text) (was : Role) (e : Err) (r : HttpRsp) (s : Sink) : ∃ e', (close reason was e r s).job = .done was e' := ⟨_, rfl⟩

theorem step_kind (env : Site.Env) {s s' : Sys} {l : Log} (op : Op) (h : s.step env op = some (s', l)) {j : Nat} {k : Conn} (hj : s.conns[j]? = some k) {x : Nat × Nat}
    (hx : kind k.job = some x) : ∃ k', s'.conns[j]? = some k' ∧ kind k'.job = some x := by
  have happ : ∀ t : List Conn, (s.conns ++ t)[j]? = some k := fun t => by
    rw [List.getElem?_append_left (List.getElem?_eq_some_iff.1 hj).1]
    exact hj
  cases op with
  | other op =>
    simp only [Sys.step] at h
    split at h <;> (cases h; exact ⟨k, hj, hx⟩)
  | request q =>
    simp only [Sys.step, Option.some.injEq] at h
    have : ∃ t, s'.conns = s.conns ++ t := by
      rw [← fst_eq h]
      unfold request httpRequest rtmpRequest srtRequest
      simp only
      repeat' split
      all_goals exact ⟨_, rfl⟩
    obtain ⟨t, ht⟩ := this
    exact ⟨k, by rw [ht]; exact happ t, hx⟩
  | wake i ret =>
    simp only [Sys.step, Option.some.injEq] at h
    unfold wake at h
    split at h
    · rename_i hi
      simp only at h
      rw [← fst_eq h]
      exact set_kind' hi hj hx _ rfl
    · rename_i hi
      simp only at h
      rw [← fst_eq h]
      exact set_kind' hi hj hx _ rfl
    · cases h; exact ⟨k, hj, hx⟩
  | run i =>
    simp only [Sys.step] at h
    split at h
    · rename_i hi
      unfold runPub at h
      split at h
      all_goals
        rw [Option.map_eq_some_iff] at h
        obtain ⟨y, -, h⟩ := h
        split at h <;> (rw [← fst_eq h]; exact set_kind hi hj hx rfl)
    · rename_i hi
      unfold runView at h
      split at h
      · rw [Option.some.injEq] at h; rw [← fst_eq h]; exact set_kind hi hj hx rfl
      · rw [Option.map_eq_some_iff] at h
        obtain ⟨y, -, h⟩ := h
        simp only at h
        split at h <;> (rw [← fst_eq h]; exact set_kind hi hj hx rfl)
      · cases h; exact ⟨k, hj, hx⟩
    · rename_i hi
      unfold runNull at h
      split at h
      · rw [Option.some.injEq] at h; rw [← fst_eq h]; exact set_kind' hi hj hx _ rfl
      · split at h
        · simp at h
        · cases h; exact ⟨k, hj, hx⟩
      · cases h; exact ⟨k, hj, hx⟩
    · rename_i hi
      unfold runRtmpPub at h
      rw [Option.map_eq_some_iff] at h
      obtain ⟨y, -, h⟩ := h
      split at h <;> (rw [← fst_eq h]; exact set_kind hi hj hx rfl)
    · rename_i hi
      unfold runRtmpView at h
      split at h
      · rw [Option.some.injEq] at h; rw [← fst_eq h]; exact set_kind hi hj hx rfl
      · rw [Option.some.injEq] at h
        split at h
        split at h <;> (rw [← fst_eq h]; exact set_kind hi hj hx rfl)
      · cases h; exact ⟨k, hj, hx⟩
    · rename_i hi
      unfold runSrtPub at h
      split at h
      · rw [Option.some.injEq] at h; rw [← fst_eq h]; exact set_kind hi hj hx rfl
      · rw [Option.bind_eq_some_iff] at h
        obtain ⟨y, -, h⟩ := h
        simp only at h
        split at h
        · rw [Option.some.injEq] at h; rw [← fst_eq h]; exact set_kind hi hj hx rfl
        · rw [Option.bind_eq_some_iff] at h
          obtain ⟨z, -, h⟩ := h
          rw [Option.map_eq_some_iff] at h
          obtain ⟨z', -, h⟩ := h
          repeat' split at h
          all_goals (rw [← fst_eq h]; exact set_kind hi hj hx rfl)
    · rename_i hi
      rw [Option.some.injEq] at h
      unfold runSrtView at h
      split at h
      · rw [← fst_eq h]; exact set_kind hi hj hx rfl
      · simp only at h
        split at h <;> (rw [← fst_eq h]; exact set_kind hi hj hx rfl)
      · cases h; exact ⟨k, hj, hx⟩
    · cases h; exact ⟨k, hj, hx⟩

theorem run_kind (env : Site.Env) (ops : List Op) : ∀ {s s' : Sys} {l : Log}, Sys.run env s ops = some (s', l) → ∀ {j : Nat} {k : Conn}, s.conns[j]? = some k → ∀ {x : Nat × Nat},
    kind k.job = some x → ∃ k', s'.conns[j]? = some k' ∧ kind k'.job = some x := by
  induction ops with
  | nil =>
    intro s s' l h j k hj x hx
    simp only [Sys.run, Option.some.injEq, Prod.mk.injEq] at h
    obtain ⟨rfl, -⟩ := h
    exact ⟨k, hj, hx⟩
  | cons op ops ih =>
    intro s s' l h j k hj x hx
    obtain ⟨s1, L1, L2, h1, h2, -⟩ := run_split env [op] ops s h
    simp only [Sys.run] at h1
    cases hs : s.step env op with
    | none => simp [hs] at h1
    | some y =>
      obtain ⟨s3, l3⟩ := y
      simp [hs] at h1
      obtain ⟨rfl, rfl⟩ := h1
      obtain ⟨k', h3, h4⟩ := step_kind env op hs hj hx
      exact ih h2 h3 h4

/-- A player of a stream joins it. -/
theorem stream_joins {w : World} {L : Log} (hw : World.init.run (L.map Prod.fst) = (w, L)) {k : Key} (hk : plainKey k = true) {cid : Nat} (hs : isStream cid k L) :
    (w.play k).2 = .joined w.clients.length cid ∧ (w.reg.find k).isSome := by
  have := (C16_stream (L.map Prod.fst) k cid hk (by rw [hw]; exact hs)).1
  rw [hw] at this
  have this : (w.play k).2 = .joined w.clients.length cid := this
  refine ⟨this, ?_⟩
  rw [play_eq] at this
  cases hf : w.reg.find k with
  | none => rw [hf] at this; simp at this
  | some x => rfl

/-- Without a publisher and a pull that has opened, a key is free. -/
theorem stream_free {w : World} {L : Log} (hw : World.init.run (L.map Prod.fst) = (w, L)) {k : Key} (hk : plainKey k = true) (hn : ∀ cid, activeKey cid L ≠ some k) (hp : ¬ pulledNow k L) :
    w.reg.find k = none := by
  have h1 : Live w := by have := run_live (L.map Prod.fst) Live.init Inv2.init; rwa [hw] at this
  have h2 : Inv2 w ([] ++ L) := by have := run_inv2 (L.map Prod.fst) Inv2.init; rwa [hw] at this
  have h3 : Pulls w ([] ++ L) := by have := run_pulls (L.map Prod.fst) Pulls.init; rwa [hw] at this
  have h4 : Fed w ([] ++ L) := by have := run_pullFed (L.map Prod.fst) Fed.init; rwa [hw] at this
  exact free hk h1 h2 h3 h4 hn hp

/-- The stream of a publisher that runs is under the key of its request, and a player of that key joins it. -/
theorem SInv.attaches {env : Site.Env} {rqs : List Req} {L : Log} {s : Sys} (h : SInv env rqs L s)
    {i : Nat} {pub : Conn} (hi : s.conns[i]? = some pub) {q : Req} (hq : rqs[i]? = some q) (hk : plainKey (StreamHandler.key q.url) = true) (hn : Spec.apart (StreamHandler.key q.url) L) {cid : Nat}
    (hp : (∃ ms cl, pub.job = .rtmpPub cid ms cl) ∨ ∃ rd hd, pub.job = .flvPub cid rd hd) :
    (s.w.play (StreamHandler.key q.url)).2 = .joined s.w.clients.length cid ∧ (s.w.reg.find (StreamHandler.key q.url)).isSome := by
  have hc := h.ok i pub q hi hq
  have hv : (.publish (StreamHandler.key q.url), .published cid) ∈ L ∧ ∃ key, s.w.view cid = some (key, .plain, true) := by
    unfold ConnOk at hc
    rcases hp with ⟨ms, cl, hp⟩ | ⟨rd, hd, hp⟩ <;> (rw [hp] at hc; exact ⟨hc.1, hc.2.1⟩)
  obtain ⟨hm, key, hv⟩ := hv
  have hK : InvK s.w L := by
    have := run_invK (L.map Prod.fst) InvK.init
    rw [h.world] at this
    simpa using this
  have hkey : key = StreamHandler.key q.url := by
    have := (hK.made cid (StreamHandler.key q.url)).1 (.inl hm)
    simp only [keyOf] at this
    simp only [view] at hv
    cases hcc : s.w.caches[cid]? with
    | none => rw [hcc] at hv; simp at hv
    | some c =>
      rw [hcc] at hv this
      simp at hv this
      rw [← hv.1, this]
  have ha : activeKey cid L = some (StreamHandler.key q.url) := by
    have := h.inv2.active cid
    rw [hv] at this
    simp at this
    rw [this, hkey]
  have := (C15_player_attaches_partial (L.map Prod.fst) (StreamHandler.key q.url) hk).1 cid (by rw [h.world]; exact ha) (by rw [h.world]; exact hn)
  rw [h.world] at this
  have this : (s.w.play (StreamHandler.key q.url)).2 = .joined s.w.clients.length cid := this
  refine ⟨this, ?_⟩
  rw [play_eq] at this
  cases hf : s.w.reg.find (StreamHandler.key q.url) with
  | none => rw [hf] at this; simp at this
  | some x => rfl


theorem joined_lt (ops : List WOp) : ∀ {w : World} {op : WOp} {c cid : Nat}, (op, WOut.joined c cid) ∈ (w.run ops).2 → c < (w.run ops).1.clients.length := by
  induction ops with
  | nil => intro w op c cid h; simp [World.run] at h
  | cons o ops ih =>
    intro w op c cid h
    obtain ⟨a, b⟩ := run_snd_cons w o ops
    have hmono : ∀ (ops : List WOp) (w : World), w.clients.length ≤ (w.run ops).1.clients.length := by
      intro ops
      induction ops with
      | nil => intro w; simp [World.run]
      | cons o ops ih => intro w; exact Nat.le_trans (step_lengths w o).1 (by simpa [World.run] using ih (w.step o).1)
    rw [a, List.mem_cons] at h
    have e : (w.run (o :: ops)).1 = ((w.step o).1.run ops).1 := by simp [World.run]
    rw [e]
    rcases h with h | h
    · simp only [Prod.mk.injEq] at h
      obtain ⟨h1, h2⟩ := step_joined w o h.2.symm
      have := hmono ops (w.step o).1
      omega
    · exact ih h

theorem entitled_at (c cid : Nat) (op : WOp) (L2 : Log) : ∀ (L1 past : Log), (∀ o d, (o, WOut.joined c d) ∉ L1) →
    entitled c past (L1 ++ (op, .joined c cid) :: L2) = startupOf cid (past ++ L1) ++ untilLeave c cid L2 := by
  intro L1
  induction L1 with
  | nil => intro past _; rw [List.nil_append, entitled_joined, List.append_nil]
  | cons x L1 ih =>
    intro past h
    obtain ⟨o, out⟩ := x
    rw [List.cons_append, entitled_other _ _ _ _ _ (fun d hd => h o d (by rw [hd]; simp)), ih _ (fun o d hm => h o d (List.mem_cons_of_mem _ hm))]
    simp

/-- What a player has been given that joined a publisher's cache when the log was `L1`. -/
theorem received_at {env : Site.Env} {rqs : List Req} {L1 L2 : Log} {op0 op : WOp} {w1 : World} {s : Sys} {c cid : Nat}
    (h1 : World.init.run (L1.map Prod.fst) = (w1, L1)) (hc : w1.clients.length = c) (h : SInv env rqs (L1 ++ (op, .joined c cid) :: L2) s)
    (hmem : (op0, .published cid) ∈ L1) :
    ∃ after, publishedTo cid (L1 ++ (op, .joined c cid) :: L2) = publishedTo cid L1 ++ after ∧
      received c (L1 ++ (op, .joined c cid) :: L2) <+: startup (publishedTo cid L1) ++ after ∧
      ((.leave c, .ok) ∉ L1 ++ (op, .joined c cid) :: L2 → pendingOf s.w c = [] → received c (L1 ++ (op, .joined c cid) :: L2) = startup (publishedTo cid L1) ++ after) := by
  have hno : ∀ o d, (o, WOut.joined c d) ∉ L1 := by
    intro o d hm
    have := joined_lt (L1.map Prod.fst) (w := World.init) (op := o) (c := c) (cid := d)
    rw [h1] at this
    have := this hm
    simp only at this
    omega
  have hraw : isRaw cid L1 = false := by
    cases hr : isRaw cid L1 with
    | false => rfl
    | true =>
      obtain ⟨k', n', m1, m2⟩ := isRaw_mem hr
      have hp := given_not_raw (op0 := op0) cid (L1.map Prod.fst) World.init
      rw [h1] at hp
      exact absurd m2 (hp hmem k' n' m1)
  have hd := C12_delivery ((L1 ++ (op, .joined c cid) :: L2).map Prod.fst) c
  rw [h.world] at hd
  have hd : received c (L1 ++ (op, .joined c cid) :: L2) ++ pendingOf s.w c = entitled c [] (L1 ++ (op, .joined c cid) :: L2) := hd
  rw [entitled_at c cid op L2 L1 [] hno, List.nil_append] at hd
  have hst : startupOf cid L1 = startup (publishedTo cid L1) := by unfold startupOf; rw [hraw]; rfl
  rw [hst] at hd
  refine ⟨publishedTo cid L2, ?_, ?_, ?_⟩
  · rw [publishedTo_append]
    congr 1
    cases op <;> rfl
  · obtain ⟨t, ht⟩ := untilLeave_prefix c cid L2
    rw [← ht, ← List.append_assoc, ← hd, List.append_assoc]
    exact List.prefix_append _ _
  · intro h8 hpend
    rw [hpend, List.append_nil] at hd
    rw [hd, untilLeave_all]
    intro hx
    exact h8 (List.mem_append_right _ (List.mem_cons_of_mem _ hx))

/-- An RTMP player that finds a stream. -/
theorem rtmp_joins {env : Site.Env} {s : Sys} {q : Req} {ms : List RtmpMsg} {cl : Err} (hv : q.via = .rtmp false ms cl) {c cid : Nat}
    (hp : (s.w.play (StreamHandler.key q.url)).2 = .joined c cid) (hf : (s.w.reg.find (StreamHandler.key q.url)).isSome)
    {f : Reg} (ho : Format.create env.outs q.url.ext env.junk = some f) (hw : f.word = ascii "-") :
    s.request env q = (⟨(s.w.play (StreamHandler.key q.url)).1, s.conns ++ [bare (.rtmpView c { out := [], fails := q.fails })]⟩, [(.play (StreamHandler.key q.url), .joined c cid)]) := by
  have hn : (s.w.reg.find (StreamHandler.key q.url)).isNone = false := by
    cases h : s.w.reg.find (StreamHandler.key q.url) with
    | none => rw [h] at hf; simp at hf
    | some x => rfl
  have hp' : s.w.play (StreamHandler.key q.url) = ((s.w.play (StreamHandler.key q.url)).1, .joined c cid) := by rw [← hp]
  simp only [request, hv, rtmpRequest, Bool.false_eq_true, if_false, StreamHandler.play, hn, false_and, StreamHandler.attach, ne_eq, not_true_eq_false, or_self, ho]
  rw [hp']
  simp [rtmpAttach, hw]

/-- An HTTP player that finds a stream. -/
theorem http_joins {env : Site.Env} {s : Sys} {q : Req} (hv : q.via = .http) (hm : q.url.method ≠ ascii "POST") {c cid : Nat}
    (hp : (s.w.play (StreamHandler.key q.url)).2 = .joined c cid) (hf : (s.w.reg.find (StreamHandler.key q.url)).isSome)
    {f : Reg} (ho : Format.create env.outs q.url.ext env.junk = some f) (hw : f.word = ascii "flv") :
    ∃ k l, (s.request env q).1.conns = s.conns ++ [k] ∧ (s.request env q).2 = (.play (StreamHandler.key q.url), .joined c cid) :: l ∧ kind k.job = some (0, c) := by
  have hn : (s.w.reg.find (StreamHandler.key q.url)).isNone = false := by
    cases h : s.w.reg.find (StreamHandler.key q.url) with
    | none => rw [h] at hf; simp at hf
    | some x => rfl
  have hp' : s.w.play (StreamHandler.key q.url) = ((s.w.play (StreamHandler.key q.url)).1, .joined c cid) := by rw [← hp]
  simp only [request, hv, httpRequest, if_neg hm, StreamHandler.play, hn, Bool.false_eq_true, false_and, if_false, StreamHandler.attach, ne_eq, not_true_eq_false, or_self, ho]
  rw [hp']
  simp only [afterAttach, startView, hw, if_true]
  split
  · exact ⟨_, _, rfl, rfl, rfl⟩
  · exact ⟨_, _, rfl, rfl, rfl⟩

end Sps.Sys
