import Verif.Model.SrtLive
import Verif.Spec.SrtLive
import Verif.Lemmas.HttpLive
import Verif.Props.SrtServe
/-! # Lemmas about SRT clients from their stream ids on -/
namespace Sps.SrtLive
open Spec Spec.Names Spec.SrtLive Sys StreamProps World

/-- What becomes of the id. -/
theorem id_url {parser : Text → Option UrlFields} (hp : ReadsUrls parser) {a : Id} {st : Stream} {mode : Text} (af : a.For st mode) :
    ∃ u, Sps.Names.srt parser a.text = some u ∧ u.host = st.host ∧ srtKey u = st.host ++ st.path ∧ (u.method = ascii "request" ↔ mode = ascii "request") := by
  have hne : a.pairs ≠ [] := by
    intro h
    have hr := af.resource
    rw [h] at hr
    have hpos : st.host ++ st.path ≠ [] := by
      intro h
      obtain ⟨t, ht⟩ := Sps.Names.pathOk.slash (Sps.Names.Stream.pathOk af.stream)
      rw [ht] at h
      simp at h
    rcases hr with ⟨x, c, h1, -⟩ | ⟨-, h1⟩
    · simp at h1
    · exact hpos h1
  have h0 := C55_negation_last (ascii "#!::") (by decide) a.pairs hne af.words a.rest af.rest
  obtain ⟨method, h1, h2, h3⟩ := C55_params_partial (ascii "#!::") (by decide) a.pairs hne af.words _ mode af.resource af.mode
  have e : ascii "srt://" ++ (st.host ++ st.path) = Parts.text ⟨ascii "srt", st.host, none, st.path, none⟩ := by
    have : ascii "srt://" = ascii "srt" ++ ascii "://" := by decide
    rw [this]
    simp [Parts.text, opt]
  have hok : Parts.Ok ⟨ascii "srt", st.host, none, st.path, none⟩ :=
    ⟨Names.schema_srt.1, af.stream.host, fun t h => by simp at h, Sps.Names.Stream.pathOk af.stream, fun t h => by simp at h⟩
  obtain ⟨r, h4, h5, h6, -⟩ := Names.parseUrl_parts hp hok Names.schema_srt.2 {}
  refine ⟨{ r with method := method }, ?_, h5, ?_, ?_⟩
  · unfold Sps.Names.srt Id.text
    rw [h0, h1]
    simp only [Option.bind_eq_bind, Option.bind_some]
    rw [e, h4]
    rfl
  · simp [srtKey, h5, h6]
  · constructor
    · intro h
      by_cases hm : mode = ascii "request"
      · exact hm
      · have := h3 hm
        have h : method = ascii "request" := h
        rw [this] at h
        exact absurd h (by decide)
    · exact fun h => h2 h

/-- What the arrival of a connection with an id for a stream gives. -/
theorem arrived {s : SrtSite} (hp : ReadsUrls s.parser) {a : Id} {st : Stream} {mode : Text} (af : a.For st mode) {io : Io} {fails : List Err} {mem tag : List UInt8} {q : Req}
    (hq : s.arrive a.text io fails mem tag = .stream q) :
    srtKey q.url = st.host ++ st.path ∧ (q.url.method = ascii "request" ↔ mode = ascii "request") ∧ q.via = .srt ∧ q.io = io ∧ q.fails = fails ∧ q.mem = mem ∧ q.tag = tag := by
  obtain ⟨u, h1, h2, h3, h4⟩ := id_url hp af
  unfold SrtSite.arrive at hq
  rw [h1] at hq
  simp only at hq
  cases hf : s.router.find u.host with
  | none => rw [hf] at hq; simp at hq
  | some h =>
    rw [hf] at hq
    simp only [SrtArrival.stream.injEq] at hq
    subst hq
    exact ⟨h3, h4, rfl, rfl, rfl, rfl, rfl⟩

/-- The log of a world of an execution. -/
theorem invs {w : World} {L : Log} (hw : World.init.run (L.map Prod.fst) = (w, L)) : Inv2 w L ∧ InvK w L := by
  have h2 : Inv2 w ([] ++ L) := by have := run_inv2 (L.map Prod.fst) Inv2.init; rwa [hw] at this
  have hK : InvK w ([] ++ L) := by have := run_invK (L.map Prod.fst) InvK.init; rwa [hw] at this
  exact ⟨h2, hK⟩

/-- The key of a cache that the log shows. -/
theorem view_key {w : World} {L : Log} (hK : InvK w L) {cid : Nat} {k key : Key} {src : Src} {b : Bool} (hm : madeUnder cid k L) (hv : w.view cid = some (key, src, b)) : key = k := by
  have := (hK.made cid k).1 hm
  simp only [keyOf] at this
  simp only [view] at hv
  cases hcc : w.caches[cid]? with
  | none => rw [hcc] at hv; simp at hv
  | some c =>
    rw [hcc] at hv this
    simp at hv this
    rw [← hv.1, this]

/-- An SRT publisher that runs: its caches. -/
theorem pub_view {env : Site.Env} {rqs : List Req} {L : Log} {s : Sys} (h : SInv env rqs L s) {i : Nat} {pub : Conn} (hi : s.conns[i]? = some pub) {q : Req} (hq : rqs[i]? = some q) {cid : Nat}
    (hp : ∃ rd ctx st, pub.job = .srtPub cid rd ctx st) :
    (.publishSrt (srtKey q.url), .published cid) ∈ L ∧ s.w.view cid = some (srtKey q.url, .srtAv, true) ∧ activeKey cid L = some (srtKey q.url) := by
  have hc := h.ok i pub q hi hq
  obtain ⟨rd, ctx, st, hp⟩ := hp
  unfold ConnOk at hc
  rw [hp] at hc
  obtain ⟨hm, ⟨key, hv⟩, -⟩ := hc
  obtain ⟨h2, hK⟩ := invs h.world
  have hkey := view_key hK (.inr (.inl hm)) hv
  subst hkey
  refine ⟨hm, hv, ?_⟩
  have := h2.active cid
  rw [hv] at this
  simpa using this

/-- A player of the raw stream of an SRT publisher joins it. -/
theorem raw_joins {w : World} {L : Log} (hw : World.init.run (L.map Prod.fst) = (w, L)) {cid : Nat} {k : Key} (hk : plainKey k = true) (hn : Spec.apart k L) (hf : rawFree k L = true)
    (hv : w.view cid = some (k, .srtAv, true)) : (w.play (tsKey k)).2 = .joined w.clients.length (cid + 1) := by
  have h3 := run_raw hk (L.map Prod.fst) (by rw [hw]; exact hn) (by rw [hw]; exact hf)
  rw [hw] at h3
  have hv1 := (invs hw).1.twin cid k true hv
  have hr : w.reg.find (tsKey k) = some (cid + 1) := h3.reg1 _ _ hv1 (by simp)
  simp only [view] at hv1
  cases hcc : w.caches[cid + 1]? with
  | none => rw [hcc] at hv1; simp at hv1
  | some c => simp [play_eq, hr, hcc]

/-- A raw stream has an SRT publisher. -/
theorem raw_pub {w : World} {L : Log} (hw : World.init.run (L.map Prod.fst) = (w, L)) {k : Key} (hk : plainKey k = true) (hn : Spec.apart k L) (hf : rawFree k L = true) {i : Nat}
    (hr : w.reg.find (tsKey k) = some i) : ∃ cid, w.view cid = some (k, .srtAv, true) ∧ activeKey cid L = some k ∧ w.reg.find k = some cid := by
  obtain ⟨h2, hK⟩ := invs hw
  have h1 := run_one hk (L.map Prod.fst) (by rw [hw]; exact hn)
  rw [hw] at h1
  have hL : Live w := by have := run_live (L.map Prod.fst) Live.init Inv2.init; rwa [hw] at this
  have hF : Fed w ([] ++ L) := by have := run_pullFed (L.map Prod.fst) Fed.init; rwa [hw] at this
  obtain ⟨j, -, e3⟩ := raw_entry hL h2 hK hF hf hr
  refine ⟨j, e3, ?_, h1.reg1 _ _ e3 (by simp)⟩
  have := h2.active j
  rw [e3] at this
  simpa using this

/-- What a player has been given that joined an SRT publisher's raw cache when the log was `L1`. -/
theorem raw_received_at {env : Site.Env} {rqs : List Req} {L1 L2 : Log} {op : WOp} {w1 : World} {s : Sys} {c cid : Nat} {k : Key}
    (h1 : World.init.run (L1.map Prod.fst) = (w1, L1)) (hc : w1.clients.length = c) (h : SInv env rqs (L1 ++ (op, .joined c (cid + 1)) :: L2) s)
    (hmem : (.publishSrt k, .published cid) ∈ L1) :
    ∃ after, publishedTo (cid + 1) (L1 ++ (op, .joined c (cid + 1)) :: L2) = publishedTo (cid + 1) L1 ++ after ∧
      received c (L1 ++ (op, .joined c (cid + 1)) :: L2) <+: startupRaw (publishedTo (cid + 1) L1) ++ after ∧
      ((.leave c, .ok) ∉ L1 ++ (op, .joined c (cid + 1)) :: L2 → pendingOf s.w c = [] → received c (L1 ++ (op, .joined c (cid + 1)) :: L2) = startupRaw (publishedTo (cid + 1) L1) ++ after) := by
  have hno : ∀ o d, (o, WOut.joined c d) ∉ L1 := by
    intro o d hm
    have := joined_lt (L1.map Prod.fst) (w := World.init) (op := o) (c := c) (cid := d)
    rw [h1] at this
    have := this hm
    simp only at this
    omega
  have hd := C12_delivery ((L1 ++ (op, .joined c (cid + 1)) :: L2).map Prod.fst) c
  rw [h.world] at hd
  have hd : received c (L1 ++ (op, .joined c (cid + 1)) :: L2) ++ pendingOf s.w c = entitled c [] (L1 ++ (op, .joined c (cid + 1)) :: L2) := hd
  rw [entitled_at c (cid + 1) op L2 L1 [] hno, List.nil_append] at hd
  have hst : startupOf (cid + 1) L1 = startupRaw (publishedTo (cid + 1) L1) := by unfold startupOf; rw [if_pos (isRaw_of_mem hmem)]
  rw [hst] at hd
  refine ⟨publishedTo (cid + 1) L2, ?_, ?_, ?_⟩
  · rw [publishedTo_append]
    congr 1
    cases op <;> rfl
  · obtain ⟨t, ht⟩ := untilLeave_prefix c (cid + 1) L2
    rw [← ht, ← List.append_assoc, ← hd, List.append_assoc]
    exact List.prefix_append _ _
  · intro h8 hpend
    rw [hpend, List.append_nil] at hd
    rw [hd, untilLeave_all]
    intro hx
    exact h8 (List.mem_append_right _ (List.mem_cons_of_mem _ hx))

end Sps.SrtLive
