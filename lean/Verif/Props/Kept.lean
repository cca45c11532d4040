import Verif.Props.Stream
import Verif.Props.SrtServe
import Verif.Lemmas.StreamJoin
import Verif.Spec.Kept
/-!
# C121: what the server keeps of a stream
-/
namespace Sps.KeptProps
open Spec Spec.Kept Sps.World Sps.StreamProps

theorem held_after (cid : Nat) (l : Log) : Spec.Kept.held (storeAfter cid l) = startupOf cid l := by
  unfold storeAfter startupOf
  split
  · obtain ⟨a, b, c⟩ := raw_history (publishedTo cid l)
    simp only [Spec.Kept.held, a, b, c, startupRaw]
  · obtain ⟨a, b, c, d⟩ := gop_history (publishedTo cid l)
    simp only [Spec.Kept.held, a, b, c, d, startup]

/-- **C121** (streams). In every execution, the server keeps of a stream what a player that joins now would be given, and nothing else: of a stream of audio and video the latest configurations and the media
since the latest key frame. -/
theorem C121_kept (ops : List WOp) (cid : Nat) : keptOf (World.init.run ops).1 cid = startupOf cid (World.init.run ops).2 := by
  have h := run_inv ops Inv.init
  unfold keptOf
  cases hc : (World.init.run ops).1.caches[cid]? with
  | none =>
    obtain ⟨h1, h2⟩ := h.fresh cid (List.getElem?_eq_none_iff.1 hc)
    rw [List.nil_append] at h1 h2
    simp [startupOf, h1, h2, startup, lastOf, fromLast]
  | some c =>
    simp only
    rw [h.store cid c hc, List.nil_append, held_after]

theorem fromLast_suffix (m : List AVPkt) : fromLast isKey m = [] ∨ ∃ a p rest, m = a ++ p :: rest ∧ fromLast isKey m = p :: rest ∧ ∀ q ∈ rest, isKey q = false := by
  obtain ⟨⟨a, h1⟩, h2, -⟩ := C11_startup_meaning m
  cases h : fromLast isKey m with
  | nil => exact .inl rfl
  | cons p rest =>
    right
    rw [h] at h1
    exact ⟨a, p, rest, h1, rfl, (h2 p rest h).2⟩

theorem lastOf_short (f : AVPkt → Bool) (h : List AVPkt) : (lastOf f h).length ≤ 1 := by
  unfold lastOf
  cases (h.filter f).getLast? <;> simp

/-- **C121** (a bound). If of any `n` media packets of a publisher one is a key frame, then in every execution the server keeps at most `n + 3` packets of its stream, however long it lasts. Missing: the raw copy
of an SRT stream (`C121_negation_raw`). -/
theorem C121_bound_partial (ops : List WOp) (cid n : Nat) (hraw : isRaw cid (World.init.run ops).2 = false) (hg : Grouped n (publishedTo cid (World.init.run ops).2)) :
    (keptOf (World.init.run ops).1 cid).length ≤ n + 3 := by
  rw [C121_kept]
  unfold startupOf
  rw [hraw]
  simp only [Bool.false_eq_true, if_false]
  unfold startup
  have h1 := lastOf_short (fun p => p.stream == .subtitle) (publishedTo cid (World.init.run ops).2)
  have h2 := lastOf_short (fun p => p.stream == .audio && p.pktType == 0) (publishedTo cid (World.init.run ops).2)
  have h3 := lastOf_short (fun p => p.stream == .video && p.pktType == 0) (publishedTo cid (World.init.run ops).2)
  have h4 : (fromLast isKey ((publishedTo cid (World.init.run ops).2).filter isMedia)).length ≤ n := by
    rcases fromLast_suffix ((publishedTo cid (World.init.run ops).2).filter isMedia) with h | ⟨a, p, rest, e, h, hk⟩
    · rw [h]; simp
    · rw [h, List.length_cons]
      apply Nat.le_of_not_lt
      intro hn
      obtain ⟨q, hq, hqk⟩ := hg (a ++ [p]) (rest.take n) (rest.drop n) (by rw [e]; simp) (by rw [List.length_take]; omega)
      rw [hk q (List.mem_of_mem_take hq)] at hqk
      cases hqk
  simp only [List.length_append]
  omega

theorem client_stays (ops : List WOp) : ∀ {w : World} {past : Log}, Inv w past → ∀ {c : Nat} {cl : Client}, w.clients[c]? = some cl →
    ∃ cl', (w.run ops).1.clients[c]? = some cl' ∧ cl'.cache = cl.cache := by
  induction ops with
  | nil => intro w past _ c cl h; exact ⟨cl, h, rfl⟩
  | cons op ops ih =>
    intro w past h c cl hc
    obtain ⟨cl', e, hcache, -⟩ := step_client h op hc
    obtain ⟨cl2, e2, h2⟩ := ih (step_inv h op) e
    rw [(run_snd_cons w op ops).2]
    exact ⟨cl2, e2, h2.trans hcache⟩

theorem joined_cache (ops : List WOp) : ∀ {w : World} {past : Log}, Inv w past → ∀ {op : WOp} {c cid : Nat}, (op, WOut.joined c cid) ∈ (w.run ops).2 →
    ∃ cl, (w.run ops).1.clients[c]? = some cl ∧ cl.cache = cid := by
  induction ops with
  | nil => intro w past _ op c cid h; simp [World.run] at h
  | cons o ops ih =>
    intro w past h op c cid hm
    obtain ⟨a, b⟩ := run_snd_cons w o ops
    rw [a, List.mem_cons] at hm
    rw [b]
    rcases hm with hm | hm
    · simp only [Prod.mk.injEq] at hm
      obtain ⟨h1, -⟩ := step_joined w o hm.2.symm
      obtain ⟨-, h2⟩ := step_absent h o (c := c) (by omega)
      rcases h2 with ⟨cid', cl, e1, e2, e3, -⟩ | ⟨h2, -⟩
      · obtain ⟨cl', e4, e5⟩ := client_stays ops (step_inv h o) e2
        rw [← hm.2] at e1
        cases e1
        exact ⟨cl', e4, e5.trans e3⟩
      · exact absurd hm.2.symm (h2 cid)
    · exact ih (step_inv h o) hm

theorem unread {c : Nat} : ∀ l : Log, (∀ x ∈ l, x.1 ≠ .dump c) → received c l = [] := by
  intro l
  induction l with
  | nil => intro _; rfl
  | cons x l ih =>
    intro h
    rw [received_cons, ih fun y hy => h y (List.mem_cons_of_mem _ hy), List.append_nil]
    have := h x (List.mem_cons_self ..)
    obtain ⟨op, o⟩ := x
    cases op <;> cases o <;> simp only [received]
    rename_i d ps
    rw [if_neg fun e => this (by rw [e])]

theorem until_published (c cid : Nat) : ∀ l : Log, untilLeave c cid l <+: publishedTo cid l := by
  intro l
  induction l with
  | nil => exact List.nil_prefix
  | cons x l ih =>
    obtain ⟨op, o⟩ := x
    cases op <;> cases o <;> simp only [untilLeave, publishedTo] <;> try exact ih
    · split
      · exact (List.prefix_cons_inj _).2 ih
      · exact ih
    · split
      · exact List.nil_prefix
      · exact ih

/-- **C121** (players). What waits for a player that has read is what was published to its stream since, up to its leaving: reading leaves nothing behind. -/
theorem C121_waiting (pre post : List WOp) (k : Key) (c cid : Nat) (hj : (.play k, .joined c cid) ∈ (World.init.run pre).2)
    (hr : ∃ ps, ((World.init.run pre).1.step (.dump c)).2 = .pkts ps) (hno : .dump c ∉ post) :
    pendingOf (World.init.run (pre ++ .dump c :: post)).1 c <+: publishedTo cid (((World.init.run pre).1.step (.dump c)).1.run post).2 := by
  have hI := run_inv pre Inv.init
  obtain ⟨cl, h1, h2⟩ := joined_cache pre Inv.init hj
  rw [World.run_append, (run_snd_cons _ _ _).2]
  generalize (World.init.run pre).1 = w at *
  obtain ⟨ps, hr⟩ := hr
  have hl : cl.left = false := by
    cases h : cl.left with
    | false => rfl
    | true => simp [step, World.dump, h1, h] at hr
  have hI' := step_inv hI (.dump c)
  have hst : (w.step (.dump c)).1.clients[c]? = some { cl with q := (cl.q.dumpClient []).2.2 } := by
    simp only [step, World.dump, h1, hl, Bool.false_eq_true, if_false]
    rw [modify_get, if_pos rfl, h1]
    simp [hl]
  have hq : (cl.q.dumpClient []).2.2.pbs = [] := by
    unfold Queue.dumpClient
    split
    · rename_i h
      exact List.length_eq_zero_iff.1 h
    · rfl
  have := run_joined post hI' hst hl
  rw [unread _ (fun x hx he => hno ?_), List.nil_append, hq, List.nil_append, h2] at this
  · rw [this]
    exact until_published c cid _
  · have hm : x.1 ∈ ((w.step (.dump c)).1.run post).2.map Prod.fst := List.mem_map_of_mem hx
    rw [run_fst, he] at hm
    exact hm

/-- **C121** fails for SRT: of the raw copy of an SRT publisher's stream every packet that is not a table is kept, since the beginning. -/
theorem C121_negation_raw (ops : List WOp) (cid : Nat) (hraw : isRaw cid (World.init.run ops).2 = true) :
    keptOf (World.init.run ops).1 cid = lastOf (isTable 2) (publishedTo cid (World.init.run ops).2) ++ lastOf (isTable 3) (publishedTo cid (World.init.run ops).2) ++
      (publishedTo cid (World.init.run ops).2).filter fun p => !isTable 2 p && !isTable 3 p := by
  rw [C121_kept]
  unfold startupOf
  rw [hraw]
  rfl

theorem puts_log (cid : Nat) : ∀ (ps : List AVPkt) {w : World} {c : Cache}, w.caches[cid]? = some c → c.isOpen = true →
    (w.run (ps.map (.put cid))).2 = ps.map fun p => (.put cid p, .ok) := by
  intro ps
  induction ps with
  | nil => intros; rfl
  | cons p ps ih =>
    intro w c hc ho
    have hs : (w.step (.put cid p)).2 = .ok := by simp [step, World.put, hc, ho]
    have hn : ∃ c', (w.step (.put cid p)).1.caches[cid]? = some c' ∧ c'.isOpen = true := by
      refine ⟨{ c with store := c.store.put p }, ?_, ho⟩
      simp only [step, World.put, hc, ho, if_true]
      rw [modify_get, if_pos rfl, hc]
      simp [ho]
    obtain ⟨c', e1, e2⟩ := hn
    rw [List.map_cons, (run_snd_cons _ _ _).1, hs, ih e1 e2]
    rfl

theorem puts_published (cid : Nat) (ps : List AVPkt) : publishedTo cid (ps.map fun p => (.put cid p, .ok)) = ps := by
  induction ps with
  | nil => rfl
  | cons p ps ih => simp [publishedTo, ih]

theorem puts_until (c cid : Nat) (ps : List AVPkt) : untilLeave c cid (ps.map fun p => (.put cid p, .ok)) = ps := by
  induction ps with
  | nil => rfl
  | cons p ps ih => simp [untilLeave, ih]

/-- A publisher sends a key frame, a player joins. -/
def begun : List WOp := [.publish [7], .put 0 (kf 1), .play [7]]

/-- **C121** fails for publishers that send no key frame behind the first, and for players that do not read: whatever else they send, all of it is kept, and all of it waits. -/
theorem C121_negation_long (ps : List AVPkt) (hp : ∀ p ∈ ps, isMedia p = true ∧ isKey p = false) :
    keptOf (World.init.run (begun ++ ps.map (.put 0))).1 0 = kf 1 :: ps ∧ pendingOf (World.init.run (begun ++ ps.map (.put 0))).1 0 = kf 1 :: ps ∧
    ∀ x ∈ (World.init.run (begun ++ ps.map (.put 0))).2, x.2 ≠ .bad ∧ x.2 ≠ .refused := by
  have hI := run_inv begun Inv.init
  have hl : ((World.init.run begun).1.run (ps.map (.put 0))).2 = ps.map fun p => (.put 0 p, .ok) :=
    puts_log 0 ps (c := ⟨[7], .plain, true, .av ⟨none, none, none, ⟨[kf 1]⟩⟩, [0]⟩) (by decide +kernel) rfl
  have hb : (World.init.run begun).2 = [(.publish [7], .published 0), (.put 0 (kf 1), .ok), (.play [7], .joined 0 0)] := by decide +kernel
  refine ⟨?_, ?_, ?_⟩
  · rw [C121_kept, World.run_append]
    simp only
    rw [hl, hb]
    have hpub : publishedTo 0 ([(.publish [7], .published 0), (.put 0 (kf 1), .ok), (.play [7], .joined 0 0)] ++ ps.map fun p => (.put 0 p, .ok)) = kf 1 :: ps := by
      simp only [List.cons_append, List.nil_append, publishedTo, if_pos, puts_published]
    have hraw : isRaw 0 ([(.publish [7], .published 0), (.put 0 (kf 1), .ok), (.play [7], .joined 0 0)] ++ ps.map fun p => (.put 0 p, .ok)) = false := by
      simp only [List.cons_append, List.nil_append, isRaw]
      clear hpub hl hp
      induction ps with
      | nil => rfl
      | cons p ps ih => simpa [isRaw] using ih
    have hm : (kf 1 :: ps).filter isMedia = kf 1 :: ps := by
      rw [List.filter_eq_self]
      intro p hx
      rcases List.mem_cons.1 hx with rfl | hx
      · decide
      · exact (hp p hx).1
    have hk : ps.any isKey = false := by
      rw [List.any_eq_false]
      intro p hx
      rw [(hp p hx).2]
      decide
    have hno : ∀ f : AVPkt → Bool, (∀ p, isMedia p = true → f p = false) → lastOf f (kf 1 :: ps) = [] := by
      intro f hf
      unfold lastOf
      rw [List.filter_eq_nil_iff.2]
      · rfl
      · intro p hx
        rcases List.mem_cons.1 hx with rfl | hx
        · rw [hf _ (by decide)]; decide
        · rw [hf _ (hp p hx).1]; decide
    unfold startupOf
    rw [hraw, hpub]
    simp only [Bool.false_eq_true, if_false]
    unfold startup
    rw [hno _ (by intro p h; unfold isMedia at h; revert h; cases (p.stream == StreamType.subtitle) <;> simp),
      hno _ (by intro p h; unfold isMedia at h; revert h; cases (p.stream == StreamType.audio && p.pktType == 0) <;> simp),
      hno _ (by intro p h; unfold isMedia at h; revert h; cases (p.stream == StreamType.video && p.pktType == 0) <;> simp), hm]
    simp only [List.nil_append, fromLast, hk, Bool.false_eq_true, if_false]
    rw [if_pos (by decide)]
  · have := run_joined (ps.map (.put 0)) hI (c := 0) (cl := ⟨0, ⟨[kf 1]⟩, false⟩) (by decide +kernel) rfl
    rw [hl, puts_until, unread _ (by intro x hx; obtain ⟨p, -, rfl⟩ := List.mem_map.1 hx; simp)] at this
    rw [World.run_append]
    exact this
  · rw [World.run_append]
    simp only
    rw [hl, hb]
    intro x hx
    rcases List.mem_append.1 hx with hx | hx
    · simp only [List.mem_cons, List.not_mem_nil, or_false] at hx
      rcases hx with rfl | rfl | rfl <;> decide
    · obtain ⟨p, -, rfl⟩ := List.mem_map.1 hx
      exact ⟨by simp, by simp⟩

theorem raw_of {L : Log} {k : Key} {cid : Nat} (h : (.publishSrt k, .published cid) ∈ L) : isRaw (cid + 1) L = true := by
  induction L with
  | nil => cases h
  | cons x L ih =>
    rcases List.mem_cons.1 h with rfl | hm
    · simp [isRaw]
    · have := ih hm
      obtain ⟨op, o⟩ := x
      cases op <;> cases o <;> simp [isRaw, this]

/-- **C121** (the server). In every execution of the server, with any connections of any protocol, it keeps of each stream what a player that joins now would be given. -/
theorem C121_server {env : Site.Env} {ops : List Sys.Op} (hop : ∀ q ∈ requestsOf ops, ReqOk q) {s : Sys} {L : Log} (he : Sys.run env Sys.init ops = some (s, L)) (hfit : fitsFlv L) (cid : Nat) :
    keptOf s.w cid = startupOf cid L := by
  have h := (Sys.run_init hop he hfit).world
  have := C121_kept (L.map Prod.fst) cid
  rw [h] at this
  exact this

/-- **C121** (the server, a bound). If of any `n` media packets that arrive in stream `cid` one is a key frame, the server never keeps more than `n + 3` packets of it. Missing: raw copies of SRT streams. -/
theorem C121_server_bound_partial {env : Site.Env} {ops : List Sys.Op} (hop : ∀ q ∈ requestsOf ops, ReqOk q) {s : Sys} {L : Log} (he : Sys.run env Sys.init ops = some (s, L)) (hfit : fitsFlv L)
    (cid n : Nat) (hraw : isRaw cid L = false) (hg : Grouped n (publishedTo cid L)) : (keptOf s.w cid).length ≤ n + 3 := by
  have h := (Sys.run_init hop he hfit).world
  have := C121_bound_partial (L.map Prod.fst) cid n (by rw [h]; exact hraw) (by rw [h]; exact hg)
  rw [h] at this
  exact this

/-- **C121** fails for every SRT publisher: in every execution, the server keeps each packet that is not a table and that it has taken from an SRT publisher's transport stream, from the first on, besides
the stream itself. -/
theorem C121_negation_srt {env : Site.Env} {ops : List Sys.Op} (hop : ∀ q ∈ requestsOf ops, ReqOk q) {s : Sys} {L : Log} (he : Sys.run env Sys.init ops = some (s, L)) (hfit : fitsFlv L)
    {i : Nat} {k : Conn} (hi : s.conns[i]? = some k) {q : Req} (hq : (requestsOf ops)[i]? = some q) {cid : Nat} (hk : SrtServe.publishes k cid) {b : List UInt8} {cl : Err} (hb : Arrives q.io b cl)
    (h0 : SrtServe.ownsPidZero b) :
    ∃ n r, 188 * n ≤ b.length ∧ Spec.Srt.Relayed (Ts.chunks n b) r ∧ (publishedTo (cid + 1) L).map (·.payload) = r.map (·.2) ∧
      ((publishedTo (cid + 1) L).filter fun p => !isTable 2 p && !isTable 3 p) <:+ keptOf s.w (cid + 1) := by
  obtain ⟨h1, n, r, h2, h3, h4, -⟩ := SrtServe.C95_published_partial hop he hfit hi hq hk hb h0
  have h := (Sys.run_init hop he hfit).world
  have hraw : isRaw (cid + 1) L = true := raw_of h1
  have := C121_negation_raw (L.map Prod.fst) (cid + 1) (by rw [h]; exact hraw)
  rw [h] at this
  refine ⟨n, r, h2, h3, h4, ?_⟩
  rw [this]
  exact List.suffix_append _ _

/-! ## Cases -/

/-- Two groups of pictures of two and three packets. -/
def groups : List WOp := [.publish [7], .put 0 (vh 0), .put 0 (kf 1), .put 0 (vf 2), .play [7], .dump 0, .put 0 (kf 3), .put 0 (vf 4), .put 0 (af 5)]
example : keptOf (World.init.run groups).1 0 = [vh 0, kf 3, vf 4, af 5] ∧ pendingOf (World.init.run groups).1 0 = [kf 3, vf 4, af 5] := by decide +kernel
example : isRaw 0 (World.init.run groups).2 = false ∧ Grouped 3 (publishedTo 0 (World.init.run groups).2) := by
  refine ⟨by decide +kernel, ?_⟩
  intro a g b h hl
  have e : (publishedTo 0 (World.init.run groups).2).filter isMedia = [kf 1, vf 2, kf 3, vf 4, af 5] := by decide +kernel
  rw [e] at h
  have hg : g = ([kf 1, vf 2, kf 3, vf 4, af 5].drop a.length).take 3 := by
    rw [h, List.append_assoc, List.drop_left, ← hl, List.take_left]
  have hlen : a.length + 3 + b.length = 5 := by
    have := congrArg List.length h
    simp only [List.length_append, List.length_cons, List.length_nil] at this
    omega
  have ha : a.length = 0 ∨ a.length = 1 ∨ a.length = 2 := by omega
  rw [hg]
  rcases ha with h | h | h <;> rw [h] <;> exact ⟨kf 3, by decide +kernel, by decide⟩

/-- The raw copy of an SRT stream, its second stream. -/
example : isRaw 1 (World.init.run [.publishSrt [7], .put 1 { kf 0 with stream := .pes, pktType := 0x80000001 }, .put 1 { kf 0 with stream := .pes, pktType := 0x80000001 }]).2 = true ∧
    (keptOf (World.init.run [.publishSrt [7], .put 1 { kf 0 with stream := .pes, pktType := 0x80000001 }, .put 1 { kf 0 with stream := .pes, pktType := 0x80000001 }]).1 1).length = 2 := by decide +kernel

end Sps.KeptProps
