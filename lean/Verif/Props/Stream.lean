import Verif.Lemmas.StreamPull
import Verif.Lemmas.StreamRaw
/-! # C11 - C16, C62: packet caches, publishing and playing, keys, on-demand pulls -/
namespace Sps.StreamProps
open Spec World

/-- Test packets: `k` a key frame, `v` another video frame, `a` an audio frame, and the three kinds of header. -/
def kf (n : Nat) : AVPkt := { stream := .video, pktType := 1, flags := 0x17, codec := 7, dts := n, pts := n, payload := [1] }
def vf (n : Nat) : AVPkt := { kf n with flags := 0x27 }
def af (n : Nat) : AVPkt := { kf n with stream := .audio, flags := 0xaf, codec := 10 }
def vh (n : Nat) : AVPkt := { kf n with pktType := 0 }
def ah (n : Nat) : AVPkt := { af n with pktType := 0 }
def sc (n : Nat) : AVPkt := { kf n with stream := .subtitle, flags := 0 }

/-! ### C11 -/

/-- **C11**. After every history of published packets a dump of the cache appends to the caller's list exactly the
start-up packets (`Spec.startup`: latest script, audio and video configuration, then the media from the latest key
frame on). -/
theorem C11_dump_is_startup (h v : List AVPkt) :
    ((h.foldl Gop.put Gop.empty).dump v).1 = v ++ startup h := by rw [gop_dump]

/-- **C11**, more than once: a dump takes nothing out of the cache, so the next one, with or without packets in between, is the
start-up packets again. -/
theorem C11_dump_again (h h' v : List AVPkt) :
    ((h'.foldl Gop.put ((h.foldl Gop.put Gop.empty).dump v).2.2).dump []).1 = startup (h ++ h') := by
  rw [gop_dump h v, ← List.foldl_append, gop_dump]; rfl

/-- The meaning of the last part of `startup`: it is a suffix of the media, it starts with a key frame and holds no
other; it is empty exactly when no key frame was published. -/
theorem C11_startup_meaning (m : List AVPkt) :
    (∃ before, m = before ++ fromLast isKey m) ∧
    (∀ p rest, fromLast isKey m = p :: rest → isKey p = true ∧ ∀ q ∈ rest, isKey q = false) ∧
    (fromLast isKey m = [] ↔ ∀ p ∈ m, isKey p = false) := by
  refine ⟨?_, ?_, ?_⟩
  · induction m with
    | nil => exact ⟨[], rfl⟩
    | cons p m ih =>
      simp only [fromLast]
      split
      · obtain ⟨b, hb⟩ := ih; exact ⟨p :: b, by rw [List.cons_append, ← hb]⟩
      · split
        · exact ⟨[], rfl⟩
        · exact ⟨p :: m, by simp⟩
  · induction m with
    | nil => intro p rest h; simp [fromLast] at h
    | cons p m ih =>
      intro p' rest h
      simp only [fromLast] at h
      split at h
      · exact ih p' rest h
      · rename_i hany
        split at h
        · rename_i hk
          simp at h
          obtain ⟨rfl, rfl⟩ := h
          refine ⟨hk, fun q hq => ?_⟩
          simp at hany
          exact hany q hq
        · simp at h
  · rw [fromLast_eq_nil]; simp

example : ([vf 0, sc 0, ah 0, kf 1, vh 1, vf 2, kf 3, af 3, vf 4].foldl Gop.put Gop.empty).dump [] =
    ([sc 0, ah 0, vh 1, kf 3, af 3, vf 4], 3,
      [vf 0, sc 0, ah 0, kf 1, vh 1, vf 2, kf 3, af 3, vf 4].foldl Gop.put Gop.empty) := by decide

/-! ### C12 -/

/-- **C12**. For every interleaving and every player: what it has read followed by what is pending for it is the
start-up packets of its stream at the time it joined, followed by every packet published to that stream while it was
joined, in order, once each (`Spec.entitled`, a function of the log alone). -/
theorem C12_delivery (ops : List WOp) (c : Nat) :
    received c (World.init.run ops).2 ++ pendingOf (World.init.run ops).1 c = entitled c [] (World.init.run ops).2 :=
  run_entitled ops Inv.init (Nat.zero_le c)

/-- Other players' reads, joins and leaves do not change what a joined player gets: only packets published to its
stream and its own leaving do. -/
theorem C12_players_are_independent (c cid : Nat) (l : Log) :
    untilLeave c cid l =
      untilLeave c cid (l.filter fun x => match x with
        | (.put d _, .ok) => d == cid
        | (.leave d, .ok) => d == c
        | _ => false) := by
  induction l with
  | nil => rfl
  | cons x l ih =>
    obtain ⟨op, o⟩ := x
    simp only [List.filter_cons]
    cases op <;> cases o <;> simp only [untilLeave, Bool.false_eq_true, if_false] <;> try exact ih
    · rename_i d p
      by_cases h : d = cid
      · simp [h, untilLeave, ih]
      · simp [h, ih]
    · rename_i d
      by_cases h : d = c
      · simp [h, untilLeave]
      · simp [h, ih]

/-- A history with two players on one stream and one on another. -/
def opsA : List WOp :=
  [.publish [1], .publish [2], .put 0 (kf 1), .play [1], .put 0 (vf 2), .dump 0, .play [1], .play [2], .put 1 (kf 9),
   .put 0 (af 3), .leave 0, .put 0 (vf 4), .dump 1, .dump 2]
example : received 0 (World.init.run opsA).2 = [kf 1, vf 2] := by decide
example : received 1 (World.init.run opsA).2 = [kf 1, vf 2, af 3, vf 4] := by decide
example : received 2 (World.init.run opsA).2 = [kf 9] := by decide
example : pendingOf (World.init.run opsA).1 0 = [af 3] := by decide

/-! ### C13 -/

/-- **C13**. Whatever was put into a queue: a removing read returns all of it in order and empties the queue; a
non-removing read returns it and changes nothing; both return the number of packets. The null packet is ignored. -/
theorem C13_queue_read (ps : List (Option AVPkt)) (v : List AVPkt) :
    (ps.foldl Queue.put ⟨[]⟩).dump v true =
      (v ++ ps.filterMap id, (ps.filterMap id).length, ⟨[]⟩) ∧
    (ps.foldl Queue.put ⟨[]⟩).dump v false =
      (v ++ ps.filterMap id, (ps.filterMap id).length, ps.foldl Queue.put ⟨[]⟩) ∧
    (ps.foldl Queue.put ⟨[]⟩).dumpClient v = (v ++ ps.filterMap id, (ps.filterMap id).length, ⟨[]⟩) := by
  have h : ∀ (q : Queue), (ps.foldl Queue.put q).pbs = q.pbs ++ ps.filterMap id := by
    induction ps with
    | nil => intro q; simp
    | cons p ps ih =>
      intro q
      rw [List.foldl_cons, ih]
      cases p <;> simp [Queue.put]
  have h0 := h ⟨[]⟩
  simp only [List.nil_append] at h0
  refine ⟨by simp [Queue.dump, h0], by simp [Queue.dump, h0], ?_⟩
  unfold Queue.dumpClient Queue.size
  split
  · rename_i hz
    rw [h0] at hz
    have : ps.filterMap id = [] := List.length_eq_zero_iff.1 hz
    simp only [this, List.append_nil, List.length_nil, Prod.mk.injEq, true_and]
    have hq : (ps.foldl Queue.put ⟨[]⟩) = ⟨(ps.foldl Queue.put ⟨[]⟩).pbs⟩ := rfl
    rw [hq, h0, this]
  · simp [Queue.dump, h0]

example : ([some (kf 1), none, some (vf 2)].foldl Queue.put ⟨[]⟩).dump [af 0] true = ([af 0, kf 1, vf 2], 2, ⟨[]⟩) := by decide

/-- The count a group-of-pictures cache returns is not the number of packets: headers are not counted. -/
theorem C13_negation_gop_count : ∃ h : List AVPkt,
    ((h.foldl Gop.put Gop.empty).dump []).2.1 ≠ ((h.foldl Gop.put Gop.empty).dump []).1.length :=
  ⟨[vh 0, kf 1], by decide⟩

/-! ### C14 -/

/-- **C14** (for a key that does not look like the internal key of an SRT copy, if no upstream pull of that key has opened, ended after having opened, or been dropped by its starter while a publisher was connected; other
keys may be anything and be pulled; see `C14_negation_pull` and `C14_negation_late`). While a publisher of `k` is connected, every other publish request for `k` is
refused and changes nothing; no second publisher of `k` is connected; when it disconnects, the next request is
accepted. -/
theorem C14_one_publisher_partial (ops : List WOp) (cid : Nat) (k : Key) (hk : plainKey k = true) (hp : apart k (World.init.run ops).2)
    (ha : activeKey cid (World.init.run ops).2 = some k) :
    let w := (World.init.run ops).1
    w.step (.publish k) = (w, .refused) ∧ w.step (.publishSrt k) = (w, .refused) ∧
    (∀ cid', activeKey cid' (World.init.run ops).2 = some k → cid' = cid) ∧
    (w.step (.unpublish cid)).2 = .ok ∧
    (∃ n, ((w.step (.unpublish cid)).1.step (.publish k)).2 = .published n) ∧
    (∃ n, ((w.step (.unpublish cid)).1.step (.publishSrt k)).2 = .published n) := by
  intro w
  have h2 : Inv2 w ([] ++ (World.init.run ops).2) := run_inv2 ops Inv2.init
  have h3 : InvOne k w := run_one hk ops hp
  rw [List.nil_append] at h2
  have hact : ∀ i, activeKey i (World.init.run ops).2 = some k →
      ∃ s, w.view i = some (k, s, true) ∧ (s = .plain ∨ s = .srtAv) := by
    intro i hi
    have := h2.active i
    simp only [hi] at this
    revert this
    cases hv : w.view i with
    | none => intro h; simp at h
    | some x =>
      obtain ⟨k', s, b⟩ := x
      intro h
      simp only at h
      split at h
      · rename_i hc; simp at h; subst h; exact ⟨s, by rw [hc.1], hc.2⟩
      · simp at h
  obtain ⟨s, hv, hs⟩ := hact cid ha
  have hr : w.reg.find k = some cid := h3.reg1 cid s hv (by rcases hs with rfl | rfl <;> simp)
  have hun : (w.step (.unpublish cid)).2 = .ok ∧ (w.step (.unpublish cid)).1.reg.find k = none := by
    simp only [view] at hv
    cases hc : w.caches[cid]? with
    | none => rw [hc] at hv; simp at hv
    | some c =>
      rw [hc] at hv
      simp only [Option.map_some, Option.some.injEq, Prod.mk.injEq] at hv
      obtain ⟨e1, e2, e3⟩ := hv
      simp only [step, unpublish, hc, e3, e2, e1, if_true]
      rcases hs with rfl | rfl
      · simp [Assoc.find_erase]
      · simp [Assoc.find_erase]
  refine ⟨by simp [step, publish, hr], by simp [step, publishSrt, hr], ?_, hun.1, ?_, ?_⟩
  · intro i hi
    obtain ⟨s', hv', hs'⟩ := hact i hi
    have := h3.reg1 i s' hv' (by rcases hs' with rfl | rfl <;> simp)
    rw [hr] at this
    simp at this; exact this.symm
  · exact ⟨(w.step (.unpublish cid)).1.caches.length, by simp [step, publish, hun.2] at *; simp [hun.2]⟩
  · exact ⟨(w.step (.unpublish cid)).1.caches.length, by simp [step, publishSrt, hun.2] at *; simp [hun.2]⟩

example : plainKey [1] = true ∧ pullOpened [1] (World.init.run opsA).2 = false ∧ activeKey 0 (World.init.run opsA).2 = some [1] := by decide

-- Another key is pulled at the same time.
example : let log := (World.init.run [.publish [1], .edgeRequest [2], .edgeOpen 0, .play [2], .edgeEnd 0, .edgeDrop 0]).2
    pullOpened [2] log = true ∧ pullOpened [1] log = false ∧ activeKey 0 log = some [1] := by decide
-- The key itself has been pulled; who wants to publish it is refused, and when the pull has ended is admitted.
example : let log := (World.init.run [.edgeRequest [1], .edgeOpen 0, .play [1], .edgeDrop 0, .publish [1], .edgeEnd 0, .publish [1], .play [1]]).2
    pullOpened [1] log = true ∧ activeKey 1 log = some [1] ∧ apart [1] log := ⟨by decide, by decide, World.apart_of_check (by decide)⟩
example : activeKey 0 (World.init.run [.publishSrt [5], .publish [5], .publish [6]]).2 = some [5] := by decide

/-- **C14 and the second half of C16 fail when an upstream pull is waiting for its connection while a publisher of the same
key arrives**: the publisher is accepted, the pull then replaces its stream in the registry, new players get the pull's
stream although the publisher is connected, and when the publisher leaves the key looks free although the pull is still
running, so a second publisher is accepted. -/
theorem C14_negation_pull : ∃ (k : Key) (ops : List WOp),
    let log := (World.init.run ops).2
    activeKey 0 log = some k ∧ pullKey 0 log = some k ∧
    ((World.init.run ops).1.step (.play k)).2 = .joined 0 1 ∧
    (((World.init.run ops).1.step (.unpublish 0)).1.step (.publish k)).2 = .published 2 :=
  ⟨[7], [.edgeRequest [7], .publish [7], .edgeOpen 0], by decide⟩

/-- **C14**: a pull that has opened and ended takes the key from the publisher that came after it, when the player that started the pull goes
on late: the publisher is connected and a second one is admitted. -/
theorem C14_negation_late : ∃ (k : Key) (ops : List WOp),
    let log := (World.init.run ops).2
    activeKey 1 log = some k ∧ (∀ e, e < 2 → pullKey e log = none) ∧ ((World.init.run ops).1.step (.play k)).2 = .noSource ∧
    ((World.init.run ops).1.step (.publish k)).2 = .published 2 :=
  ⟨[7], [.edgeRequest [7], .edgeOpen 0, .edgeEnd 0, .publish [7], .edgeDrop 0], by decide⟩

/-! ### C15 -/

theorem mem_startup {p : AVPkt} {h : List AVPkt} (hp : p ∈ startup h) : p ∈ h := by
  have hl : ∀ f, p ∈ lastOf f h → p ∈ h := by
    intro f hm
    simp only [lastOf, Option.mem_toList] at hm
    have := List.mem_of_getLast? hm
    exact (List.mem_filter.1 this).1
  have hf : p ∈ fromLast isKey (h.filter isMedia) → p ∈ h := by
    intro hm
    obtain ⟨b, hb⟩ := (C11_startup_meaning (h.filter isMedia)).1
    have : p ∈ h.filter isMedia := by rw [hb]; exact List.mem_append_right _ hm
    exact (List.mem_filter.1 this).1
  simp only [startup, List.mem_append] at hp
  rcases hp with ((hp | hp) | hp) | hp
  · exact hl _ hp
  · exact hl _ hp
  · exact hl _ hp
  · exact hf hp

theorem mem_startupRaw {p : AVPkt} {h : List AVPkt} (hp : p ∈ startupRaw h) : p ∈ h := by
  have hl : ∀ f, p ∈ lastOf f h → p ∈ h := by
    intro f hm
    simp only [lastOf, Option.mem_toList] at hm
    have := List.mem_of_getLast? hm
    exact (List.mem_filter.1 this).1
  simp only [startupRaw, List.mem_append] at hp
  rcases hp with (hp | hp) | hp
  · exact hl _ hp
  · exact hl _ hp
  · exact (List.mem_filter.1 hp).1

theorem mem_startupOf {p : AVPkt} {cid : Nat} {l : Log} (hp : p ∈ startupOf cid l) : p ∈ publishedTo cid l := by
  unfold startupOf at hp
  split at hp
  · exact mem_startupRaw hp
  · exact mem_startup hp

theorem mem_untilLeave {p : AVPkt} {c cid : Nat} {l : Log} (hp : p ∈ untilLeave c cid l) : p ∈ publishedTo cid l := by
  induction l with
  | nil => simp [untilLeave] at hp
  | cons x l ih =>
    obtain ⟨op, o⟩ := x
    cases op <;> cases o <;> simp only [untilLeave, publishedTo] at hp ⊢ <;> try exact ih hp
    · rename_i d q
      split at hp
      · rename_i h; simp only [h, if_true, List.mem_cons] at hp ⊢
        rcases hp with hp | hp
        · exact Or.inl hp
        · exact Or.inr (ih hp)
      · rename_i h; simp only [h, if_false]; exact ih hp
    · rename_i d
      split at hp
      · simp at hp
      · exact ih hp

theorem publishedTo_append (cid : Nat) (l l' : Log) : publishedTo cid (l ++ l') = publishedTo cid l ++ publishedTo cid l' := by
  induction l with
  | nil => rfl
  | cons x l ih =>
    obtain ⟨op, o⟩ := x
    cases op <;> cases o <;> simp only [List.cons_append, publishedTo] <;> try exact ih
    split <;> simp [ih]

theorem mem_entitled {p : AVPkt} {c : Nat} (l : Log) : ∀ {past : Log}, p ∈ entitled c past l →
    ∃ op cid, (op, .joined c cid) ∈ l ∧ p ∈ publishedTo cid (past ++ l) := by
  induction l with
  | nil => intro past h; simp [entitled] at h
  | cons x l ih =>
    obtain ⟨op, o⟩ := x
    intro past h
    by_cases hj : ∃ cid, o = .joined c cid
    · obtain ⟨cid, rfl⟩ := hj
      rw [entitled_joined, List.mem_append] at h
      refine ⟨op, cid, by simp, ?_⟩
      rw [publishedTo_append, List.mem_append]
      rcases h with h | h
      · exact Or.inl (mem_startupOf h)
      · refine Or.inr ?_
        have := mem_untilLeave h
        have e : publishedTo cid ((op, .joined c cid) :: l) = publishedTo cid l := by cases op <;> rfl
        rw [e]; exact this
    · rw [entitled_other c op o past l (fun cid hc => hj ⟨cid, hc⟩)] at h
      obtain ⟨op', cid, h1, h2⟩ := ih h
      exact ⟨op', cid, List.mem_cons_of_mem _ h1, by simpa using h2⟩

theorem step_joined_is_play (w : World) (op : WOp) {c cid : Nat} (h : (w.step op).2 = .joined c cid) : ∃ k, op = .play k := by
  cases op with
  | play k => exact ⟨k, rfl⟩
  | publish k => simp only [step, publish] at h; split at h <;> simp at h
  | publishSrt k => simp only [step, publishSrt] at h; split at h <;> simp at h
  | put i p =>
    simp only [step, put] at h
    split at h
    · simp at h
    · split at h <;> simp at h
  | unpublish i =>
    simp only [step, unpublish] at h
    split at h
    · simp at h
    · split at h
      · split at h <;> simp at h
      · simp at h
  | dump c =>
    simp only [step, dump] at h
    split at h
    · simp at h
    · split at h <;> simp at h
  | leave c =>
    simp only [step, leave] at h
    split at h
    · simp at h
    · split at h <;> simp at h
  | edgeRequest k =>
    simp only [step, edgeRequest] at h
    split at h
    · simp at h
    · split at h <;> simp at h
  | edgeOpen e =>
    simp only [step, edgeOpen] at h
    split at h
    · simp at h
    · split at h <;> simp at h
  | edgeEnd e =>
    simp only [step, edgeEnd] at h
    split at h
    · simp at h
    · split at h <;> simp at h
  | edgeDrop e =>
    simp only [step, edgeDrop] at h
    split at h
    · simp at h
    · split at h
      · split at h <;> simp at h
      · simp at h

theorem log_joined_is_play (ops : List WOp) : ∀ (w : World) {op : WOp} {c cid : Nat},
    (op, WOut.joined c cid) ∈ (w.run ops).2 → ∃ k, op = .play k := by
  induction ops with
  | nil => intro w op c cid h; simp [run] at h
  | cons o ops ih =>
    intro w op c cid h
    rw [(run_snd_cons w o ops).1, List.mem_cons] at h
    rcases h with h | h
    · simp only [Prod.mk.injEq] at h
      obtain ⟨rfl, h⟩ := h
      exact step_joined_is_play w op h.symm
    · exact ih _ h

/-- **C15, isolation**, for every interleaving, pulls included. Whatever a player reads was published to a stream that
was created for the key the player asked for, and a stream is created for one key only. -/
theorem C15_isolation (ops : List WOp) (c : Nat) (p : AVPkt) (hp : p ∈ received c (World.init.run ops).2) :
    let log := (World.init.run ops).2
    ∃ k cid, (.play k, .joined c cid) ∈ log ∧ p ∈ publishedTo cid log ∧ madeUnder cid k log ∧
      ∀ k', madeUnder cid k' log → k' = k := by
  intro log
  have h12 := C12_delivery ops c
  have hm : p ∈ entitled c [] log := by rw [← h12]; exact List.mem_append_left _ hp
  obtain ⟨op, cid, h1, h2⟩ := mem_entitled log hm
  obtain ⟨k, rfl⟩ := log_joined_is_play ops _ h1
  have hK : InvK (World.init.run ops).1 ([] ++ log) := run_invK ops InvK.init
  rw [List.nil_append] at hK h2
  have hkey := hK.join k c cid h1
  refine ⟨k, cid, h1, h2, (hK.made cid k).2 hkey, ?_⟩
  intro k' hk'
  have := (hK.made cid k').1 hk'
  rw [hkey] at this
  simpa using this.symm

example : kf 9 ∈ received 2 (World.init.run opsA).2 ∧ (WOp.play [2], WOut.joined 2 1) ∈ (World.init.run opsA).2 := by decide

/-- **C15** fails for a pull that opens after a publisher of its key was admitted: two players of one key, with the publisher connected all the time, are attached to different streams, and what the
publisher sends next reaches only the first. -/
theorem C15_negation_pull : ∃ (k : Key) (ops : List WOp) (p : AVPkt),
    let log := (World.init.run ops).2
    activeKey 0 log = some k ∧ (.play k, .joined 0 0) ∈ log ∧ (.play k, .joined 1 1) ∈ log ∧ (.leave 0, .ok) ∉ log ∧ (.leave 1, .ok) ∉ log ∧
    pendingOf ((World.init.run ops).1.step (.put 0 p)).1 0 = [p] ∧ pendingOf ((World.init.run ops).1.step (.put 0 p)).1 1 = [] :=
  ⟨[7], [.edgeRequest [7], .publish [7], .play [7], .edgeOpen 0, .play [7]], kf 1, by decide⟩

/-- **C15, attachment** (an ordinary key). If pulls of `k` have kept apart from publishers of `k` (other keys may be pulled as they like), a player of `k` is attached to the connected publisher of `k`;
without a publisher, and without a pull that has opened and lasts, it is told there is no source.

Missing: keys that are pulled while they are published (`C15_negation_pull`). -/
theorem C15_player_attaches_partial (ops : List WOp) (k : Key) (hk : plainKey k = true) :
    let w := (World.init.run ops).1
    let log := (World.init.run ops).2
    (∀ cid, activeKey cid log = some k → apart k log → (w.step (.play k)).2 = .joined w.clients.length cid) ∧
    ((∀ cid, activeKey cid log ≠ some k) → ¬ pulledNow k log → w.step (.play k) = (w, .noSource)) := by
  intro w log
  have h2 : Inv2 w ([] ++ log) := run_inv2 ops Inv2.init
  rw [List.nil_append] at h2
  constructor
  · intro cid ha hp
    have h3 : InvOne k w := run_one hk ops hp
    have := h2.active cid
    simp only [ha] at this
    cases hv : w.view cid with
    | none => rw [hv] at this; simp at this
    | some x =>
      obtain ⟨k', s, b⟩ := x
      rw [hv] at this
      simp only at this
      split at this
      · rename_i hc
        simp at this
        subst this
        rw [hc.1] at hv
        have hr : w.reg.find k = some cid := h3.reg1 cid s hv (by rcases hc.2 with rfl | rfl <;> simp)
        simp only [view] at hv
        cases hcc : w.caches[cid]? with
        | none => rw [hcc] at hv; simp at hv
        | some c => simp [step, play_eq, hr, hcc]
      · simp at this
  · intro hno hp
    have h4 : Pulls w ([] ++ log) := run_pulls ops Pulls.init
    have h5 : Fed w ([] ++ log) := run_pullFed ops Fed.init
    rw [List.nil_append] at h4 h5
    have hr := free hk (run_live ops Live.init Inv2.init) h2 h4 h5 hno hp
    simp [step, play_eq, show w.reg.find k = none from hr]

example : activeKey 1 (World.init.run opsA).2 = some [2] := by decide

/-- The media part of a path: what is left of it after the extension was removed. -/
def stem (path ext : List UInt8) : List UInt8 :=
  if ext = [45] ∨ ext = [] then path
  else if ext.length + 1 ≤ path.length then path.take (path.length - ext.length - 1) else path

theorem cacheKey_eq (host path ext : List UInt8) : cacheKey host path ext = host ++ stem path ext := rfl

/-- **C15, keys**. Keys coincide exactly when host followed by path without extension coincide as texts; for hosts without a
slash and paths starting with one they therefore name the same host and the same path. -/
theorem C15_keys_distinct (h h' p p' e e' : List UInt8) (hh : (47 : UInt8) ∉ h) (hh' : (47 : UInt8) ∉ h')
    (hp : ∃ t, stem p e = 47 :: t) (hp' : ∃ t, stem p' e' = 47 :: t) :
    cacheKey h p e = cacheKey h' p' e' ↔ h = h' ∧ stem p e = stem p' e' := by
  obtain ⟨t, ht⟩ := hp
  obtain ⟨t', ht'⟩ := hp'
  rw [cacheKey_eq, cacheKey_eq, ht, ht']
  constructor
  · intro he
    have key : ∀ (a b s t : List UInt8), (47 : UInt8) ∉ a → (47 : UInt8) ∉ b → a ++ 47 :: s = b ++ 47 :: t → a = b ∧ s = t := by
      intro a
      induction a with
      | nil =>
        intro b s t _ hb h
        cases b with
        | nil => simp at h; exact ⟨rfl, h⟩
        | cons y b => simp at h; simp [← h.1] at hb
      | cons x a ih =>
        intro b s t ha hb h
        cases b with
        | nil => simp at h; simp [h.1] at ha
        | cons y b =>
          simp at h ha hb
          obtain ⟨q1, q2⟩ := ih b s t ha.2 hb.2 h.2
          exact ⟨by rw [h.1, q1], q2⟩
    obtain ⟨a, b⟩ := key h h' t t' hh hh' he
    exact ⟨a, by rw [b]⟩
  · rintro ⟨rfl, q⟩; rw [q]

/-- "live.com" "/app/s.flv" "flv" and the RTMP player's "/app/s" without extension share a key. -/
example : cacheKey [108, 105] [47, 97, 46, 102, 108, 118] [102, 108, 118] = cacheKey [108, 105] [47, 97] [] := by decide
example : ∃ t, stem [47, 97, 46, 102, 108, 118] [102, 108, 118] = 47 :: t := ⟨[97], by decide⟩

/-! ### C16 -/

/-- **C16, one pull per key**, for every interleaving in which the player that started a pull of the key goes on before the next pull of that
key is started (otherwise `C16_negation_two_pulls`); other keys are free. At most one pull of a key is running; while it is, a request of
another player starts none and changes nothing: it waits for the running pull or finds a stream.

Missing: pulls that start before the player of an earlier one went on, or while a publisher is
connected (`C16_negation_two_pulls`, `C14_negation_pull`). -/
theorem C16_one_pull_per_key_partial (ops : List WOp) (e : Nat) (k : Key) (hq : prompt k (World.init.run ops).2)
    (he : pullKey e (World.init.run ops).2 = some k) :
    let w := (World.init.run ops).1
    (∀ e', pullKey e' (World.init.run ops).2 = some k → e' = e) ∧
    (w.step (.edgeRequest k) = (w, .hasCache) ∨ w.step (.edgeRequest k) = (w, .edgeWaits e)) := by
  intro w
  have h4 : Inv4 k w ([] ++ (World.init.run ops).2) := run_inv4 ops (Inv4.init k) Pulls.init InvK.init hq
  rw [List.nil_append] at h4
  have hr : w.edgeReg.find k = some e := (h4.reg e).1 he
  constructor
  · intro e' he'
    have : w.edgeReg.find k = some e' := (h4.reg e').1 he'
    rw [hr] at this
    simpa using this.symm
  · simp only [step, edgeRequest]
    cases w.reg.find k with
    | some _ => exact Or.inl rfl
    | none => rw [hr]; exact Or.inr rfl

/-- **C16, a pull is started**, for every interleaving. If nobody publishes a stream and no pull of it is going on, a request for a pull starts one. (So is the stream free for others: a player finds none,
and who wants to publish is admitted.) -/
theorem C16_free (ops : List WOp) (k : Key) (hk : plainKey k = true) (ha : ∀ cid, activeKey cid (World.init.run ops).2 ≠ some k) (he : ∀ e, pullKey e (World.init.run ops).2 ≠ some k) :
    let w := (World.init.run ops).1
    (w.step (.edgeRequest k)).2 = .edgeStarted w.edges.length ∧ w.step (.play k) = (w, .noSource) ∧
      (∃ n, (w.step (.publish k)).2 = .published n) ∧ ∃ n, (w.step (.publishSrt k)).2 = .published n := by
  intro w
  have h1 : Live w := run_live ops Live.init Inv2.init
  have h2 : Inv2 w ([] ++ (World.init.run ops).2) := run_inv2 ops Inv2.init
  have h4 : Pulls w ([] ++ (World.init.run ops).2) := run_pulls ops Pulls.init
  rw [List.nil_append] at h2 h4
  obtain ⟨hr, hp⟩ := nothing hk h1 h2 h4 ha he
  simp only [step, edgeRequest, play_eq, publish, publishSrt, hr, hp]
  exact ⟨trivial, trivial, ⟨_, rfl⟩, ⟨_, rfl⟩⟩

/-- **C16, release**, for every interleaving. A running pull can end, and then the key is free: the next request starts a
new pull, unless the pull had not opened yet and another stream of that key exists. -/
theorem C16_end_releases (ops : List WOp) (e : Nat) (k : Key) (he : pullKey e (World.init.run ops).2 = some k) :
    let w := (World.init.run ops).1
    (w.step (.edgeEnd e)).2 = .ok ∧
    (((w.step (.edgeEnd e)).1.step (.edgeRequest k)).2 = .edgeStarted w.edges.length ∨
     (((w.step (.edgeEnd e)).1.step (.edgeRequest k)).2 = .hasCache ∧
      ∀ cid, (.edgeOpen e, .published cid) ∉ (World.init.run ops).2)) := by
  intro w
  have h4 : Pulls w ([] ++ (World.init.run ops).2) := run_pulls ops Pulls.init
  have hK : InvK w ([] ++ (World.init.run ops).2) := run_invK ops InvK.init
  rw [List.nil_append] at h4 hK
  have hp := h4 e
  simp only [he] at hp
  cases hed : w.edges[e]? with
  | none => rw [hed] at hp; simp at hp
  | some d =>
    obtain ⟨k', ph⟩ := d
    rw [hed] at hp
    simp only at hp
    split at hp
    · simp at hp
    · rename_i hne
      simp at hp
      subst hp
      cases ph with
      | done => exact absurd rfl hne
      | starting =>
        refine ⟨by simp [step, edgeEnd, hed], ?_⟩
        have hst : (w.step (.edgeEnd e)).1 = { w with edgeReg := w.edgeReg.erase k, edges := w.edges.modify e fun d => { d with phase := .done } } := by
          simp [step, edgeEnd, hed]
        rw [hst]
        simp only [step, edgeRequest]
        cases hr : w.reg.find k with
        | some i =>
          refine Or.inr ⟨rfl, ?_⟩
          intro cid hm
          obtain ⟨k2, ph, q1, q2⟩ := hK.opened e cid hm
          rw [hed] at q1
          simp at q1
          rcases q2 with q2 | q2 <;> simp [q2] at q1
        | none => simp [Assoc.find_erase]
      | running cid =>
        refine ⟨by simp [step, edgeEnd, hed], Or.inl ?_⟩
        have hst : (w.step (.edgeEnd e)).1 = { w.closeCache cid with
          reg := w.reg.erase k, edgeReg := w.edgeReg.erase k,
          edges := w.edges.modify e fun d => { d with phase := .done } } := by
          simp [step, edgeEnd, hed]
        rw [hst]
        simp [step, edgeRequest, Assoc.find_erase]

/-- **C16, sharing**. A pull of `k` opens while no publisher of `k` is connected (with one, `C14_negation_pull`; `prompt` as above, other
keys are free). From then on, for as long as it runs and whatever else happens, players of `k` are attached to its stream, and who wants to publish `k` is refused.

Missing: pulls that start before the player of an earlier one went on, or while a publisher is
connected (`C16_negation_two_pulls`, `C14_negation_pull`). -/
theorem C16_players_share_pull_partial (pre post : List WOp) (e : Nat) (k : Key) (cid : Nat) (hk : plainKey k = true)
    (hq : prompt k (World.init.run (pre ++ .edgeOpen e :: post)).2)
    (hn : ∀ c, activeKey c (World.init.run pre).2 ≠ some k)
    (ho : ((World.init.run pre).1.step (.edgeOpen e)).2 = .published cid)
    (he : pullKey e (World.init.run (pre ++ .edgeOpen e :: post)).2 = some k) :
    let w := (World.init.run (pre ++ .edgeOpen e :: post)).1
    (w.step (.play k)).2 = .joined w.clients.length cid ∧ w.step (.publish k) = (w, .refused) ∧ w.step (.publishSrt k) = (w, .refused) := by
  intro w
  have hPw : Pulls w ([] ++ (World.init.run (pre ++ .edgeOpen e :: post)).2) := run_pulls _ Pulls.init
  have hKw : InvK w ([] ++ (World.init.run (pre ++ .edgeOpen e :: post)).2) := run_invK _ InvK.init
  rw [List.nil_append] at hPw hKw
  obtain ⟨ph, hph, hnd⟩ := hPw.phase he
  have hw : w = (((World.init.run pre).1.step (.edgeOpen e)).1.run post).1 := by
    show (World.init.run (pre ++ .edgeOpen e :: post)).1 = _
    rw [run_append]
    exact (run_snd_cons (World.init.run pre).1 (.edgeOpen e) post).2
  have hl : (World.init.run (pre ++ .edgeOpen e :: post)).2 = (World.init.run pre).2 ++ [(WOp.edgeOpen e, ((World.init.run pre).1.step (.edgeOpen e)).2)] ++
      (((World.init.run pre).1.step (.edgeOpen e)).1.run post).2 := by
    rw [run_append, (run_snd_cons _ _ _).1]
    simp
  rw [hl] at hq
  have h2 : Inv2 (World.init.run pre).1 ([] ++ (World.init.run pre).2) := run_inv2 pre Inv2.init
  have hP : Pulls (World.init.run pre).1 ([] ++ (World.init.run pre).2) := run_pulls pre Pulls.init
  have hK : InvK (World.init.run pre).1 ([] ++ (World.init.run pre).2) := run_invK pre InvK.init
  have h4 : Inv4 k (World.init.run pre).1 ([] ++ (World.init.run pre).2) :=
    run_inv4 pre (Inv4.init k) Pulls.init InvK.init (prompt_prefix (prompt_prefix hq))
  rw [List.nil_append] at h2 hP hK h4
  generalize (World.init.run pre).1 = w0 at *
  generalize (World.init.run pre).2 = L0 at *
  have hlate := prompt_late hK (prompt_prefix hq)
  have hs : Sharing k e cid (w0.step (.edgeOpen e)).1 := by
    simp only [step, edgeOpen] at ho
    split at ho
    · simp at ho
    · next ed hed =>
      obtain ⟨k', p⟩ := ed
      split at ho
      · next hp =>
        simp at hp ho
        subst hp ho
        have hst : (w0.step (.edgeOpen e)).1 = { w0.newCache k' (.edge e) (.av Gop.empty) with
            edges := w0.edges.modify e fun d => { d with phase := .running w0.caches.length } } := by
          simp [step, edgeOpen, hed]
        have hedge : (w0.step (.edgeOpen e)).1.edges[e]? = some ⟨k', .running w0.caches.length⟩ := by
          rw [hst]
          show (w0.edges.modify e _)[e]? = _
          rw [edges_modify w0 e e k' _ _ hed, if_pos rfl]
        have hkk : k' = k := by
          have hK1 : InvK (w0.step (.edgeOpen e)).1 _ := step_invK hK (.edgeOpen e)
          have h1 := (hK.edge e k').2 (by rw [hed]; rfl)
          have h3 := (hKw.edge e k').1 (by rw [hl]; simp [h1])
          rw [hph] at h3
          simpa using h3.symm
        subst hkk
        refine .inr ⟨hedge, ?_, fun i s hv => ?_⟩
        · rw [hst]
          show ((w0.newCache k' (.edge e) (.av Gop.empty)).reg).find k' = _
          simp only [newCache]
          rw [Assoc.find_insert, if_pos rfl]
        · rw [hst] at hv
          have hv : (w0.newCache k' (.edge e) (.av Gop.empty)).view i = some (k', s, true) := hv
          rw [view_newCache] at hv
          split at hv
          · simp at hv
            rw [← hv]
            simp
          · have ha := h2.active i
            simp only [hv] at ha
            by_cases hc : s = .plain ∨ s = .srtAv
            · rw [if_pos ⟨trivial, hc⟩] at ha
              exact absurd ha (hn i)
            · exact ⟨fun c => hc (.inl c), fun c => hc (.inr c)⟩
      · simp at ho
  have hfin := run_sharing hk post hs (step_inv4 h4 hP _ hlate) (step_pulls hP _) (step_inv2 h2 _) (step_invK hK _) hq
  rw [← hw] at hfin
  rcases hfin with h | h
  · rw [h] at hph
    simp at hph
    exact absurd hph.symm hnd
  · have hkey := hKw.reg k cid h.reg
    simp only [keyOf] at hkey
    cases hc : w.caches[cid]? with
    | none => rw [hc] at hkey; simp at hkey
    | some c => simp [step, play_eq, publish, publishSrt, h.reg, hc]

/-- **C15, C16** (the stream of a key). Whether a publisher or a pull feeds it, players of `k` are attached to the stream `k`, and who wants to publish `k` is refused. -/
theorem C16_stream (ops : List WOp) (k : Key) (cid : Nat) (hk : plainKey k = true) (hs : isStream cid k (World.init.run ops).2) :
    let w := (World.init.run ops).1
    (w.step (.play k)).2 = .joined w.clients.length cid ∧ w.step (.publish k) = (w, .refused) ∧ w.step (.publishSrt k) = (w, .refused) := by
  intro w
  rcases hs with ⟨ha, hp⟩ | ⟨l1, e, l2, hl, hn, he, hq⟩
  · obtain ⟨h1, h2, -, -⟩ := C14_one_publisher_partial ops cid k hk hp ha
    exact ⟨(C15_player_attaches_partial ops k hk).1 cid ha hp, h1, h2⟩
  · obtain ⟨pre, post, rfl, hpre, ho⟩ := run_at ops hl
    rw [← hpre] at hn
    exact C16_players_share_pull_partial pre post e k cid hk hq hn ho he

/-- **C16**: a pull fails, and before the player that started it goes on, another player starts a new one. The first player's last reference
to the failed pull takes the new one from the list of pulls, and a third player starts a second pull of the same stream. -/
theorem C16_negation_two_pulls : ∃ ops : List WOp,
    let log := (World.init.run ops).2
    pullKey 1 log = some [7] ∧ pullKey 2 log = some [7] ∧ (∀ x ∈ log, x.2 ≠ .bad) :=
  ⟨[.edgeRequest [7], .edgeEnd 0, .edgeRequest [7], .edgeDrop 0, .edgeRequest [7]], by decide⟩

/-- Two players ask for the same stream, the pull opens, both are attached to it, it ends, the next request starts anew. -/
def opsE : List WOp := [.edgeRequest [7], .edgeRequest [7], .edgeOpen 0, .edgeDrop 0, .play [7], .play [7], .put 0 (kf 1), .dump 0, .dump 1]
/-- A pull ends, its player goes on, then the next pull of the key starts, and opens after its player's wait is over. -/
def opsE2 : List WOp := [.edgeRequest [7], .edgeOpen 0, .edgeEnd 0, .edgeDrop 0, .edgeRequest [7], .edgeDrop 1, .edgeOpen 1, .play [7]]
/-- While a pull of one stream is opened and played, two pulls of another overlap, that other is published and ends, somebody who wants to
publish the first is refused, and an earlier publisher of the first has left before the pull opened. -/
def opsE3 : List WOp := [.publish [7], .edgeRequest [8], .unpublish 0, .edgeRequest [7], .edgeEnd 0, .edgeRequest [8], .edgeDrop 0, .edgeRequest [8]]
def opsE4 : List WOp := [.publish [8], .publish [7], .play [7], .edgeDrop 1, .edgeOpen 2, .unpublish 2, .edgeOpen 3, .edgeEnd 2]

example : prompt [7] (World.init.run opsE).2 ∧ prompt [7] (World.init.run opsE2).2 ∧ pullKey 1 (World.init.run opsE2).2 = some [7] ∧
    pullKey 0 (World.init.run opsE2).2 = none :=
  ⟨promptCheck_sound (by decide), promptCheck_sound (by decide), by decide, by decide⟩
example : pullKey 0 (World.init.run opsE).2 = some [7] ∧ (WOp.edgeOpen 0, WOut.published 0) ∈ (World.init.run opsE).2 := by decide
example : plainKey [7] = true ∧ prompt [7] (World.init.run (opsE3 ++ .edgeOpen 1 :: opsE4)).2 ∧
    (∀ c, activeKey c (World.init.run opsE3).2 ≠ some [7]) ∧ ((World.init.run opsE3).1.step (.edgeOpen 1)).2 = .published 1 ∧
    pullKey 1 (World.init.run (opsE3 ++ .edgeOpen 1 :: opsE4)).2 = some [7] ∧
    pullKey 3 (World.init.run (opsE3 ++ .edgeOpen 1 :: opsE4)).2 = some [8] ∧ (WOp.publish [7], WOut.refused) ∈ (World.init.run (opsE3 ++ .edgeOpen 1 :: opsE4)).2 := by
  refine ⟨by decide, promptCheck_sound (by decide), fun c => ?_, by decide, by decide, by decide, by decide⟩
  show activeKeyFrom c none _ ≠ _
  simp only [show (World.init.run opsE3).2 = [(.publish [7], .published 0), (.edgeRequest [8], .edgeStarted 0), (.unpublish 0, .ok), (.edgeRequest [7], .edgeStarted 1),
    (.edgeEnd 0, .ok), (.edgeRequest [8], .edgeStarted 2), (.edgeDrop 0, .ok), (.edgeRequest [8], .edgeStarted 3)] by decide, activeKeyFrom]
  split <;> simp
example : isStream 1 [7] (World.init.run (opsE3 ++ .edgeOpen 1 :: opsE4)).2 ∧ isStream 1 [2] (World.init.run opsA).2 := by
  refine ⟨.inr ⟨(World.init.run opsE3).2, 1, ((World.init.run (opsE3 ++ [.edgeOpen 1])).1.run opsE4).2, by decide, fun c => ?_, by decide, promptCheck_sound (by decide)⟩,
    .inl ⟨by decide, (apart_of_none (by decide)).1⟩⟩
  show activeKeyFrom c none _ ≠ _
  simp only [show (World.init.run opsE3).2 = [(.publish [7], .published 0), (.edgeRequest [8], .edgeStarted 0), (.unpublish 0, .ok), (.edgeRequest [7], .edgeStarted 1),
    (.edgeEnd 0, .ok), (.edgeRequest [8], .edgeStarted 2), (.edgeDrop 0, .ok), (.edgeRequest [8], .edgeStarted 3)] by decide, activeKeyFrom]
  split <;> simp
example : (World.init.run (opsE ++ [.edgeEnd 0, .edgeRequest [7]])).2.map (·.2) =
    [.edgeStarted 0, .edgeWaits 0, .published 0, .ok, .joined 0 0, .joined 1 0, .ok, .pkts [kf 1], .pkts [kf 1], .ok, .edgeStarted 1] := by
  decide

/-- A stream that was pulled twice, published and played; a pull that has ended is still held by its player. -/
def opsE5 : List WOp := [.edgeRequest [7], .publish [7], .edgeOpen 0, .play [7], .edgeEnd 0, .unpublish 0, .edgeRequest [7], .edgeEnd 1, .edgeRequest [8], .edgeDrop 0]

example : plainKey [7] = true ∧ (∀ c, activeKey c (World.init.run opsE5).2 ≠ some [7]) ∧ (∀ e, pullKey e (World.init.run opsE5).2 ≠ some [7]) ∧
    (World.init.run opsE5).1.edges.length = 3 ∧ pullKey 2 (World.init.run opsE5).2 = some [8] := by
  have hl : (World.init.run opsE5).2 = [(.edgeRequest [7], .edgeStarted 0), (.publish [7], .published 0), (.edgeOpen 0, .published 1), (.play [7], .joined 0 1), (.edgeEnd 0, .ok), (.unpublish 0, .ok),
    (.edgeRequest [7], .edgeStarted 1), (.edgeEnd 1, .ok), (.edgeRequest [8], .edgeStarted 2), (.edgeDrop 0, .ok)] := by decide
  refine ⟨by decide, fun c => ?_, fun e => ?_, by decide, by decide⟩ <;> rw [hl]
  · simp only [activeKey, activeKeyFrom]
    split <;> simp
  · simp only [pullKey, pullKeyFrom]
    repeat' split
    all_goals simp

/-! ### C62 -/

/-- **C62**, as the code is: a player of the raw copy of an SRT stream is given the latest tables and then every other packet
since the publisher connected (`Spec.startupRaw`). -/
theorem C62_raw_dump (h v : List AVPkt) :
    ((h.foldl RawTs.put RawTs.empty).dump v).1 = v ++ startupRaw h := raw_dump h v

/-- **C62**, more than once: a dump takes nothing out of the cache. -/
theorem C62_raw_dump_again (h h' v : List AVPkt) :
    ((h'.foldl RawTs.put ((h.foldl RawTs.put RawTs.empty).dump v).2.2).dump []).1 = startupRaw (h ++ h') := by
  have e : ((h.foldl RawTs.put RawTs.empty).dump v).2.2 = h.foldl RawTs.put RawTs.empty := rfl
  rw [e, ← List.foldl_append, raw_dump]; rfl

/-- **C62's claim fails**: a packet is never recognised as the start of a unit (the test compares a masked top bit with 1),
so whatever the packets are, nothing is ever dropped from the cache. -/
theorem C62_negation_unit_start (p : AVPkt) (h : List AVPkt) :
    p.isPusi = false ∧ ∃ pre, ((h ++ [p]).foldl RawTs.put RawTs.empty).q.pbs = (h.foldl RawTs.put RawTs.empty).q.pbs ++ pre := by
  refine ⟨isPusi_false p, ?_⟩
  obtain ⟨_, _, c⟩ := raw_history h
  obtain ⟨_, _, c'⟩ := raw_history (h ++ [p])
  rw [c, c', List.filter_append]
  exact ⟨_, rfl⟩

example : AVPkt.isPusi { kf 0 with stream := .pes, pktType := 0x80000001 } = false := isPusi_false _

end Sps.StreamProps
