import Verif.Props.SrtServe
import Verif.Lemmas.Twin
import Verif.Lemmas.Relay
/-!
# C98: a player does not affect anyone else

Whether, when and how often a player takes its packets, and how writing to it fails, is seen by no other connection and no stream.
-/
namespace Sps.Isolation
open Spec Sys ServeProps StreamProps World

/-- **C98** (the execution with the player must be defined, `C98_negation_crash`; the memory that RTMP players share is C81). Take any
execution and any request in it that asks to play. If the player gets no turn after its start (it hangs: neither reads nor leaves), then nothing changes for
anyone else: every other connection has the same state and was written the same, the same packets were published to every stream, and the same
streams can be played.

Missing: players that crash the server, and a bound on what is pending (the negations of C98). -/
theorem C98_isolated_partial {env : Site.Env} {ops : List Sys.Op} {s : Sys} {L : Log} (hr : Sys.run env Sys.init ops = some (s, L)) {i : Nat} {q : Req}
    (hq : (requestsOf ops)[i]? = some q) (hp : asksToPlay q) :
    ∃ s' L', Sys.run env Sys.init (without i ops) = some (s', L') ∧ (∀ j : Nat, j ≠ i → s'.conns[j]? = s.conns[j]?) ∧
      (∀ cid, publishedTo cid L' = publishedTo cid L) ∧ s'.w.reg = s.w.reg ∧ s'.w.edges = s.w.edges := by
  have h0 : Beside i Sys.init Sys.init := .before rfl (by intro j k c hj; simp [Sys.init] at hj) (Nat.zero_le _)
  obtain ⟨s', L', h1, h2, h3⟩ := h0.run ops (fun _ q' hq' => by
    have : (requestsOf ops)[i]? = some q' := hq'
    rw [hq] at this
    cases this
    exact hp) hr
  refine ⟨s', L', h1, ?_, h3, ?_⟩
  · cases h2 with
    | before he _ _ => subst he; exact fun _ _ => rfl
    | idle he _ _ _ _ => subst he; exact fun _ _ => rfl
    | twin c h => exact h.others
  · cases h2 with
    | before he _ _ => subst he; exact ⟨rfl, rfl⟩
    | idle he _ _ _ _ => subst he; exact ⟨rfl, rfl⟩
    | twin c h => exact ⟨h.same.reg, h.same.edges⟩

/-- **C98**, schedules. Two executions that differ only in the turns of one player do not differ for anyone else.

Missing: players that crash the server, and a bound on what is pending (the negations of C98). -/
theorem C98_schedules_partial {env : Site.Env} {ops ops' : List Sys.Op} {s s' : Sys} {L L' : Log} {i : Nat} {q : Req} (he : without i ops = without i ops')
    (hr : Sys.run env Sys.init ops = some (s, L)) (hr' : Sys.run env Sys.init ops' = some (s', L'))
    (hq : (requestsOf ops)[i]? = some q) (hp : asksToPlay q) :
    (∀ j : Nat, j ≠ i → s'.conns[j]? = s.conns[j]?) ∧ (∀ cid, publishedTo cid L' = publishedTo cid L) ∧ s'.w.reg = s.w.reg := by
  have hrq : ∀ o : List Sys.Op, requestsOf (without i o) = requestsOf o := by
    intro o
    induction o with
    | nil => rfl
    | cons a o ih =>
      cases a with
      | run j =>
        by_cases hj : (j != i) = true
        · simpa [without, requestsOf, hj] using ih
        · simpa [without, requestsOf, hj] using ih
      | request q => simpa [without, requestsOf] using ih
      | other op => simpa [without, requestsOf] using ih
      | wake j e => simpa [without, requestsOf] using ih
  obtain ⟨t, T, h1, h2, h3, h4, _⟩ := C98_isolated_partial hr hq hp
  have hq' : (requestsOf ops')[i]? = some q := by rw [← hrq ops', ← he, hrq]; exact hq
  obtain ⟨t', T', h1', h2', h3', h4', _⟩ := C98_isolated_partial hr' hq' hp
  rw [← he, h1] at h1'
  cases h1'
  exact ⟨fun j hj => by rw [← h2 j hj, ← h2' j hj], fun cid => by rw [← h3, ← h3'], by rw [← h4, ← h4']⟩

/-! ### A sample -/

/-- A publisher and two players; the connection of the second one breaks. -/
def crowd : List Sys.Op :=
  [.request post, .run 0, .run 0, .run 0, .request (get "source" "GET" "flv"), .request { get "source" "GET" "flv" with fails := [0, 0, 0, 0, 0, 0, 7] },
   .run 2, .run 1, .run 0, .run 2, .run 1, .run 2, .run 0, .run 1, .run 2]

example : (Sys.run site Sys.init crowd).isSome ∧ ((requestsOf crowd)[2]?.map fun q => q.url.method) = some (ascii "GET") ∧
    (∃ q, (requestsOf crowd)[2]? = some q ∧ asksToPlay q) ∧ (without 2 crowd).length = 11 :=
  ⟨by decide +kernel, by decide +kernel, ⟨_, rfl, show (urlOf "GET" "flv").method ≠ ascii "POST" by decide +kernel⟩, by decide +kernel⟩

/-- The first player gets the same with or without the second, which was sent less. -/
example : ((Sys.run site Sys.init crowd).map fun x => x.1.conns.map ending) = some [(some (.publisher 0), []), (some (.player 0), flvResponse site.reason pkts),
      (some (.player 1), (flvResponse site.reason pkts).take 86)] ∧
    ((Sys.run site Sys.init (without 2 crowd)).map fun x => x.1.conns.map ending) = some [(some (.publisher 0), []), (some (.player 0), flvResponse site.reason pkts),
      (none, (flvResponse site.reason []))] := by decide +kernel

/-! ### What it costs the others -/

/-- **C98**, a player can end everything (see `C75_negation_crash`): an execution that is defined without a player's turn is not with it. -/
theorem C98_negation_crash : ∃ (ops : List Sys.Op) (q : Req), (requestsOf ops)[1]? = some q ∧ asksToPlay q ∧
    (Sys.run site Sys.init (without 1 ops)).isSome ∧ Sys.run site Sys.init ops = none := by
  have h : ∀ x : Option (Sys × Log), x.isNone = true → x = none := fun x hx => by cases x <;> simp_all
  exact ⟨[.request post, .run 0, .run 0, .run 0, .request (get "source" "GET" "-a"), .run 1], _, rfl, show (urlOf "GET" "-a").method ≠ ascii "POST" by decide +kernel,
    by decide +kernel, h _ (by decide +kernel)⟩

/-- A picture. -/
def picture : AVPkt := { stream := .video, pktType := 1, payload := [6], dts := 80, pts := 80, flags := 0x27, codec := 7 }

theorem piles (m : Nat) : ∀ (s : Sys) (c : Cache) (cl : Client), s.w.caches = [c] → c.isOpen = true → c.subs = [0] → s.w.clients = [cl] →
    s.owned (.put 0 picture) = false → ∃ (t : Sys) (L : Log) (cl' : Client), Sys.run site s (List.replicate m (.other (.put 0 picture))) = some (t, L) ∧
      t.w.clients = [cl'] ∧ cl'.q.pbs.length = cl.q.pbs.length + m := by
  induction m with
  | zero => intro s c cl _ _ _ h4 _; exact ⟨s, [], cl, rfl, h4, rfl⟩
  | succ m ih =>
    intro s c cl h1 h2 h3 h4 h5
    obtain ⟨t, L, cl', hr, ht, hl⟩ := ih ⟨(s.w.put 0 picture).1, s.conns⟩ { c with store := c.store.put picture } { cl with q := cl.q.put (some picture) }
      (by simp [World.put, h1, h2]) h2 h3 (by simp [World.put, h1, h2, deliver, h3, h4]) h5
    refine ⟨t, [(.put 0 picture, (s.w.put 0 picture).2)] ++ L, cl', ?_, ht, ?_⟩
    · simp only [List.replicate_succ, Sys.run, Sys.step, h5, Bool.false_eq_true, if_false, Option.bind_eq_bind, Option.bind_some]
      simp only [World.step]
      rw [hr]
      rfl
    · rw [hl]
      simp only [Queue.put, List.length_append, List.length_singleton]
      omega

/-- The stream is published, and a player joins. -/
def joined : Sys := ((Sys.run site Sys.init [.other (.publish (ascii "a.com/live/x")), .request (get "source" "GET" "flv")]).getD (Sys.init, [])).1

/-- **C98**, the memory a player takes is not bounded: while it hangs, everything that is published to its stream piles up for it. -/
theorem C98_negation_queue (n : Nat) : ∃ (ops : List Sys.Op) (s : Sys) (L : Log) (cl : Client), Sys.run site Sys.init ops = some (s, L) ∧
    requestsOf ops = [get "source" "GET" "flv"] ∧ s.w.clients = [cl] ∧ cl.q.pbs.length = n := by
  obtain ⟨t, L, cl', hr, ht, hl⟩ := piles n joined { key := ascii "a.com/live/x", src := .plain, isOpen := true, store := .av Gop.empty, subs := [0] }
    { cache := 0, q := ⟨[]⟩, left := false } (by decide +kernel) rfl rfl (by decide +kernel) (by decide +kernel)
  have h0 : Sys.run site Sys.init [.other (.publish (ascii "a.com/live/x")), .request (get "source" "GET" "flv")] =
      some (joined, ((Sys.run site Sys.init [.other (.publish (ascii "a.com/live/x")), .request (get "source" "GET" "flv")]).getD (Sys.init, [])).2) := rfl
  refine ⟨[.other (.publish (ascii "a.com/live/x")), .request (get "source" "GET" "flv")] ++ List.replicate n (.other (.put 0 picture)), t, _, cl', Relay.run_append_sys _ _ h0 hr, ?_, ht, by simpa using hl⟩
  simp only [requestsOf, List.filterMap_append, List.filterMap_cons, List.filterMap_nil]
  have : List.filterMap (fun x : Sys.Op => match x with | .request q => some q | _ => none) (List.replicate n (.other (.put 0 picture))) = [] := by
    rw [List.filterMap_replicate_of_none rfl]
  exact congrArg _ this

end Sps.Isolation
