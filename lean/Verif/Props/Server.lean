import Verif.Lemmas.Server
import Verif.Lemmas.Url
/-!
# Hosts, servers and phases: properties C51–C54, C71–C73
-/
namespace Sps
open Conf Spec.Server Router

/-! ## C51, C52: hosts -/

/-- **C51.** Whatever hosts were registered: a request is served by the host for its name, else the one for the domain behind its
first label, else the default, else none. -/
theorem C51_find (hs : List Module) (hz : ∀ h ∈ hs, (0 : UInt8) ∉ h.name) (name : Text) :
    (Router.new.history hs).find name = choose hs name :=
  knows_find (by simpa using knows_history knows_new hs hz) name

/-- **C51**, the selection spelled out. -/
theorem C51_choose (hs : List Module) (hz : ∀ h ∈ hs, (0 : UInt8) ∉ h.name) (name : Text) :
    (∀ h, firstFor hs (.exact name) = some h → (Router.new.history hs).find name = some h) ∧
    (firstFor hs (.exact name) = none → ∀ label d, name = label ++ 46 :: d → 46 ∉ label → ∀ h, firstFor hs (.wild d) = some h →
      (Router.new.history hs).find name = some h) ∧
    (firstFor hs (.exact name) = none → (∀ label d, name = label ++ 46 :: d → 46 ∉ label → firstFor hs (.wild d) = none) →
      (Router.new.history hs).find name = firstFor hs .dflt) := by
  have hdom : ∀ (label d : Text), 46 ∉ label → domain (label ++ 46 :: d) = some d := by
    intro label d h
    induction label with
    | nil => rfl
    | cons b l ih =>
      rw [List.mem_cons, not_or] at h
      rw [List.cons_append]
      unfold domain
      rw [if_neg (Ne.symm h.1), ih h.2]
  have hdom' : ∀ (n d : Text), domain n = some d → ∃ label, n = label ++ 46 :: d ∧ 46 ∉ label := by
    intro n
    induction n with
    | nil => intro d h; cases h
    | cons b l ih =>
      intro d h
      unfold domain at h
      by_cases hb : b = 46
      · rw [if_pos hb] at h
        cases h
        exact ⟨[], by rw [hb]; rfl, by simp⟩
      · rw [if_neg hb] at h
        obtain ⟨label, h1, h2⟩ := ih d h
        refine ⟨b :: label, by rw [h1]; rfl, ?_⟩
        rw [List.mem_cons, not_or]
        exact ⟨Ne.symm hb, h2⟩
  rw [C51_find hs hz]
  unfold choose
  refine ⟨fun h h1 => by rw [h1]; rfl, fun h1 label d h2 h3 h h4 => ?_, fun h1 h2 => ?_⟩
  · rw [h1, h2, hdom label d h3]
    simp [h4]
  · rw [h1]
    cases hd : domain name with
    | none => rfl
    | some d =>
      obtain ⟨label, h3, h4⟩ := hdom' name d hd
      simp [h2 label d h3 h4]

/-- **C52.** Registering succeeds exactly when the name is allowed and no host was registered for the same; otherwise nothing is
changed. -/
theorem C52_register (hs : List Module) (hz : ∀ h ∈ hs, (0 : UInt8) ∉ h.name) (h : Module) (hh : (0 : UInt8) ∉ h.name) :
    (((Router.new.history hs).register h).1 = Err.SUCCESS ↔ ∃ s, slot h.name = some s ∧ ∀ x ∈ hs, slot x.name ≠ some s) ∧
    (((Router.new.history hs).register h).1 ≠ Err.SUCCESS → ((Router.new.history hs).register h).2 = Router.new.history hs) := by
  have k : Knows (Router.new.history hs) hs := by simpa using knows_history knows_new hs hz
  obtain ⟨_, k2, k3⟩ := knows_register k hh
  refine ⟨?_, k3⟩
  rw [k2]
  constructor
  · rintro ⟨s, h1, h2⟩
    refine ⟨s, h1, fun x hx h3 => ?_⟩
    have := List.find?_eq_none.1 h2 x hx
    simp [h3] at this
  · rintro ⟨s, h1, h2⟩
    refine ⟨s, h1, List.find?_eq_none.2 fun x hx => ?_⟩
    simpa using h2 x hx

/-- **C52**, whatever is registered later, a name selects the host it was first registered for. -/
theorem C52_first (hs more : List Module) (hz : ∀ h ∈ hs ++ more, (0 : UInt8) ∉ h.name) (s : Slot) (h : Module)
    (h1 : firstFor hs s = some h) : firstFor (hs ++ more) s = some h ∧
    (∀ n, s = .exact n → (Router.new.history (hs ++ more)).find n = some h) := by
  have e : firstFor (hs ++ more) s = some h := by
    unfold firstFor at h1 ⊢
    rw [List.find?_append, h1]
    rfl
  refine ⟨e, fun n hn => ?_⟩
  subst hn
  exact (C51_choose _ hz n).1 h e

/-- **C52**, merging routers (`HostModulesRouter::merge`, which nobody calls) forgets the default host. -/
theorem C52_negation_merge : ((Router.merge Router.new (Router.new.history [.mk .host (ascii "*") (fun _ => none) []])).1,
    ((Router.merge Router.new (Router.new.history [.mk .host (ascii "*") (fun _ => none) []])).2.find (ascii "a.com")).isSome,
    ((Router.new.history [.mk .host (ascii "*") (fun _ => none) []]).find (ascii "a.com")).isSome) = (Err.SUCCESS, false, true) := by
  decide +kernel

/-- Some hosts. -/
def Router.sample : List Module := [ascii "a.com", ascii "*.b.com", ascii "*", ascii "*.com", ascii "a.com", ascii "*x", ascii "*."].map
  fun n => .mk .host n (fun _ => none) []

example : (∀ h ∈ Router.sample, (0 : UInt8) ∉ h.name) ∧
    [ascii "a.com", ascii "x.b.com", ascii "b.com", ascii "x.y.b.com", ascii "c.org", ascii "com"].map
      (fun n => ((Router.new.history Router.sample).find n).map Module.name) =
    [some (ascii "a.com"), some (ascii "*.b.com"), some (ascii "*.com"), some (ascii "*"), some (ascii "*"), some (ascii "*")] ∧
    (List.range 7).map (fun i => decide (((Router.new.history (Router.sample.take i)).register
      (Router.sample.getD i (.mk .host [] (fun _ => none) []))).1 = Err.SUCCESS)) = [true, true, true, true, false, false, false] := by decide +kernel

/-! ## C53: phases -/

/-- **C53.** If the handlers before one ask to continue and it does not, then it ends the request, and what comes behind it does
not matter. -/
theorem C53_stop {S : Type} (pre : List (Phase.Handler S)) (f : Phase.Handler S) (post : List (Phase.Handler S)) (s s1 s2 : S) (r : Int)
    (h1 : Through pre s s1) (h2 : f s1 = .ok (r, s2)) (hr : r ≠ Phase.CONTINUE) :
    Phase.handler (pre ++ f :: post) s = .ok (if r = Phase.NO_CONTINUE then Phase.SUCCESS else r, s2) := by
  induction h1 with
  | nil s =>
    rw [List.nil_append]
    unfold Phase.handler
    rw [h2]
    by_cases h : r = Phase.NO_CONTINUE
    · simp only [h, if_true]
    · simp only [h, if_false, hr]
  | cons hg _ ih =>
    rw [List.cons_append]
    unfold Phase.handler
    rw [hg]
    exact ih h2

/-- **C53**, a handler that does not return keeps the request (and its connection) from going on. -/
theorem C53_gone {S : Type} (pre : List (Phase.Handler S)) (f : Phase.Handler S) (post : List (Phase.Handler S)) (s s1 : S) (x : Phase.Stop)
    (h1 : Through pre s s1) (h2 : f s1 = .error x) (n : Nat) :
    Phase.handler (pre ++ f :: post) s = .error x ∧ Phase.connection (pre ++ f :: post) (n + 1) s = some (.error x) := by
  have h : Phase.handler (pre ++ f :: post) s = .error x := by
    induction h1 with
    | nil s =>
      rw [List.nil_append]
      unfold Phase.handler
      rw [h2]
    | cons hg _ ih =>
      rw [List.cons_append]
      unfold Phase.handler
      rw [hg]
      exact ih h2
  refine ⟨h, ?_⟩
  unfold Phase.connection
  rw [h]

/-- **C53**, if all ask to continue, all run in order and the request succeeds. -/
theorem C53_all {S : Type} (fs : List (Phase.Handler S)) (s s1 : S) (h1 : Through fs s s1) : Phase.handler fs s = .ok (Phase.SUCCESS, s1) := by
  induction h1 with
  | nil s => rfl
  | cons hg _ ih =>
    unfold Phase.handler
    rw [hg]
    exact ih

/-- **C53**, there are no other cases: either all ask to continue or there is a first one that does not return or returns something else. -/
theorem C53_cases {S : Type} (fs : List (Phase.Handler S)) (s : S) : (∃ s1, Through fs s s1) ∨
    ∃ pre f post s1, fs = pre ++ f :: post ∧ Through pre s s1 ∧ ∀ s2, f s1 ≠ .ok (Phase.CONTINUE, s2) := by
  induction fs generalizing s with
  | nil => exact .inl ⟨s, .nil s⟩
  | cons g fs ih =>
    by_cases hg : ∃ t, g s = .ok (Phase.CONTINUE, t)
    · obtain ⟨t, hg⟩ := hg
      rcases ih t with ⟨s1, h⟩ | ⟨pre, f, post, s1, h1, h2, h3⟩
      · exact .inl ⟨s1, .cons hg h⟩
      · exact .inr ⟨g :: pre, f, post, s1, by rw [h1]; rfl, .cons hg h2, h3⟩
    · exact .inr ⟨[], g, fs, s, rfl, .nil s, fun t ht => hg ⟨t, ht⟩⟩

/-- **C53**, a connection serves requests as long as they succeed and ends with the error of the first that fails. -/
theorem C53_connection {S : Type} (fs : List (Phase.Handler S)) (n : Nat) (s s1 : S) (e : Int) :
    Phase.connection fs n s = some (.ok (e, s1)) ↔ ∃ k < n, ∃ ss : Nat → S, ss 0 = s ∧
      (∀ i < k, Phase.handler fs (ss i) = .ok (Phase.SUCCESS, ss (i + 1))) ∧ Phase.handler fs (ss k) = .ok (e, s1) ∧ e ≠ Phase.SUCCESS := by
  induction n generalizing s with
  | zero =>
    constructor
    · intro h; cases h
    · rintro ⟨k, hk, _⟩; omega
  | succ n ih =>
    unfold Phase.connection
    rcases hh : Phase.handler fs s with x | ⟨r, t⟩
    · simp only
      constructor
      · intro h; cases h
      · rintro ⟨k, hk, ss, h0, h1, h2, h3⟩
        cases k with
        | zero => rw [h0, hh] at h2; cases h2
        | succ k => have h4 := h1 0 (by omega); rw [h0, hh] at h4; cases h4
    simp only
    by_cases hr : r = Phase.SUCCESS
    · subst hr
      rw [if_neg (by simp), ih]
      constructor
      · rintro ⟨k, hk, ss, h0, h1, h2⟩
        refine ⟨k + 1, by omega, fun i => match i with | 0 => s | i + 1 => ss i, rfl, fun i hi => ?_, h2⟩
        cases i with
        | zero => simp only [hh, h0]
        | succ i => exact h1 i (by omega)
      · rintro ⟨k, hk, ss, h0, h1, h2, h3⟩
        cases k with
        | zero =>
          rw [h0, hh] at h2
          cases h2
          exact absurd rfl h3
        | succ k =>
          have h4 := h1 0 (by omega)
          rw [h0, hh] at h4
          refine ⟨k, by omega, fun i => ss (i + 1), ?_, fun i hi => h1 (i + 1) (by omega), h2, h3⟩
          exact (Prod.mk.inj (Except.ok.inj h4)).2.symm
    · rw [if_pos hr]
      constructor
      · intro h
        cases h
        exact ⟨0, by omega, fun _ => s, rfl, fun i hi => by omega, hh, hr⟩
      · rintro ⟨k, hk, ss, h0, h1, h2, h3⟩
        cases k with
        | zero =>
          rw [h0, hh] at h2
          rw [Except.ok.inj h2]
        | succ k =>
          have h4 := h1 0 (by omega)
          rw [h0, hh] at h4
          exact absurd (Prod.mk.inj (Except.ok.inj h4)).1 hr

/-- Results for examples: with what a request or connection ended, and a number. -/
def outcome : Except Phase.Stop (Int × Nat) → Int × Nat
  | .ok x => x
  | .error .crash => (-1, 0)
  | .error .hang => (-2, 0)

example : Through [fun n : Nat => .ok (Phase.CONTINUE, n + 1), fun n => .ok (Phase.CONTINUE, 2 * n)] 3 8 ∧
    outcome (Phase.handler [fun n : Nat => .ok (Phase.CONTINUE, n + 1), fun n => .ok (Phase.NO_CONTINUE, 2 * n), fun n => .ok (7, n + 100)] 3) = (0, 8) ∧
    outcome (Phase.handler [fun n : Nat => .ok (Phase.CONTINUE, n + 1), fun _ => .error .crash, fun n => .ok (7, n + 100)] 3) = (-1, 0) ∧
    (Phase.connection [fun n : Nat => .ok (if n < 5 then Phase.CONTINUE else -9, n + 1)] 10 3).map outcome = some (-9, 6) := by
  exact ⟨.cons rfl (.cons rfl (.nil _)), by decide +kernel, by decide +kernel, by decide +kernel⟩

/-! ## C54: servers -/

/-- The same with the router of the server. -/
theorem Setup.reachable (listen : Int → Err) (root : Module) (hone : (Setup.blocks root .http).length ≤ 1)
    (hp : ((Setup.all root).map Setup.port).Nodup) (hl : ∀ m ∈ Setup.all root, listen (Setup.port m) = Err.SUCCESS)
    (hn : ∀ m ∈ Setup.all root, ∀ h ∈ m.inner ++ Setup.globals root, (0 : UInt8) ∉ h.name ∧ slot h.name ≠ none)
    (hd : ∀ m ∈ Setup.all root, ((m.inner ++ Setup.globals root).map fun h => slot h.name).Nodup) :
    ∃ sites, Setup.start listen root = .ok sites ∧ ∀ m ∈ Setup.all root,
      ∃ site, sites.find (Setup.port m) = some site ∧ site.router = Router.new.history (m.inner ++ Setup.globals root) := by
  obtain ⟨ms, hperm, heq⟩ := Setup.rounds_servers root hone
  have hmem : ∀ m, m ∈ Setup.all root ↔ m ∈ ms := fun m => hperm.mem_iff
  have hports : ((Setup.rounds root).flatten.map Srv.port) = ms.map Setup.port := by
    have := congrArg (List.map Prod.fst) heq
    rw [List.map_map, List.map_map] at this
    exact this
  have hof : ∀ s ∈ (Setup.rounds root).flatten, ∃ m ∈ Setup.all root, s.port = Setup.port m ∧ s.hosts = m.inner ++ Setup.globals root := by
    intro s hs
    have h : (s.port, s.hosts) ∈ (Setup.rounds root).flatten.map fun s => (s.port, s.hosts) := List.mem_map_of_mem hs
    rw [heq] at h
    obtain ⟨m, h1, h2⟩ := List.mem_map.1 h
    exact ⟨m, (hmem m).2 h1, (Prod.mk.inj h2).1.symm, (Prod.mk.inj h2).2.symm⟩
  have hto : ∀ m ∈ Setup.all root, ∃ s ∈ (Setup.rounds root).flatten, s.port = Setup.port m ∧ s.hosts = m.inner ++ Setup.globals root := by
    intro m hm
    have h : (Setup.port m, m.inner ++ Setup.globals root) ∈ ms.map fun m => (Setup.port m, m.inner ++ Setup.globals root) :=
      List.mem_map_of_mem ((hmem m).1 hm)
    rw [← heq] at h
    obtain ⟨s, h1, h2⟩ := List.mem_map.1 h
    exact ⟨s, h1, (Prod.mk.inj h2).1, (Prod.mk.inj h2).2⟩
  obtain ⟨sites, h1, _, h3⟩ := Setup.installAll_distinct listen (Setup.rounds root) [] (fun _ _ => rfl)
    (by rw [hports]; exact (hperm.map Setup.port).nodup_iff.1 hp)
    (fun s hs => by
      obtain ⟨m, hm, _, e2⟩ := hof s hs
      rw [e2]
      refine build_ok knows_new _ (fun h hh => (hn m hm h hh).1) (fun h hh => ?_) (hd m hm)
      obtain ⟨t, ht⟩ := Option.ne_none_iff_exists'.1 (hn m hm h hh).2
      exact ⟨t, ht, rfl⟩)
    (fun s hs => by
      obtain ⟨m, hm, e1, _⟩ := hof s hs
      rw [e1]
      exact hl m hm)
  refine ⟨sites, h1, fun m hm => ?_⟩
  obtain ⟨s, hs, e1, e2⟩ := hto m hm
  exact ⟨_, by rw [← e1]; exact h3 s hs, by rw [← e2]⟩

/-- **C54**, for configurations in which every server block has its own port and there is one `http` block: if the names in every
server are allowed and distinct (those of the `globalhost` blocks included) and listening succeeds, the program starts, and on the
port of every server block a request is served by the right host of that block or of a `globalhost` block.

Missing: a second block on a port and two `http` blocks (the negations of C54). -/
theorem C54_reachable_partial (listen : Int → Err) (root : Module) (hone : (Setup.blocks root .http).length ≤ 1)
    (hp : ((Setup.all root).map Setup.port).Nodup) (hl : ∀ m ∈ Setup.all root, listen (Setup.port m) = Err.SUCCESS)
    (hn : ∀ m ∈ Setup.all root, ∀ h ∈ m.inner ++ Setup.globals root, (0 : UInt8) ∉ h.name ∧ slot h.name ≠ none)
    (hd : ∀ m ∈ Setup.all root, ((m.inner ++ Setup.globals root).map fun h => slot h.name).Nodup) :
    ∃ sites, Setup.start listen root = .ok sites ∧ ∀ m ∈ Setup.all root, ∀ name,
      Setup.select sites (Setup.port m) name = choose (m.inner ++ Setup.globals root) name := by
  obtain ⟨sites, h1, h2⟩ := Setup.reachable listen root hone hp hl hn hd
  refine ⟨sites, h1, fun m hm name => ?_⟩
  obtain ⟨site, h3, h4⟩ := h2 m hm
  unfold Setup.select
  rw [h3]
  show site.router.find name = _
  rw [h4]
  exact C51_find _ (fun h hh => (hn m hm h hh).1) name

/-- **C54**, for every configuration: when the program has started, it listens on the port of every server block; if one of them cannot be
had, it does not start. -/
theorem C54_listening (listen : Int → Err) (root : Module) (sites : Assoc Int Site) (h : Setup.start listen root = .ok sites) :
    ∀ m ∈ Setup.all root, listen (Setup.port m) = Err.SUCCESS ∧ (sites.find (Setup.port m)).isSome := by
  intro m hm
  obtain ⟨a, -, c⟩ := Setup.installAll_listens listen (Setup.rounds root) [] sites (fun p hp => by cases hp) h
  obtain ⟨s, h1, h2⟩ := Setup.rounds_mem hm
  rw [← h2]
  exact ⟨a _ (c s h1), c s h1⟩

/-- A configuration file as a module. -/
def Setup.ofFile (t : String) : Module := match initConf (ascii t) with
  | .ok m _ => m
  | _ => .mk .root [] (fun _ => none) []

/-- The name of the host that serves a request. -/
def Setup.serves (root : Module) (port : Int) (name : Text) : Option Text := match Setup.start (fun _ => Err.SUCCESS) root with
  | .ok sites => (Setup.select sites port name).map Module.name
  | _ => none

/-- A configuration with three ports. -/
def Setup.sample : Module := Setup.ofFile
  "globalhost {\nhost g.com {\n}\n}\nhttp {\nserver {\nlisten_port 80;\nhost a.com {\n}\nhost *.b.com {\n}\n}\nserver {\nlisten_port 81;\nhost * {\n}\n}\n}\nrtmp {\nserver {\nlisten_port 1935;\nhost a.com {\n}\n}\n}\n"

example : (Setup.blocks Setup.sample .http).length ≤ 1 ∧ (Setup.all Setup.sample).map Setup.port = [80, 81, 1935] ∧
    (∀ m ∈ Setup.all Setup.sample, ∀ h ∈ m.inner ++ Setup.globals Setup.sample, (0 : UInt8) ∉ h.name ∧ slot h.name ≠ none) ∧
    (∀ m ∈ Setup.all Setup.sample, ((m.inner ++ Setup.globals Setup.sample).map fun h => slot h.name).Nodup) := by decide +kernel

example : Setup.serves Setup.sample 80 (ascii "x.b.com") = some (ascii "*.b.com") ∧
    Setup.serves Setup.sample 1935 (ascii "g.com") = some (ascii "g.com") ∧
    Setup.serves Setup.sample 81 (ascii "a.com") = some (ascii "*") ∧ Setup.serves Setup.sample 80 (ascii "c.com") = none := by decide +kernel

example : (match Setup.start (fun p => if p = 1935 then Err.ERROR_SOCKET_LISTEN else Err.SUCCESS) Setup.sample with | .err e => some e | _ => none) =
    some Err.ERROR_SOCKET_LISTEN := by decide +kernel

/-- **C54**, the hosts of the second server block for a port are never selected. -/
theorem C54_negation_port : (let root := Setup.ofFile "http {\nserver {\nlisten_port 80;\nhost a.com {\n}\n}\nserver {\nlisten_port 80;\nhost b.com {\n}\n}\n}\n"
    ((Setup.all root).map Setup.port, (Setup.all root).map (fun m => m.inner.map Module.name),
      Setup.serves root 80 (ascii "a.com"), Setup.serves root 80 (ascii "b.com"))) =
    ([80, 80], [[ascii "a.com"], [ascii "b.com"]], some (ascii "a.com"), none) := by decide +kernel

/-- **C54**, with two `http` blocks and a global host the program does not start: every block adds the global hosts again. -/
theorem C54_negation_global : (let root := Setup.ofFile "globalhost {\nhost g.com {\n}\n}\nhttp {\nserver {\nlisten_port 80;\nhost a.com {\n}\n}\n}\nhttp {\nserver {\nlisten_port 81;\nhost b.com {\n}\n}\n}\n"
    ((Setup.all root).map Setup.port, match Setup.start (fun _ => Err.SUCCESS) root with | .err e => some e | _ => none)) =
    ([80, 81], some Err.ERROR_CONFIG_PARSE_INVALID) := by decide +kernel

/-- **C54**, with two `http` blocks the second one merges every server into itself, which is undefined. -/
theorem C54_negation_twice : (let root := Setup.ofFile "http {\nserver {\nlisten_port 80;\nhost a.com {\n}\n}\n}\nhttp {\nserver {\nlisten_port 81;\nhost b.com {\n}\n}\n}\n"
    ((Setup.all root).map Setup.port, match Setup.start (fun _ => Err.SUCCESS) root with | .undef => true | _ => false)) =
    ([80, 81], true) := by decide +kernel

/-! ## C71: what serves a request -/

/-- **C71**, hosts of type `stream` are served by the streaming handler and hosts of type `proxy` by the proxy.

Missing: hosts of type `api` and the setting `enabled` (the negations of C71). -/
theorem C71_dispatch_partial (h : Module) : (opt h "type" "stream" → Host.adapter h = .streaming) ∧ (opt h "type" "proxy" → Host.adapter h = .proxying) := by
  unfold opt Host.adapter Host.isStreaming Host.isApi Host.text
  refine ⟨fun h1 => ?_, fun h1 => ?_⟩ <;> rw [h1] <;> decide +kernel

/-- **C71**, no host is ever served by the API handler: hosts of type `api` are served by the proxy. -/
theorem C71_negation_api (h : Module) : Host.adapter h ≠ .api ∧ (opt h "type" "api" → Host.adapter h = .proxying) := by
  unfold opt Host.adapter Host.isStreaming Host.isApi
  refine ⟨?_, fun h1 => ?_⟩
  · cases hs : decide (Host.typeOf (Host.text h (ascii "type")) = .streaming) <;> simp
  · unfold Host.text
    rw [h1]
    decide +kernel

/-- **C71**, a host that is switched off is served nevertheless. -/
theorem C71_negation_enabled : (let root := Setup.ofFile "http {\nserver {\nlisten_port 80;\nhost a.com {\nenabled off;\n}\n}\n}\n"
    ((Setup.all root).map (fun m => m.inner.map fun h => (h.name, h.conf (ascii "enabled"))), Setup.serves root 80 (ascii "a.com"))) =
    ([[(ascii "a.com", some (.bool false))]], some (ascii "a.com")) := by decide +kernel

example : opt (.mk .host (ascii "a") (fun n => if n = ascii "type" then some (.str (ascii "stream")) else none) []) "type" "stream" := by
  unfold opt
  decide +kernel

/-! ## C72: where a relayed request goes -/

/-- **C72.** A proxied request goes to the configured address (that of the upstream block in the host if there is one, else that
of `pass_proxy`), to port 80 if none is given; an edge goes there too, to the usual port of the scheme if none is given. -/
theorem C72_address (h : Module) (u : Url) (a : Text) (ip : Text) (port : Int)
    (ha : (∀ m ∈ h.inner, m.kind ≠ .upstream) ∧ h.conf (ascii "pass_proxy") = some (.str a) ∨
      ∃ l m r, h.inner = l ++ m :: r ∧ m.kind = .upstream ∧ (∀ x ∈ r, x.kind ≠ .upstream) ∧ m.conf (ascii "server") = some (.str a)) :
    (Address a 80 (ip, port) → Host.proxyAddress h = (ip, port)) ∧ (Address a (usualPort u.schema) (ip, port) → Host.edgeAddress h u = (ip, port)) := by
  have hp : Host.proxy h = (match Text.cut 58 a with
      | some (ip, port) => (ip, some (Text.atoi (Text.cstr port)))
      | none => (a, none)) := by
    unfold Host.proxy
    rcases ha with ⟨h1, h2⟩ | ⟨l, m, r, h1, h2, h3, h4⟩
    · have : Host.upstream h = none := by
        unfold Host.upstream
        rw [List.find?_eq_none]
        intro x hx
        simpa using h1 x (by simpa using hx)
      rw [this]
      unfold Host.text
      rw [h2]
      rfl
    · have : Host.upstream h = some m := by
        unfold Host.upstream
        rw [h1, List.reverse_append, List.reverse_cons, List.append_assoc, List.find?_append, List.find?_eq_none.2]
        · simp [h2]
        · intro x hx
          simpa using h3 x (by simpa using hx)
      rw [this]
      simp only
      unfold Host.text
      rw [h4]
      rfl
  have key : ∀ usual, Address a usual (ip, port) → ((Host.proxy h).1, (Host.proxy h).2.getD usual) = (ip, port) := by
    intro usual hA
    rw [hp]
    cases hA with
    | port ip ds n _ h1 h2 h3 h4 =>
      rw [Text.cut_at _ _ _ h1]
      simp only [Option.getD_some]
      rw [show Text.cstr ds = ds from Text.cstr_dec ds n 0 h3, Text.atoi_dec h2 h3 h4]
    | plain ip _ h1 =>
      rw [Text.cut_none _ _ h1]
      rfl
  exact ⟨key 80, key _⟩

example : Address (ascii "127.0.0.1:8080") 80 (ascii "127.0.0.1", 8080) ∧ Address (ascii "github.com") 80 (ascii "github.com", 80) := by
  refine ⟨?_, .plain _ _ (by decide +kernel)⟩
  have := Address.port (ascii "127.0.0.1") (ascii "8080") 8080 80 (by decide +kernel) (by decide +kernel) (by decide +kernel) (by decide)
  have e : ascii "127.0.0.1" ++ 58 :: ascii "8080" = ascii "127.0.0.1:8080" := by decide +kernel
  rw [e] at this
  exact this

/-- **C72**, an upstream block outside the host is not found by its name: the name is taken for an address. -/
theorem C72_negation_name : (let root := Setup.ofFile "upstream u1 {\nserver 10.0.0.1:8080;\n}\nhttp {\nserver {\nlisten_port 80;\nhost a.com {\npass_proxy u1;\n}\n}\n}\n"
    (Setup.all root).map (fun m => m.inner.map Host.proxyAddress)) = [[(ascii "u1", 80)]] := by decide +kernel

/-! ## C73: what an edge asks for -/

/-- **C73**, hosts that give an address by `pass_proxy`: an edge asks that address for what the player asked for, or for the configured URL.

Missing: hosts with an `upstream` block (`C73_negation_upstream`). -/
theorem C73_url_partial (h : Module) (u : Url) (a p : Text) (h1 : h.conf (ascii "pass_proxy") = some (.str a))
    (h2 : h.conf (ascii "pass_url") = some (.str p)) :
    (p = [] → Host.edgeUrl h u = u.schema ++ ascii "://" ++ a ++ u.url) ∧ (p ≠ [] → Host.edgeUrl h u = p) := by
  unfold Host.edgeUrl Host.text
  rw [h1, h2]
  exact ⟨fun h => by simp [h], fun h => by simp [h]⟩

/-- **C73**, with an upstream block in the host the URL asked for has no host. -/
theorem C73_negation_upstream : (let root := Setup.ofFile "http {\nserver {\nlisten_port 80;\nhost a.com {\ntype stream;\nupstream u {\nserver 10.0.0.1:8080;\n}\n}\n}\n}\n"
    let u : Url := { schema := ascii "http", url := ascii "/live/x.flv" }
    (Setup.all root).map (fun m => m.inner.map fun h => (Host.edgeAddress h u, Host.edgeUrl h u))) =
    [[((ascii "10.0.0.1", 8080), ascii "http:///live/x.flv")]] := by decide +kernel

example : (let root := Setup.ofFile "http {\nserver {\nlisten_port 80;\nhost a.com {\ntype stream;\npass_proxy 10.0.0.1:8080;\n}\n}\n}\n"
    let u : Url := { schema := ascii "http", url := ascii "/live/x.flv?a=1" }
    (Setup.all root).map (fun m => m.inner.map fun h => (Host.edgeAddress h u, Host.edgeUrl h u))) =
    [[((ascii "10.0.0.1", 8080), ascii "http://10.0.0.1:8080/live/x.flv?a=1")]] := by decide +kernel

end Sps
