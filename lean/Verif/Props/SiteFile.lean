import Verif.Lemmas.SiteFile
import Verif.Props.Conf
import Verif.Props.Server
import Verif.Props.HttpConn
/-!
# C102: from the configuration file to the answers
-/
namespace Sps.SiteFile
open Spec Sps.Conf Spec.Conf Spec.Server Spec.SiteFile

theorem starts (listen : Int → Err) (file : Text) (ls : List Text) (hls : IsLines file ls) (hr : noRoot ls) (ts : List Tree) (hw : Writes ls ts) (hl : Legal .root ts)
    (p : List Tree → Int) (hs : Sound ts p) (hp : ∀ s ∈ allServers ts, listen (p s) = Err.SUCCESS) :
    ∃ root sites, initConf file = .ok root [] ∧ Setup.start listen root = .ok sites ∧ ∀ s ∈ allServers ts, Legal .server s ∧
      ∃ site, sites.find (p s) = some site ∧ site.router = Router.new.history ((hosts ts s).map host) := by
  obtain ⟨bs, e1, e2, e3⟩ := all_servers hl
  have hport : ∀ b ∈ bs, Setup.port (build .server b.1 b.2) = p b.2 := fun b hb => port_eq (hs.port _ (by rw [e2]; exact List.mem_map_of_mem hb))
  have hmem : ∀ m ∈ Setup.all (build .root [] ts), ∃ b ∈ bs, m = build .server b.1 b.2 := by
    intro m hm
    rw [e1] at hm
    obtain ⟨b, h1, h2⟩ := List.mem_map.1 hm
    exact ⟨b, h1, h2.symm⟩
  have hin : ∀ b ∈ bs, b.2 ∈ allServers ts := fun b hb => by rw [e2]; exact List.mem_map_of_mem hb
  obtain ⟨sites, h1, h2⟩ := Setup.reachable listen (build .root [] ts) (by rw [http_count hl]; exact hs.http)
    (by
      rw [e1, List.map_map, List.map_congr_left (f := Setup.port ∘ fun b : Text × List Conf.Tree => build .server b.1 b.2) (g := fun b => p b.2) fun b hb => hport b hb]
      have := hs.ports
      rw [e2, List.map_map] at this
      exact this)
    (fun m hm => by
      obtain ⟨b, hb, rfl⟩ := hmem m hm
      rw [hport b hb]
      exact hp _ (hin b hb))
    (fun m hm h hh => by
      obtain ⟨b, hb, rfl⟩ := hmem m hm
      rw [all_hosts hl (e3 b hb)] at hh
      obtain ⟨x, hx, rfl⟩ := List.mem_map.1 hh
      exact hs.names _ (hin b hb) x hx)
    (fun m hm => by
      obtain ⟨b, hb, rfl⟩ := hmem m hm
      rw [all_hosts hl (e3 b hb), List.map_map]
      exact hs.distinct _ (hin b hb))
  refine ⟨_, sites, (C49_file file ls hls hr _ _).2 ⟨ts, hw, hl, rfl, rfl⟩, h1, fun s hm => ?_⟩
  rw [e2] at hm
  obtain ⟨b, hb, rfl⟩ := List.mem_map.1 hm
  refine ⟨e3 b hb, ?_⟩
  obtain ⟨site, h3, h4⟩ := h2 _ (by rw [e1]; exact List.mem_map_of_mem hb)
  rw [hport b hb] at h3
  rw [all_hosts hl (e3 b hb)] at h4
  exact ⟨site, h3, h4⟩

/-- **C102**, for sound configurations (one `http` block at most, every server block its own port, and allowed and distinct names of hosts). Whatever the layout of the file: the program starts if it can
listen on the ports, and on the port of every server block a request is served by the host block that is to serve its name: the one for the name, else the one for its domain, else the default, among the host
blocks of the server block and of the `globalhost` blocks; every option of it has the value of its last directive, or its default.

Missing: several server blocks on one port and names that are also global ones (the negations of
C102). -/
theorem C102_starts_partial (listen : Int → Err) (file : Text) (ls : List Text) (hls : IsLines file ls) (hr : noRoot ls) (ts : List Tree) (hw : Writes ls ts) (hl : Legal .root ts)
    (p : List Tree → Int) (hs : Sound ts p) (hp : ∀ s ∈ allServers ts, listen (p s) = Err.SUCCESS) :
    ∃ root sites, initConf file = .ok root [] ∧ Setup.start listen root = .ok sites ∧ ∀ s ∈ allServers ts, ∀ name,
      (chosen (hosts ts s) name = none → Setup.select sites (p s) name = none) ∧
      ∀ n body, chosen (hosts ts s) name = some (n, body) → ∃ h, Setup.select sites (p s) name = some h ∧ h.kind = .host ∧ h.name = n ∧
        ∀ ks o t v, (ks, o, t, v) ∈ documented → .host ∈ ks →
          (∀ a x, lastArg o body = some a → Means t a x → h.conf o = some x) ∧ (lastArg o body = none → h.conf o = some v) := by
  obtain ⟨root, sites, h1, h2, h3⟩ := starts listen file ls hls hr ts hw hl p hs hp
  refine ⟨root, sites, h1, h2, fun s hm name => ?_⟩
  obtain ⟨-, site, h4, h5⟩ := h3 s hm
  have hsel : Setup.select sites (p s) name = (chosen (hosts ts s) name).map host := by
    unfold Setup.select
    rw [h4]
    show site.router.find name = _
    rw [h5, C51_find _ (fun h hh => by
      obtain ⟨x, hx, rfl⟩ := List.mem_map.1 hh
      exact (hs.names s hm x hx).1), choose_chosen]
  refine ⟨fun hc => by rw [hsel, hc]; rfl, fun n body hc => ⟨_, by rw [hsel, hc]; rfl, rfl, rfl, ?_⟩⟩
  have hrow : ∀ r ∈ documented, Kind.host ∈ r.1 → ∃ o ∈ Kind.host.opts, o.name = r.2.1 ∧ o.type = r.2.2.1 ∧ o.value o.dflt = some r.2.2.2 := by decide +kernel
  intro ks o t v hd hk
  obtain ⟨x, ho, e1, e2, e3⟩ := hrow _ hd hk
  simp only at e1 e2 e3
  subst e1 e2
  constructor
  · intro a y ha hy
    show value .host body x.name = _
    unfold value
    rw [opt_of ho, ha]
    exact means_value hy
  · intro hn
    show value .host body x.name = _
    unfold value
    rw [opt_of ho, hn]
    exact e3

/-- **C102**, with the answers: on the port of a server block inside `http`, requests (however cut into pieces and pipelined) get the answers the file says: 404 for names that no host block serves, and
the answer of the upstream at the address given in the file for host blocks that are proxies; the upstreams get the requests. `p'` is `http_parser`.

Missing: several server blocks on one port and names that are also global ones (the negations of
C102). -/
theorem C102_http_partial (listen : Int → Err) (file : Text) (ls : List Text) (hls : IsLines file ls) (hr : noRoot ls) (ts : List Tree) (hw : Writes ls ts) (hl : Legal .root ts)
    (p : List Tree → Int) (hs : Sound ts p) (hp : ∀ s ∈ allServers ts, listen (p s) = Err.SUCCESS) :
    ∃ root sites, initConf file = .ok root [] ∧ Setup.start listen root = .ok sites ∧ ∀ s ∈ servers ["http"] ts, ∃ site, sites.find (p s) = some site ∧
      ∀ (p' : Parsers) (stream : Module → Url → Io → Sink → Except Phase.Stop (Err × HttpRsp × Io × Sink)), HttpConn.Reads p' →
      ∀ (as : List HttpConn.Ask) (us : List Upstream) (rs : List (Nat × List UInt8)) (qs : List (Text × Int × List UInt8)), Answered (hosts ts s) as us rs qs →
      ∀ (io : Io) (cl : Err), Arrives io (as.flatMap HttpConn.Ask.text) cl →
      ∃ c bss, HttpSite.serve { parsers := p', router := site.router, stream := stream } (as.length + 1) { io := io, snk := { out := [], fails := [] }, ups := us } = some (.ok (-(cl : Int), c)) ∧
        c.snk.out = bss.flatten ∧ List.Forall₂ (fun r bs => HttpConn.Answer r.1 r.2 bs) rs bss ∧ c.asked = qs ∧ c.ups = [] := by
  obtain ⟨root, sites, h1, h2, h3⟩ := starts listen file ls hls hr ts hw hl p hs hp
  refine ⟨root, sites, h1, h2, fun s hm => ?_⟩
  have hm : s ∈ allServers ts := by
    obtain ⟨b, hb, hsb⟩ := List.mem_flatMap.1 hm
    exact List.mem_flatMap.2 ⟨b, blocks_sub (by simp) hb, hsb⟩
  obtain ⟨hls', site, h4, h5⟩ := h3 s hm
  refine ⟨site, h4, fun p' stream hp' as us rs qs ha io cl hio => ?_⟩
  exact HttpConn.C99_answers_partial { parsers := p', router := site.router, stream := stream } ((hosts ts s).map host) hp' (fun h hh => by
      obtain ⟨x, hx, rfl⟩ := List.mem_map.1 hh
      exact (hs.names s hm x hx).1) h5 as us rs qs (answered_served hl hls' ha) io cl hio

/-! ## Example -/

/-- A site with two servers: an RTMP server with a default host, and an HTTP server that passes the requests for one name on and knows a domain. -/
def site : List Conf.Tree :=
  [.dir (ascii "comment") (join [ascii "a", ascii "site"]),
   .block (ascii "rtmp") (join []) [.block (ascii "server") (join []) [.dir (ascii "listen_port") (join [ascii "1935"]), .block (ascii "host") (join [ascii "*"]) [.dir (ascii "type") (join [ascii "stream"])]]],
   .block (ascii "globalhost") (join []) [.block (ascii "host") (join [ascii "g.org"]) []],
   .block (ascii "http") (join []) [.block (ascii "server") (join [ascii "web"])
     [.dir (ascii "listen_port") (join [ascii "80"]), .dir (ascii "listen_port") (join [ascii "8080"]),
      .block (ascii "host") (join [ascii "a.com"]) [.dir (ascii "pass_proxy") (join [ascii "10.0.0.1:8080"])],
      .block (ascii "host") (join [ascii "*.b.com"]) [.dir (ascii "type") (join [ascii "stream"]), .dir (ascii "role") (join [ascii "source"])]]]]

/-- The words of the site. -/
def siteWords : List Text := [ascii "comment", ascii "a", ascii "site", ascii "rtmp", ascii "server", ascii "listen_port", ascii "1935", ascii "host", ascii "*", ascii "type", ascii "stream",
  ascii "globalhost", ascii "g.org", ascii "http", ascii "web", ascii "80", ascii "8080", ascii "a.com", ascii "pass_proxy", ascii "10.0.0.1:8080", ascii "*.b.com", ascii "role", ascii "source"]

theorem site_plain : ∀ w ∈ siteWords, plain w ∧ ¬pound w := by
  intro w hw
  have : ∀ w ∈ siteWords, w ≠ [] ∧ (∀ b ∈ w, b ∉ ([9, 10, 11, 12, 13, 32] : List UInt8)) ∧
    (∀ c ∈ ([59, 123, 125] : List UInt8), w.getLast? ≠ some c) ∧ w.head? ≠ some 35 := by decide +kernel
  obtain ⟨a, b, c, d⟩ := this w hw
  exact ⟨Conf.plain_of w a b c, d⟩

theorem clean_dir {n : Text} {ws : List Text} {ts : List Conf.Tree} (hn : n ∈ siteWords) (hw : ∀ w ∈ ws, w ∈ siteWords) (h : Clean ts) : Clean (.dir n (join ws) :: ts) :=
  .dir _ _ _ (site_plain n hn).1 (site_plain n hn).2 (fun w hm => (site_plain w (hw w hm)).1) h
theorem clean_block {n : Text} {ws : List Text} {ks ts : List Conf.Tree} (hn : n ∈ siteWords) (hw : ∀ w ∈ ws, w ∈ siteWords) (hk : Clean ks) (h : Clean ts) :
    Clean (.block n (join ws) ks :: ts) :=
  .block _ _ _ _ (site_plain n hn).1 (site_plain n hn).2 (fun w hm => (site_plain w (hw w hm)).1) hk h

theorem site_clean : Clean site := by
  unfold site
  repeat' first | exact Clean.nil | apply clean_dir | apply clean_block
  all_goals decide +kernel

theorem site_legal : Legal .root site := by
  refine .dir _ _ _ _ (by decide +kernel) (.block _ .rtmp _ _ _ (by decide) (by decide) trivial ?_ (.block _ .globalHost _ _ _ (by decide) (by decide) trivial ?_
    (.block _ .http _ _ _ (by decide) (by decide) trivial ?_ (.nil _))))
  · exact .block _ .server _ _ _ (by decide) (by decide) rfl (.dir _ _ _ _ (by decide +kernel) (.block _ .host _ _ _ (by decide) (by decide) ⟨rfl, by decide +kernel⟩
      (.dir _ _ _ _ (by decide +kernel) (.nil _)) (.nil _))) (.nil _)
  · exact .block _ .host _ _ _ (by decide) (by decide) ⟨rfl, by decide +kernel⟩ (.nil _) (.nil _)
  · exact .block _ .server _ _ _ (by decide) (by decide) rfl (.dir _ _ _ _ (by decide +kernel) (.dir _ _ _ _ (by decide +kernel)
      (.block _ .host _ _ _ (by decide) (by decide) ⟨rfl, by decide +kernel⟩ (.dir _ _ _ _ (by decide +kernel) (.nil _))
        (.block _ .host _ _ _ (by decide) (by decide) ⟨rfl, by decide +kernel⟩ (.dir _ _ _ _ (by decide +kernel) (.dir _ _ _ _ (by decide +kernel) (.nil _))) (.nil _))))) (.nil _)

theorem site_noRoot : noRoot (renders site) := by
  intro l hl a h
  have h1 := parse_says h
  have h2 : ∀ l ∈ renders site, ((parse l).map fun x => match x with
    | .start n _ => decide (n = Kind.root.name)
    | _ => false) ≠ some true := by decide +kernel
  exact h2 l hl (by rw [h1]; simp)

/-- The ports of the site. -/
def sitePort (s : List Conf.Tree) : Int := if lastArg (ascii "listen_port") s = some (ascii "1935") then 1935 else 8080

theorem site_sound : Sound site sitePort where
  http := by decide +kernel
  port := by
    intro s hs
    have : ∀ s ∈ allServers site, (lastArg (ascii "listen_port") s = some (ascii "1935") ∧ sitePort s = 1935) ∨ (lastArg (ascii "listen_port") s = some (ascii "8080") ∧ sitePort s = 8080) := by
      intro s hs
      have hall : allServers site = [[.dir (ascii "listen_port") (ascii "1935"), .block (ascii "host") (ascii "*") [.dir (ascii "type") (ascii "stream")]],
         [.dir (ascii "listen_port") (ascii "80"), .dir (ascii "listen_port") (ascii "8080"),
          .block (ascii "host") (ascii "a.com") [.dir (ascii "pass_proxy") (ascii "10.0.0.1:8080")],
          .block (ascii "host") (ascii "*.b.com") [.dir (ascii "type") (ascii "stream"), .dir (ascii "role") (ascii "source")]]] := rfl
      rw [hall] at hs
      simp only [List.mem_cons, List.not_mem_nil, or_false] at hs
      rcases hs with rfl | rfl
      · left; decide +kernel
      · right; decide +kernel
    unfold Port
    rcases this s hs with ⟨h1, h2⟩ | ⟨h1, h2⟩
    · rw [h1, h2]
      exact .int _ 1935 (by decide +kernel) (by decide +kernel) (by decide)
    · rw [h1, h2]
      exact .int _ 8080 (by decide +kernel) (by decide +kernel) (by decide)
  ports := by decide +kernel
  names := by decide +kernel
  distinct := by decide +kernel

/-- The hypotheses hold for the site, written in the usual way. -/
example : IsLines (fileOf (renders site)) (renders site) ∧ noRoot (renders site) ∧ Writes (renders site) site ∧ Legal .root site ∧ Sound site sitePort ∧ (allServers site).map sitePort = [1935, 8080] :=
  ⟨isLines_file _ (render_lf site_clean), site_noRoot, render_writes site_clean, site_legal, site_sound, by decide +kernel⟩

/-- Its text. -/
example : fileOf (renders (site.drop 3)) = ascii "http {\nserver web {\nlisten_port 80;\nlisten_port 8080;\nhost a.com {\npass_proxy 10.0.0.1:8080;\n}\nhost *.b.com {\ntype stream;\nrole source;\n}\n}\n}\n" := by
  decide +kernel

/-- Who serves what: the names of the host blocks on port 8080. -/
example : ∀ s, (servers ["http"] site)[0]? = some s →
    ([ascii "a.com", ascii "x.b.com", ascii "g.org", ascii "b.com"].map fun n => (chosen (hosts site s) n).map (·.1)) = [some (ascii "a.com"), some (ascii "*.b.com"), some (ascii "g.org"), none] := by
  intro s hs
  cases hs
  decide +kernel

/-- A request for an unknown host, and one that is passed on to `10.0.0.1:8080`. -/
example : ∀ s, (servers ["http"] site)[0]? = some s → Answered (hosts site s) [HttpConn.askB, HttpConn.askA] [HttpConn.upstream] [(404, []), (200, ascii "hello")]
    [(ascii "10.0.0.1", 8080, HttpConn.askA.forward)] := by
  intro s hs
  cases hs
  have ha : Arrives { evs := [.data (ascii "HTTP/1.1 200 OK\r\nContent-Length: 5\r\nServer: up\r\n\r\nhel"), .data (ascii "lo")], closed := 1 } (HttpConn.reply.text ++ []) 1 :=
    ⟨by decide +kernel, by decide +kernel, by decide +kernel, by decide +kernel⟩
  refine .unknown HttpConn.askB_ok (by decide +kernel) (.proxied (ip := ascii "10.0.0.1") (port := 8080) (name := ascii "a.com") (body := [.dir (ascii "pass_proxy") (ascii "10.0.0.1:8080")]) HttpConn.askA_ok rfl ⟨by decide +kernel, ?_, by decide +kernel, by decide +kernel⟩
    HttpConn.reply_ok ha .nil)
  have := Address.port (ascii "10.0.0.1") (ascii "8080") 8080 80 (by decide +kernel) (by decide +kernel) (by decide +kernel) (by decide)
  have e : ascii "10.0.0.1" ++ 58 :: ascii "8080" = setting "pass_proxy" "" [.dir (ascii "pass_proxy") (ascii "10.0.0.1:8080")] := by decide +kernel
  rw [e] at this
  exact this

/-! ## What goes wrong -/

/-- What a file whose servers can listen gives: on which of these ports and names somebody answers, by the name of the host block; `none` if the program does not start. -/
def who (file : String) (asks : List (Int × String)) : Option (List (Option Text)) :=
  match initConf (ascii file) with
  | .ok root _ => match Setup.start (fun _ => Err.SUCCESS) root with
    | .ok sites => some (asks.map fun a => (Setup.select sites a.1 (ascii a.2)).map (·.name))
    | _ => none
  | _ => none

/-- **C102**, host blocks in two server blocks of one port: those of the second are not served, and the program starts. -/
theorem C102_negation_port : who "http {\nserver {\nlisten_port 80;\nhost a.com {\n}\n}\nserver {\nlisten_port 80;\nhost b.com {\n}\n}\n}\n" [(80, "a.com"), (80, "b.com")] =
    some [some (ascii "a.com"), none] := by decide +kernel

/-- **C102**, an HTTP and an RTMP server block on one port: the one is served by the other's hosts, and the program starts. -/
theorem C102_negation_mixed : who "rtmp {\nserver {\nhost a.com {\n}\n}\n}\nhttp {\nserver {\nhost b.com {\n}\n}\n}\n" [(80, "a.com"), (80, "b.com")] = some [none, some (ascii "b.com")] := by decide +kernel

/-- **C102**, a host that overrides a global one of its name: the program does not start. -/
theorem C102_negation_override : who "globalhost {\nhost a.com {\n}\n}\nhttp {\nserver {\nhost a.com {\ntype stream;\n}\n}\n}\n" [(80, "a.com")] = none := by decide +kernel

end Sps.SiteFile
