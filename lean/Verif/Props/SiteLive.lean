import Verif.Props.SiteFile
import Verif.Props.SrtLive
import Verif.Props.EdgeLive
/-!
# C110: from the configuration file to the streams
-/
namespace Sps.SiteLive
open Spec Sps.Conf Spec.Conf Spec.Server Spec.SiteFile Sys StreamProps World

/-- The program runs with a sound configuration file that says `ts`; `p` are the ports of the server blocks, `sites` what listens on them. -/
structure Started (file : Text) (ts : List Conf.Tree) (p : List Conf.Tree → Int) (sites : Assoc Int Site) : Prop where
  written : ∃ ls, IsLines file ls ∧ noRoot ls ∧ Writes ls ts
  legal : Legal .root ts
  sound : Sound ts p
  runs : ∃ listen root, (∀ s ∈ allServers ts, listen (p s) = Err.SUCCESS) ∧ initConf file = .ok root [] ∧ Setup.start listen root = .ok sites

/-- What a host block says about streams: its `type`, `role` and `edge_avformat`. -/
structure Stated (body : List Conf.Tree) (type role format : Text) : Prop where
  says_type : setting "type" "proxy" body = type
  says_role : setting "role" "edge" body = role
  says_format : setting "edge_avformat" "-" body = format
  text : (∀ b ∈ type, b ≠ 0) ∧ (∀ b ∈ role, b ≠ 0) ∧ ∀ b ∈ format, b ≠ 0

theorem Stated.confs {body : List Conf.Tree} {type role format : Text} (h : Stated body type role format) (n : Text) :
    (SiteFile.host (n, body)).conf (ascii "type") = some (.str type) ∧ (SiteFile.host (n, body)).conf (ascii "role") = some (.str role) ∧
      (SiteFile.host (n, body)).conf (ascii "edge_avformat") = some (.str format) := by
  obtain ⟨h1, h2, h3⟩ := h.text
  refine ⟨?_, ?_, ?_⟩
  · show value .host body (ascii "type") = _
    rw [SiteFile.setting_value (n := "type") (dflt := "proxy") (by decide +kernel) body (by rw [h.says_type]; exact h1), h.says_type]
  · show value .host body (ascii "role") = _
    rw [SiteFile.setting_value (n := "role") (dflt := "edge") (by decide +kernel) body (by rw [h.says_role]; exact h2), h.says_role]
  · show value .host body (ascii "edge_avformat") = _
    rw [SiteFile.setting_value (n := "edge_avformat") (dflt := "-") (by decide +kernel) body (by rw [h.says_format]; exact h3), h.says_format]

theorem Stated.opts {body : List Conf.Tree} {type role format : Text} (h : Stated body type role format) (n : Text) :
    (∀ v, opt (SiteFile.host (n, body)) "type" v ↔ type = ascii v) ∧ ∀ v, opt (SiteFile.host (n, body)) "role" v ↔ role = ascii v := by
  obtain ⟨h1, h2, -⟩ := h.confs n
  constructor <;> intro v <;> unfold opt
  · rw [h1]; simp
  · rw [h2]; simp

section
variable {file : Text} {ts : List Conf.Tree} {p : List Conf.Tree → Int} {sites : Assoc Int Site}

theorem Started.router (h : Started file ts p sites) {s : List Conf.Tree} (hs : s ∈ allServers ts) :
    ∃ site, sites.find (p s) = some site ∧ site.router = Router.new.history ((hosts ts s).map SiteFile.host) ∧ (∀ m ∈ (hosts ts s).map SiteFile.host, (0 : UInt8) ∉ m.name) ∧ Legal .server s := by
  obtain ⟨ls, h1, h2, h3⟩ := h.written
  obtain ⟨listen, root, h4, h5, h6⟩ := h.runs
  obtain ⟨root', sites', g1, g2, g3⟩ := SiteFile.starts listen file ls h1 h2 ts h3 h.legal p h.sound h4
  rw [h5] at g1
  cases g1
  rw [h6] at g2
  cases g2
  obtain ⟨g6, site, g4, g5⟩ := g3 s hs
  refine ⟨site, g4, g5, fun m hm => ?_, g6⟩
  obtain ⟨x, hx, rfl⟩ := List.mem_map.1 hm
  exact (h.sound.names s hs x hx).1

theorem in_all {k : String} (hk : k ∈ ["http", "rtmp", "srt"]) {s : List Conf.Tree} (hm : s ∈ servers [k] ts) : s ∈ allServers ts := by
  obtain ⟨b, hb, hsb⟩ := List.mem_flatMap.1 hm
  exact List.mem_flatMap.2 ⟨b, SiteFile.blocks_sub (by simpa using hk) hb, hsb⟩

/-- **C110** (RTMP publishers). A client that comes to the port of a server block inside `rtmp` and wants to publish HOST/APP/NAME is refused if no host block there is to serve HOST. Otherwise, whatever went on
before, it publishes the stream if the host block says `role source;` and `edge_avformat all;` or `-` (which is the default), no one publishes the stream and no pull of it that has opened goes on,
and is refused if the block says otherwise or there is the stream already.

Missing: files that are not sound (C102), and the limits of C105 to C108. -/
theorem C110_rtmp_publisher_partial (h : Started file ts p sites) (s : List Conf.Tree) (hs : s ∈ servers ["rtmp"] ts) :
    ∃ site, sites.find (p s) = some site ∧ ∀ (parser : Text → Option UrlFields), Names.ReadsUrls parser →
      ∀ (cl : RtmpConn.User) (c : RtmpCaller) (ms : List AmfMsg), cl.Ok → cl.publishes = true → Sps.RtmpConn.Calls c cl ms →
      (chosen (hosts ts s) cl.stream.host = none → ∃ sent, RtmpSite.arrive ⟨parser, site.router⟩ c = some (.refused Err.ERROR_UPSTREAM_NOT_FOUND sent)) ∧
      ∀ n body type role format, chosen (hosts ts s) cl.stream.host = some (n, body) → Stated body type role format → ∃ q sent, RtmpSite.arrive ⟨parser, site.router⟩ c = some (.stream q sent) ∧
        ∀ (env : Site.Env), (∃ f, Format.create env.ins (ascii "-") env.junk = some f ∧ f.word = ascii "-") →
        ∀ (A : List Sys.Op) (s : Sys) (L : Log), (∀ x ∈ requestsOf A, ReqOk x) → Sys.run env Sys.init A = some (s, L) → fitsFlv L →
        ∃ conn, (s.request env q).1.conns = s.conns ++ [conn] ∧
          (role = ascii "source" ∧ (format = ascii "all" ∨ format = ascii "-") ∧ (∀ cid, activeKey cid L ≠ some (cl.stream.host ++ cl.stream.path)) ∧ ¬ pulledNow (cl.stream.host ++ cl.stream.path) L →
            ∃ cid, conn.job = .rtmpPub cid (c.later ms.length 128).1 (c.later ms.length 128).2 ∧
              (s.request env q).2 = [(.publish (cl.stream.host ++ cl.stream.path), .published cid)] ∧ publishedTo cid L = []) ∧
          (¬ (role = ascii "source" ∧ (format = ascii "all" ∨ format = ascii "-")) ∨ (∃ cid, isStream cid (cl.stream.host ++ cl.stream.path) L) →
            (∃ e, e ≠ Err.SUCCESS ∧ conn.job = .done .nothing e) ∧ (s.request env q).2 = [] ∧ (s.request env q).1.w = s.w) := by
  obtain ⟨site, h1, h2, h3, -⟩ := h.router (in_all (by simp) hs)
  refine ⟨site, h1, fun parser hp cl c ms ok hc call => ?_⟩
  obtain ⟨sent, g1, g2, -⟩ := RtmpConn.C105_admission_partial ⟨parser, site.router⟩ hp _ h3 h2 c cl ok ms call
  rw [SiteFile.choose_chosen] at g1 g2
  refine ⟨fun hn => ⟨sent, g1 (by rw [hn]; rfl)⟩, fun n body type role format hch hst => ?_⟩
  obtain ⟨q, e1, e2, -⟩ := g2 _ (by rw [hch]; rfl)
  refine ⟨q, sent, e1, fun env hi A s L hok run fits => ?_⟩
  obtain ⟨conn, f1, f2, f3⟩ := RtmpConn.C105_publisher_partial env hi ⟨parser, site.router⟩ hp cl ok hc c ms call q sent e1 format (by rw [e2]; exact (hst.confs n).2.2) A hok s L run fits
  rw [e2, (hst.opts n).2] at f2 f3
  exact ⟨conn, f1, f2, f3⟩

/-- **C110** (HTTP publishers). A client that posts to `/APP/NAME.flv` of HOST at the port of a server block inside `http`: if no host block there is to serve HOST, the answer is that for unknown hosts (404, C99);
if the block says `type proxy;` (or nothing), it is proxied (C102). If it says `type stream;`, whatever went on before, the client publishes the stream that RTMP clients call HOST/APP/NAME if the block says
`role source;` and `edge_avformat all;` or `flv`, no one publishes the stream and no pull of it that has opened goes on, and is refused if the block says otherwise or there is the stream already.

Missing: files that are not sound (C102), and the limits of C105 to C108. -/
theorem C110_http_publisher_partial (h : Started file ts p sites) (s : List Conf.Tree) (hs : s ∈ servers ["http"] ts) :
    ∃ site, sites.find (p s) = some site ∧ ∀ (web : HttpSite), web.router = site.router → HttpLive.ReadsSends web.parsers →
      ∀ (a : HttpLive.Send) (st : Names.Stream) (c : HttpConn) (bytes : List UInt8) (e : Err) (mem tag : List UInt8), a.For st → a.method = ascii "POST" → Arrives c.io (a.head ++ bytes) e →
      (chosen (hosts ts s) st.host = none → web.arrive mem tag c = .ok .unknown) ∧
      ∀ n body type role format, chosen (hosts ts s) st.host = some (n, body) → Stated body type role format →
        (type = ascii "proxy" → web.arrive mem tag c = .ok (.other (SiteFile.host (n, body)))) ∧
        (type = ascii "stream" → ∃ q, web.arrive mem tag c = .ok (.stream q) ∧
          ∀ (env : Site.Env), (∃ f, Format.create env.ins (ascii "flv") env.junk = some f ∧ f.word = ascii "flv") →
          ∀ (A : List Sys.Op) (s : Sys) (L : Log), (∀ x ∈ requestsOf A, ReqOk x) → Sys.run env Sys.init A = some (s, L) → fitsFlv L →
          ∃ conn, (s.request env q).1.conns = s.conns ++ [conn] ∧
            (role = ascii "source" ∧ (format = ascii "all" ∨ format = ascii "flv") ∧ (∀ cid, activeKey cid L ≠ some (st.host ++ st.path)) ∧ ¬ pulledNow (st.host ++ st.path) L →
              ∃ cid rd, conn.job = .flvPub cid rd false ∧ activeKey cid (L ++ (s.request env q).2) = some (st.host ++ st.path) ∧ publishedTo cid L = []) ∧
            (¬ (role = ascii "source" ∧ (format = ascii "all" ∨ format = ascii "flv")) ∨ (∃ cid, isStream cid (st.host ++ st.path) L) →
              (∃ e, conn.job = .done .nothing e) ∧ (s.request env q).2 = [] ∧ (s.request env q).1.w = s.w)) := by
  obtain ⟨site, h1, h2, h3, -⟩ := h.router (in_all (by simp) hs)
  refine ⟨site, h1, fun web hw hp a st c bytes e mem tag af hm ha => ?_⟩
  obtain ⟨g1, g2, g3⟩ := HttpLive.C106_admission_partial web hp _ h3 (by rw [hw, h2]) a st af c bytes e ha mem tag
  rw [SiteFile.choose_chosen] at g1 g2 g3
  refine ⟨fun hn => g1 (by rw [hn]; rfl), fun n body type role format hch hst => ⟨fun ht => ?_, fun ht => ?_⟩⟩
  · exact g2 _ (by rw [hch]; rfl) (((hst.opts n).1 _).2 ht)
  · obtain ⟨q, e1, e2, -⟩ := g3 _ (by rw [hch]; rfl) (((hst.opts n).1 _).2 ht)
    refine ⟨q, e1, fun env hi A s L hok run fits => ?_⟩
    obtain ⟨conn, f1, f2, f3⟩ := HttpLive.C106_publisher_partial env hi web hp a st af hm c bytes e ha mem tag q e1 format (by rw [e2]; exact (hst.confs n).2.2) A hok s L run fits
    rw [e2, (hst.opts n).2] at f2 f3
    exact ⟨conn, f1, f2, f3⟩

/-- **C110** (HTTP players). A client that gets `/APP/NAME.flv` of HOST at the port of a server block inside `http`, where the host block for HOST says `type stream;`: if there is the stream (`isStream`: someone publishes it,
over whatever protocol, or a pull of it goes on), it is sent the FLV file of the start-up packets among those published when it came, and then of those published since; if there is not and the block says `role` other than `edge`, it is sent a 404.

Missing: files that are not sound (C102), and the limits of C105 to C108. -/
theorem C110_http_player_partial (h : Started file ts p sites) (s : List Conf.Tree) (hs : s ∈ servers ["http"] ts) :
    ∃ site, sites.find (p s) = some site ∧ ∀ (web : HttpSite), web.router = site.router → HttpLive.ReadsSends web.parsers →
      ∀ (a : HttpLive.Send) (st : Names.Stream) (c : HttpConn) (bytes : List UInt8) (e : Err) (mem tag : List UInt8), a.For st → a.method ≠ ascii "POST" → Arrives c.io (a.head ++ bytes) e →
      ∀ n body role format, chosen (hosts ts s) st.host = some (n, body) → Stated body (ascii "stream") role format → ∃ q, web.arrive mem tag c = .ok (.stream q) ∧
        ∀ (env : Site.Env), RtmpConn.Plays env →
        (∀ (A D : List Sys.Op) (s1 s : Sys) (L1 L : Log), HttpLive.Comes env A D q s1 s L1 L → ∀ cid, isStream cid (st.host ++ st.path) L1 →
          ∃ conn n after, s.conns[(requestsOf A).length]? = some conn ∧ ((∃ mux, conn.job = .view n mux) ∨ ∃ e, conn.job = .done (.player n) e) ∧
            publishedTo cid L = publishedTo cid L1 ++ after ∧
            conn.snk.out <+: flvResponse env.reason (startup (publishedTo cid L1) ++ after) ∧
            ((∃ mux, conn.job = .view n mux) → pendingOf s.w n = [] → conn.snk.out = flvResponse env.reason (startup (publishedTo cid L1) ++ after))) ∧
        (role ≠ ascii "edge" → c.snk.fails = [] →
          ∀ (A : List Sys.Op) (s : Sys) (L : Log), (∀ x ∈ requestsOf A, ReqOk x) → Sys.run env Sys.init A = some (s, L) → fitsFlv L → ¬ pulledNow (st.host ++ st.path) L →
          (∀ cid, activeKey cid L ≠ some (st.host ++ st.path)) →
          ∃ conn, (s.request env q).1.conns = s.conns ++ [conn] ∧ conn.job = .done .nothing Err.SUCCESS ∧ conn.snk.out = refusal "404" (env.reason 404) ∧
            (s.request env q).1.w = s.w ∧ (s.request env q).2 = []) := by
  obtain ⟨site, h1, h2, h3, -⟩ := h.router (in_all (by simp) hs)
  refine ⟨site, h1, fun web hw hp a st c bytes e mem tag af hm ha n body role format hch hst => ?_⟩
  obtain ⟨-, -, g3⟩ := HttpLive.C106_admission_partial web hp _ h3 (by rw [hw, h2]) a st af c bytes e ha mem tag
  rw [SiteFile.choose_chosen] at g3
  obtain ⟨q, e1, e2, -⟩ := g3 _ (by rw [hch]; rfl) (((hst.opts n).1 _).2 rfl)
  refine ⟨q, e1, fun env hf => ⟨fun A D s1 s L1 L m cid hk => ?_, fun hr hc A s L hok run fits hn hno => ?_⟩⟩
  · exact HttpLive.C106_player_partial env hf web hp a st af hm c bytes e ha mem tag q e1 A D s1 s L1 L m cid hk
  · exact HttpLive.C106_absent_partial env web hp a st af hm c bytes e ha hc mem tag q e1 (by rw [e2, (hst.opts n).2]; exact hr) A hok s L run fits hn hno

/-- **C110** (RTMP players). A client that comes to the port of a server block inside `rtmp` and wants to play HOST/APP/NAME, where a host block is to serve HOST: if there is the stream, as above,
it is sent the messages of the start-up packets among those published when it came, and then of those published since.

Missing: files that are not sound (C102), and the limits of C105 to C108. -/
theorem C110_rtmp_player_partial (h : Started file ts p sites) (s : List Conf.Tree) (hs : s ∈ servers ["rtmp"] ts) :
    ∃ site, sites.find (p s) = some site ∧ ∀ (parser : Text → Option UrlFields), Names.ReadsUrls parser →
      ∀ (cl : RtmpConn.User) (c : RtmpCaller) (ms : List AmfMsg), cl.Ok → cl.publishes = false → Sps.RtmpConn.Calls c cl ms →
      (chosen (hosts ts s) cl.stream.host = none → ∃ sent, RtmpSite.arrive ⟨parser, site.router⟩ c = some (.refused Err.ERROR_UPSTREAM_NOT_FOUND sent)) ∧
      ((chosen (hosts ts s) cl.stream.host).isSome → ∃ q sent, RtmpSite.arrive ⟨parser, site.router⟩ c = some (.stream q sent) ∧
        ∀ (env : Site.Env), RtmpConn.Plays env →
        ∀ (A D : List Sys.Op) (s1 s : Sys) (L1 L : Log), HttpLive.Comes env A D q s1 s L1 L → ∀ cid, isStream cid (cl.stream.host ++ cl.stream.path) L1 → (∀ p ∈ publishedTo cid L, Rtmp.Supported p) →
        ∃ conn n sent after ps, s.conns[(requestsOf A).length]? = some conn ∧ RtmpServe.plays conn n sent ∧ publishedTo cid L = publishedTo cid L1 ++ after ∧
          List.Forall₂ Rtmp.Carries ps sent ∧ ps <+: startup (publishedTo cid L1) ++ after ∧ (RtmpServe.isPlaying conn → pendingOf s.w n = [] → ps = startup (publishedTo cid L1) ++ after)) := by
  obtain ⟨site, h1, h2, h3, -⟩ := h.router (in_all (by simp) hs)
  refine ⟨site, h1, fun parser hp cl c ms ok hc call => ?_⟩
  obtain ⟨sent, g1, g2, -⟩ := RtmpConn.C105_admission_partial ⟨parser, site.router⟩ hp _ h3 h2 c cl ok ms call
  rw [SiteFile.choose_chosen] at g1 g2
  refine ⟨fun hn => ⟨sent, g1 (by rw [hn]; rfl)⟩, fun hsome => ?_⟩
  obtain ⟨b, hb⟩ := Option.isSome_iff_exists.1 hsome
  obtain ⟨q, e1, -⟩ := g2 _ (by rw [hb]; rfl)
  refine ⟨q, sent, e1, fun env hf A D s1 s L1 L m cid hk hsup => ?_⟩
  exact HttpLive.C106_rtmp_player_partial env hf ⟨parser, site.router⟩ hp cl ok hc c ms call q sent e1 A D s1 s L1 L m cid hk hsup

/-- **C110** (RTMP players, no stream). Such a client, where the host block says `role` other than `edge`, gets nothing but the answers to its commands if no one publishes the stream and no pull of it that has opened
goes on.

Missing: files that are not sound (C102), and the limits of C105 to C108. -/
theorem C110_rtmp_absent_partial (h : Started file ts p sites) (s : List Conf.Tree) (hs : s ∈ servers ["rtmp"] ts) :
    ∃ site, sites.find (p s) = some site ∧ ∀ (parser : Text → Option UrlFields), Names.ReadsUrls parser →
      ∀ (cl : RtmpConn.User) (c : RtmpCaller) (ms : List AmfMsg), cl.Ok → cl.publishes = false → Sps.RtmpConn.Calls c cl ms →
      ∀ n body type role format, chosen (hosts ts s) cl.stream.host = some (n, body) → Stated body type role format → role ≠ ascii "edge" →
      ∃ q sent, RtmpSite.arrive ⟨parser, site.router⟩ c = some (.stream q sent) ∧
        ∀ (env : Site.Env) (A : List Sys.Op) (s : Sys) (L : Log), (∀ x ∈ requestsOf A, ReqOk x) → Sys.run env Sys.init A = some (s, L) → fitsFlv L →
        ¬ pulledNow (cl.stream.host ++ cl.stream.path) L → (∀ cid, activeKey cid L ≠ some (cl.stream.host ++ cl.stream.path)) →
        ∃ conn, (s.request env q).1.conns = s.conns ++ [conn] ∧ conn.job = .done .nothing Err.ERROR_STREAM_SOURCE_NOT_EXITS ∧ (s.request env q).1.w = s.w ∧ (s.request env q).2 = [] := by
  obtain ⟨site, h1, h2, h3, -⟩ := h.router (in_all (by simp) hs)
  refine ⟨site, h1, fun parser hp cl c ms ok hc call n body type role format hch hst hr => ?_⟩
  obtain ⟨sent, -, g2, -⟩ := RtmpConn.C105_admission_partial ⟨parser, site.router⟩ hp _ h3 h2 c cl ok ms call
  rw [SiteFile.choose_chosen] at g2
  obtain ⟨q, e1, e2, -⟩ := g2 _ (by rw [hch]; rfl)
  refine ⟨q, sent, e1, fun env A s L hok run fits hn hno => ?_⟩
  exact RtmpConn.C105_absent_partial env ⟨parser, site.router⟩ hp cl ok hc c ms call q sent e1 (by rw [e2, (hst.opts n).2]; exact hr) A hok s L run fits hn hno

/-- **C110** (SRT clients). A client that comes to the port of a server block inside `srt` with a stream id for HOST/APP/NAME is refused if no host block there is to serve HOST. Otherwise a client of another mode
than `request` publishes the stream if no one does and no pull of it that has opened goes on (whatever the block says, C74_negation_srt), and is refused if there is the stream already.

Missing: files that are not sound (C102), and the limits of C105 to C108. -/
theorem C110_srt_publisher_partial (h : Started file ts p sites) (s : List Conf.Tree) (hs : s ∈ servers ["srt"] ts) :
    ∃ site, sites.find (p s) = some site ∧ ∀ (parser : Text → Option UrlFields), Names.ReadsUrls parser →
      ∀ (id : SrtLive.Id) (st : Names.Stream) (mode : Text) (io : Io) (fails : List Err) (mem tag : List UInt8), id.For st mode → mode ≠ ascii "request" →
      (chosen (hosts ts s) st.host = none → SrtSite.arrive ⟨parser, site.router⟩ id.text io fails mem tag = .refused Err.ERROR_HOST_NOT_EXISTS) ∧
      ((chosen (hosts ts s) st.host).isSome → ∃ q, SrtSite.arrive ⟨parser, site.router⟩ id.text io fails mem tag = .stream q ∧
        ∀ (env : Site.Env) (A : List Sys.Op) (s : Sys) (L : Log), (∀ x ∈ requestsOf A, ReqOk x) → Sys.run env Sys.init A = some (s, L) → fitsFlv L →
        ∃ conn, (s.request env q).1.conns = s.conns ++ [conn] ∧
          ((∀ cid, activeKey cid L ≠ some (st.host ++ st.path)) → ¬ pulledNow (st.host ++ st.path) L →
            ∃ cid, (∃ rd ctx x, conn.job = .srtPub cid rd ctx x) ∧ activeKey cid (L ++ (s.request env q).2) = some (st.host ++ st.path) ∧ publishedTo cid L = [] ∧ publishedTo (cid + 1) L = []) ∧
          ((∃ cid, isStream cid (st.host ++ st.path) L) →
            conn.job = .done .nothing Err.ERROR_RTMP_HAS_SOURCE ∧ conn.snk.out = [] ∧ (s.request env q).2 = [] ∧ (s.request env q).1.w = s.w)) := by
  obtain ⟨site, h1, h2, h3, -⟩ := h.router (in_all (by simp) hs)
  refine ⟨site, h1, fun parser hp id st mode io fails mem tag af hm => ?_⟩
  obtain ⟨g1, g2, -⟩ := SrtLive.C107_admission_partial ⟨parser, site.router⟩ hp _ h3 h2 id st mode af io fails mem tag
  rw [SiteFile.choose_chosen] at g1 g2
  refine ⟨fun hn => g1 (by rw [hn]; rfl), fun hsome => ?_⟩
  obtain ⟨b, hb⟩ := Option.isSome_iff_exists.1 hsome
  obtain ⟨q, e1, -⟩ := g2 _ (by rw [hb]; rfl)
  exact ⟨q, e1, fun env A s L hok run fits => SrtLive.C107_publisher_partial env ⟨parser, site.router⟩ hp id st mode af hm io fails mem tag q e1 A hok s L run fits⟩

/-- **C110** (SRT players). At the port of a server block inside `srt` where a host block is to serve HOST: while an SRT client publishes HOST/APP/NAME there (having come to this port with the bytes `b`), one that comes
with a stream id for it and the mode `request` is sent the transport packets that the relay keeps of those published when it came, and then those published since.

Missing: files that are not sound (C102), and the limits of C105 to C108. -/
theorem C110_srt_player_partial (h : Started file ts p sites) (s : List Conf.Tree) (hs : s ∈ servers ["srt"] ts) :
    ∃ site, sites.find (p s) = some site ∧ ∀ (parser : Text → Option UrlFields), Names.ReadsUrls parser →
      ∀ (st : Names.Stream) (idp idv : SrtLive.Id) (mode : Text) (iop iov : Io) (fp fv : List Err) (memp tagp memv tagv : List UInt8), idp.For st mode → idv.For st (ascii "request") →
      (chosen (hosts ts s) st.host).isSome → ∃ qp q, SrtSite.arrive ⟨parser, site.router⟩ idp.text iop fp memp tagp = .stream qp ∧ SrtSite.arrive ⟨parser, site.router⟩ idv.text iov fv memv tagv = .stream q ∧
        ∀ (env : Site.Env) (b : List UInt8) (cl : Err), Arrives iop b cl → SrtServe.ownsPidZero b →
        ∀ (A D : List Sys.Op) (s1 s : Sys) (L1 L : Log), HttpLive.Comes env A D q s1 s L1 L →
        ∀ (i : Nat) (pub : Conn), (requestsOf A)[i]? = some qp → s1.conns[i]? = some pub → (∃ cid rd ctx x, pub.job = .srtPub cid rd ctx x) →
        Spec.apart (st.host ++ st.path) L1 → rawFree (st.host ++ st.path) L1 = true →
        ∃ conn c n1 n r1 after, s.conns[(requestsOf A).length]? = some conn ∧ SrtServe.plays conn c ∧
          Srt.Relayed (Ts.chunks n1 b) r1 ∧ 188 * n1 ≤ b.length ∧ Srt.Relayed (Ts.chunks n b) (r1 ++ after) ∧ 188 * n ≤ b.length ∧
          conn.snk.out <+: Srt.played r1 after ∧ (conn.job = .srtView c → pendingOf s.w c = [] → conn.snk.out = Srt.played r1 after) := by
  obtain ⟨site, h1, h2, h3, -⟩ := h.router (in_all (by simp) hs)
  refine ⟨site, h1, fun parser hp st idp idv mode iop iov fp fv memp tagp memv tagv forp forv hsome => ?_⟩
  obtain ⟨b, hb⟩ := Option.isSome_iff_exists.1 hsome
  obtain ⟨-, g2, -⟩ := SrtLive.C107_admission_partial ⟨parser, site.router⟩ hp _ h3 h2 idp st mode forp iop fp memp tagp
  obtain ⟨-, g3, -⟩ := SrtLive.C107_admission_partial ⟨parser, site.router⟩ hp _ h3 h2 idv st _ forv iov fv memv tagv
  rw [SiteFile.choose_chosen] at g2 g3
  obtain ⟨qp, e1, -⟩ := g2 _ (by rw [hb]; rfl)
  obtain ⟨q, e2, -⟩ := g3 _ (by rw [hb]; rfl)
  refine ⟨qp, q, e1, e2, fun env b cl hb h0 A D s1 s L1 L m i pub asked hi hpub hn hf => ?_⟩
  obtain ⟨pub', conn, c, n1, n, r1, after, f1, f2, f3, f4, f5, f6, f7, -, f8, f9⟩ := SrtLive.C107_player_partial env ⟨parser, site.router⟩ hp st idp idv mode forp forv iop iov fp fv memp tagp memv tagv qp q e1 e2 b cl hb h0
    A D s1 s L1 L m i asked pub hi hpub hn hf
  exact ⟨conn, c, n1, n, r1, after, f2, f3, f5, f4, f7, f6, f8, f9⟩

/-- **C110** (SRT players, no stream). A client that asks such a port to play HOST/APP/NAME is turned away, with nothing sent, if no one publishes the stream or the one who does it does so over RTMP or HTTP.

Missing: files that are not sound (C102), and the limits of C105 to C108. -/
theorem C110_srt_absent_partial (h : Started file ts p sites) (s : List Conf.Tree) (hs : s ∈ servers ["srt"] ts) :
    ∃ site, sites.find (p s) = some site ∧ ∀ (parser : Text → Option UrlFields), Names.ReadsUrls parser →
      ∀ (st : Names.Stream) (id : SrtLive.Id) (io : Io) (fails : List Err) (mem tag : List UInt8), id.For st (ascii "request") → (chosen (hosts ts s) st.host).isSome →
      ∃ q, SrtSite.arrive ⟨parser, site.router⟩ id.text io fails mem tag = .stream q ∧
        ∀ (env : Site.Env) (A : List Sys.Op) (s : Sys) (L : Log), (∀ x ∈ requestsOf A, ReqOk x) → Sys.run env Sys.init A = some (s, L) → fitsFlv L →
        Spec.apart (st.host ++ st.path) L → rawFree (st.host ++ st.path) L = true →
        ((∀ cid, activeKey cid L ≠ some (st.host ++ st.path)) ∨
          ∃ (i : Nat) (pub : Conn) (cid : Nat), s.conns[i]? = some pub ∧ activeKey cid L = some (st.host ++ st.path) ∧ ((∃ ms cl, pub.job = .rtmpPub cid ms cl) ∨ ∃ rd hd, pub.job = .flvPub cid rd hd)) →
        ∃ conn, (s.request env q).1.conns = s.conns ++ [conn] ∧ conn.job = .done .nothing Err.ERROR_RTMP_HAS_SOURCE ∧ conn.snk.out = [] ∧ (s.request env q).1.w = s.w ∧ (s.request env q).2 = [] := by
  obtain ⟨site, h1, h2, h3, -⟩ := h.router (in_all (by simp) hs)
  refine ⟨site, h1, fun parser hp st id io fails mem tag af hsome => ?_⟩
  obtain ⟨b, hb⟩ := Option.isSome_iff_exists.1 hsome
  obtain ⟨-, g2, -⟩ := SrtLive.C107_admission_partial ⟨parser, site.router⟩ hp _ h3 h2 id st _ af io fails mem tag
  rw [SiteFile.choose_chosen] at g2
  obtain ⟨q, e1, -⟩ := g2 _ (by rw [hb]; rfl)
  exact ⟨q, e1, fun env A s L hok run fits hn hf hno => SrtLive.C107_absent_partial env ⟨parser, site.router⟩ hp id st af io fails mem tag q e1 A hok s L run fits hn hf hno⟩

end

/-- What a host block says that pulls the streams its players ask for from `origin`. -/
structure PullsIn (body : List Conf.Tree) (origin : Text) (port : Option Text) : Prop where
  type : setting "type" "proxy" body = ascii "stream"
  role : setting "role" "edge" body = ascii "edge"
  proxy : setting "pass_proxy" "" body = origin ++ Names.opt 58 port
  url : setting "pass_url" "" body = []
  own : blocks ["upstream"] body = []
  origin : Names.hostOk origin
  port : Names.portOk port

theorem PullsIn.pulls {body : List Conf.Tree} {origin : Text} {port : Option Text} (h : PullsIn body origin port) (hl : Legal .host body) (n : Text) :
    Edge.PullsFrom (SiteFile.host (n, body)) origin port where
  role := by
    show value .host body (ascii "role") = _
    rw [SiteFile.setting_value (n := "role") (dflt := "edge") (by decide +kernel) body (by rw [h.role]; decide +kernel), h.role]
  proxy := by
    show value .host body (ascii "pass_proxy") = _
    rw [SiteFile.setting_value (n := "pass_proxy") (dflt := "") (by decide +kernel) body ?_, h.proxy]
    rw [h.proxy]
    intro b hb hz
    subst hz
    rcases List.mem_append.1 hb with hb | hb
    · have := h.origin.2 0 hb
      revert this
      unfold Names.hostChar Names.letter
      decide
    · cases hp : port with
      | none => rw [hp] at hb; simp [Names.opt] at hb
      | some t =>
        rw [hp] at hb
        obtain ⟨m, -, -, m3⟩ := h.port t hp
        simp only [Names.opt, List.mem_cons] at hb
        rcases hb with hb | hb
        · simp at hb
        · have := (HttpConn.dec_chars t 0 m m3 0 hb).1
          simp at this
  url := by
    show value .host body (ascii "pass_url") = _
    rw [SiteFile.setting_value (n := "pass_url") (dflt := "") (by decide +kernel) body (by rw [h.url]; simp), h.url]
  own := by
    have h1 := SiteFile.inners_kinds ["upstream"] [.upstream] (by intro k; cases k <;> decide +kernel) hl
    rw [h.own] at h1
    have h1 := List.map_eq_nil_iff.1 h1
    intro m hm hk
    exact absurd (List.filter_eq_nil_iff.1 h1 m hm) (by simp [hk])
  origin := h.origin
  port := h.port

/-- **C110** (edges). An edge and another server run, each with its file. At the edge, a client gets `/APP/NAME.flv` of HOST at the port of a server block inside `http`; the host block for HOST says `type stream;`, `role edge;`
(or nothing) and `pass_proxy ORIGIN:PORT;`. If, whatever went on before, nobody publishes the stream at the edge and no pull of it is going on, the edge connects to ORIGIN:PORT and sends it a request. When it comes
to the port of a server block inside `http` of the other server, where the host block for ORIGIN says `type stream;`, it is taken for a request to play the stream that publishers call ORIGIN/APP/NAME.
(What the edge makes of the answer: C108.)

Missing: files that are not sound (C102), and the limits of C105 to C108. -/
theorem C110_edge_partial {efile ofile : Text} {ets ots : List Conf.Tree} {ep op : List Conf.Tree → Int} {esites osites : Assoc Int Site} (h : Started efile ets ep esites) (ho : Started ofile ots op osites)
    (s : List Conf.Tree) (hs : s ∈ servers ["http"] ets) (s' : List Conf.Tree) (hs' : s' ∈ servers ["http"] ots) :
    ∃ site osite, esites.find (ep s) = some site ∧ osites.find (op s') = some osite ∧
      ∀ (web oweb : HttpSite), web.router = site.router → oweb.router = osite.router → HttpLive.ReadsSends web.parsers → HttpLive.ReadsSends oweb.parsers →
      ∀ (a : HttpLive.Send) (st : Names.Stream) (c : HttpConn) (bytes : List UInt8) (e : Err) (mem tag : List UInt8), a.For st → a.method ≠ ascii "POST" → Arrives c.io (a.head ++ bytes) e →
      ∀ n body origin port, chosen (hosts ets s) st.host = some (n, body) → PullsIn body origin port → (Edge.pulled a origin).head.length ≤ 2048 →
      ∀ n' body', chosen (hosts ots s') origin = some (n', body') → setting "type" "proxy" body' = ascii "stream" →
      ∃ q, web.arrive mem tag c = .ok (.stream q) ∧ ∀ (env : Relay.Env), Names.ReadsUrls env.parser →
        ∀ (ops : List Relay.Op) (r : Relay) (L : Log), (∀ x ∈ requestsIn ops, ReqOk x) → buffersOk ops → Relay.run env Relay.init ops = some (r, L) → fitsFlv L →
        (∀ cid, activeKey cid L ≠ some (st.host ++ st.path)) → (∀ e, pullKey e L ≠ some (st.host ++ st.path)) →
        ∀ v, ∃ r' k u, r.step env (.sys (.request q) v) = some (r', [(.edgeRequest (st.host ++ st.path), .edgeStarted k)]) ∧ r'.pulls[k]? = some (.asks (some u)) ∧
          Host.edgeAddress q.host q.url = (origin, (((port.bind (Http.decValue 0)).getD 80 : Nat) : Int)) ∧
          ∀ (oc : HttpConn) (obytes : List UInt8) (oe : Err) (omem otag : List UInt8), Arrives oc.io (HttpClient.openText u ++ obytes) oe →
            ∃ oq, oweb.arrive omem otag oc = .ok (.stream oq) ∧ StreamHandler.key oq.url = origin ++ st.path ∧ oq.url.ext = ascii "flv" ∧ oq.url.method = ascii "GET" := by
  obtain ⟨site, h1, h2, h3, h4⟩ := h.router (in_all (by simp) hs)
  obtain ⟨osite, o1, o2, o3, -⟩ := ho.router (in_all (by simp) hs')
  refine ⟨site, osite, h1, o1, fun web oweb hw how hp hop a st c bytes e mem tag af hm ha n body origin port hch hpl hsh n' body' hch' ht' => ?_⟩
  obtain ⟨-, -, g3⟩ := HttpLive.C106_admission_partial web hp _ h3 (by rw [hw, h2]) a st af c bytes e ha mem tag
  rw [SiteFile.choose_chosen] at g3
  have ht : opt (SiteFile.host (n, body)) "type" "stream" := by
    show value .host body (ascii "type") = _
    rw [SiteFile.setting_value (n := "type") (dflt := "proxy") (by decide +kernel) body (by rw [hpl.type]; decide +kernel), hpl.type]
  obtain ⟨q, e1, e2, -⟩ := g3 _ (by rw [hch]; rfl) ht
  refine ⟨q, e1, fun env hpe ops r L hok hb run fits hno hnp v => ?_⟩
  have asked : EdgeLive.Asked env web a st q origin port :=
    ⟨hpe, hp, af, ⟨c, bytes, e, mem, tag, ha, e1⟩, by rw [e2]; exact hpl.pulls (SiteFile.hosts_legal h.legal h4 (SiteFile.chosen_mem hch)) n, hsh⟩
  obtain ⟨r', k, conn, -, -, f1, f2, -⟩ := EdgeLive.C108_begins hok run fits asked hm hno hnp v
  obtain ⟨u, f3, -, -, -, -, f4⟩ := EdgeLive.C108_asks hok hb run fits asked f1 (e := k) (by rw [f2]; simp)
  refine ⟨r', k, u, f1, f3, f4, fun oc obytes oe omem otag oa => ?_⟩
  have htarget : Edge.target env.parser q.host q.url = some u := by
    have := RelayProps.C90_asks hok hb run fits f1 (e := k) (by rw [f2]; simp)
    rw [f3] at this
    simpa using this.symm
  have ot : opt (SiteFile.host (n', body')) "type" "stream" := by
    show value .host body' (ascii "type") = _
    rw [SiteFile.setting_value (n := "type") (dflt := "proxy") (by decide +kernel) body' (by rw [ht']; decide +kernel), ht']
  obtain ⟨oq, q1, -, q3, q4, q5⟩ := EdgeLive.C108_admitted asked u htarget oweb hop _ o3 (by rw [how, o2]) (SiteFile.host (n', body'))
    (by rw [SiteFile.choose_chosen, hch']; rfl) ot oc obytes oe oa omem otag
  exact ⟨oq, q1, q3, q4, q5⟩

/-! ## Example -/

/-- A configuration: publishers come to the RTMP port, or post to `a.com`; streams of `e.com` are those of `a.com`. -/
def live : List Conf.Tree :=
  [.block (ascii "rtmp") (join []) [.block (ascii "server") (join []) [.dir (ascii "listen_port") (join [ascii "1935"]), .block (ascii "host") (join [ascii "*"]) [.dir (ascii "role") (join [ascii "source"])]]],
   .block (ascii "http") (join []) [.block (ascii "server") (join [ascii "web"])
     [.dir (ascii "listen_port") (join [ascii "8080"]),
      .block (ascii "host") (join [ascii "a.com"]) [.dir (ascii "type") (join [ascii "stream"]), .dir (ascii "role") (join [ascii "source"]), .dir (ascii "edge_avformat") (join [ascii "all"])],
      .block (ascii "host") (join [ascii "e.com"]) [.dir (ascii "type") (join [ascii "stream"]), .dir (ascii "pass_proxy") (join [ascii "a.com:8080"])]]],
   .block (ascii "srt") (join []) [.block (ascii "server") (join []) [.dir (ascii "listen_port") (join [ascii "9000"]), .block (ascii "host") (join [ascii "*"]) []]]]

/-- Its server blocks. -/
def rtmpServer : List Conf.Tree := [.dir (ascii "listen_port") (ascii "1935"), .block (ascii "host") (ascii "*") [.dir (ascii "role") (ascii "source")]]
def httpServer : List Conf.Tree := [.dir (ascii "listen_port") (ascii "8080"),
  .block (ascii "host") (ascii "a.com") [.dir (ascii "type") (ascii "stream"), .dir (ascii "role") (ascii "source"), .dir (ascii "edge_avformat") (ascii "all")],
  .block (ascii "host") (ascii "e.com") [.dir (ascii "type") (ascii "stream"), .dir (ascii "pass_proxy") (ascii "a.com:8080")]]
def srtServer : List Conf.Tree := [.dir (ascii "listen_port") (ascii "9000"), .block (ascii "host") (ascii "*") []]

/-- The words of the file. -/
def liveWords : List Text := [ascii "rtmp", ascii "server", ascii "listen_port", ascii "1935", ascii "host", ascii "*", ascii "role", ascii "source", ascii "http", ascii "web", ascii "8080", ascii "a.com",
  ascii "type", ascii "stream", ascii "edge_avformat", ascii "all", ascii "e.com", ascii "pass_proxy", ascii "a.com:8080", ascii "srt", ascii "9000"]

theorem live_plain : ∀ w ∈ liveWords, plain w ∧ ¬pound w := by
  intro w hw
  have : ∀ w ∈ liveWords, w ≠ [] ∧ (∀ b ∈ w, b ∉ ([9, 10, 11, 12, 13, 32] : List UInt8)) ∧
    (∀ c ∈ ([59, 123, 125] : List UInt8), w.getLast? ≠ some c) ∧ w.head? ≠ some 35 := by decide +kernel
  obtain ⟨a, b, c, d⟩ := this w hw
  exact ⟨Conf.plain_of w a b c, d⟩

theorem clean_dir {n : Text} {ws : List Text} {ts : List Conf.Tree} (hn : n ∈ liveWords) (hw : ∀ w ∈ ws, w ∈ liveWords) (h : Clean ts) : Clean (.dir n (join ws) :: ts) :=
  .dir _ _ _ (live_plain n hn).1 (live_plain n hn).2 (fun w hm => (live_plain w (hw w hm)).1) h
theorem clean_block {n : Text} {ws : List Text} {ks ts : List Conf.Tree} (hn : n ∈ liveWords) (hw : ∀ w ∈ ws, w ∈ liveWords) (hk : Clean ks) (h : Clean ts) :
    Clean (.block n (join ws) ks :: ts) :=
  .block _ _ _ _ (live_plain n hn).1 (live_plain n hn).2 (fun w hm => (live_plain w (hw w hm)).1) hk h

theorem live_clean : Clean live := by
  unfold live
  repeat' first | exact Clean.nil | apply clean_dir | apply clean_block
  all_goals decide +kernel

theorem live_legal : Legal .root live := by
  refine .block _ .rtmp _ _ _ (by decide) (by decide) trivial ?_ (.block _ .http _ _ _ (by decide) (by decide) trivial ?_ (.block _ .srt _ _ _ (by decide) (by decide) trivial ?_ (.nil _)))
  · exact .block _ .server _ _ _ (by decide) (by decide) rfl (.dir _ _ _ _ (by decide +kernel) (.block _ .host _ _ _ (by decide) (by decide) ⟨rfl, by decide +kernel⟩
      (.dir _ _ _ _ (by decide +kernel) (.nil _)) (.nil _))) (.nil _)
  · exact .block _ .server _ _ _ (by decide) (by decide) rfl (.dir _ _ _ _ (by decide +kernel)
      (.block _ .host _ _ _ (by decide) (by decide) ⟨rfl, by decide +kernel⟩ (.dir _ _ _ _ (by decide +kernel) (.dir _ _ _ _ (by decide +kernel) (.dir _ _ _ _ (by decide +kernel) (.nil _))))
        (.block _ .host _ _ _ (by decide) (by decide) ⟨rfl, by decide +kernel⟩ (.dir _ _ _ _ (by decide +kernel) (.dir _ _ _ _ (by decide +kernel) (.nil _))) (.nil _)))) (.nil _)
  · exact .block _ .server _ _ _ (by decide) (by decide) rfl (.dir _ _ _ _ (by decide +kernel) (.block _ .host _ _ _ (by decide) (by decide) ⟨rfl, by decide +kernel⟩ (.nil _) (.nil _))) (.nil _)

theorem live_noRoot : noRoot (renders live) := by
  intro l hl a h
  have h1 := parse_says h
  have h2 : ∀ l ∈ renders live, ((parse l).map fun x => match x with
    | .start n _ => decide (n = Kind.root.name)
    | _ => false) ≠ some true := by decide +kernel
  exact h2 l hl (by rw [h1]; simp)

/-- The ports. -/
def livePort (s : List Conf.Tree) : Int :=
  if lastArg (ascii "listen_port") s = some (ascii "1935") then 1935 else if lastArg (ascii "listen_port") s = some (ascii "8080") then 8080 else 9000

theorem live_servers : allServers live = [rtmpServer, httpServer, srtServer] := rfl

theorem live_sound : Sound live livePort where
  http := by decide +kernel
  port := by
    intro s hs
    rw [live_servers] at hs
    simp only [List.mem_cons, List.not_mem_nil, or_false] at hs
    unfold Port
    rcases hs with rfl | rfl | rfl
    · rw [show lastArg (ascii "listen_port") rtmpServer = some (ascii "1935") by decide +kernel, show livePort rtmpServer = 1935 by decide +kernel]
      exact .int _ 1935 (by decide +kernel) (by decide +kernel) (by decide)
    · rw [show lastArg (ascii "listen_port") httpServer = some (ascii "8080") by decide +kernel, show livePort httpServer = 8080 by decide +kernel]
      exact .int _ 8080 (by decide +kernel) (by decide +kernel) (by decide)
    · rw [show lastArg (ascii "listen_port") srtServer = some (ascii "9000") by decide +kernel, show livePort srtServer = 9000 by decide +kernel]
      exact .int _ 9000 (by decide +kernel) (by decide +kernel) (by decide)
  ports := by decide +kernel
  names := by decide +kernel
  distinct := by decide +kernel

/-- The program runs with this file. -/
theorem live_started : ∃ sites, Started (fileOf (renders live)) live livePort sites := by
  obtain ⟨root, sites, h1, h2, -⟩ := SiteFile.starts (fun _ => Err.SUCCESS) _ _ (isLines_file _ (render_lf live_clean)) live_noRoot live (render_writes live_clean) live_legal livePort live_sound (fun _ _ => rfl)
  exact ⟨sites, ⟨⟨_, isLines_file _ (render_lf live_clean), live_noRoot, render_writes live_clean⟩, live_legal, live_sound, ⟨_, root, fun _ _ => rfl, h1, h2⟩⟩⟩

/-- Who serves whom, and what these blocks say. -/
theorem live_says : rtmpServer ∈ servers ["rtmp"] live ∧ httpServer ∈ servers ["http"] live ∧ srtServer ∈ servers ["srt"] live ∧
    (chosen (hosts live rtmpServer) (ascii "a.com") = some (ascii "*", [.dir (ascii "role") (ascii "source")]) ∧ Stated [.dir (ascii "role") (ascii "source")] (ascii "proxy") (ascii "source") (ascii "-")) ∧
    (chosen (hosts live httpServer) (ascii "a.com") = some (ascii "a.com", [.dir (ascii "type") (ascii "stream"), .dir (ascii "role") (ascii "source"), .dir (ascii "edge_avformat") (ascii "all")]) ∧
      Stated [.dir (ascii "type") (ascii "stream"), .dir (ascii "role") (ascii "source"), .dir (ascii "edge_avformat") (ascii "all")] (ascii "stream") (ascii "source") (ascii "all")) ∧
    (chosen (hosts live httpServer) (ascii "e.com") = some (ascii "e.com", [.dir (ascii "type") (ascii "stream"), .dir (ascii "pass_proxy") (ascii "a.com:8080")]) ∧
      PullsIn [.dir (ascii "type") (ascii "stream"), .dir (ascii "pass_proxy") (ascii "a.com:8080")] (ascii "a.com") (some (ascii "8080"))) ∧
    chosen (hosts live httpServer) (ascii "b.com") = none ∧ chosen (hosts live srtServer) (ascii "a.com") = some (ascii "*", []) := by
  refine ⟨List.mem_singleton.2 rfl, List.mem_singleton.2 rfl, List.mem_singleton.2 rfl, ⟨rfl, by decide +kernel, by decide +kernel, by decide +kernel, by decide +kernel⟩,
    ⟨rfl, by decide +kernel, by decide +kernel, by decide +kernel, by decide +kernel⟩, ⟨rfl, by decide +kernel, by decide +kernel, by decide +kernel, by decide +kernel, rfl, by decide +kernel, ?_⟩,
    rfl, rfl⟩
  intro t h
  simp only [Option.some.injEq] at h
  subst h
  exact ⟨8080, by decide +kernel⟩

theorem nobody (k : Text) : ∀ cid, activeKey cid ([] : Log) ≠ some k := by intro cid; simp [activeKey, activeKeyFrom]

/-- The RTMP publisher of C105's example comes to port 1935 of it, and publishes. -/
example : ∃ sites site q sent conn cid, Started (fileOf (renders live)) live livePort sites ∧ sites.find 1935 = some site ∧
    RtmpSite.arrive ⟨Names.readUrl, site.router⟩ (RtmpConn.caller true) = some (.stream q sent) ∧ (Sys.init.request ServeProps.site q).1.conns = [conn] ∧ conn.job = .rtmpPub cid RtmpServe.msgs Err.ERROR_IO_EOF ∧
    (Sys.init.request ServeProps.site q).2 = [(.publish (ascii "a.com/live/x"), .published cid)] := by
  obtain ⟨sites, hs⟩ := live_started
  obtain ⟨r1, -, -, ⟨c1, t1⟩, -⟩ := live_says
  obtain ⟨site, h1, h2⟩ := C110_rtmp_publisher_partial hs rtmpServer r1
  obtain ⟨-, h3⟩ := h2 _ Names.readsUrls_readUrl (RtmpConn.user true) (RtmpConn.caller true) (RtmpConn.utters true) (RtmpConn.user_ok true) rfl (RtmpConn.calls true)
  obtain ⟨q, sent, h4, h5⟩ := h3 _ _ _ _ _ c1 t1
  obtain ⟨conn, h6, h7, -⟩ := h5 ServeProps.site ⟨⟨2, ascii "-"⟩, by decide +kernel, rfl⟩ [] Sys.init [] (by simp [requestsOf]) rfl (by intro cid p hp; simp [publishedTo] at hp)
  obtain ⟨cid, h8, h9, -⟩ := h7 ⟨rfl, .inr rfl, nobody _, (World.apart_of_none rfl).2⟩
  exact ⟨sites, site, q, sent, conn, cid, hs, h1, h4, h6, h8, h9⟩

/-- A player comes there before anyone has published. -/
example : ∃ sites site q sent conn, Started (fileOf (renders live)) live livePort sites ∧ sites.find 1935 = some site ∧
    RtmpSite.arrive ⟨Names.readUrl, site.router⟩ (RtmpConn.caller false) = some (.stream q sent) ∧ (Sys.init.request ServeProps.site q).1.conns = [conn] ∧
    conn.job = .done .nothing Err.ERROR_STREAM_SOURCE_NOT_EXITS := by
  obtain ⟨sites, hs⟩ := live_started
  obtain ⟨r1, -, -, ⟨c1, t1⟩, -⟩ := live_says
  obtain ⟨site, h1, h2⟩ := C110_rtmp_absent_partial hs rtmpServer r1
  obtain ⟨q, sent, h4, h5⟩ := h2 _ Names.readsUrls_readUrl (RtmpConn.user false) (RtmpConn.caller false) (RtmpConn.utters false) (RtmpConn.user_ok false) rfl (RtmpConn.calls false) _ _ _ _ _ c1 t1
    (by decide +kernel)
  obtain ⟨conn, h6, h7, -⟩ := h5 ServeProps.site [] Sys.init [] (by simp [requestsOf]) rfl (by intro cid p hp; simp [publishedTo] at hp) (World.apart_of_none rfl).2 (nobody _)
  exact ⟨sites, site, q, sent, conn, hs, h1, h4, h6, h7⟩

/-- The HTTP publisher of C106's example comes to port 8080, and publishes; one of `b.com` is not known there. -/
example : ∃ sites site q conn cid rd, Started (fileOf (renders live)) live livePort sites ∧ sites.find 8080 = some site ∧
    HttpSite.arrive ⟨HttpConn.readers, site.router, fun _ _ _ _ => .error .hang⟩ (List.replicate 64 0) (List.replicate 29 0) (HttpLive.wires (HttpLive.posts.head ++ HttpLive.bodyBytes)) = .ok (.stream q) ∧
    (Sys.init.request ServeProps.site q).1.conns = [conn] ∧ conn.job = .flvPub cid rd false := by
  obtain ⟨sites, hs⟩ := live_started
  obtain ⟨-, r1, -, -, ⟨c1, t1⟩, -⟩ := live_says
  obtain ⟨site, h1, h2⟩ := C110_http_publisher_partial hs httpServer r1
  obtain ⟨-, h3⟩ := h2 ⟨HttpConn.readers, site.router, fun _ _ _ _ => .error .hang⟩ rfl HttpLive.readsSends_readers HttpLive.posts _ _ _ _ (List.replicate 64 0) (List.replicate 29 0) HttpLive.posts_for rfl
    HttpLive.posts_arrives
  obtain ⟨q, h4, h5⟩ := (h3 _ _ _ _ _ c1 t1).2 rfl
  obtain ⟨conn, h6, h7, -⟩ := h5 ServeProps.site ⟨⟨1, ascii "flv"⟩, by decide +kernel, rfl⟩ [] Sys.init [] (by simp [requestsOf]) rfl (by intro cid p hp; simp [publishedTo] at hp)
  obtain ⟨cid, rd, h8, -⟩ := h7 ⟨rfl, .inl rfl, nobody _, (World.apart_of_none rfl).2⟩
  exact ⟨sites, site, q, conn, cid, rd, hs, h1, h4, h6, h8⟩

/-- The SRT publisher of C107's example comes to port 9000. -/
example : ∃ sites site q conn cid rd ctx x, Started (fileOf (renders live)) live livePort sites ∧ sites.find 9000 = some site ∧
    SrtSite.arrive ⟨Names.readUrl, site.router⟩ SrtLive.publishing.text (SrtLive.socket SrtServe.sent) [] (List.replicate 188 0) (List.replicate 29 0) = .stream q ∧
    (Sys.init.request ServeProps.site q).1.conns = [conn] ∧ conn.job = .srtPub cid rd ctx x := by
  obtain ⟨sites, hs⟩ := live_started
  obtain ⟨-, -, r1, -, -, -, -, c1⟩ := live_says
  obtain ⟨site, h1, h2⟩ := C110_srt_publisher_partial hs srtServer r1
  obtain ⟨-, h3⟩ := h2 _ Names.readsUrls_readUrl SrtLive.publishing _ _ (SrtLive.socket SrtServe.sent) [] (List.replicate 188 0) (List.replicate 29 0) SrtLive.publishing_for (by decide +kernel)
  obtain ⟨q, h4, h5⟩ := h3 (by rw [show RtmpConn.stream.host = ascii "a.com" from rfl, c1]; rfl)
  obtain ⟨conn, h6, h7, -⟩ := h5 ServeProps.site [] Sys.init [] (by simp [requestsOf]) rfl (by intro cid p hp; simp [publishedTo] at hp)
  obtain ⟨cid, ⟨rd, ctx, x, h8⟩, -⟩ := h7 (nobody _) (World.apart_of_none rfl).2
  exact ⟨sites, site, q, conn, cid, rd, ctx, x, hs, h1, h4, h6, h8⟩

/-- Its player comes when no one publishes. -/
example : ∃ sites site q conn, Started (fileOf (renders live)) live livePort sites ∧ sites.find 9000 = some site ∧
    SrtSite.arrive ⟨Names.readUrl, site.router⟩ SrtLive.playing.text (SrtLive.socket []) [] (List.replicate 188 0) (List.replicate 29 0) = .stream q ∧
    (Sys.init.request ServeProps.site q).1.conns = [conn] ∧ conn.job = .done .nothing Err.ERROR_RTMP_HAS_SOURCE ∧ conn.snk.out = [] := by
  obtain ⟨sites, hs⟩ := live_started
  obtain ⟨-, -, r1, -, -, -, -, c1⟩ := live_says
  obtain ⟨site, h1, h2⟩ := C110_srt_absent_partial hs srtServer r1
  obtain ⟨q, h4, h5⟩ := h2 _ Names.readsUrls_readUrl _ SrtLive.playing (SrtLive.socket []) [] (List.replicate 188 0) (List.replicate 29 0) SrtLive.playing_for
    (by rw [show RtmpConn.stream.host = ascii "a.com" from rfl, c1]; rfl)
  obtain ⟨conn, h6, h7, h8, -⟩ := h5 ServeProps.site [] Sys.init [] (by simp [requestsOf]) rfl (by intro cid p hp; simp [publishedTo] at hp) (World.apart_of_none rfl).1 (by decide +kernel) (.inl (nobody _))
  exact ⟨sites, site, q, conn, hs, h1, h4, h6, h7, h8⟩

/-- The player of C108's example asks port 8080 for a stream of `e.com`: the program asks `a.com:8080`, where a program with the same file runs. -/
example : ∃ sites site q r' u, Started (fileOf (renders live)) live livePort sites ∧ sites.find 8080 = some site ∧
    HttpSite.arrive ⟨HttpConn.readers, site.router, fun _ _ _ _ => .error .hang⟩ (List.replicate 64 0) (List.replicate 29 0) (HttpLive.wires EdgeLive.asks.head) = .ok (.stream q) ∧
    Relay.step RelayProps.env Relay.init (.sys (.request q) none) = some (r', [(.edgeRequest (ascii "e.com/live/x"), .edgeStarted 0)]) ∧ r'.pulls[0]? = some (.asks (some u)) ∧
    Host.edgeAddress q.host q.url = (ascii "a.com", 8080) := by
  obtain ⟨sites, hs⟩ := live_started
  obtain ⟨-, r1, -, -, ⟨o1, -⟩, ⟨c1, t1⟩, -⟩ := live_says
  obtain ⟨site, osite, h1, -, h2⟩ := C110_edge_partial hs hs httpServer r1 httpServer r1
  obtain ⟨q, h3, h4⟩ := h2 ⟨HttpConn.readers, site.router, fun _ _ _ _ => .error .hang⟩ ⟨HttpConn.readers, osite.router, fun _ _ _ _ => .error .hang⟩ rfl rfl HttpLive.readsSends_readers
    HttpLive.readsSends_readers EdgeLive.asks _ _ _ _ (List.replicate 64 0) (List.replicate 29 0) EdgeLive.asks_for (by decide +kernel) EdgeLive.asks_arrives _ _ _ _ c1 t1 (by decide +kernel) _ _ o1 (by decide +kernel)
  obtain ⟨r', k, u, h5, h6, h7, -⟩ := h4 RelayProps.env Names.readsUrls_readUrl [] Relay.init [] (by simp [requestsIn]) (by simp [buffersOk]) rfl (by intro cid p hp; simp [publishedTo] at hp) (nobody _)
    (by intro e; simp [pullKey, pullKeyFrom]) none
  have hk : k = 0 := by
    have hlen : r'.pulls.length = 1 := by
      simp only [Relay.step, Relay.reserved, Bool.false_eq_true, if_false, Option.map_eq_some_iff] at h5
      obtain ⟨x, -, x2⟩ := h5
      simp only [Prod.mk.injEq] at x2
      rw [← x2.1, x2.2]
      rfl
    have := (List.getElem?_eq_some_iff.1 h6).1
    omega
  subst hk
  exact ⟨sites, site, q, r', u, hs, h1, h3, h5, h6, h7⟩

end Sps.SiteLive
