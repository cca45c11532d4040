import Verif.Model.Assoc
import Verif.Model.Conf
import Verif.Model.Url
/-!
# Hosts, servers and phases

What becomes of the modules: servers listen, and a request is given to the host its name selects.
-/
namespace Sps
open Conf

/-! ## Hosts -/

/-- `HostModulesRouter`, `/repo/src/module/host/sps_host_module.hpp:116-143`. -/
structure Router where
  exact : Assoc Text Module
  wild : Assoc Text Module
  dflt : Option Module

namespace Router

/-- A new router. -/
def new : Router := ⟨[], [], none⟩

/-- `get_wildcard_host`, `/repo/src/module/host/sps_host_module.cpp:148-160`: the name from its first dot on, reversed. -/
def wildcard (host : Text) : Text :=
  match host.dropWhile (· ≠ 46) with
  | [] => []
  | d => d.reverse

/-- `module_name[i]`: behind the end there is a NUL. -/
def char (name : Text) (i : Nat) : UInt8 := name.getD i 0

/-- `register_host`, `/repo/src/module/host/sps_host_module.cpp:162-195`. -/
def register (r : Router) (h : Module) : Err × Router :=
  if char h.name 0 ≠ 42 then
    if (r.exact.find h.name).isSome then (Err.ERROR_CONFIG_PARSE_INVALID, r)
    else (Err.SUCCESS, { r with exact := r.exact.insert h.name h })
  else if char h.name 1 = 0 then
    if r.dflt.isSome then (Err.ERROR_CONFIG_PARSE_INVALID, r)
    else (Err.SUCCESS, { r with dflt := some h })
  else if char h.name 1 ≠ 46 ∨ char h.name 2 = 0 then (Err.ERROR_CONFIG_PARSE_INVALID, r)
  else if (r.wild.find (wildcard h.name)).isSome then (Err.ERROR_CONFIG_PARSE_INVALID, r)
  else (Err.SUCCESS, { r with wild := r.wild.insert (wildcard h.name) h })

/-- `find_host`, `/repo/src/module/host/sps_host_module.cpp:197-214`. -/
def find (r : Router) (host : Text) : Option Module :=
  match r.exact.find host with
  | some h => some h
  | none =>
    if r.wild.isEmpty then r.dflt
    else match r.wild.find (wildcard host) with
      | some h => some h
      | none => r.dflt

/-- The copying loops of `merge`, `/repo/src/module/host/sps_host_module.cpp:223-237`. -/
def copy (to : Assoc Text Module) : Assoc Text Module → Err × Assoc Text Module
  | [] => (Err.SUCCESS, to)
  | (n, h) :: r => if (to.find n).isSome then (Err.ERROR_CONFIG_PARSE_INVALID, to) else copy (to.insert n h) r

/-- `merge`, `/repo/src/module/host/sps_host_module.cpp:216-240` (called by nobody). -/
def merge (r o : Router) : Err × Router :=
  if o.dflt.isSome ∧ r.dflt.isSome then (Err.ERROR_CONFIG_PARSE_INVALID, r)
  else match copy r.exact o.exact with
    | (e, ex) =>
      if e ≠ Err.SUCCESS then (e, { r with exact := ex })
      else match copy r.wild o.wild with
        | (e, w) => (e, { r with exact := ex, wild := w })

/-- `ServerModule::get_router`, `/repo/src/module/server/sps_server_module.cpp:45-57`. -/
def build : Router → List Module → Err × Router
  | r, [] => (Err.SUCCESS, r)
  | r, h :: hs => match r.register h with
    | (e, r) => if e ≠ Err.SUCCESS then (e, r) else build r hs

end Router

namespace Host

/-- A text option of a module. -/
def text (m : Module) (n : Text) : Text :=
  match m.conf n with
  | some (.str s) => s
  | _ => []

/-- `string_hostype`, `/repo/src/module/host/sps_host_module.cpp:31-41`. -/
inductive Mode | streaming | proxying | api
deriving DecidableEq, Repr

/-- `string_hostype`, `/repo/src/module/host/sps_host_module.cpp:31-41`. -/
def typeOf (t : Text) : Mode :=
  if t = ascii "stream" then .streaming else if t = ascii "api" then .api else .proxying

/-- `HostModule::is_streaming`, `/repo/src/module/host/sps_host_module.cpp:88-91`. -/
def isStreaming (h : Module) : Bool := typeOf (text h (ascii "type")) = .streaming
/-- `HostModule::is_api`, `/repo/src/module/host/sps_host_module.cpp:93-96`. -/
def isApi (h : Module) : Bool := typeOf (text h (ascii "type")) = .streaming
/-- `HostModule::publish`, `/repo/src/module/host/sps_host_module.cpp:78-81`. -/
def publish (h : Module) : Bool := text h (ascii "role") = ascii "source"
/-- `HostModule::edge`, `/repo/src/module/host/sps_host_module.cpp:83-86`. -/
def edge (h : Module) : Bool := text h (ascii "role") = ascii "edge"
/-- `HostModule::support_publish`, `/repo/src/module/host/sps_host_module.cpp:98-102`. -/
def supportPublish (h : Module) (format : Text) : Bool :=
  text h (ascii "edge_avformat") = ascii "all" ∨ text h (ascii "edge_avformat") = format

/-- What serves the request, `HttpAdapterPhaseHandler::handler`, `/repo/src/module/http/sps_http_adapter_phase_handler.cpp:39-48`. -/
def adapter (h : Module) : Mode :=
  if isStreaming h then .streaming else if isApi h then .api else .proxying

/-- The upstream block in a host: the last one (`upstream_module`, `/repo/src/module/host/sps_host_module.cpp:56-66`). -/
def upstream (h : Module) : Option Module := h.inner.reverse.find? fun m => m.kind = .upstream

/-- `HostModule::get_proxy_info`, `/repo/src/module/host/sps_host_module.cpp:134-146`: address, and port if one is given. -/
def proxy (h : Module) : Text × Option Int :=
  let p := match upstream h with
    | some u => text u (ascii "server")
    | none => text h (ascii "pass_proxy")
  match Text.cut 58 p with
  | some (ip, port) => (ip, some (Text.atoi (Text.cstr port)))
  | none => (p, none)

/-- The address a proxied request goes to, `HttpProxyPhaseHandler::handler`,
`/repo/src/module/http/sps_http_proxy_phase_handler.cpp:50-54`. -/
def proxyAddress (h : Module) : Text × Int := ((proxy h).1, (proxy h).2.getD 80)

/-- The address an edge connects to, `StreamEdgeEnter::start_edge`, `/repo/src/module/stream/sps_stream_edge.cpp:131-138,149`. -/
def edgeAddress (h : Module) (u : Url) : Text × Int :=
  ((proxy h).1, (proxy h).2.getD (if u.schema = ascii "rtmp" then 1935 else if u.schema = ascii "https" then 443 else 80))

/-- The URL an edge asks for, `StreamEdgeEnter::start_edge`, `/repo/src/module/stream/sps_stream_edge.cpp:133-141`. -/
def edgeUrl (h : Module) (u : Url) : Text :=
  if text h (ascii "pass_url") = [] then u.schema ++ ascii "://" ++ text h (ascii "pass_proxy") ++ u.url else text h (ascii "pass_url")

end Host

/-! ## Servers -/

/-- A `ServerModule` (`/repo/src/module/server/sps_server_module.hpp:78-116`): which one it is, its port and its hosts. -/
structure Srv where
  id : Nat × Nat
  port : Int
  hosts : List Module

/-- A listening server (`server_modules`, `/repo/src/module/server/sps_server_module.cpp:35`): the module and the router its phases
were given. -/
structure Site where
  srv : Srv
  router : Router

namespace Setup

/-- `listen_port` of a server block. -/
def port (m : Module) : Int :=
  match m.conf (ascii "listen_port") with
  | some (.int n) => n
  | _ => 0

/-- The blocks of a kind, in the order of the file. -/
def blocks (root : Module) (k : Kind) : List Module := root.inner.filter fun m => m.kind = k

/-- `ServerModule::merge`, `/repo/src/module/server/sps_server_module.cpp:78-124`: the hosts of all `globalhost` blocks. -/
def globals (root : Module) : List Module := (blocks root .globalHost).flatMap Module.inner

/-- The servers of a list of blocks. -/
def servers (tag : Nat) (extra : List Module) (ms : List Module) : List Srv :=
  ms.zipIdx.map fun (m, i) => ⟨(tag, i), port m, m.inner ++ extra⟩

/-- The servers when the file has been read: `post_conf` of the root module, `/repo/src/module/sps_module.cpp:58-72`, calls `merge`
of every block, and `install`, lines 41-52, `install` of every block, ordered by type (`subs` is a `std::map`).
`HttpModule::http_servers` is static: every `http` block merges and installs the servers of all of them
(`/repo/src/module/http/sps_http_module.cpp:34,53-64`); `rtmp` and `srt` blocks have their own
(`/repo/src/module/rtmp/sps_rtmp_module.cpp:54-66`, `/repo/src/module/srt/sps_srt_module.cpp:56-68`).
Not modelled: blocks inside `upstream` and `stream` blocks and blocks `root`. -/
def rounds (root : Module) : List (List Srv) :=
  let g := globals root
  let http := blocks root .http
  let all := servers 0 (http.flatMap fun _ => g) (http.flatMap Module.inner)
  http.map (fun _ => all) ++ (blocks root .rtmp).zipIdx.map (fun (m, i) => servers (2 * i + 1) g m.inner) ++
    (blocks root .srt).zipIdx.map (fun (m, i) => servers (2 * i + 2) g m.inner)

/-- What can come of installing the servers. -/
inductive Res
  | ok (sites : Assoc Int Site)
  | err (e : Err)
  | undef

/-- The loop of `install`, `/repo/src/module/http/sps_http_module.cpp:72-112` (the same in
`/repo/src/module/rtmp/sps_rtmp_module.cpp:73-108` and `/repo/src/module/srt/sps_srt_module.cpp:73-107`), with
`ServerModule::install`, `/repo/src/module/server/sps_server_module.cpp:126-179`. `listen` is what listening on a port returns.
Merging a server into itself (`merge_hosts`, lines 216-219) inserts a vector into itself, which is undefined. -/
def install (listen : Int → Err) : Assoc Int Site → List Srv → Res
  | sites, [] => .ok sites
  | sites, s :: ss =>
    match sites.find s.port with
    | some p =>
      if p.srv.id = s.id then (if s.hosts.isEmpty then install listen sites ss else .undef)
      else install listen (sites.insert s.port { p with srv := { p.srv with hosts := p.srv.hosts ++ s.hosts } }) ss
    | none =>
      match Router.build .new s.hosts with
      | (e, r) =>
        if e ≠ Err.SUCCESS then .err e
        else if listen s.port ≠ Err.SUCCESS then .err (listen s.port)
        else install listen (sites.insert s.port ⟨s, r⟩) ss

/-- `install` of all blocks. -/
def installAll (listen : Int → Err) : Assoc Int Site → List (List Srv) → Res
  | sites, [] => .ok sites
  | sites, r :: rs => match install listen sites r with
    | .ok sites => installAll listen sites rs
    | x => x

/-- `install_core`, `/repo/src/main/sps_main_sps.cpp:67-70`. -/
def start (listen : Int → Err) (root : Module) : Res := installAll listen [] (rounds root)

/-- The host that serves a request for `name` on a port (`HostRouterPhaseHandler::handler`,
`/repo/src/module/host/sps_host_router_handler.cpp:39-53`); `none` is the handler for unknown hosts. -/
def select (sites : Assoc Int Site) (port : Int) (name : Text) : Option Module :=
  (sites.find port).bind fun s => s.router.find name

end Setup

/-! ## Phases -/

namespace Phase

/-- `SPS_PHASE_CONTINUE`, `/repo/src/module/server/sps_server_handler.hpp:31`: the same number as `SUCCESS`. Results are numbers with a
sign: the HTTP parser returns errors with a minus (`/repo/src/module/http/sps_http_parser.cpp:147`). -/
abbrev CONTINUE : Int := 0
/-- `SPS_PHASE_SUCCESS_NO_CONTINUE`, `/repo/src/module/server/sps_server_handler.hpp:32`. -/
abbrev NO_CONTINUE : Int := 1
/-- `SUCCESS`. -/
abbrev SUCCESS : Int := 0

/-- Why a handler does not return: its behaviour is undefined, or it waits for ever. -/
inductive Stop
  | crash
  | hang
deriving DecidableEq, Repr

/-- A handler works on the connection (the context included) and returns a result. -/
abbrev Handler (S : Type) := S → Except Stop (Int × S)

/-- The loop of `ServerPhaseHandler::handler`, `/repo/src/module/server/sps_server_handler.cpp:49-68`. -/
def handler {S : Type} : List (Handler S) → Handler S
  | [], s => .ok (SUCCESS, s)
  | f :: fs, s => match f s with
    | .error x => .error x
    | .ok (ret, s) => if ret = NO_CONTINUE then .ok (SUCCESS, s) else if ret = CONTINUE then handler fs s else .ok (ret, s)

/-- `Connection::handler`, `/repo/src/module/server/sps_server_handler.cpp:81-93`: request after request until one fails; `none` if
none of the first `n` does. -/
def connection {S : Type} (fs : List (Handler S)) : (n : Nat) → S → Option (Except Stop (Int × S))
  | 0, _ => none
  | n + 1, s => match handler fs s with
    | .error x => some (.error x)
    | .ok (ret, s) => if ret ≠ SUCCESS then some (.ok (ret, s)) else connection fs n s

end Phase
end Sps
