import Verif.Spec.Conf
import Verif.Spec.Server
import Verif.Spec.HttpConn
/-!
# What a configuration file says about servers and hosts

In terms of the directives and blocks of the file.
-/
namespace Spec.SiteFile
open Sps Sps.Conf Spec.Conf Spec.Server

/-- The blocks of these names, in order: argument and content. -/
def blocks (names : List String) : List Tree → List (Text × List Tree)
  | [] => []
  | .dir _ _ :: ts => blocks names ts
  | .block n a ks :: ts => if n ∈ names.map ascii then (a, ks) :: blocks names ts else blocks names ts

/-- The content of the `server` blocks inside blocks of these names. -/
def servers (names : List String) (ts : List Tree) : List (List Tree) := (blocks names ts).flatMap fun b => (blocks ["server"] b.2).map (·.2)

/-- The content of all `server` blocks. -/
abbrev allServers (ts : List Tree) : List (List Tree) := servers ["http", "rtmp", "srt"] ts

/-- The hosts of a server block: name and content of its `host` blocks, and of those of the `globalhost` blocks of the file. -/
def hosts (ts server : List Tree) : List (Text × List Tree) :=
  blocks ["host"] server ++ (blocks ["globalhost"] ts).flatMap fun b => blocks ["host"] b.2

/-- The port of a server block: that of its last directive `listen_port`, or 80. -/
def Port (server : List Tree) (p : Int) : Prop :=
  match lastArg (ascii "listen_port") server with
  | none => p = 80
  | some a => Means .int a (.int p)

/-- The first host block for a slot. -/
def firstBlock (hs : List (Text × List Tree)) (s : Slot) : Option (Text × List Tree) := hs.find? fun h => slot h.1 = some s

/-- The host block that is to serve a name: the one for the name, else the one for its domain, else the default. -/
def chosen (hs : List (Text × List Tree)) (name : Text) : Option (Text × List Tree) :=
  firstBlock hs (.exact name) <|> ((domain name).bind fun d => firstBlock hs (.wild d)) <|> firstBlock hs .dflt

/-- A text option of a block: that of its last directive of this name. -/
def setting (n : String) (dflt : String) (body : List Tree) : Text := (lastArg (ascii n) body).getD (ascii dflt)

/-- A host block whose requests go to this address. -/
structure Proxies (body : List Tree) (ip : Text) (port : Int) : Prop where
  type : setting "type" "proxy" body = ascii "proxy"
  address : Address (setting "pass_proxy" "" body) 80 (ip, port)
  text : ∀ b ∈ setting "pass_proxy" "" body, b ≠ 0
  own : blocks ["upstream"] body = []

/-- Configurations that can be served: one `http` block at most, every server block its own port, and in every server block allowed and distinct names of hosts. -/
structure Sound (ts : List Tree) (p : List Tree → Int) : Prop where
  http : (blocks ["http"] ts).length ≤ 1
  port : ∀ s ∈ allServers ts, Port s (p s)
  ports : ((allServers ts).map p).Nodup
  names : ∀ s ∈ allServers ts, ∀ h ∈ hosts ts s, (0 : UInt8) ∉ h.1 ∧ slot h.1 ≠ none
  distinct : ∀ s ∈ allServers ts, ((hosts ts s).map fun h => slot h.1).Nodup

/-- What should come of HTTP requests to a server with these host blocks: those for unknown hosts are answered with 404, those for a host block that is a proxy by its
upstream. Related are: requests, what the upstreams do, the answers (status and body), and which upstreams were asked for what. -/
inductive Answered (hs : List (Text × List Tree)) :
    List HttpConn.Ask → List Upstream → List (Nat × List UInt8) → List (Text × Int × List UInt8) → Prop
  | nil : Answered hs [] [] [] []
  | unknown {a : HttpConn.Ask} {as : List HttpConn.Ask} {us : List Upstream} {rs : List (Nat × List UInt8)} {qs : List (Text × Int × List UInt8)} : a.Ok →
      chosen hs a.host = none → Answered hs as us rs qs → Answered hs (a :: as) us ((404, []) :: rs) qs
  | proxied {a : HttpConn.Ask} {as : List HttpConn.Ask} {us : List Upstream} {rs : List (Nat × List UInt8)} {qs : List (Text × Int × List UInt8)} {name : Text} {body : List Tree}
      {ip : Text} {port : Int} {r : HttpConn.Reply} {io : Io} {t : List UInt8} {cl : Err} : a.Ok → chosen hs a.host = some (name, body) → Proxies body ip port → r.Ok →
      Arrives io (r.text ++ t) cl → Answered hs as us rs qs →
      Answered hs (a :: as) (.up [] io :: us) ((r.status, r.body.content) :: rs) ((a.goesTo ip, port, a.forward) :: qs)

end Spec.SiteFile
