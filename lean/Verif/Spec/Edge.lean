import Verif.Spec.HttpLive
import Verif.Spec.Relay
/-!
# An edge server and the server it pulls from
-/
namespace Spec.Edge
open Sps Spec.Http Spec.Names Spec.HttpConn Spec.HttpLive

/-- The head of a response whose body ends with the connection: no field tells of its length. -/
structure Open where
  status : Nat
  digits : Text
  phrase : Text
  fields : List Header

def Open.first (r : Open) : List UInt8 := ascii "HTTP/1.1 " ++ r.digits ++ ascii " " ++ r.phrase
def Open.head (r : Open) : List UInt8 := Http.head (r.first :: r.fields.map line)

structure Open.Ok (r : Open) : Prop where
  status : 200 ≤ r.status ∧ r.status < 600 ∧ r.status ≠ 204 ∧ r.status ≠ 304
  digits : r.digits.length = 3 ∧ decValue 0 r.digits = some r.status
  phrase : valueOk r.phrase
  fields : ∀ f ∈ r.fields, plain f
  short : r.head.length ≤ 2048

/-- The parser is right about URLs and about such heads. -/
structure ReadsOpen (p : Parsers) : Prop where
  url : ReadsUrls p.url
  rsp : ∀ r : Open, r.Ok → p.rsp r.head = (r.head.length, { status := r.status, cl := -1, chunked := false, headers := r.fields })

/-- What an edge should ask a server under the name `origin` for, when a player asks for `a`: the same path and query. -/
def pulled (a : Send) (origin : Text) : Send where
  method := ascii "GET"
  path := a.path
  query := a.query
  host := origin
  fields := [(ascii "Host", origin), (ascii "Accept", ascii "*/"), (ascii "Content-Length", ascii "0")]
  body := some (.sized (ascii "0") [])

/-- A host block that pulls what its players ask for from `origin`, at `port` if one is given. -/
structure PullsFrom (h : Conf.Module) (origin : Text) (port : Option Text) : Prop where
  role : Server.opt h "role" "edge"
  proxy : h.conf (ascii "pass_proxy") = some (.str (origin ++ opt 58 port))
  url : h.conf (ascii "pass_url") = some (.str [])
  own : ∀ m ∈ h.inner, m.kind ≠ .upstream
  origin : hostOk origin
  port : portOk port

/-- What a tag gives back of a packet: what FLV keeps of it (`Flv.wire`). All that is neither audio nor video is in script tags. -/
def back (p : AVPkt) : AVPkt :=
  { Flv.wire p with stream := match p.stream with | .audio => .audio | .video => .video | _ => .subtitle }

/-- A packet of a kind that FLV has. If it is audio or video, then whether it is a decoder configuration survives the 8 bits that tags have for that. -/
def kept (p : AVPkt) : Prop := p.stream = .subtitle ∨ ((p.stream = .audio ∨ p.stream = .video) ∧ ((back p).pktType = 0 ↔ p.pktType = 0))

/-- Pull `e` is answered, if at all, by what the HTTP client makes of the bytes `up` that come from the server; its buffer is `mem`. -/
def answeredBy (ops : List Relay.Op) (e : Nat) (p : Parsers) (u : Url) (up : Io) (mem : List UInt8) : Prop :=
  ∀ a m, .answer e a m ∈ ops → Answer.get p u (.up [] up) = some a ∧ m = mem

end Spec.Edge
