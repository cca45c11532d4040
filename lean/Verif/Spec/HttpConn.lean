import Verif.Spec.Names
import Verif.Spec.Server
import Verif.Model.HttpConn
/-!
# Requests and answers on an HTTP connection (RFC 7230)

`http_parser` is not part of the repository. What is relied on is that it finds the parts of messages put together from such parts.
-/
namespace Spec.HttpConn
open Sps Spec.Http Spec.Names

/-- ASCII, capital letters made small. -/
def lower (t : Text) : Text := t.map fun b => if 65 ≤ b.toNat ∧ b.toNat ≤ 90 then b + 32 else b

/-- A field name: letters and `-`. -/
def nameOk (t : Text) : Prop := t ≠ [] ∧ ∀ b ∈ t, letter b ∨ (65 ≤ b.toNat ∧ b.toNat ≤ 90) ∨ b = 45
/-- A field value: visible characters and, between them, spaces. -/
def valueOk (t : Text) : Prop := t ≠ [] ∧ (∀ b ∈ t, graph b ∨ b = 32) ∧ t.head? ≠ some 32 ∧ t.getLast? ≠ some 32

/-- The names of fields that say something about the connection or the framing of messages. -/
def special : List Text := [ascii "host", ascii "content-length", ascii "transfer-encoding", ascii "connection", ascii "proxy-connection", ascii "upgrade"]

/-- A field that says nothing about connection and framing. -/
def plain (f : Header) : Prop := nameOk f.1 ∧ valueOk f.2 ∧ lower f.1 ∉ special

/-- A field as a line. -/
def line (f : Header) : List UInt8 := f.1 ++ ascii ": " ++ f.2

/-- A request without a body. -/
structure Ask where
  method : Text
  path : Text
  query : Option Text := none
  host : Text
  port : Option Text := none
  before : List Header := []
  after : List Header := []

def Ask.target (a : Ask) : Text := a.path ++ opt 63 a.query
def Ask.hostField (a : Ask) : Header := (ascii "Host", a.host ++ opt 58 a.port)
def Ask.fields (a : Ask) : List Header := a.before ++ a.hostField :: a.after
def Ask.first (a : Ask) : List UInt8 := a.method ++ ascii " " ++ a.target ++ ascii " HTTP/1.1"
/-- The request as it is sent. -/
def Ask.text (a : Ask) : List UInt8 := head (a.first :: a.fields.map line)

structure Ask.Ok (a : Ask) : Prop where
  method : a.method ∈ [ascii "GET", ascii "POST", ascii "PUT", ascii "DELETE", ascii "OPTIONS"]
  path : pathOk a.path
  query : queryOk a.query
  host : hostOk a.host
  port : portOk a.port
  fields : ∀ f ∈ a.before ++ a.after, plain f
  short : a.text.length ≤ 2048

/-- The body of an answer: with its length before it, or in chunks (the last with size line `z`). -/
inductive Body
  | sized (digits : Text) (body : List UInt8)
  | coded (cs : List (List UInt8 × List UInt8)) (z : List UInt8)

def Body.content : Body → List UInt8
  | .sized _ b => b
  | .coded cs _ => Http.content cs
def Body.text : Body → List UInt8
  | .sized _ b => b
  | .coded cs z => Http.coded cs z
def Body.field : Body → Header
  | .sized ds _ => (ascii "Content-Length", ds)
  | .coded _ _ => (ascii "Transfer-Encoding", ascii "chunked")
def Body.Ok : Body → Prop
  | .sized ds b => b ≠ [] ∧ b.length < 2 ^ 31 ∧ ds ≠ [] ∧ decValue 0 ds = some b.length
  | .coded cs z => codedOk cs z

/-- An answer of an upstream. -/
structure Reply where
  status : Nat
  digits : Text
  phrase : Text
  before : List Header := []
  after : List Header := []
  body : Body

def Reply.fields (r : Reply) : List Header := r.before ++ r.body.field :: r.after
def Reply.first (r : Reply) : List UInt8 := ascii "HTTP/1.1 " ++ r.digits ++ ascii " " ++ r.phrase
def Reply.head (r : Reply) : List UInt8 := Http.head (r.first :: r.fields.map line)
/-- The answer as it is sent. -/
def Reply.text (r : Reply) : List UInt8 := r.head ++ r.body.text

structure Reply.Ok (r : Reply) : Prop where
  status : 200 ≤ r.status ∧ r.status < 600 ∧ r.status ≠ 204 ∧ r.status ≠ 304
  digits : r.digits.length = 3 ∧ decValue 0 r.digits = some r.status
  phrase : valueOk r.phrase
  fields : ∀ f ∈ r.before ++ r.after, plain f
  body : r.body.Ok
  short : r.head.length ≤ 2048

/-- What the parser should find in an answer. -/
def Reply.found (r : Reply) : HttpHeadIn :=
  match r.body with
  | .sized _ b => { status := r.status, cl := b.length, chunked := false, headers := r.fields }
  | .coded _ _ => { status := r.status, cl := -1, chunked := true, headers := r.fields }

/-- The parser is right about messages put together from their parts, and the reason phrases it knows are such. -/
structure Reads (p : Parsers) : Prop where
  url : ReadsUrls p.url
  req : ∀ a : Ask, a.Ok → p.req a.text = { count := a.text.length, method := a.method, target := a.target, headers := a.fields }
  rsp : ∀ r : Reply, r.Ok → p.rsp r.head = (r.head.length, r.found)
  reason : ∀ n : Int, ∀ b ∈ p.reason n, b ≠ CR ∧ b ≠ LF

/-- The fields that say where the body ends. -/
def framing (fs : List Header) : List Header := fs.filter fun f => lower f.1 ∈ [ascii "content-length", ascii "transfer-encoding"]

/-- The bytes are one answer with this status and this body, which a client can tell from what follows: it has a length, or is in chunks. (The
field `Transfer-Encoding` may be there twice, see C45.) -/
inductive Answer (status : Nat) : (body bytes : List UInt8) → Prop
  | sized {digits phrase ds : Text} {fields : List Header} {body : List UInt8} : decValue 0 digits = some status →
      (∀ l ∈ (ascii "HTTP/1.1 " ++ digits ++ ascii " " ++ phrase) :: fields.map line, lineOk l) →
      framing fields = [(ascii "Content-Length", ds)] → ds ≠ [] → decValue 0 ds = some body.length →
      Answer status body (head ((ascii "HTTP/1.1 " ++ digits ++ ascii " " ++ phrase) :: fields.map line) ++ body)
  | coded {digits phrase : Text} {fields : List Header} {cs : List (List UInt8 × List UInt8)} {z : List UInt8} : decValue 0 digits = some status →
      (∀ l ∈ (ascii "HTTP/1.1 " ++ digits ++ ascii " " ++ phrase) :: fields.map line, lineOk l) →
      framing fields ≠ [] → (∀ f ∈ framing fields, f = (ascii "Transfer-Encoding", ascii "chunked")) → codedOk cs z →
      Answer status (content cs) (head ((ascii "HTTP/1.1 " ++ digits ++ ascii " " ++ phrase) :: fields.map line) ++ coded cs z)

/-- The request sent on to an upstream: method and target, the host without the port, the other fields in order, and two more. -/
def Ask.forward (a : Ask) : List UInt8 :=
  head (a.first :: line (ascii "Host", a.host) :: (a.before ++ a.after).map line ++ [ascii "Accept: */", ascii "Content-Length: 0"])

/-- A host of type `proxy` whose upstream is at this address. -/
structure ProxyTo (h : Conf.Module) (ip : Text) (port : Int) : Prop where
  type : Server.opt h "type" "proxy"
  address : ∃ addr, h.conf (ascii "pass_proxy") = some (.str addr) ∧ Server.Address addr 80 (ip, port)
  own : ∀ m ∈ h.inner, m.kind ≠ .upstream

/-- The machine that a request goes to: that of the upstream, or the requested host if the address of the upstream is only a port. -/
def Ask.goesTo (a : Ask) : (ip : Text) → Text
  | [] => a.host
  | ip => ip

/-- What should come of requests: those for unknown hosts are answered with 404, those for a proxied host by its upstream. `find` gives the host for a
name. Related are: requests, what the upstreams do, the answers (status and body), and which upstreams were asked for what. -/
inductive Served (find : Text → Option Conf.Module) :
    List Ask → List Upstream → List (Nat × List UInt8) → List (Text × Int × List UInt8) → Prop
  | nil : Served find [] [] [] []
  | unknown {a : Ask} {as : List Ask} {us : List Upstream} {rs : List (Nat × List UInt8)} {qs : List (Text × Int × List UInt8)} : a.Ok → find a.host = none →
      Served find as us rs qs → Served find (a :: as) us ((404, []) :: rs) qs
  | proxied {a : Ask} {as : List Ask} {us : List Upstream} {rs : List (Nat × List UInt8)} {qs : List (Text × Int × List UInt8)} {h : Conf.Module} {ip : Text} {port : Int}
      {r : Reply} {io : Io} {t : List UInt8} {cl : Err} : a.Ok → find a.host = some h → ProxyTo h ip port → r.Ok → Arrives io (r.text ++ t) cl →
      Served find as us rs qs → Served find (a :: as) (.up [] io :: us) ((r.status, r.body.content) :: rs) ((a.goesTo ip, port, a.forward) :: qs)

/-- The bytes that will still arrive. -/
abbrev left (io : Io) : Nat := (streamOf io.evs).length

/-- The connections to upstreams keep the conventions of a transport. -/
def upOk : Upstream → Prop
  | .down => True
  | .up _ io => ioOk io = true

/-- A stream handler that returns, and gives nothing back to the transport. -/
def Returns (s : HttpSite) : Prop :=
  ∀ (h : Conf.Module) (u : Url) (io : Io) (snk : Sink), ioOk io = true → ∃ e rsp io' snk', s.stream h u io snk = .ok (e, rsp, io', snk') ∧ ioOk io' = true ∧ left io' ≤ left io

end Spec.HttpConn
