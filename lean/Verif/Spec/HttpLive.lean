import Verif.Spec.HttpConn
import Verif.Model.HttpLive
/-!
# Requests with a body (RFC 7230), and those for streams
-/
namespace Spec.HttpLive
open Sps Spec.Http Spec.Names Spec.HttpConn

/-- A request: `body` is a body that the header tells of, by its length or as chunks. -/
structure Send where
  method : Text
  path : Text
  query : Option Text := none
  host : Text
  port : Option Text := none
  fields : List Header
  body : Option Body := none

def Send.target (a : Send) : Text := a.path ++ opt 63 a.query
/-- The field that tells of the body. -/
def Send.bodyField (a : Send) : List Header := (a.body.map Body.field).toList
def Send.first (a : Send) : List UInt8 := a.method ++ ascii " " ++ a.target ++ ascii " HTTP/1.1"
/-- The header as it is sent. -/
def Send.head (a : Send) : List UInt8 := Http.head (a.first :: a.fields.map line)

/-- The names of fields that say where a request goes and how it ends. -/
def routing : List Text := [ascii "host", ascii "content-length", ascii "transfer-encoding"]

structure Send.Ok (a : Send) : Prop where
  method : a.method ∈ [ascii "GET", ascii "POST", ascii "PUT", ascii "DELETE", ascii "OPTIONS"]
  path : pathOk a.path
  query : queryOk a.query
  host : hostOk a.host
  port : portOk a.port
  fields : ∀ f ∈ a.fields, nameOk f.1 ∧ valueOk f.2 ∧ lower f.1 ≠ ascii "upgrade"
  /-- one field names the host and, if there is a body, one tells of it -/
  once : (a.fields.filter fun f => lower f.1 ∈ routing) = (ascii "Host", a.host ++ opt 58 a.port) :: a.bodyField ∨
    (a.fields.filter fun f => lower f.1 ∈ routing) = a.bodyField ++ [(ascii "Host", a.host ++ opt 58 a.port)]
  body : ∀ b, a.body = some b → b.Ok ∨ b = .sized (ascii "0") []
  short : a.head.length ≤ 2048

/-- The parser is right about headers and URLs put together from their parts. -/
structure ReadsSends (p : Parsers) : Prop where
  url : ReadsUrls p.url
  req : ∀ a : Send, a.Ok → p.req a.head = { count := a.head.length, method := a.method, target := a.target, headers := a.fields }

/-- The request is for `/APP/NAME.flv` of HOST. -/
structure Send.For (a : Send) (st : Stream) : Prop where
  ok : a.Ok
  stream : st.Ok
  host : a.host = st.host
  path : a.path = st.path ++ ascii "." ++ ascii "flv"

/-- The bytes that come behind the header are those of the body `b`, or of what came of it before the connection was lost; a reader of the body is told `closed` at its end.
A body that the header does not tell of is all that comes. -/
inductive Send.Brings (a : Send) : (bytes : List UInt8) → (e : Err) → (b : List UInt8) → (closed : Err) → Prop
  | framed {body : Body} (t : List UInt8) {e : Err} : a.body = some body → body.Ok → Brings a (body.text ++ t) e body.content Err.ERROR_HTTP_RES_EOF
  /-- before the announced length -/
  | cut {ds bs part : List UInt8} {e : Err} : a.body = some (.sized ds bs) → Body.Ok (.sized ds bs) → part <+: bs → part ≠ bs → Brings a part e part e
  /-- in the line before a chunk -/
  | cutLine {done rest : List (List UInt8 × List UInt8)} {l d z p : List UInt8} {e : Err} : a.body = some (.coded (done ++ (l, d) :: rest) z) →
      Body.Ok (.coded (done ++ (l, d) :: rest) z) → p <+: l ++ [CR] → Brings a (done.flatMap chunk ++ p) e (content done) e
  /-- in a chunk -/
  | cutData {done rest : List (List UInt8 × List UInt8)} {l d z p : List UInt8} {e : Err} : a.body = some (.coded (done ++ (l, d) :: rest) z) →
      Body.Ok (.coded (done ++ (l, d) :: rest) z) → p <+: d → p ≠ d → Brings a (done.flatMap chunk ++ (l ++ crlf ++ p)) e (content done ++ p) e
  /-- in the line of the last chunk -/
  | cutLast {cs : List (List UInt8 × List UInt8)} {z p : List UInt8} {e : Err} : a.body = some (.coded cs z) →
      Body.Ok (.coded cs z) → p <+: z ++ [CR] → Brings a (cs.flatMap chunk ++ p) e (content cs) e
  | all {bytes : List UInt8} {e : Err} : a.body = none → Brings a bytes e bytes e

/-- Two requests end up in the same place: nowhere, with the same host block, or with the stream handler for the same host block and the same URL (but for the header fields that it keeps). -/
def Alike : Except Phase.Stop HttpArrival → Except Phase.Stop HttpArrival → Prop
  | .ok .unknown, .ok .unknown => True
  | .ok (.other h), .ok (.other h') => h = h'
  | .ok (.stream q), .ok (.stream q') => q.host = q'.host ∧ { q.url with headers := [] } = { q'.url with headers := [] }
  | _, _ => False

end Spec.HttpLive
