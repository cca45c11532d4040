import Verif.Model.Serve
import Verif.Spec.Stream
import Verif.Spec.Flv
import Verif.Spec.Http
import Verif.Spec.Rtmp
/-!
# Specification of what a client of a stream sees
-/
namespace Spec
open Sps

/-- The head of the response to an accepted play request. -/
def okHead (reason : Int → Text) : List UInt8 :=
  ascii "HTTP/1.1 200 " ++ reason 200 ++ [13, 10] ++ ascii "Server: sps" ++ [13, 10] ++ [13, 10]

/-- The whole response when the packets `ps` are to be played: the head, then an FLV file. -/
def flvResponse (reason : Int → Text) (ps : List AVPkt) : List UInt8 := okHead reason ++ Flv.fileHeader ++ Flv.chain 0 ps

/-- The head of a refusal. -/
def refusal (status : String) (reason : Text) : List UInt8 :=
  ascii "HTTP/1.1 " ++ ascii status ++ ascii " " ++ reason ++ [13, 10] ++ ascii "Server: sps" ++ [13, 10] ++ [13, 10]

/-- The requests of an execution, in the order of their arrival. -/
def requestsOf (ops : List Sys.Op) : List Req := ops.filterMap fun | .request q => some q | _ => none

/-- A request to play: for HTTP everything but `POST`, for RTMP what the client asked for, for SRT the method of the stream id. -/
def asksToPlay (q : Req) : Prop :=
  match q.via with
  | .http => q.url.method ≠ ascii "POST"
  | .rtmp publishing _ _ => publishing = false
  | .srt => q.url.method = ascii "request"

/-- An execution in which request `i` gets no turn after its start. -/
def without (i : Nat) (ops : List Sys.Op) : List Sys.Op := ops.filter fun | .run j => j != i | _ => true

/-- An error code that the stream handlers use to report the two refusals that get a status line. -/
def isRefusal (e : Err) : Prop := e = Err.ERROR_STREAM_PUBLISH_NOT_SUPPORT ∨ e = Err.ERROR_STREAM_SOURCE_NOT_EXITS

/-- What is taken for granted about a request: the buffers and messages have a sensible size, and writing to its connection does not fail with one of the codes
that mean a refusal. What it sends, and how reading from it fails, is arbitrary. -/
structure ReqOk (q : Req) : Prop where
  tag : q.tag.length = 29
  mem : 15 ≤ q.mem.length ∧ q.mem.length < 2 ^ 63
  fails : ∀ e ∈ q.fails, ¬ isRefusal e
  msgs : match q.via with
    | .http => True
    | .rtmp _ ms _ => ∀ m ∈ ms, ∀ b, m.body = some b → b.length < 2 ^ 64
    | .srt => q.mem.length = 188

/-- Every packet published during a log fits into an FLV tag. -/
def fitsFlv (l : Log) : Prop := ∀ cid, ∀ p ∈ publishedTo cid l, (Flv.body p).length < 2 ^ 24

/-- `b` is the body that a request sends, in the framing its header announces, or what came of it before the connection was lost; `closed` is what a reader is told at
its end. -/
def Sends (q : Req) (b : List UInt8) (closed : Err) : Prop :=
  Http.BodyArrives q.url.isChunked q.url.contentLength q.io b closed ∨ Http.BodyCut q.url.isChunked q.url.contentLength q.io b closed

/-- The packets in the FLV file `b`, up to the first `n`, for a demuxer with the buffer of the request. -/
def uploaded (q : Req) (b : List UInt8) (closed : Err) (n : Nat) : List AVPkt := (Flv.file q.mem.length closed n b).1

end Spec
