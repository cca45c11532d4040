import Verif.Spec.Serve
import Verif.Spec.Ts
/-!
# Requests that keep to the formats

What a client has to do so that serving it is defined.
-/
namespace Spec
open Sps

/-- A request that keeps to the formats. A publisher over HTTP sends (or loses its connection after) an FLV file in which every audio or video tag has room for the header
inside it; a player over HTTP does not name the RTMP format; the AAC messages of a publisher over RTMP have their two bytes of header; the transport stream of a publisher over
SRT does not make the demuxer read outside a packet (`Ts.feed` is the demuxer). Everything else is free: wrong codecs, tags of unknown types or larger than the buffer, no FLV at
all, messages that mean nothing, a connection that ends anywhere. -/
def Keeps (env : Site.Env) (q : Req) : Prop :=
  match q.via with
  | .http =>
    if q.url.method = ascii "POST" then ∃ b closed, Sends q b closed ∧ ∀ n, (Flv.file q.mem.length closed n b).2.2 = false
    else ∀ f, Format.create env.outs q.url.ext env.junk = some f → f.word = ascii "flv"
  | .rtmp publishing ms _ => publishing = true → ∀ m ∈ ms, Rtmp.judge m ≠ .tooShort
  | .srt => q.url.method ≠ ascii "request" → ∃ b closed, Arrives q.io b closed ∧ ∀ n, 188 * n ≤ b.length → Ts.feed TsTap.handler TsCtx.create ({}, []) (Ts.chunks n b) ≠ none

/-- The packet fits into an FLV tag. -/
def Small (p : AVPkt) : Prop := (Flv.body p).length < 2 ^ 24

/-- A request whose packets fit into FLV tags. Those of FLV files do; messages of RTMP do if they are not longer than their length field says (three bytes); of a transport
stream, the units must not be longer. -/
def KeepsSmall (q : Req) : Prop :=
  match q.via with
  | .http => True
  | .rtmp _ ms _ => ∀ m ∈ ms, ∀ b, m.body = some b → b.length < 2 ^ 24
  | .srt => ∀ b closed n c st raw, Arrives q.io b closed → 188 * n ≤ b.length → Ts.feed TsTap.handler TsCtx.create ({}, []) (Ts.chunks n b) = some (Err.SUCCESS, c, (st, raw)) →
      ∀ p ∈ st.queue ++ raw, Small p

end Spec
