import Verif.Model.Tls
import Verif.Spec.Http
/-!
# What TLS is for
-/
namespace Spec.Tls
open Sps Spec

/-- What is relied on of the record layer: data once decoded stays, nothing follows the end, and `SSL_read` returns between one and `size` of the
bytes decoded. -/
structure Lawful (c : Records) : Prop where
  more : ∀ a b, c.plain a <+: c.plain (a ++ b)
  ended : ∀ a b, c.ended a = true → c.plain (a ++ b) = c.plain a ∧ c.ended (a ++ b) = true
  cut : ∀ a avail size, 0 < avail → 0 < size → 1 ≤ c.cut a avail size ∧ c.cut a avail size ≤ avail ∧ c.cut a avail size ≤ size

/-- The peer's records still carry exactly `p`, and then reading fails with `cl`: with the error of the transport, or `ERROR_SSL_READ` if the peer
ended the connection. -/
def Carries (c : Records) (t : Sps.Tls) (p : List UInt8) (cl : Err) : Prop :=
  ∃ s cl0, Arrives t.io s cl0 ∧ p = (c.plain (t.raw ++ t.rbio ++ s)).drop t.taken ∧ t.taken ≤ (c.plain t.raw).length ∧
    cl = if c.ended (t.raw ++ t.rbio ++ s) then Err.ERROR_SSL_READ else cl0

/-- Any program that reads: it asks for at most `n` bytes and goes on with the result. -/
inductive Prog (α : Type)
  | done (a : α)
  | ask (n : Nat) (pos : 0 < n) (k : ReadRes → Prog α)

/-- Its result over a reader. -/
def Prog.result {α σ : Type} (read : σ → Nat → Option (ReadRes × σ)) : Prog α → σ → Option α
  | .done a, _ => some a
  | .ask n _ k, s => (read s n).bind fun (x, s) => (k x).result read s

/-- The events are the bytes `f`, in one or more pieces. -/
def Pieces (evs : List IoEv) (f : List UInt8) : Prop := evs.all evOk = true ∧ noErr evs = true ∧ streamOf evs = f

/-- The records of some data, as a peer decodes them: the next record adds its data. -/
def Opens (s : Sps.Tls.Seal) (peer : List UInt8 → List UInt8) (sent : Nat → List UInt8 → Prop) : Prop :=
  ∀ i w d, sent i w → d ≠ [] → sent (i + 1) (w ++ s.wrap i d) ∧ peer (w ++ s.wrap i d) = peer w ++ d

/-- The host has a certificate: both files are named in its configuration. -/
def Has (h : Conf.Module) (crt key : Text) : Prop :=
  h.conf (ascii "ssl_crt_file") = some (.str crt) ∧ h.conf (ascii "ssl_key_file") = some (.str key) ∧ crt ≠ [] ∧ key ≠ []

end Spec.Tls
