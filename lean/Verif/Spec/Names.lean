import Verif.Spec.Http
import Verif.Spec.Net
/-!
# Absolute URLs and the names of streams

`http_parser_parse_url` is not part of the repository. What is relied on is that it finds the parts of a URL put together from such parts.
-/
namespace Spec.Names
open Sps

/-- The parts of an absolute URL; the port is given by its digits. -/
structure Parts where
  schema : Text
  host : Text
  port : Option Text := none
  path : Text
  query : Option Text := none

/-- Something that may be missing, with a mark before it. -/
def opt (mark : UInt8) : Option Text → Text
  | none => []
  | some t => mark :: t

/-- `schema://host:port/path?query`. -/
def Parts.text (p : Parts) : Text := p.schema ++ ascii "://" ++ p.host ++ opt 58 p.port ++ p.path ++ opt 63 p.query

/-- A letter. -/
def letter (b : UInt8) : Prop := 97 ≤ b.toNat ∧ b.toNat ≤ 122
/-- A visible character. -/
def graph (b : UInt8) : Prop := 33 ≤ b.toNat ∧ b.toNat ≤ 126
/-- A character of a host name: lower case letter, digit, `-` or `.`. -/
def hostChar (b : UInt8) : Prop := letter b ∨ (48 ≤ b.toNat ∧ b.toNat ≤ 57) ∨ b = 45 ∨ b = 46

def hostOk (h : Text) : Prop := h ≠ [] ∧ ∀ b ∈ h, hostChar b
/-- Visible characters but `?` and `#`. -/
def pathChars (t : Text) : Prop := ∀ b ∈ t, graph b ∧ b ≠ 63 ∧ b ≠ 35
def pathOk (t : Text) : Prop := t.head? = some 47 ∧ pathChars t
def portOk (d : Option Text) : Prop := ∀ t, d = some t → ∃ n, n < 65536 ∧ t ≠ [] ∧ Http.decValue 0 t = some n
def queryOk (q : Option Text) : Prop := ∀ t, q = some t → t ≠ [] ∧ ∀ b ∈ t, graph b ∧ b ≠ 35

instance (h : Text) : Decidable (hostOk h) := by unfold hostOk hostChar letter; infer_instance
instance (h : Text) : Decidable (pathOk h) := by unfold pathOk pathChars graph; infer_instance
instance (h : Text) : Decidable (pathChars h) := by unfold pathChars graph; infer_instance

structure Parts.Ok (p : Parts) : Prop where
  schema : p.schema ≠ [] ∧ ∀ b ∈ p.schema, letter b
  host : hostOk p.host
  port : portOk p.port
  path : pathOk p.path
  query : queryOk p.query

/-- What a parser should find. -/
def Parts.fields (p : Parts) : UrlFields :=
  { schema := some p.schema, host := some p.host, port := p.port.bind (Http.decValue 0), path := some p.path, query := p.query }

/-- The parser of URLs is right about URLs put together from their parts. -/
def ReadsUrls (parser : Text → Option UrlFields) : Prop := ∀ p : Parts, p.Ok → parser p.text = some p.fields

/-- The stream `name` of the application at `app` on a host. -/
structure Stream where
  host : Text
  app : Text
  name : Text

/-- `app` is a path and `name` is one segment. -/
structure Stream.Ok (s : Stream) : Prop where
  host : hostOk s.host
  app : pathOk s.app
  name : s.name ≠ [] ∧ pathChars s.name ∧ 47 ∉ s.name

/-- Its path. -/
def Stream.path (s : Stream) : Text := s.app ++ 47 :: s.name

/-- An extension. -/
def extOk (e : Text) : Prop := e ≠ [] ∧ e ≠ ascii "-" ∧ pathChars e ∧ 46 ∉ e ∧ 47 ∉ e

end Spec.Names
