import Verif.Model.Http
/-!
# The header fields of a message, and how a parser tells them (C129)

RFC 7230, 3.2: a field has a name and a value; the value may go on in further lines, each of which begins with a space (folding), and is then
read as if the lines were joined by a space. `http_parser` tells the name of a field, and then every line of its value.
-/
namespace Sps.Spec.HttpFields

/-- A field as it was sent: its name, the first line of its value, and the further lines. -/
structure Field where
  name : Text
  line : Text
  more : List Text := []
deriving DecidableEq, Repr

/-- The value of the field. -/
def Field.value (f : Field) : Text := f.line ++ f.more.flatMap (32 :: ·)

/-- What `http_parser` calls back for a field. -/
def Field.told (f : Field) : List HttpHead.Call := .field f.name :: .value f.line :: f.more.map .value

/-- The value of the first field of that name, or nothing. -/
def find (k : Text) (fs : List Field) : Text := ((fs.find? fun f => f.name = k).map Field.value).getD []

end Sps.Spec.HttpFields
