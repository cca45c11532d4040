import Verif.Spec.Names
import Verif.Spec.Net
/-!
# The stream ids of SRT clients
-/
namespace Spec.SrtLive
open Sps Spec.Names

/-- A stream id: pairs `key=value`, each followed by a comma, and what follows the last comma. -/
structure Id where
  pairs : List Header
  rest : Text := []

/-- The id as it is sent. -/
def Id.text (a : Id) : Text := ascii "#!::" ++ Net.renderTrail a.pairs ++ a.rest

/-- The id names the stream HOST/APP/NAME (`h`) and a mode (`m`; empty if there is none). -/
structure Id.For (a : Id) (st : Stream) (mode : Text) : Prop where
  stream : st.Ok
  words : ∀ p ∈ a.pairs, Net.word p.1 ∧ Net.word p.2
  rest : 44 ∉ a.rest
  resource : Net.Last (ascii "h") a.pairs (st.host ++ st.path)
  mode : Net.Last (ascii "m") a.pairs mode

end Spec.SrtLive
