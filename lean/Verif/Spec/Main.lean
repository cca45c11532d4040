import Verif.Model.Main
import Verif.Model.Sockets
/-!
# The start of a program
-/
namespace Spec.Main
open Sps Sps.Main

/-- What the machine says when the program listens: what listening gives on some machine, or that there was no coroutine for the server; and `st_init` gives 0 or -1. -/
structure Real (m : Machine) : Prop where
  listen : ∀ p, m.listen p = Err.ERROR_CO_CREATE ∨ ∃ (os os' : Os) (t : Transport) (port : Nat) (reuse : Bool) (id : Option Nat), os.serverListen t port reuse = some (m.listen p, id, os')
  co : m.co = 0 ∨ m.co = -1

/-- A file the program may read and write. -/
def Open (m : Machine) (name file : Text) : Prop := m.file name = some ⟨file, true, true⟩

/-- Programs end with an exit status other than 0 when they fail. -/
def Fails (o : Outcome) : Prop := ∃ s, o = .ended s ∧ 0 < s ∧ s < 256

end Spec.Main
