import Verif.Model.Server
import Verif.Spec.Http
/-!
# Hosts and servers: what is selected
-/
namespace Spec.Server
open Sps Sps.Conf

/-- What a host block is for: one name, all names in a domain (`*.domain`), or all names (`*`). -/
inductive Slot
  | exact (name : Text)
  | wild (domain : Text)
  | dflt
deriving DecidableEq, Repr

/-- What a host block of this name is for; other names beginning with `*` are not allowed. -/
def slot (name : Text) : Option Slot :=
  match name with
  | 42 :: r => match r with
    | [] => some .dflt
    | 46 :: domain => if domain = [] then none else some (.wild domain)
    | _ => none
  | n => some (.exact n)

/-- The first host for a slot. -/
def firstFor (hs : List Module) (s : Slot) : Option Module := hs.find? fun h => slot h.name = some s

/-- What is behind the first dot of a name. -/
def domain : Text → Option Text
  | [] => none
  | b :: r => if b = 46 then some r else domain r

/-- The host that is to serve a name: the one for the name, else the one for its domain, else the default. -/
def choose (hs : List Module) (name : Text) : Option Module :=
  firstFor hs (.exact name) <|> ((domain name).bind fun d => firstFor hs (.wild d)) <|> firstFor hs .dflt

/-- Handlers one after the other, all of them returning and asking to continue. -/
inductive Through {S : Type} : List (Phase.Handler S) → S → S → Prop
  | nil (s : S) : Through [] s s
  | cons {f : Phase.Handler S} {fs : List (Phase.Handler S)} {s t u : S} : f s = .ok (Phase.CONTINUE, t) → Through fs t u → Through (f :: fs) s u

/-- A text option of a host. -/
def opt (h : Module) (n : String) (v : String) : Prop := h.conf (ascii n) = some (.str (ascii v))

/-- `addr` as it is written in the configuration: `ip:port`, or `ip` for the usual port. -/
inductive Address : Text → (usual : Int) → Text × Int → Prop
  | port (ip ds : Text) (n : Nat) (usual : Int) : 58 ∉ ip → ds ≠ [] → Http.decValue 0 ds = some n → n < 2 ^ 31 →
      Address (ip ++ 58 :: ds) usual (ip, n)
  | plain (ip : Text) (usual : Int) : 58 ∉ ip → Address ip usual (ip, usual)

/-- The usual port of a scheme. -/
def usualPort (schema : Text) : Int :=
  if schema = ascii "rtmp" then 1935 else if schema = ascii "https" then 443 else 80

end Spec.Server

namespace Sps
open Conf

/-- The server blocks of a configuration. -/
def Setup.all (root : Module) : List Module :=
  (root.inner.filter fun b => b.kind = .http ∨ b.kind = .rtmp ∨ b.kind = .srt).flatMap Module.inner

end Sps
