import Verif.Model.Addr
import Verif.Spec.Log
/-!
# Addresses as people write them
-/
namespace Spec.Addr
open Sps

/-- An IPv4 address. -/
abbrev Ip := UInt8 × UInt8 × UInt8 × UInt8

/-- `t` is the address in the usual notation: four decimal numbers with points between. -/
def Dotted (ip : Ip) (t : Text) : Prop := ∃ a b c d : Text, t = a ++ [46] ++ b ++ [46] ++ c ++ [46] ++ d ∧
  Log.Digits ip.1.toNat a ∧ Log.Digits ip.2.1.toNat b ∧ Log.Digits ip.2.2.1.toNat c ∧ Log.Digits ip.2.2.2.toNat d

/-- What the operating system writes for the IPv4 end `ip`:`port`: the port with its high byte first. -/
def wire (ip : Ip) (port : UInt16) : Sps.Addr.SockAddr := { family := 2, port := (UInt8.ofNat (port.toNat / 256), UInt8.ofNat (port.toNat % 256)), ip := ip }

end Spec.Addr
