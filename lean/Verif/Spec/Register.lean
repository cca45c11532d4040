import Verif.Model.Register
/-! # Registers: what a user relies on -/
namespace Spec.Register
open Sps

/-- A history registers `r` and does not cancel it after that. -/
def Registered (ops : List Registers.Op) (r : Reg) : Prop :=
  ∃ a b, ops = a ++ .reg r :: b ∧ ∀ x, .cancel x ∈ b → x.addr ≠ r.addr

/-- An address stands for one object. -/
def objects (ops : List Registers.Op) : Prop :=
  ∀ x y, (.reg x ∈ ops ∨ .cancel x ∈ ops) → (.reg y ∈ ops ∨ .cancel y ∈ ops) → x.addr = y.addr → x = y

end Spec.Register
