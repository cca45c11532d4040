/-! # C++ integer conversions used by several models -/
namespace Sps

/-- Conversion of an unsigned value to `int` (32 bits, two's complement). -/
def i32 (n : Nat) : Int := if n % 2 ^ 32 < 2 ^ 31 then (n % 2 ^ 32 : Nat) else (n % 2 ^ 32 : Nat) - (2 ^ 32 : Int)

/-- Conversion of a signed value to a 64-bit `size_t`. -/
def u64 (i : Int) : Nat := (i % (2 ^ 64 : Int)).toNat

/-- 32-bit `uint32_t` subtraction. -/
def sub32 (a b : Nat) : Nat := (2 ^ 32 + a - b) % 2 ^ 32

theorem i32_small {n : Nat} (h : n < 2 ^ 31) : i32 n = n := by
  unfold i32; rw [Nat.mod_eq_of_lt (by omega), if_pos h]
theorem u64_nat {n : Nat} (h : n < 2 ^ 64) : u64 (n : Int) = n := by
  unfold u64; omega
theorem sub32_le {a b : Nat} (h : b ≤ a) (ha : a < 2 ^ 32) : sub32 a b = a - b := by
  unfold sub32; omega

end Sps
