import Verif.Model.Bits
import Verif.Spec.Bits
/-! Helper lemmas about bit strings and `BitCtx`. -/
namespace Spec

@[simp] theorem bitsOfNat_length (w v : Nat) : (bitsOfNat w v).length = w := by
  induction w with
  | zero => rfl
  | succ w ih => simp [bitsOfNat, ih]

theorem foldl_bits (bs : List Bool) (a : Nat) :
    bs.foldl (fun a b => 2 * a + b.toNat) a = a * 2 ^ bs.length + bitsVal bs := by
  unfold bitsVal
  induction bs generalizing a with
  | nil => simp
  | cons b bs ih =>
    simp only [List.foldl_cons, List.length_cons]
    rw [ih, ih (2 * 0 + b.toNat), Nat.pow_succ]
    grind

theorem bitsVal_append (a b : List Bool) :
    bitsVal (a ++ b) = bitsVal a * 2 ^ b.length + bitsVal b := by
  conv => lhs; unfold bitsVal
  rw [List.foldl_append, foldl_bits]; rfl

@[simp] theorem bitsVal_nil : bitsVal [] = 0 := rfl

theorem bitsVal_cons (b : Bool) (l : List Bool) :
    bitsVal (b :: l) = b.toNat * 2 ^ l.length + bitsVal l := by
  have := bitsVal_append [b] l
  simpa [bitsVal] using this

theorem bitsVal_bitsOfNat (w v : Nat) : bitsVal (bitsOfNat w v) = v % 2 ^ w := by
  induction w with
  | zero => simp [bitsOfNat, Nat.mod_one]
  | succ w ih =>
    rw [bitsOfNat, bitsVal_cons, ih, bitsOfNat_length, Nat.pow_succ, Nat.mod_mul, Nat.toNat_testBit,
      Nat.add_comm, Nat.mul_comm]

theorem bitsVal_lt (l : List Bool) : bitsVal l < 2 ^ l.length := by
  induction l with
  | nil => simp
  | cons b l ih =>
    rw [bitsVal_cons, List.length_cons, Nat.pow_succ]
    cases b <;> simp <;> omega

theorem bitsOfNat_mod (w v : Nat) : bitsOfNat w (v % 2 ^ w) = bitsOfNat w v := by
  suffices h : ∀ k, k ≤ w → bitsOfNat k (v % 2 ^ w) = bitsOfNat k v from h w (Nat.le_refl _)
  intro k
  induction k with
  | zero => intro _; rfl
  | succ k ih =>
    intro hk
    simp only [bitsOfNat]
    rw [ih (by omega), Nat.testBit_mod_two_pow]
    simp [show k < w by omega]

theorem bitsOfNat_add (a b v : Nat) :
    bitsOfNat (a + b) v = bitsOfNat a (v / 2 ^ b) ++ bitsOfNat b v := by
  induction a with
  | zero => simp [bitsOfNat]
  | succ a ih =>
    rw [Nat.add_right_comm]
    simp only [bitsOfNat, ih, List.cons_append]
    rw [Nat.testBit_div_two_pow]

theorem bitsOfNat_bitsVal (l : List Bool) : bitsOfNat l.length (bitsVal l) = l := by
  induction l with
  | nil => rfl
  | cons b l ih =>
    have h := bitsVal_lt l
    simp only [List.length_cons, bitsOfNat]
    congr 1
    · rw [bitsVal_cons, Nat.testBit_eq_decide_div_mod_eq]
      have hp : 0 < 2 ^ l.length := Nat.two_pow_pos _
      rw [Nat.mul_comm, Nat.mul_add_div hp, Nat.div_eq_of_lt h]
      cases b <;> simp
    · rw [← bitsOfNat_mod, bitsVal_cons, Nat.mul_add_mod_self_right, bitsOfNat_mod, ih]

@[simp] theorem bitsOf_nil : bitsOf [] = [] := rfl

@[simp] theorem bitsOf_cons (b : UInt8) (l : List UInt8) :
    bitsOf (b :: l) = bitsOfNat 8 b.toNat ++ bitsOf l := rfl

@[simp] theorem bitsOf_append (a b : List UInt8) : bitsOf (a ++ b) = bitsOf a ++ bitsOf b := by
  simp [bitsOf]

@[simp] theorem bitsOf_length (l : List UInt8) : (bitsOf l).length = 8 * l.length := by
  induction l with
  | nil => rfl
  | cons b l ih => simp [ih]; omega

theorem bitsOf_drop (l : List UInt8) (i : Nat) : (bitsOf l).drop (8 * i) = bitsOf (l.drop i) := by
  induction l generalizing i with
  | nil => simp
  | cons b l ih =>
    cases i with
    | zero => simp
    | succ i =>
      simp only [bitsOf_cons, List.drop_succ_cons]
      rw [List.drop_append, ← ih i]
      simp only [bitsOfNat_length]
      rw [List.drop_eq_nil_of_le (by simp; omega), List.nil_append]
      congr 1

theorem bitsOf_take (l : List UInt8) (i : Nat) : (bitsOf l).take (8 * i) = bitsOf (l.take i) := by
  induction l generalizing i with
  | nil => simp
  | cons b l ih =>
    cases i with
    | zero => simp
    | succ i =>
      simp only [bitsOf_cons, List.take_succ_cons]
      rw [List.take_append, ← ih i]
      simp only [bitsOfNat_length]
      rw [List.take_of_length_le (by simp; omega)]
      congr 2

/-- The tail of a bit string starting `r` bits before the end of byte `i`. -/
theorem bitsOf_drop_sub (l : List UInt8) (i r : Nat) (b : UInt8) (hr : r ≤ 8) (h : l[i]? = some b) :
    (bitsOf l).drop (8 * (i + 1) - r) = bitsOfNat r b.toNat ++ bitsOf (l.drop (i + 1)) := by
  have hi : i < l.length := by
    rcases Nat.lt_or_ge i l.length with h' | h'
    · exact h'
    · rw [List.getElem?_eq_none h'] at h; cases h
  have hb : l[i] = b := by rw [List.getElem?_eq_getElem hi] at h; exact Option.some.inj h
  have e : 8 * (i + 1) - r = 8 * i + (8 - r) := by omega
  rw [e, ← List.drop_drop, bitsOf_drop, List.drop_eq_getElem_cons hi, hb, bitsOf_cons]
  have e8 : (8 : Nat) = (8 - r) + r := by omega
  conv => lhs; arg 2; arg 1; rw [e8, bitsOfNat_add]
  rw [List.append_assoc, List.drop_append]
  simp

/-! ### Bytes -/

theorem foldl_bytes (l : List UInt8) (a : Nat) :
    l.foldl (fun a b => 256 * a + b.toNat) a = a * 256 ^ l.length + beVal l := by
  unfold beVal
  induction l generalizing a with
  | nil => simp
  | cons b l ih =>
    simp only [List.foldl_cons, List.length_cons]
    rw [ih, ih (256 * 0 + b.toNat), Nat.pow_succ]
    grind

@[simp] theorem beVal_nil : beVal [] = 0 := rfl

theorem beVal_append (a b : List UInt8) : beVal (a ++ b) = beVal a * 256 ^ b.length + beVal b := by
  conv => lhs; unfold beVal
  rw [List.foldl_append, foldl_bytes]; rfl

theorem beVal_cons (b : UInt8) (l : List UInt8) : beVal (b :: l) = b.toNat * 256 ^ l.length + beVal l := by
  have := beVal_append [b] l
  simpa [beVal] using this

theorem beVal_lt (l : List UInt8) : beVal l < 256 ^ l.length := by
  induction l with
  | nil => simp
  | cons b l ih =>
    rw [beVal_cons, List.length_cons, Nat.pow_succ]
    have := b.toNat_lt
    have : b.toNat * 256 ^ l.length ≤ 255 * 256 ^ l.length := Nat.mul_le_mul_right _ (by omega)
    omega

/-- The number spelled by the bits of a byte string is its big-endian value. -/
theorem bitsVal_bitsOf (l : List UInt8) : bitsVal (bitsOf l) = beVal l := by
  induction l with
  | nil => rfl
  | cons b l ih =>
    rw [bitsOf_cons, bitsVal_append, beVal_cons, ih, bitsVal_bitsOfNat, bitsOf_length, Nat.pow_mul]
    have := b.toNat_lt
    rw [Nat.mod_eq_of_lt (by omega)]

@[simp] theorem beBytes_length (w v : Nat) : (beBytes w v).length = w := by
  induction w with
  | zero => rfl
  | succ w ih => simp [beBytes, ih]

theorem beVal_beBytes (w v : Nat) : beVal (beBytes w v) = v % 256 ^ w := by
  induction w with
  | zero => simp [beBytes, Nat.mod_one]
  | succ w ih =>
    rw [beBytes, beVal_cons, ih, beBytes_length, UInt8.toNat_ofNat', Nat.pow_succ (n := 256),
      Nat.mod_mul, Nat.add_comm, Nat.mul_comm]

theorem beBytes_beVal (l : List UInt8) : beBytes l.length (beVal l) = l := by
  suffices h : ∀ k, beBytes l.length (beVal l + k * 256 ^ l.length) = l by simpa using h 0
  induction l with
  | nil => intro k; rfl
  | cons b l ih =>
    intro k
    simp only [List.length_cons, beBytes]
    have h := beVal_lt l
    have e : beVal (b :: l) + k * 256 ^ (l.length + 1) =
        beVal l + (b.toNat + k * 256) * 256 ^ l.length := by
      rw [beVal_cons, Nat.pow_succ]; grind
    rw [e, ih]
    congr 1
    rw [Nat.add_mul_div_right _ _ (Nat.pow_pos (by decide)), Nat.div_eq_of_lt h]
    apply UInt8.toNat.inj
    rw [UInt8.toNat_ofNat']
    have := b.toNat_lt
    omega

end Spec
