import Verif.Attr

/-! # Bit-vector lemmas: storing an `Int` into a lane -/

namespace Verif

theorem ofInt_congr {w : Nat} {x y : Int} (h : x % (2 ^ w : Nat) = y % (2 ^ w : Nat)) :
    BitVec.ofInt w x = BitVec.ofInt w y := by
  apply BitVec.eq_of_toNat_eq
  rw [BitVec.toNat_ofInt, BitVec.toNat_ofInt, h]

theorem ofInt_emod (w : Nat) (x : Int) {m : Int} (h : ((2 ^ w : Nat) : Int) ∣ m) :
    BitVec.ofInt w (x % m) = BitVec.ofInt w x :=
  ofInt_congr (Int.emod_emod_of_dvd x h)

theorem ofInt_bmod (w : Nat) (x : Int) {m : Nat} (h : ((2 ^ w : Nat) : Int) ∣ m) :
    BitVec.ofInt w (x.bmod m) = BitVec.ofInt w x := by
  apply ofInt_congr
  rw [← Int.emod_emod_of_dvd (x.bmod m) h, Int.bmod_emod, Int.emod_emod_of_dvd x h]

theorem ofInt_sub (w : Nat) (x y : Int) :
    BitVec.ofInt w (x - y) = BitVec.ofInt w x - BitVec.ofInt w y := by
  rw [Int.sub_eq_add_neg, BitVec.ofInt_add, BitVec.ofInt_neg, BitVec.sub_eq_add_neg]

theorem ofInt_toInt_trunc {W : Nat} (w : Nat) (z : BitVec W) (h : w ≤ W) :
    BitVec.ofInt w z.toInt = z.setWidth w := by
  apply BitVec.eq_of_toNat_eq
  rw [BitVec.toNat_ofInt, BitVec.toInt_eq_toNat_bmod]
  have hd : ((2 ^ w : Nat) : Int) ∣ ((2 ^ W : Nat) : Int) :=
    Int.natCast_dvd_natCast.2 (Nat.pow_dvd_pow 2 h)
  rw [← Int.emod_emod_of_dvd _ hd, Int.bmod_emod, Int.emod_emod_of_dvd _ hd, BitVec.toNat_setWidth]
  omega

theorem ofInt_toNat (w : Nat) {W : Nat} (z : BitVec W) :
    BitVec.ofInt w (z.toNat : Int) = z.setWidth w := by
  apply BitVec.eq_of_toNat_eq
  rw [BitVec.toNat_ofInt, BitVec.toNat_setWidth]
  omega

theorem ofInt_toInt_ext (w : Nat) {W : Nat} (z : BitVec W) :
    BitVec.ofInt w z.toInt = z.signExtend w := rfl

theorem setWidth_ofInt {W w : Nat} (x : Int) (h : w ≤ W) :
    (BitVec.ofInt W x).setWidth w = BitVec.ofInt w x := by
  rw [← ofInt_toNat, BitVec.toNat_ofInt]
  have : ((x % (2 ^ W : Nat)).toNat : Int) = x % (2 ^ W : Nat) :=
    Int.toNat_of_nonneg (Int.emod_nonneg _ (by have := Nat.two_pow_pos W; omega))
  rw [this]
  exact ofInt_emod w x (Int.natCast_dvd_natCast.2 (Nat.pow_dvd_pow 2 h))

/-- Most significant half, 16-bit lanes. -/
theorem ofInt_high8 (v : Int) :
    BitVec.ofInt 8 (v / 256) = (BitVec.ofInt 16 v).extractLsb' 8 8 := by
  apply BitVec.eq_of_toNat_eq
  rw [BitVec.toNat_ofInt, BitVec.extractLsb'_toNat, BitVec.toNat_ofInt, Nat.shiftRight_eq_div_pow]
  omega
/-- Most significant half, 32-bit lanes. -/
theorem ofInt_high16 (v : Int) :
    BitVec.ofInt 16 (v / 65536) = (BitVec.ofInt 32 v).extractLsb' 16 16 := by
  apply BitVec.eq_of_toNat_eq
  rw [BitVec.toNat_ofInt, BitVec.extractLsb'_toNat, BitVec.toNat_ofInt, Nat.shiftRight_eq_div_pow]
  omega
/-- Most significant half, 64-bit lanes. -/
theorem ofInt_high32 (v : Int) :
    BitVec.ofInt 32 (v / 4294967296) = (BitVec.ofInt 64 v).extractLsb' 32 32 := by
  apply BitVec.eq_of_toNat_eq
  rw [BitVec.toNat_ofInt, BitVec.extractLsb'_toNat, BitVec.toNat_ofInt, Nat.shiftRight_eq_div_pow]
  omega

theorem nat_add_mod32 (x y : BitVec 32) :
    ((x + y).toNat : Int) = ((x.toNat : Int) + y.toNat) % 4294967296 := by
  rw [BitVec.toNat_add]; omega
theorem nat_mul_mod32 (x y : BitVec 32) :
    ((x * y).toNat : Int) = ((x.toNat : Int) * y.toNat) % 4294967296 := by
  rw [BitVec.toNat_mul]; simp
theorem nat_sub_mod32 (x y : BitVec 32) :
    ((x - y).toNat : Int) = ((x.toNat : Int) - y.toNat) % 4294967296 := by
  rw [BitVec.toNat_sub]; omega
theorem nat_add_mod64 (x y : BitVec 64) :
    ((x + y).toNat : Int) = ((x.toNat : Int) + y.toNat) % 18446744073709551616 := by
  rw [BitVec.toNat_add]; omega
theorem nat_sub_mod64 (x y : BitVec 64) :
    ((x - y).toNat : Int) = ((x.toNat : Int) - y.toNat) % 18446744073709551616 := by
  rw [BitVec.toNat_sub]; omega
theorem int_add_bmod32 (x y : BitVec 32) :
    (x + y).toInt = (x.toInt + y.toInt).bmod 4294967296 := BitVec.toInt_add x y
theorem int_sub_bmod32 (x y : BitVec 32) :
    (x - y).toInt = (x.toInt - y.toInt).bmod 4294967296 := BitVec.toInt_sub
theorem int_mul_bmod32 (x y : BitVec 32) :
    (x * y).toInt = (x.toInt * y.toInt).bmod 4294967296 := BitVec.toInt_mul x y
theorem int_add_bmod64 (x y : BitVec 64) :
    (x + y).toInt = (x.toInt + y.toInt).bmod 18446744073709551616 := BitVec.toInt_add x y
theorem int_sub_bmod64 (x y : BitVec 64) :
    (x - y).toInt = (x.toInt - y.toInt).bmod 18446744073709551616 := BitVec.toInt_sub

theorem toInt_div_pow {w : Nat} (z : BitVec w) (k : Nat) :
    z.toInt / 2 ^ k = (z.sshiftRight k).toInt := by
  rw [BitVec.toInt_sshiftRight, Int.shiftRight_eq_div_pow]; rfl
theorem toNat_div_pow {w : Nat} (z : BitVec w) (k : Nat) :
    (z.toNat : Int) / 2 ^ k = ((z >>> k).toNat : Int) := by
  rw [BitVec.toNat_ushiftRight, Nat.shiftRight_eq_div_pow]; simp

end Verif
