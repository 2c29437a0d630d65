import Verif.Model.LabelValue

/-! # Integers of Rust -/

namespace Equistore.Spec

/-- The integer types which can be converted to label values. -/
inductive IntType
  | u32 | i32 | usize | isize
  deriving DecidableEq

/-- The numbers of a type, `bits` being the number of bits of `usize` and `isize`. -/
def IntType.Has (bits : Nat) (x : Int) : IntType → Prop
  | .u32 => 0 ≤ x ∧ x < 2 ^ 32
  | .i32 => -2 ^ 31 ≤ x ∧ x < 2 ^ 31
  | .usize => 0 ≤ x ∧ x < 2 ^ bits
  | .isize => -2 ^ (bits - 1) ≤ x ∧ x < 2 ^ (bits - 1)

/-- The conversion of a number of this type. -/
def IntType.convert (x : Int) : IntType → Res LabelValue
  | .u32 => LabelValue.ofU32 (UInt32.ofNat x.toNat)
  | .i32 => .ok (LabelValue.ofI32 (Int32.ofInt x))
  | .usize => LabelValue.ofUsize x.toNat
  | .isize => LabelValue.ofIsize x

/-- Label values are signed integers with 32 bits. -/
def Representable (x : Int) : Prop := -2 ^ 31 ≤ x ∧ x < 2 ^ 31

end Equistore.Spec
