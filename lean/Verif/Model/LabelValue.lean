import Verif.Model.Labels

/-!
# Label values

The conversions between label values and the integers of Rust, `src/labels.rs`. Integers are given by their
mathematical value. `ofUsize` and `ofIsize` are in `Model/Labels.lean`.
-/

namespace Equistore.LabelValue

/-- `From<u32> for LabelValue`, `src/labels.rs` lines 42-47. -/
def ofU32 (value : UInt32) : Res LabelValue := do
  Res.assert (value < 2147483647) "assertion failed: value < i32::MAX as u32"
  return value.toInt32

/-- `From<i32> for LabelValue`, `src/labels.rs` lines 49-53, and `LabelValue::new`, lines 70-73. -/
def ofI32 (value : Int32) : LabelValue := value

/-- `LabelValue::usize`, `src/labels.rs` lines 75-80, with the `usize` of a computer where pointers have `bits` bits.
Without debug assertions, the cast `as usize` extends the sign. -/
def usizeIn (build : Build) (bits : Nat) (value : LabelValue) : Res Nat := do
  build.debugAssert (0 ≤ value.toInt) "assertion failed: self.0 >= 0"
  return (value.toInt % (2 ^ bits : Nat)).toNat

/-- `LabelValue::isize`, `src/labels.rs` lines 83-85. -/
def isize (value : LabelValue) : Int := value.toInt

/-- `LabelValue::i32`, `src/labels.rs` lines 88-90. -/
def i32 (value : LabelValue) : Int32 := value

/-- `==` between label values and `i32`, in both directions, `src/labels.rs` lines 18-28. -/
def eqI32 (value : LabelValue) (other : Int32) : Bool := value == other

end Equistore.LabelValue
