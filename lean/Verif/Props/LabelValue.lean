import Verif.Spec.LabelValue
import Verif.Lemmas.Res

/-!
# C97: Label values are the numbers they are made from
-/

namespace Equistore
open Spec

/-- **C97**, full statement: a number is converted without changing it exactly when it can be represented with 32 bits;
other numbers panic. -/
def C97_full_statement : Prop :=
  ∀ (bits : Nat) (type : IntType) (x : Int), bits = 32 ∨ bits = 64 → type.Has bits x →
    (Representable x → ∃ v, type.convert x = .ok v ∧ v.toInt = x) ∧
    (¬ Representable x → ∃ m, type.convert x = .panic m)

private theorem toInt_ofInt {x : Int} (h : Representable x) : (Int32.ofInt x).toInt = x := by
  obtain ⟨h1, h2⟩ := h
  rw [Int32.toInt_ofInt]
  exact Int.bmod_eq_of_le (by change -(4294967296 / 2 : Int) ≤ x; omega) (by change x < (4294967296 + 1) / 2; omega)

private theorem toInt_ofUInt32 {n : Nat} (h : n < 2 ^ 31) : (UInt32.ofNat n).toInt32.toInt = n := by
  change (Int32.ofNat n).toInt = n
  rw [← Int32.ofInt_eq_ofNat]
  exact toInt_ofInt ⟨by omega, by omega⟩

/-- **C97**, partial: the conversions never change a number, and panic for numbers which can not be represented. Missing:
`i32::MAX` panics as `u32`, `usize` and `isize`, and `i32::MIN` as `isize`, although they can be represented. All other
numbers are converted. -/
theorem C97_partial (bits : Nat) (type : IntType) (x : Int) (hx : type.Has bits x) :
    (∃ v, type.convert x = .ok v ∧ v.toInt = x ∧ Representable x ∧
      (type ≠ .i32 → x ≠ 2 ^ 31 - 1 ∧ (type = .isize → x ≠ -2 ^ 31))) ∨
    ((∃ m, type.convert x = .panic m) ∧
      (¬ Representable x ∨ (type ≠ .i32 ∧ x = 2 ^ 31 - 1) ∨ (type = .isize ∧ x = -2 ^ 31))) := by
  cases type with
  | u32 =>
    obtain ⟨h1, h2⟩ := hx
    unfold IntType.convert LabelValue.ofU32
    by_cases h : UInt32.ofNat x.toNat < 2147483647
    · left
      have hn : x.toNat < 2147483647 := by
        have := UInt32.lt_iff_toNat_lt.1 h
        simp only [UInt32.toNat_ofNat', UInt32.reduceToNat] at this
        omega
      refine ⟨_, by rw [Res.assert, if_pos (by simpa using h)]; rfl, ?_, ⟨by omega, by omega⟩,
        fun _ => ⟨by omega, nofun⟩⟩
      rw [toInt_ofUInt32 (by omega)]
      omega
    · right
      have hn : ¬ x.toNat < 2147483647 := by
        intro hn
        refine h (UInt32.lt_iff_toNat_lt.2 ?_)
        simp only [UInt32.toNat_ofNat', UInt32.reduceToNat]
        omega
      refine ⟨⟨_, by rw [Res.assert, if_neg (by simpa using h)]; rfl⟩, ?_⟩
      by_cases e : x = 2 ^ 31 - 1
      · exact .inr (.inl ⟨by decide, e⟩)
      · exact .inl fun hr => by unfold Representable at hr; omega
  | i32 => exact .inl ⟨_, rfl, toInt_ofInt hx, hx, fun h => absurd rfl h⟩
  | usize =>
    obtain ⟨h1, h2⟩ := hx
    unfold IntType.convert LabelValue.ofUsize
    by_cases h : x.toNat < 2147483647
    · left
      refine ⟨_, by rw [Res.assert, if_pos (by simpa using h)]; rfl, ?_, ⟨by omega, by omega⟩,
        fun _ => ⟨by omega, nofun⟩⟩
      rw [← Int32.ofInt_eq_ofNat, toInt_ofInt ⟨by omega, by omega⟩]
      omega
    · right
      refine ⟨⟨_, by rw [Res.assert, if_neg (by simpa using h)]; rfl⟩, ?_⟩
      by_cases e : x = 2 ^ 31 - 1
      · exact .inr (.inl ⟨by decide, e⟩)
      · exact .inl fun hr => by unfold Representable at hr; omega
  | isize =>
    unfold IntType.convert LabelValue.ofIsize
    by_cases h : x < 2147483647 ∧ x > -2147483648
    · left
      refine ⟨_, by rw [Res.assert, if_pos (by simpa using h)]; rfl, ?_, ⟨by omega, by omega⟩,
        fun _ => ⟨by omega, fun _ => by omega⟩⟩
      exact toInt_ofInt ⟨by omega, by omega⟩
    · right
      refine ⟨⟨_, by rw [Res.assert, if_neg (by simpa using h)]; rfl⟩, ?_⟩
      by_cases e : x = 2 ^ 31 - 1
      · exact .inr (.inl ⟨by decide, e⟩)
      · by_cases e' : x = -2 ^ 31
        · exact .inr (.inr ⟨rfl, e'⟩)
        · exact .inl fun hr => by unfold Representable at hr; omega

/-- Reading a value: `isize` and `i32` always give the number, `usize` does if it is not negative. For a negative number
`usize` panics with debug assertions; without them the result is larger than any position in a Rust collection. -/
theorem C97_read (build : Build) (bits : Nat) (hb : bits = 32 ∨ bits = 64) (v : LabelValue) :
    v.isize = v.toInt ∧ v.i32.toInt = v.toInt ∧ (∀ other, v.eqI32 other = true ↔ v.toInt = other.toInt) ∧
    (0 ≤ v.toInt → ∃ n, v.usizeIn build bits = .ok n ∧ (n : Int) = v.toInt) ∧
    (v.toInt < 0 → build.debug = true → ∃ m, v.usizeIn build bits = .panic m) ∧
    (v.toInt < 0 → build.debug = false → ∃ n, v.usizeIn build bits = .ok n ∧ 2 ^ (bits - 1) ≤ n) := by
  have h1 := v.le_toInt
  have h2 := v.toInt_lt
  refine ⟨rfl, rfl, fun other => ?_, fun h => ?_, fun h hd => ?_, fun h hd => ?_⟩
  · unfold LabelValue.eqI32
    rw [beq_iff_eq, Int32.toInt_inj]
  · have e : v.usizeIn build bits = .ok (v.toInt % (2 ^ bits : Nat)).toNat := by
      unfold LabelValue.usizeIn Build.debugAssert Res.assert
      cases build.debug <;> simp [h]
    refine ⟨_, e, ?_⟩
    rcases hb with rfl | rfl <;> omega
  · refine ⟨"assertion failed: self.0 >= 0", ?_⟩
    unfold LabelValue.usizeIn Build.debugAssert Res.assert
    simp only [hd, if_true, show ¬ 0 ≤ v.toInt by omega, decide_false]
    rfl
  · have e : v.usizeIn build bits = .ok (v.toInt % (2 ^ bits : Nat)).toNat := by
      unfold LabelValue.usizeIn Build.debugAssert
      simp only [hd]
      rfl
    refine ⟨_, e, ?_⟩
    rcases hb with rfl | rfl <;> simp only [Nat.reduceSub] <;> omega

/-- The function used in the model of the merges, where both builds panic: it is `usize` followed by an access to
the position in a collection. -/
theorem C97_position (build : Build) (bits : Nat) (hb : bits = 32 ∨ bits = 64) (v : LabelValue) {α : Type}
    (l : List α) (hl : l.length ≤ 2 ^ (bits - 1)) (i : Nat) :
    (LabelValue.usize v = .ok i → v.usizeIn build bits = .ok i) ∧
    ((∃ m, LabelValue.usize v = .panic m) →
      (∃ m, v.usizeIn build bits = .panic m) ∨ ∃ n, v.usizeIn build bits = .ok n ∧ l[n]? = none) := by
  obtain ⟨_, _, _, h1, h2, h3⟩ := C97_read build bits hb v
  unfold LabelValue.usize
  by_cases h : 0 ≤ v.toInt
  · rw [Res.assert, if_pos (by simpa using h)]
    obtain ⟨n, hn, e⟩ := h1 h
    refine ⟨fun hi => ?_, fun ⟨_, hm⟩ => by cases hm⟩
    cases hi
    rw [hn]
    congr 1
    omega
  · rw [Res.assert, if_neg (by simpa using h)]
    refine ⟨(nomatch ·), fun _ => ?_⟩
    cases hd : build.debug
    · obtain ⟨n, hn, e⟩ := h3 (by omega) hd
      exact .inr ⟨n, hn, List.getElem?_eq_none (by omega)⟩
    · exact .inl (h2 (by omega) hd)

/-- **C97** is false: `i32::MAX` given as a `usize` panics. -/
theorem C97_counterexample : ¬ C97_full_statement := by
  intro h
  obtain ⟨v, hv, _⟩ := (h 64 .usize 2147483647 (.inr rfl) ⟨by decide, by decide⟩).1 ⟨by decide, by decide⟩
  revert hv
  have : IntType.usize.convert 2147483647 = .panic "assertion failed: value < i32::MAX as usize" := by decide +kernel
  rw [this]
  exact nofun

/-- Numbers of all types, converted and refused. -/
example :
    (IntType.u32.convert 2147483646).bind (fun v => .ok v.toInt) = .ok 2147483646 ∧
    IntType.u32.Has 64 4294967295 ∧ (∃ m, IntType.u32.convert 4294967295 = .panic m) ∧
    (IntType.isize.convert (-2147483647)).bind (fun v => .ok v.toInt) = .ok (-2147483647) ∧
    IntType.isize.Has 64 (-9223372036854775808) ∧ (∃ m, IntType.isize.convert (-9223372036854775808) = .panic m) ∧
    IntType.i32.convert (-2147483648) = .ok Int32.minValue ∧
    LabelValue.usizeIn ⟨false⟩ 64 (-1) = .ok 18446744073709551615 ∧
    LabelValue.usizeIn ⟨false⟩ 32 (-1) = .ok 4294967295 := by
  refine ⟨by decide +kernel, ⟨by decide, by decide⟩, ⟨"assertion failed: value < i32::MAX as u32", by decide +kernel⟩,
    by decide +kernel, ⟨by decide, by decide⟩,
    ⟨"assertion failed: value < i32::MAX as isize && value > i32::MIN as isize", by decide +kernel⟩, by decide +kernel,
    by decide +kernel, by decide +kernel⟩

end Equistore
