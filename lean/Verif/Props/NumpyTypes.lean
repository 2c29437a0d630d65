import Verif.Lemmas.NumpyTypes
import Verif.Props.Layout

/-!
# Numpy arrays with any number type (C73)
-/

namespace Equistore
open Spec TypedArray

/-! ### C73 -/

/-- **C73**, in full: operations give the same numbers whatever the number types of the arrays. This is false, see
`C73_counterexample`. -/
def C73_full_statement : Prop :=
  ∀ (T : NumberTypes) (build : Build) (hash : HashOrder), OrderByName hash → ∀ (op : Op), op.LabelsExist →
    ∀ (t : TensorMap (TypedArray T)), TensorValid t →
    (op.run build hash t).2 = (op.run build hash (withoutTypes t)).2 ∧
    withoutTypes (op.run build hash t).1 = (op.run build hash (withoutTypes t)).1

variable {T : NumberTypes}

/-- **C73**, any sequence of operations, when all the numbers are numbers of all types in use: the numbers are the same
as with `float64`, and all numbers are still numbers of all types. What is missing: numbers which are not. -/
theorem C73_sequence_partial (types : List T.Name) (build : Build) (hash : Nat → HashOrder)
    (hh : ∀ n, OrderByName (hash n)) (ops : List Op) (t : TensorMap (TypedArray T)) (ht : TypesAmong types t)
    (hn : NumbersIn types t) :
    (runAll build hash ops t).2 = (runAll build hash ops (withoutTypes t)).2 ∧
    withoutTypes (runAll build hash ops t).1 = (runAll build hash ops (withoutTypes t)).1 ∧
    TypesAmong types (runAll build hash ops t).1 ∧ NumbersIn types (runAll build hash ops t).1 := by
  have h : t.AllData (InTypes types) := fun b hb =>
    ⟨⟨(ht b hb).1, (hn b hb).1⟩, fun g hg => ⟨(ht b hb).2 g hg, (hn b hb).2 g hg⟩⟩
  obtain ⟨h1, h2⟩ := (kept_inTypes types).runAll (same_inTypes types) (build := build) hh ops h
  change runAll build hash ops (withoutTypes t) = (withoutTypes (runAll build hash ops t).1, _) at h1
  rw [h1]
  exact ⟨rfl, rfl, fun b hb => ⟨(h2 b hb).1.1, fun g hg => ((h2 b hb).2 g hg).1⟩,
    fun b hb => ⟨(h2 b hb).1.2, fun g hg => ((h2 b hb).2 g hg).2⟩⟩

/-- **C73**, any sequence of operations, when all arrays have the same type: the numbers are the same as
with `float64`, and all arrays still have this type. -/
theorem C73_same_type (d : T.Name) (build : Build) (hash : Nat → HashOrder) (hh : ∀ n, OrderByName (hash n))
    (ops : List Op) (t : TensorMap (TypedArray T)) (ht : EveryArray (fun a => a.dtype = d) t) :
    (runAll build hash ops t).2 = (runAll build hash ops (withoutTypes t)).2 ∧
    withoutTypes (runAll build hash ops t).1 = (runAll build hash ops (withoutTypes t)).1 ∧
    EveryArray (fun a => a.dtype = d) (runAll build hash ops t).1 := by
  have key : ∀ a : TypedArray T, a.dtype = d → ∀ x ∈ a.array.array.elements, ∀ d' ∈ [d], T.cast d' x = x := by
    intro a ha x hx d' hd
    obtain rfl := List.mem_singleton.1 hd
    rw [← ha]
    exact a.fits x hx
  obtain ⟨h1, h2, h3, _⟩ := C73_sequence_partial [d] build hash hh ops t
    (fun b hb => ⟨List.mem_singleton.2 (ht b hb).1, fun g hg => List.mem_singleton.2 ((ht b hb).2 g hg)⟩)
    (fun b hb => ⟨key _ (ht b hb).1, fun g hg => key _ ((ht b hb).2 g hg)⟩)
  exact ⟨h1, h2, fun b hb => ⟨List.mem_singleton.1 (h3 b hb).1, fun g hg => List.mem_singleton.1 ((h3 b hb).2 g hg)⟩⟩

/-- **C73**, any mix of types: the types have no influence on which operations succeed, on labels and on the shapes of
arrays; no new types appear. -/
theorem C73_outcome (types : List T.Name) (build : Build) (hash : Nat → HashOrder) (hh : ∀ n, OrderByName (hash n))
    (ops : List Op) (t : TensorMap (TypedArray T)) (ht : TypesAmong types t) :
    (runAll build hash ops t).2 = (runAll build hash ops (withoutTypes t)).2 ∧
    (runAll build hash ops t).1.mapData (fun a => a.array.array.shape) =
      (runAll build hash ops (withoutTypes t)).1.mapData (fun a => a.array.shape) ∧
    TypesAmong types (runAll build hash ops t).1 := by
  obtain ⟨h1, h2⟩ := (kept_hasType types).runAll (same_mapped (c := fun _ => 0) rfl fun _ _ _ => rfl)
    (build := build) hh ops (t := t) ht
  have h3 := (same_map (c := fun _ => 0) rfl).runAll (build := build) hh ops (withoutTypes t)
  have e : (withoutTypes t).mapData (fun a => a.mapElements fun _ => 0) =
      t.mapData fun a => a.array.mapElements fun _ => 0 := mapData_mapData' _ _ _
  rw [e, h1, Prod.mk.injEq] at h3
  refine ⟨h3.2, ?_, h2⟩
  have h4 := congrArg (TensorMap.mapData fun a : NumpyArray => a.array.shape) h3.1
  rw [mapData_mapData', mapData_mapData'] at h4
  exact h4

/-- **C73**, any mix of types, how much the numbers change: after converting to the narrowest type in use, they are the
same as with `float64`. -/
theorem C73_rounding (types : List T.Name) (d : T.Name) (hd : Narrowest T d types) (build : Build)
    (hash : Nat → HashOrder) (hh : ∀ n, OrderByName (hash n)) (ops : List Op) (t : TensorMap (TypedArray T))
    (ht : TypesAmong types t) :
    rounded d (withoutTypes (runAll build hash ops t).1) =
      rounded d (runAll build hash ops (withoutTypes t)).1 := by
  obtain ⟨h1, _⟩ := (kept_hasType types).runAll (same_mapped (T.cast_zero d) fun a ha x => hd a.dtype ha x)
    (build := build) hh ops (t := t) ht
  have h3 := (same_map (T.cast_zero d)).runAll (build := build) hh ops (withoutTypes t)
  have e : (withoutTypes t).mapData (fun a => a.mapElements (T.cast d)) =
      t.mapData fun a => a.array.mapElements (T.cast d) := mapData_mapData' _ _ _
  rw [e, h1, Prod.mk.injEq] at h3
  have h4 := h3.1
  unfold rounded withoutTypes
  rw [mapData_mapData']
  exact h4

/-- **C73**, any mix of types: creating blocks, adding gradients and `components_to_properties` never change
numbers. -/
theorem C73_blocks (a : TypedArray T) (samples : Labels) (components : List Labels) (properties : Labels)
    (parameter : String) (block' : TensorBlock (TypedArray T)) (hash : HashOrder) (hh : OrderByName hash)
    (names : List String) (t : TensorMap (TypedArray T)) :
    TensorBlock.new a.array samples components properties =
      ((TensorBlock.new a samples components properties).bind fun b => .ok (b.mapData (·.array))) ∧
    TensorBlock.addGradient parameter a.array samples components (block'.mapData (·.array)) =
      ((TensorBlock.addGradient parameter a samples components block').1.mapData (·.array),
        (TensorBlock.addGradient parameter a samples components block').2) ∧
    (withoutTypes t).componentsToProperties hash names =
      (withoutTypes (t.componentsToProperties hash names).1, (t.componentsToProperties hash names).2) := by
  refine ⟨?_, sameViews.addGradient parameter a samples components block', sameViews.componentsToProperties hh⟩
  rw [sameViews.newBlock a samples components properties]
  cases TensorBlock.new a samples components properties <;> rfl

/-- **C73**, files: only tensor maps where all arrays are `float64` can be saved, and their numbers are in the
file. -/
theorem C73_save (build : Build) (py : PyLiteral) (native : Endian) (hash : HashOrder) (hh : OrderByName hash)
    (t : TensorMap (TypedArray T)) :
    (∀ archive, save build py native hash t = .ok archive → EveryArray (fun a => a.dtype = T.float64) t) ∧
    (EveryArray (fun a => a.dtype = T.float64) t →
      save build py native hash t = save build py native hash (withoutTypes t)) := by
  constructor
  · intro archive he
    have hc := save_canRead he
    have hr : ∀ a : TypedArray T, CanRead a → a.dtype = T.float64 := by
      intro a ⟨d, hd⟩
      by_contra h
      change a.data = _ at hd
      unfold data at hd
      rw [if_neg h] at hd
      cases hd
    exact fun b hb => ⟨hr _ (hc b hb).1, fun p hp => hr _ ((hc b hb).2 p hp)⟩
  · intro h
    have hr : ∀ a : TypedArray T, a.dtype = T.float64 → ArrayLike.data a.array = ArrayLike.data a := by
      intro a ha
      change _ = a.data
      unfold data
      rw [if_pos ha]
      rfl
    exact (save_same (f := fun a : TypedArray T => a.array) (fun _ => rfl) hh
      fun b hb => ⟨hr _ (h b hb).1, fun p hp => hr _ ((h b hb).2 p hp)⟩).symm

/-- **C73**, why the restriction: with any type and any number which is not a number of this type, moving the number to
an array created from an array of this type changes it, and does not fail. -/
theorem C73_lossy (first other : TypedArray T) (x : Elt) (hx : T.cast first.dtype x ≠ x)
    (ho : other.array.array = ⟨[1, 1], [x]⟩) :
    ∃ output moved, ArrayLike.create first [1, 1] = .ok output ∧
      ArrayLike.moveSamplesFrom output other [⟨0, 0⟩] 0 1 = (moved, .ok ()) ∧
      moved.array.array.elements = [T.cast first.dtype x] ∧ moved.array.array.elements ≠ [x] := by
  have h : (moveSamplesFrom (create first [1, 1]) other [⟨0, 0⟩] 0 1).2 = .ok () ∧
      (moveSamplesFrom (create first [1, 1]) other [⟨0, 0⟩] 0 1).1.array.array.elements =
        [T.cast first.dtype x] := by
    obtain ⟨⟨array, hc⟩, dtype, fits⟩ := other
    cases ho
    exact ⟨rfl, rfl⟩
  refine ⟨create first [1, 1], (moveSamplesFrom (create first [1, 1]) other [⟨0, 0⟩] 0 1).1, rfl, ?_, h.2, ?_⟩
  · change moveSamplesFrom _ _ _ _ _ = _
    exact Prod.ext rfl h.1
  · rw [h.2]
    exact fun e => hx (List.cons.inj e).1

namespace Example

inductive FloatType where
  | float64 | float32
  deriving DecidableEq

/-- Round a number to `float32`: the last 29 bits of the mantissa are removed, rounding to the nearest number, and to
the even one if both are equally near. Simplification: numbers which are too large or too small for `float32`
are treated like the others. -/
def toFloat32 (x : Elt) : Elt :=
  let q := x.toNat / 2 ^ 29
  let r := x.toNat % 2 ^ 29
  let up := 2 ^ 28 < r ∨ (r = 2 ^ 28 ∧ q % 2 = 1)
  BitVec.ofNat 64 ((if up then q + 1 else q) * 2 ^ 29)

theorem toFloat32_idem (x : Elt) : toFloat32 (toFloat32 x) = toFloat32 x := by
  have key : ∀ n, toFloat32 (BitVec.ofNat 64 (n * 2 ^ 29)) = BitVec.ofNat 64 (n * 2 ^ 29) := by
    intro n
    have h : (n * 2 ^ 29) % 2 ^ 64 = (n % 2 ^ 35) * 2 ^ 29 := by omega
    unfold toFloat32
    simp only [BitVec.toNat_ofNat, h]
    rw [Nat.mul_mod_left, Nat.mul_div_cancel _ (by decide)]
    simp only [Nat.not_lt_zero, false_or]
    rw [if_neg (by omega), ← h]
    apply BitVec.eq_of_toNat_eq
    simp
  exact key _

/-- `float64` and `float32`. -/
def floats : NumberTypes where
  Name := FloatType
  decEq := inferInstance
  float64 := .float64
  cast d x := match d with
    | .float64 => x
    | .float32 => toFloat32 x
  cast_zero d := by cases d <;> decide +kernel
  cast_cast d x := by
    cases d
    · rfl
    · exact toFloat32_idem x
  cast_float64 _ := rfl

/-- A 1 x 1 array of this type. -/
def typed (d : FloatType) (x : Elt) : TypedArray floats :=
  ⟨⟨⟨[1, 1], [floats.cast d x]⟩, rfl⟩, d, fun y hy => by
    obtain rfl := List.mem_singleton.1 hy
    exact floats.cast_cast d x⟩

/-- 1/10 with `float64`. -/
def tenth : Elt := 0x3fb999999999999a

def typedBlock (d : FloatType) (x : Elt) : TensorBlock (TypedArray floats) :=
  ⟨⟨typed d x, Labels.mk' ["s"] [[0]], [], Labels.mk' ["p"] [[0]]⟩, [], []⟩

/-- Two blocks, with `float32` and `float64`. -/
def mixedTypes : TensorMap (TypedArray floats) :=
  ⟨Labels.mk' ["k", "l"] [[0, 1], [0, 2]], [typedBlock .float32 0, typedBlock .float64 tenth]⟩
theorem mixedTypes_valid : TensorValid mixedTypes := TensorMap.valid_of_rebuilds (by decide +kernel)

/-- The same blocks, in the other order. -/
def mixedTypes' : TensorMap (TypedArray floats) :=
  ⟨Labels.mk' ["k", "l"] [[0, 2], [0, 1]], [typedBlock .float64 tenth, typedBlock .float32 0]⟩

/-- Two blocks with different types, and numbers of both. -/
def mixedExact : TensorMap (TypedArray floats) :=
  ⟨Labels.mk' ["k", "l"] [[0, 1], [0, 2]], [typedBlock .float32 0, typedBlock .float64 0x3fe0000000000000]⟩

def float32 : floats.Name := FloatType.float32
def bothTypes : List floats.Name := [float32, floats.float64]

/-- Whether all arrays of a tensor map have a property. -/
def everyArray {A : Type} (p : A → Bool) (t : TensorMap A) : Bool :=
  t.blocks.all fun b => p b.values.data && b.gradients.all fun g => p g.2.data

theorem everyArray_iff {A : Type} {p : A → Bool} {P : A → Prop} (h : ∀ a, p a = true ↔ P a) {t : TensorMap A} :
    EveryArray P t ↔ everyArray p t = true := by
  unfold EveryArray everyArray
  simp only [List.all_eq_true, Bool.and_eq_true, h]

/-- Whether the numbers of an array are numbers of both types. -/
def inBoth (a : TypedArray floats) : Bool := a.array.array.elements.all fun x => toFloat32 x == x

theorem inBoth_iff (a : TypedArray floats) :
    inBoth a = true ↔ ∀ x ∈ a.array.array.elements, ∀ d ∈ bothTypes, floats.cast d x = x := by
  unfold inBoth
  simp only [List.all_eq_true, beq_iff_eq]
  refine forall₂_congr fun x _ => ⟨fun h d _ => ?_, fun h => h float32 List.mem_cons_self⟩
  cases d
  · exact floats.cast_float64 x
  · exact h

theorem mem_bothTypes (d : floats.Name) : d ∈ bothTypes := by
  cases d
  · exact List.mem_cons_of_mem _ List.mem_cons_self
  · exact List.mem_cons_self

/-- Whether the type of an array is `float32`. -/
def isFloat32 (a : TypedArray floats) : Bool := match a.dtype with
  | .float32 => true
  | .float64 => false

theorem isFloat32_iff (a : TypedArray floats) : isFloat32 a = true ↔ a.dtype = float32 := by
  obtain ⟨a, d, h⟩ := a
  cases d
  · exact ⟨(nomatch ·), (nomatch ·)⟩
  · exact ⟨fun _ => rfl, fun _ => rfl⟩

/-- All elements of a tensor map. -/
def typedElements (t : TensorMap (TypedArray floats)) : List (FloatType × List Elt) :=
  t.blocks.map fun b => (b.values.data.dtype, b.values.data.array.array.elements)

end Example

/-- **C73** is false: merging blocks with different types can change the numbers, here 1/10 stored as `float64` becomes
the nearest `float32`. -/
theorem C73_counterexample : ¬ C73_full_statement := by
  intro h
  have := (h Example.floats ⟨true⟩ .insertion (fun _ _ => rfl) (.keysToProperties Example.moveL true)
    Example.moveL_fromBuilder Example.mixedTypes Example.mixedTypes_valid).2
  revert this
  decide +kernel

/-- The result depends on which block is the first one. -/
theorem C73_first_block :
    Example.typedElements (Example.mixedTypes.keysToProperties ⟨true⟩ .insertion Example.moveL true).1 =
      [(.float32, [0, 0x3fb99999a0000000])] ∧
    Example.typedElements (Example.mixedTypes'.keysToProperties ⟨true⟩ .insertion Example.moveL true).1 =
      [(.float64, [Example.tenth, 0])] ∧
    (Example.mixedTypes.keysToProperties ⟨true⟩ .insertion Example.moveL true).2 = .ok () ∧
    (Example.mixedTypes'.keysToProperties ⟨true⟩ .insertion Example.moveL true).2 = .ok () := by
  decide +kernel

/-- The hypotheses of `C73_sequence_partial`, `C73_outcome` and `C73_rounding` are met with two types in use, and the
operations succeed. -/
example :
    TypesAmong Example.bothTypes Example.mixedExact ∧ NumbersIn Example.bothTypes Example.mixedExact ∧
    (runAll ⟨true⟩ (fun _ => .insertion) [.keysToSamples Example.moveL true] Example.mixedExact).2 = .ok () ∧
    TypesAmong Example.bothTypes Example.mixedTypes ∧ ¬ NumbersIn Example.bothTypes Example.mixedTypes ∧
    Narrowest Example.floats Example.float32 Example.bothTypes := by
  have h : ∀ t, TypesAmong Example.bothTypes t := fun t b _ =>
    ⟨Example.mem_bothTypes _, fun _ _ => Example.mem_bothTypes _⟩
  unfold NumbersIn
  rw [Example.everyArray_iff Example.inBoth_iff, Example.everyArray_iff Example.inBoth_iff]
  refine ⟨h _, by decide +kernel, by decide +kernel, h _, by decide +kernel, ?_⟩
  intro d' hd x
  cases d'
  · exact congrArg (Example.floats.cast Example.float32) (Example.floats.cast_float64 x)
  · exact Example.toFloat32_idem x

namespace Example

/-- `Example.tensor`, all arrays being `float32`. -/
def asFloat32 (a : NdArray) : TypedArray floats :=
  ⟨(toNumpy a).mapElements toFloat32, .float32, NumpyArray.mapElements_all toFloat32_idem _⟩
def asFloat64 (a : NdArray) : TypedArray floats := ⟨toNumpy a, .float64, fun _ _ => rfl⟩

end Example

/-- The hypotheses of `C73_same_type` and `C73_save` are met by tensor maps with components and gradients; only the
one with `float64` can be saved. -/
example :
    EveryArray (fun a => a.dtype = Example.float32) (Example.tensor.mapData Example.asFloat32) ∧
    (runAll ⟨true⟩ (fun _ => .insertion) Example.layoutOps (Example.tensor.mapData Example.asFloat32)).2 = .ok () ∧
    Example.isOk (save ⟨true⟩ PyLiteral.fragment .little .insertion
      (Example.tensor.mapData Example.asFloat32)) = false ∧
    Example.isOk (save ⟨true⟩ PyLiteral.fragment .little .insertion
      (Example.tensor.mapData Example.asFloat64)) = true := by
  rw [Example.everyArray_iff Example.isFloat32_iff]
  decide +kernel

/-- The hypotheses of `C73_lossy` are met. -/
example : Example.floats.cast (Example.typed .float32 0).dtype Example.tenth ≠ Example.tenth ∧
    (Example.typed .float64 Example.tenth).array.array = ⟨[1, 1], [Example.tenth]⟩ := by decide +kernel

end Equistore
