import Verif.Lemmas.BackendInstances
import Verif.Props.Reachable

/-!
# Arrays provided by the user (C50)
-/

namespace Equistore
open Spec

variable {A B : Type} [ArrayLike A] [ArrayLike B]

/-! ### C50 -/

/-- The condition `C50_operations_partial` needs in release builds. -/
def Op.SizesAgree (build : Build) (t : TensorMap A) : Op → Prop
  | .keysToSamples k _ => build.debug = true ∨ GradientSizesAgree t k.names
  | .keysToProperties k _ => build.debug = true ∨ GradientSizesAgree t k.names
  | .componentsToProperties _ => True

theorem Op.run_map {view : A → NdArray} (h : Implements view) {build : Build} {hash : HashOrder}
    (hh : OrderByName hash) {op : Op} (hop : op.LabelsExist) {t : TensorMap A} (ht : TensorValid t)
    (hcomp : Op.SizesAgree build t op) :
    op.run build hash (t.mapData view) =
      ((op.run build hash t).1.mapData view, (op.run build hash t).2) := by
  cases op with
  | keysToSamples k sort => exact TensorMap.keysToSamples_map h hh hop ht hcomp
  | keysToProperties k sort => exact TensorMap.keysToProperties_map h hh hop ht hcomp
  | componentsToProperties names => exact TensorMap.componentsToProperties_map h hh ht.blocks

theorem GradientSizesAgree.map {f : A → NdArray} {t : TensorMap A} {u : TensorMap B} {g : B → NdArray}
    (hv : t.mapData f = u.mapData g) {moved : List String} (ht : TensorValid t) (hu : TensorValid u)
    (h : GradientSizesAgree t moved) : GradientSizesAgree u moved := by
  have hk : u.keys = t.keys := by
    have := congrArg TensorMap.keys hv
    exact this.symm
  have hb : t.blocks.map (TensorBlock.mapData f) = u.blocks.map (TensorBlock.mapData g) := congrArg TensorMap.blocks hv
  intro pairs hp key' q
  have hi : t.iter = .ok (t.keys.rows.zip t.blocks) := ht.iter_eq
  have hi' : u.iter = .ok (u.keys.rows.zip u.blocks) := hu.iter_eq
  rw [hi', Res.ok.injEq] at hp
  subst hp
  have key : ∀ a ∈ group u.keys.names moved (u.keys.rows.zip u.blocks) key', ∀ p,
      a.2.gradient q = some p → ∃ a' ∈ group t.keys.names moved (t.keys.rows.zip t.blocks) key', ∃ p',
        a'.2.gradient q = some p' ∧ p'.components = p.components := by
    intro a ha p hp
    have h1 : mapPair g a ∈ (group t.keys.names moved (t.keys.rows.zip t.blocks) key').map (mapPair f) := by
      rw [← group_map, ← zip_mapData, hb, ← hk, zip_mapData, group_map]
      exact List.mem_map_of_mem ha
    obtain ⟨a', ha', he⟩ := List.mem_map.1 h1
    refine ⟨a', ha', ?_⟩
    have h2 : (a'.2.mapData f).gradient q = (a.2.mapData g).gradient q :=
      congrArg (fun x : List LabelValue × TensorBlock NdArray => x.2.gradient q) he
    rw [TensorBlock.mapData_gradient, TensorBlock.mapData_gradient, hp, Option.map_some,
      Option.map_eq_some_iff] at h2
    obtain ⟨p', h3, h4⟩ := h2
    exact ⟨p', h3, congrArg BasicBlock.components h4⟩
  intro a ha b hb' p p' hp hp'
  obtain ⟨a₁, h1, p₁, h2, h3⟩ := key a ha p hp
  obtain ⟨b₁, h4, p₂, h5, h6⟩ := key b hb' p' hp'
  rw [← h3, ← h6]
  exact h _ hi key' q a₁ h1 b₁ h4 p₁ p₂ h2 h5

/-- **C50**, operations on tensor maps: with two kinds of arrays which do what the documentation of the
callbacks says, possibly failing for anything the documentation does not allow, the same operation on the same
tensor map ends in the same way (including errors and their messages) and gives the same labels, shapes and
elements. What is missing: release builds, when blocks to merge have gradients with components of different sizes,
see `C50_release_counterexample`. -/
theorem C50_operations_partial (viewA : A → NdArray) (viewB : B → NdArray) (hA : Implements viewA)
    (hB : Implements viewB) (build : Build) (hash : HashOrder) (hh : OrderByName hash) (op : Op)
    (hop : op.LabelsExist) (t : TensorMap A) (u : TensorMap B) (ht : TensorValid t)
    (hv : t.mapData viewA = u.mapData viewB) (hcomp : Op.SizesAgree build t op) :
    (op.run build hash t).2 = (op.run build hash u).2 ∧
    (op.run build hash t).1.mapData viewA = (op.run build hash u).1.mapData viewB := by
  have hu : TensorValid u := by
    rw [← TensorValid.map_iff hB, ← hv, TensorValid.map_iff hA]; exact ht
  have hcomp' : Op.SizesAgree build u op := by
    cases op with
    | keysToSamples k sort => exact hcomp.imp_right (GradientSizesAgree.map hv ht hu)
    | keysToProperties k sort => exact hcomp.imp_right (GradientSizesAgree.map hv ht hu)
    | componentsToProperties names => trivial
  have h1 := Op.run_map hA hh hop ht hcomp
  have h2 := Op.run_map hB hh hop hu hcomp'
  rw [hv, h2, Prod.mk.injEq] at h1
  exact ⟨h1.2.symm, h1.1.symm⟩

/-- The condition of `C50_operations_partial` for all the operations of a sequence. -/
def AllSizesAgree (build : Build) : (Nat → HashOrder) → List Op → TensorMap A → Prop
  | _, [], _ => True
  | hash, op :: ops, t => Op.SizesAgree build t op ∧
    ∀ t', op.run build (hash 0) t = (t', .ok ()) → AllSizesAgree build (fun n => hash (n + 1)) ops t'

/-- The condition is always met in debug builds. -/
theorem allSizesAgree_debug (hash : Nat → HashOrder) (ops : List Op) (t : TensorMap A) :
    AllSizesAgree ⟨true⟩ hash ops t := by
  induction ops generalizing hash t with
  | nil => trivial
  | cons op ops ih =>
    refine ⟨?_, fun t' _ => ih _ t'⟩
    cases op <;> simp [Op.SizesAgree]

/-- **C50**, any sequence of operations. What is missing: release builds, when blocks to merge have gradients
with components of different sizes. -/
theorem C50_sequence_partial (viewA : A → NdArray) (viewB : B → NdArray) (hA : Implements viewA)
    (hB : Implements viewB) (build : Build) (hash : Nat → HashOrder) (hh : ∀ n, OrderByName (hash n)) (ops : List Op)
    (hops : ∀ op ∈ ops, op.LabelsExist) (t : TensorMap A) (u : TensorMap B) (ht : TensorValid t)
    (hv : t.mapData viewA = u.mapData viewB) (hcomp : AllSizesAgree build hash ops t) :
    (runAll build hash ops t).2 = (runAll build hash ops u).2 ∧
    (runAll build hash ops t).1.mapData viewA = (runAll build hash ops u).1.mapData viewB := by
  induction ops generalizing hash t u with
  | nil => exact ⟨rfl, hv⟩
  | cons op ops ih =>
    have hop := hops op List.mem_cons_self
    obtain ⟨h1, h2⟩ := C50_operations_partial viewA viewB hA hB build (hash 0) (hh 0) op hop t u ht hv hcomp.1
    simp only [runAll]
    have h3 := Op.run_map hA (hh 0) hop ht hcomp.1
    cases hr : op.run build (hash 0) t with
    | mk t' r =>
      cases hr' : op.run build (hash 0) u with
      | mk u' r' =>
        rw [hr, hr'] at h1 h2
        simp only at h1 h2
        subst h1
        rw [hr] at h3
        cases r with
        | ok w =>
          refine ih (fun n => hash (n + 1)) (fun n => hh (n + 1)) (fun op h => hops op (List.mem_cons_of_mem _ h)) t' u' ?_ h2
            (hcomp.2 t' hr)
          rw [← TensorValid.map_iff hA]
          exact Op.run_valid lawful_ndArray hop ((TensorValid.map_iff hA).2 ht) h3
        | err e => exact ⟨rfl, h2⟩
        | panic m => exact ⟨rfl, h2⟩

/-- **C50**, creation of blocks: `TensorBlock::new` only depends on the shape of the array. -/
theorem C50_new_block (viewA : A → NdArray) (viewB : B → NdArray) (hA : Implements viewA)
    (hB : Implements viewB) (a : A) (b : B) (hv : viewA a = viewB b) (samples : Labels)
    (components : List Labels) (properties : Labels) :
    (∀ block, TensorBlock.new a samples components properties = .ok block →
      ∃ block', TensorBlock.new b samples components properties = .ok block' ∧
        block.mapData viewA = block'.mapData viewB) ∧
    (∀ e, TensorBlock.new a samples components properties = .err e →
      TensorBlock.new b samples components properties = .err e) ∧
    (∀ m, TensorBlock.new a samples components properties = .panic m →
      TensorBlock.new b samples components properties = .panic m) := by
  have h1 := TensorBlock.new_map hA a samples components properties
  have h2 := TensorBlock.new_map hB b samples components properties
  rw [hv, h2] at h1
  refine ⟨fun block e => ?_, fun e he => ?_, fun m hm => ?_⟩
  · rw [e] at h1
    cases h3 : TensorBlock.new b samples components properties with
    | ok block' => rw [h3] at h1; exact ⟨block', rfl, (Res.ok.inj h1).symm⟩
    | err e => rw [h3] at h1; cases h1
    | panic m => rw [h3] at h1; cases h1
  · rw [he] at h1
    cases h3 : TensorBlock.new b samples components properties with
    | ok block' => rw [h3] at h1; cases h1
    | err e' => rw [h3] at h1; cases h1; rfl
    | panic m => rw [h3] at h1; cases h1
  · rw [hm] at h1
    cases h3 : TensorBlock.new b samples components properties with
    | ok block' => rw [h3] at h1; cases h1
    | err e' => rw [h3] at h1; cases h1
    | panic m => rw [h3] at h1; cases h1; rfl

/-- **C50**, gradients: `add_gradient` ends in the same way and gives the same block. -/
theorem C50_add_gradient (viewA : A → NdArray) (viewB : B → NdArray) (hA : Implements viewA)
    (hB : Implements viewB) (parameter : String) (a : A) (b : B) (hv : viewA a = viewB b)
    (samples : Labels) (components : List Labels) (block : TensorBlock A) (block' : TensorBlock B)
    (hb : block.mapData viewA = block'.mapData viewB) :
    (TensorBlock.addGradient parameter a samples components block).2 =
      (TensorBlock.addGradient parameter b samples components block').2 ∧
    (TensorBlock.addGradient parameter a samples components block).1.mapData viewA =
      (TensorBlock.addGradient parameter b samples components block').1.mapData viewB := by
  have h1 := TensorBlock.addGradient_map hA parameter a samples components block
  have h2 := TensorBlock.addGradient_map hB parameter b samples components block'
  rw [hv, hb, h2, Prod.mk.injEq] at h1
  exact ⟨h1.2.symm, h1.1.symm⟩

/-- **C50**, failed operations: with any kind of arrays doing what the documentation says, an operation which
returns an error leaves labels, shapes and elements as they were, in all builds. -/
theorem C50_error_atomic (view : A → NdArray) (h : Implements view) (build : Build) (hash : HashOrder)
    (hh : OrderByName hash) (op : Op) (t : TensorMap A) (ht : TensorValid t) (e : Error)
    (he : (op.run build hash t).2 = .err e) :
    (op.run build hash t).1.mapData view = t.mapData view := by
  cases op with
  | keysToSamples k sort =>
    change (TensorMap.keysToSamples _ _ _ _ _).2 = _ at he
    change (TensorMap.keysToSamples _ _ _ _ _).1.mapData view = _
    rw [keysToSamples_eq] at he ⊢
    split at he <;> simp only [reduceCtorEq] at he ⊢
  | keysToProperties k sort =>
    change (TensorMap.keysToProperties _ _ _ _ _).2 = _ at he
    change (TensorMap.keysToProperties _ _ _ _ _).1.mapData view = _
    rw [keysToProperties_eq] at he ⊢
    split at he <;> simp only [reduceCtorEq] at he ⊢
  | componentsToProperties names =>
    have h1 := TensorMap.componentsToProperties_map h hh ht.blocks (hash := hash) (vars := names)
    change (TensorMap.componentsToProperties hash names t).2 = _ at he
    rw [he] at h1
    exact C11_error_atomic_partial hash names _ _ ((TensorValid.map_iff h).2 ht) e h1

/-- **C50**, the arrays the library comes with: Rust's `ndarray` and numpy arrays do what the documentation
asks for, and so does a kind of arrays refusing every call to `move_samples_from` it can refuse. -/
theorem C50_provided_arrays : Implements RustArray.array ∧ Implements NumpyArray.array ∧
    Implements fun a : StrictArray => a.inner.array :=
  ⟨implements_rust, implements_numpy, implements_strict⟩

/-! ### Release builds -/

/-- The property without its restriction. -/
def C50_full_statement : Prop :=
  ∀ (A B : Type) (_ : ArrayLike A) (_ : ArrayLike B) (viewA : A → NdArray) (viewB : B → NdArray),
    Implements viewA → Implements viewB → ∀ (build : Build) (hash : HashOrder), OrderByName hash →
    ∀ (op : Op), op.LabelsExist → ∀ (t : TensorMap A) (u : TensorMap B), TensorValid t →
    t.mapData viewA = u.mapData viewB →
    (op.run build hash t).2 = (op.run build hash u).2 ∧
    (op.run build hash t).1.mapData viewA = (op.run build hash u).1.mapData viewB

namespace Example

/-- The same array as a numpy array. -/
def toNumpy (a : NdArray) : NumpyArray :=
  if h : a.elements.length = shapeSize a.shape then ⟨a, h⟩ else ⟨⟨[0], []⟩, rfl⟩

/-- Gradient component `d = 0, 1`. -/
def direction2 : Labels := Labels.mk' ["d"] [[0], [1]]
/-- A 2 x 2 x 2 x 3 array with elements 0 ... 23. -/
def gradientData2 : NdArray := ⟨[2, 2, 2, 3], (List.range 24).map (BitVec.ofNat 64)⟩
/-- Like `gradBlock`, the gradient having two directions instead of one. -/
def gradBlock2 : TensorBlock NdArray :=
  (TensorBlock.addGradient "g" gradientData2 gradientSamples [direction2, component] block).1
/-- Two blocks with different numbers of gradient components. -/
def unequal : TensorMap NdArray := ⟨Labels.mk' ["k", "l"] [[0, 1], [0, 2]], [gradBlock2, gradBlock]⟩
/-- This tensor map with numpy arrays. -/
def unequalNumpy : TensorMap NumpyArray := unequal.mapData toNumpy
/-- This tensor map with arrays checking every call. -/
def unequalStrict : TensorMap StrictArray := unequal.mapData fun a => ⟨toNumpy a⟩

theorem order_insertion : OrderByName .insertion := fun _ _ => rfl
theorem order_reversed : OrderByName .reversed := fun f l => by
  simp [HashOrder.reversed]

theorem unequalNumpy_valid : TensorValid unequalNumpy :=
  (TensorValid.map_iff implements_numpy).1 (TensorMap.valid_of_rebuilds (by decide +kernel))

theorem unequalNumpy_ok :
    (unequalNumpy.keysToSamples ⟨false⟩ .insertion moveL true).2 = .ok () := by decide +kernel
theorem unequalStrict_fails :
    (unequalStrict.keysToSamples ⟨false⟩ .insertion moveL true).2 =
      .err (.external (-1) "calling eqs_array_t.move_samples_from failed") := by decide +kernel

/-- The example with numpy arrays, and with arrays checking every call. -/
def tensorNumpy : TensorMap NumpyArray := tensor.mapData toNumpy
def tensorStrict : TensorMap StrictArray := tensor.mapData fun a => ⟨toNumpy a⟩
theorem tensorNumpy_valid : TensorValid tensorNumpy :=
  (TensorValid.map_iff implements_numpy).1 (TensorMap.valid_of_rebuilds (by decide +kernel))

end Example

/-- **C50**, the defect: in a release build, blocks with different numbers of components in their gradients
are merged by calling `move_samples_from` with arrays of different shapes. The result depends on what the
array does with them: numpy and `ndarray` silently broadcast the values, other arrays fail. -/
theorem C50_release_counterexample : ¬ C50_full_statement := by
  intro hfull
  have h := (hfull NumpyArray StrictArray inferInstance inferInstance NumpyArray.array
    (fun a => a.inner.array) implements_numpy implements_strict ⟨false⟩ .insertion Example.order_insertion
    (.keysToSamples Example.moveL true) Example.moveL_fromBuilder Example.unequalNumpy Example.unequalStrict
    Example.unequalNumpy_valid rfl).1
  have h1 := Example.unequalNumpy_ok
  have h2 := Example.unequalStrict_fails
  change (Example.unequalNumpy.keysToSamples ⟨false⟩ .insertion Example.moveL true).2 =
    (Example.unequalStrict.keysToSamples ⟨false⟩ .insertion Example.moveL true).2 at h
  rw [h1, h2] at h
  cases h

/-- Non-vacuity of `C50`: an example with numpy arrays and with arrays checking every call; the conditions
hold, and two operations after each other succeed. -/
example : TensorValid Example.tensorNumpy ∧
    Example.tensorNumpy.mapData NumpyArray.array = Example.tensorStrict.mapData (fun a => a.inner.array) ∧
    OrderByName .insertion ∧ OrderByName .reversed ∧
    Op.SizesAgree ⟨true⟩ Example.tensorNumpy (.keysToSamples Example.moveL true) ∧
    (runAll ⟨true⟩ (fun _ => .insertion) [.keysToSamples Example.moveL true, .componentsToProperties ["c"]]
      Example.tensorNumpy).2 = .ok () ∧
    (runAll ⟨true⟩ (fun _ => .insertion) [.keysToProperties Example.moveL true]
      Example.tensorStrict).2 = .ok () :=
  ⟨Example.tensorNumpy_valid, rfl, Example.order_insertion, Example.order_reversed, .inl rfl, by decide +kernel,
    by decide +kernel⟩

/-- Non-vacuity of `C50_error_atomic`: moving keys in a release build, with arrays checking every call, and gradient components
of different sizes. -/
example : TensorValid Example.unequalStrict ∧ (∃ e, (Op.run ⟨false⟩ .insertion Example.unequalStrict
      (.keysToSamples Example.moveL true)).2 = .err e) ∧ Example.unequalStrict.blocks ≠ [] :=
  ⟨(TensorValid.map_iff implements_strict).1 (TensorMap.valid_of_rebuilds (by decide +kernel)),
    ⟨_, Example.unequalStrict_fails⟩, List.cons_ne_nil _ _⟩

/-- Non-vacuity of the condition in release builds, for gradients with different labels for components of the same size: they are merged
also by arrays which check every call. -/
example : (∃ a ∈ Example.mixed.blocks, ∃ b ∈ Example.mixed.blocks, ∃ g g', a.gradient "g" = some g ∧ b.gradient "g" = some g' ∧
      g.components.map entriesOf ≠ g'.components.map entriesOf ∧
      g.components.map (fun c => (entriesOf c).length) = g'.components.map (fun c => (entriesOf c).length)) ∧
    ((Example.mixed.mapData fun a => (⟨Example.toNumpy a⟩ : StrictArray)).keysToProperties ⟨false⟩ .insertion Example.moveL true).2 =
      .ok () :=
  ⟨⟨Example.mixed.blocks.headD Example.block, by decide +kernel, Example.mixed.blocks.getLastD Example.block, by decide +kernel,
    (((Example.mixed.blocks.headD Example.block).gradient "g").getD Example.block.values),
    (((Example.mixed.blocks.getLastD Example.block).gradient "g").getD Example.block.values), by decide +kernel⟩, by decide +kernel⟩

/-- Non-vacuity of the condition in release builds: the blocks of the example have the same gradient
components, and a sequence of two operations succeeds. -/
example : AllSizesAgree ⟨false⟩ (fun _ => .insertion)
      [.keysToProperties Example.moveL true, .componentsToProperties ["c"]] Example.tensorNumpy ∧
    (runAll ⟨false⟩ (fun _ => .insertion) [.keysToProperties Example.moveL true, .componentsToProperties ["c"]]
      Example.tensorNumpy).2 = .ok () := by
  refine ⟨⟨?_, fun _ _ => ⟨trivial, fun _ _ => trivial⟩⟩, by decide +kernel⟩
  refine .inr fun pairs hp key' q a ha b hb g g' h1 h2 => ?_
  have hp' : pairs = Example.tensorNumpy.keys.rows.zip Example.tensorNumpy.blocks := by
    have := Example.tensorNumpy_valid.iter_eq
    rw [this] at hp
    exact (Res.ok.inj hp).symm
  have h : ∀ a ∈ pairs, a.2 = Example.gradBlock.mapData Example.toNumpy := by
    rw [hp']
    simp only [Example.tensorNumpy, Example.tensor, TensorMap.mapData_blocks, List.map_cons, List.map_nil]
    intro a ha
    have := (List.of_mem_zip ha).2
    simpa using this
  have hsub : ∀ x ∈ group Example.tensorNumpy.keys.names Example.moveL.names pairs key', x ∈ pairs := by
    intro x hx
    exact List.mem_of_mem_filter hx
  rw [h a (hsub a ha)] at h1
  rw [h b (hsub b hb), h1] at h2
  rw [Option.some.inj h2]

end Equistore
