import Verif.Lemmas.BackendSizes
import Verif.Props.OutcomeSizes

/-!
# Arrays from Rust and numpy arrays, with gradient components of different sizes (C50)

`C50_operations_partial` does not cover blocks merged in release builds with gradient components of different sizes. With the
two kinds of arrays the library comes with, this file says when operations end in the same way also in this case.
-/

namespace Equistore
open Spec

/-- In release builds, the components of gradients to merge have the sizes of the ones in the first of the merged blocks, or
a single entry. -/
def Op.SizesBroadcast {A : Type} [ArrayLike A] (build : Build) (t : TensorMap A) : Op → Prop
  | .keysToSamples k _ => build.debug = true ∨
    ∀ first kb, FirstMergedWith t k.names first kb → GradientsBroadcast true kb.2 first.2
  | .keysToProperties k _ => build.debug = true ∨
    ∀ first kb, FirstMergedWith t k.names first kb → Requested t.keys.names k kb.1 → GradientsBroadcast true kb.2 first.2
  | .componentsToProperties _ => True

theorem Op.run_map_rust {build : Build} {hash : HashOrder} (hh : OrderByName hash) {op : Op} (hop : op.LabelsExist)
    {t : TensorMap RustArray} (ht : TensorValid t) :
    op.run build hash (t.mapData RustArray.array) =
      ((op.run build hash t).1.mapData RustArray.array, (op.run build hash t).2) := by
  cases op with
  | keysToSamples k sort => exact keysToSamples_map_rust hh hop ht
  | keysToProperties k sort => exact keysToProperties_map_rust hh hop ht
  | componentsToProperties names => exact TensorMap.componentsToProperties_map implements_rust hh ht.blocks

theorem Op.run_map_numpy {build : Build} {hash : HashOrder} (hh : OrderByName hash) {op : Op} (hop : op.LabelsExist)
    {t : TensorMap NumpyArray} (ht : TensorValid t) (hbr : Op.SizesBroadcast build t op) :
    op.run build hash (t.mapData NumpyArray.array) =
      ((op.run build hash t).1.mapData NumpyArray.array, (op.run build hash t).2) := by
  cases op with
  | keysToSamples k sort => exact keysToSamples_map_numpy hh hop ht hbr
  | keysToProperties k sort => exact keysToProperties_map_numpy hh hop ht hbr
  | componentsToProperties names => exact TensorMap.componentsToProperties_map implements_numpy hh ht.blocks

/-- **C50**, with arrays from Rust and numpy arrays, and gradient components of different sizes in release builds: if values can
be repeated to get the sizes of the first of the merged blocks, the same operation on the same tensor map ends in
the same way and gives the same labels, shapes and elements. What is missing: other sizes, see
`C50_empty_gradient_counterexample`. -/
theorem C50_provided_sizes_partial (build : Build) (hash : HashOrder) (hh : OrderByName hash) (op : Op)
    (hop : op.LabelsExist) (t : TensorMap RustArray) (u : TensorMap NumpyArray) (ht : TensorValid t)
    (hv : t.mapData RustArray.array = u.mapData NumpyArray.array) (hbr : Op.SizesBroadcast build u op) :
    (op.run build hash t).2 = (op.run build hash u).2 ∧
    (op.run build hash t).1.mapData RustArray.array = (op.run build hash u).1.mapData NumpyArray.array := by
  have hu : TensorValid u := by
    rw [← TensorValid.map_iff implements_numpy, ← hv, TensorValid.map_iff implements_rust]; exact ht
  have h1 := Op.run_map_rust hh hop ht (build := build)
  rw [hv, Op.run_map_numpy hh hop hu hbr, Prod.mk.injEq] at h1
  exact ⟨h1.2.symm, h1.1.symm⟩

theorem Op.sizesBroadcast_of_ok {build : Build} {hash : HashOrder} {op : Op} (hop : op.LabelsExist)
    {u : TensorMap NumpyArray} (hu : TensorValid u) (hok : (op.run build hash u).2 = .ok ()) :
    Op.SizesBroadcast build u op := by
  cases op with
  | keysToSamples k sort =>
    exact .inr (keysToSamples_broadcast_of_ok implements_numpy broadcasts_numpy hu hop ⟨_, Prod.ext rfl hok⟩)
  | keysToProperties k sort =>
    exact .inr (keysToProperties_broadcast_of_ok implements_numpy broadcasts_numpy hu hop ⟨_, Prod.ext rfl hok⟩)
  | componentsToProperties names => trivial

/-- **C50**, from numpy to Rust, in all builds and for gradient components of all sizes: when a sequence of operations
succeeds with numpy arrays, the same operations on the same tensor map succeed with arrays from Rust, and give the same
labels, shapes and elements. -/
theorem C50_numpy_success (build : Build) (hash : Nat → HashOrder) (hh : ∀ n, OrderByName (hash n)) (ops : List Op)
    (hops : ∀ op ∈ ops, op.LabelsExist) (t : TensorMap RustArray) (u : TensorMap NumpyArray) (ht : TensorValid t)
    (hv : t.mapData RustArray.array = u.mapData NumpyArray.array)
    (hok : (runAll build hash ops u).2 = .ok ()) :
    (runAll build hash ops t).2 = .ok () ∧
    (runAll build hash ops t).1.mapData RustArray.array = (runAll build hash ops u).1.mapData NumpyArray.array := by
  induction ops generalizing hash t u with
  | nil => exact ⟨rfl, hv⟩
  | cons op ops ih =>
    have hop := hops op List.mem_cons_self
    have hu : TensorValid u := by
      rw [← TensorValid.map_iff implements_numpy, ← hv, TensorValid.map_iff implements_rust]; exact ht
    have hok' : (op.run build (hash 0) u).2 = .ok () := by
      simp only [runAll] at hok
      split at hok
      · next h => rw [h]
      · next h => rw [h]; exact hok
    obtain ⟨h1, h2⟩ := C50_provided_sizes_partial build (hash 0) (hh 0) op hop t u ht hv
      (Op.sizesBroadcast_of_ok hop hu hok')
    have h3 := Op.run_map_rust (hh 0) hop ht (build := build)
    simp only [runAll] at hok ⊢
    cases hr : op.run build (hash 0) t with
    | mk t' r =>
      cases hr' : op.run build (hash 0) u with
      | mk u' r' =>
        rw [hr, hr'] at h1 h2
        rw [hr'] at hok hok'
        rw [hr] at h3
        simp only at h1 h2 hok'
        subst h1 hok'
        refine ih (fun n => hash (n + 1)) (fun n => hh (n + 1)) (fun op h => hops op (List.mem_cons_of_mem _ h)) t' u' ?_ h2
          hok
        rw [← TensorValid.map_iff implements_rust]
        exact Op.run_valid lawful_ndArray hop ((TensorValid.map_iff implements_rust).2 ht) h3

section
variable {A B : Type} [ArrayLike A] [ArrayLike B]

theorem FirstMergedWith.of_map {f : A → NdArray} {g : B → NdArray} {t : TensorMap A} {u : TensorMap B}
    (hv : t.mapData f = u.mapData g) (ht : TensorValid t) (hu : TensorValid u) {moved : List String}
    {first kb : List LabelValue × TensorBlock B} (h : FirstMergedWith u moved first kb) :
    ∃ first' kb', FirstMergedWith t moved first' kb' ∧ mapPair f first' = mapPair g first ∧
      mapPair f kb' = mapPair g kb := by
  have hk : u.keys = t.keys := (congrArg TensorMap.keys hv).symm
  have hb : t.blocks.map (TensorBlock.mapData f) = u.blocks.map (TensorBlock.mapData g) := congrArg TensorMap.blocks hv
  obtain ⟨pairs, hp, h1, h2⟩ := h
  rw [hu.iter_eq, Res.ok.injEq] at hp
  subst hp
  have hz : (t.keys.rows.zip t.blocks).map (mapPair f) = (u.keys.rows.zip u.blocks).map (mapPair g) := by
    rw [← zip_mapData, ← zip_mapData, hb, hk]
  have h3 : mapPair g kb ∈ (t.keys.rows.zip t.blocks).map (mapPair f) := by
    rw [hz]; exact List.mem_map_of_mem h1
  obtain ⟨kb', h4, h5⟩ := List.mem_map.1 h3
  have hk1 : kb'.1 = kb.1 := congrArg (fun x : List LabelValue × TensorBlock NdArray => x.1) h5
  have h6 : ((group t.keys.names moved (t.keys.rows.zip t.blocks) (remainingKey t.keys.names moved kb'.1)).map
      (mapPair f)).head? = some (mapPair g first) := by
    rw [← group_map, hz, group_map, List.head?_map, ← hk, hk1, h2, Option.map_some]
  rw [List.head?_map, Option.map_eq_some_iff] at h6
  obtain ⟨first', h7, h8⟩ := h6
  exact ⟨first', kb', ⟨_, ht.iter_eq, h4, h7⟩, h8, h5⟩

/-- Values can be repeated also with gradients without samples, if there are none of them. -/
theorem GradientsBroadcast.of_map {f : A → NdArray} {g : B → NdArray} {a a' : TensorBlock A} {b b' : TensorBlock B}
    (ha : a.mapData f = b.mapData g) (ha' : a'.mapData f = b'.mapData g) (h : GradientsBroadcast false a a')
    (hne : ∀ q x, b.gradient q = some x → entriesOf x.samples ≠ []) : GradientsBroadcast true b b' := by
  intro q x x' hx hx' _
  have h1 : (a.mapData f).gradient q = (b.mapData g).gradient q := by rw [ha]
  have h2 : (a'.mapData f).gradient q = (b'.mapData g).gradient q := by rw [ha']
  rw [TensorBlock.mapData_gradient, TensorBlock.mapData_gradient, hx, Option.map_some, Option.map_eq_some_iff] at h1
  rw [TensorBlock.mapData_gradient, TensorBlock.mapData_gradient, hx', Option.map_some, Option.map_eq_some_iff] at h2
  obtain ⟨y, h3, h4⟩ := h1
  obtain ⟨y', h5, h6⟩ := h2
  have h7 : y.samples = x.samples := congrArg BasicBlock.samples h4
  have h8 : y.components = x.components := congrArg BasicBlock.components h4
  have h9 : y'.components = x'.components := congrArg BasicBlock.components h6
  rw [← h8, ← h9]
  exact h q y y' h3 h5 (.inl (by rw [h7]; exact hne q x hx))

end

/-- **C50**, from Rust to numpy, in all builds and for gradient components of all sizes: when an operation succeeds with
arrays from Rust, and all gradients have samples, the same operation on the same tensor map succeeds with numpy arrays
and gives the same labels, shapes and elements. -/
theorem C50_rust_success (build : Build) (hash : HashOrder) (hh : OrderByName hash) (op : Op)
    (hop : op.LabelsExist) (t : TensorMap RustArray) (u : TensorMap NumpyArray) (ht : TensorValid t)
    (hv : t.mapData RustArray.array = u.mapData NumpyArray.array)
    (hne : ∀ b ∈ u.blocks, ∀ q g, b.gradient q = some g → entriesOf g.samples ≠ [])
    (hok : (op.run build hash t).2 = .ok ()) :
    (op.run build hash u).2 = .ok () ∧
    (op.run build hash t).1.mapData RustArray.array = (op.run build hash u).1.mapData NumpyArray.array := by
  have hu : TensorValid u := by
    rw [← TensorValid.map_iff implements_numpy, ← hv, TensorValid.map_iff implements_rust]; exact ht
  have hk : u.keys = t.keys := (congrArg TensorMap.keys hv).symm
  have hmem : ∀ {moved first kb}, FirstMergedWith u moved first kb → kb.2 ∈ u.blocks := by
    rintro moved first kb ⟨pairs, hp, h1, -⟩
    rw [hu.iter_eq, Res.ok.injEq] at hp
    subst hp
    exact (List.of_mem_zip (a := kb.1) (b := kb.2) h1).2
  have hbr : Op.SizesBroadcast build u op := by
    cases op with
    | keysToSamples k sort =>
      refine .inr fun first kb hf => ?_
      obtain ⟨first', kb', h1, h2, h3⟩ := FirstMergedWith.of_map hv ht hu hf
      exact GradientsBroadcast.of_map (congrArg Prod.snd h3) (congrArg Prod.snd h2)
        (keysToSamples_broadcast_of_ok implements_rust broadcasts_rust ht hop ⟨_, Prod.ext rfl hok⟩ first' kb' h1)
        (hne _ (hmem hf))
    | keysToProperties k sort =>
      refine .inr fun first kb hf hr => ?_
      obtain ⟨first', kb', h1, h2, h3⟩ := FirstMergedWith.of_map hv ht hu hf
      have hk1 : kb'.1 = kb.1 := congrArg (fun x : List LabelValue × TensorBlock NdArray => x.1) h3
      exact GradientsBroadcast.of_map (congrArg Prod.snd h3) (congrArg Prod.snd h2)
        (keysToProperties_broadcast_of_ok implements_rust broadcasts_rust ht hop ⟨_, Prod.ext rfl hok⟩ first' kb' h1
          (by rw [← hk, hk1]; exact hr))
        (hne _ (hmem hf))
    | componentsToProperties names => trivial
  obtain ⟨h1, h2⟩ := C50_provided_sizes_partial build hash hh op hop t u ht hv hbr
  exact ⟨h1.symm.trans hok, h2⟩

/-- **C50**, the defect with the arrays the library comes with: in a release build, `keys_to_samples` on the same tensor map
succeeds with arrays from Rust and fails with numpy arrays. A gradient without samples has components of another size,
which only numpy compares. -/
theorem C50_empty_gradient_counterexample :
    ¬ ∀ (build : Build) (hash : HashOrder), OrderByName hash → ∀ (op : Op), op.LabelsExist →
      ∀ (t : TensorMap RustArray) (u : TensorMap NumpyArray), TensorValid t →
      t.mapData RustArray.array = u.mapData NumpyArray.array →
      (op.run build hash t).2 = (op.run build hash u).2 := by
  intro h
  have h1 := h ⟨false⟩ .insertion Example.order_insertion (.keysToSamples Example.moveL true) Example.moveL_fromBuilder
    Example.emptySecondRust Example.emptySecondNumpy Example.emptySecondRust_valid (by decide +kernel)
  have h2 : (Example.emptySecondRust.keysToSamples ⟨false⟩ .insertion Example.moveL true).2 = .ok () := by decide +kernel
  have h3 : (Example.emptySecondNumpy.keysToSamples ⟨false⟩ .insertion Example.moveL true).2 ≠ .ok () := by decide +kernel
  exact h3 (h1.symm.trans h2)

/-- Non-vacuity: in a release build, with two directions and then a single one, the conditions hold, all gradients have
samples, and two operations after each other succeed. The blocks have gradients with components of different sizes. -/
example : TensorValid Example.unequalRust ∧
    Example.unequalRust.mapData RustArray.array = Example.unequalNumpy.mapData NumpyArray.array ∧
    Op.SizesBroadcast ⟨false⟩ Example.unequalNumpy (.keysToSamples Example.moveL true) ∧
    (runAll ⟨false⟩ (fun _ => .insertion) [.keysToSamples Example.moveL true, .componentsToProperties ["c"]]
      Example.unequalNumpy).2 = .ok () ∧
    (∀ b ∈ Example.unequalNumpy.blocks, ∀ q g, b.gradient q = some g → entriesOf g.samples ≠ []) ∧
    Example.unequalNumpy.blocks.map (fun b => (b.gradient "g").map fun g => g.components.map fun c => (entriesOf c).length) =
      [some [2, 2], some [1, 2]] := by
  refine ⟨Example.unequalRust_valid, by decide +kernel,
    Op.sizesBroadcast_of_ok (op := .keysToSamples Example.moveL true) (hash := .insertion) Example.moveL_fromBuilder
      Example.unequalNumpy_valid (by decide +kernel),
    by decide +kernel, ?_, by decide +kernel⟩
  have h : ∀ b ∈ Example.unequalNumpy.blocks, ∀ pg ∈ b.gradients, entriesOf pg.2.samples ≠ [] := by decide +kernel
  intro b hb q g hg
  exact h b hb (q, g) ((gradient_eq_some (Example.unequalNumpy_valid.blocks b hb).names).1 hg)

end Equistore
