import Verif.Props.Components
import Verif.Props.KeysToProperties
import Verif.Lemmas.HashOrder

/-!
# Histories of tensor maps (C28, C29)
-/

namespace Equistore
open Spec

variable {A : Type} [ArrayLike A]

/-! ### C28 -/

/-- Blocks a user can make: a new block, then any `add_gradient` calls, whether they
succeed or not. Names with a NUL character are excluded, see `C07`. -/
def MadeBlock (b : TensorBlock A) : Prop :=
  ∃ (data : A) (samples : Labels) (components : List Labels) (properties : Labels)
    (start : TensorBlock A) (calls : List (AddGradientCall A)) (names : List String),
    TensorBlock.new data samples components properties = .ok start ∧
    (∀ l ∈ samples :: components ++ [properties], l.FromBuilder) ∧
    (∀ c ∈ calls, '\x00' ∉ c.parameter.toList ∧ ∀ l ∈ c.samples :: c.components, l.FromBuilder) ∧
    Adds start calls names b

/-- Tensor maps a user can get: `TensorMap::new` followed by any sequence of
operations, in any order, for any iteration order of the hash maps and any build,
whether they succeed or not, mixed with writes to the elements of arrays. The outcomes
of `components_to_properties` are restricted to `allowed`. -/
inductive Reachable (allowed : Res Unit → Prop) : TensorMap A → Prop
  | new {hash keys blocks t} : keys.FromBuilder → (∀ b ∈ blocks, MadeBlock b) →
      TensorMap.new hash keys blocks = .ok t → Reachable allowed t
  | step {build hash t t' r} (op : Op) : Reachable allowed t → op.LabelsExist →
      op.run build hash t = (t', r) → (∀ names, op = .componentsToProperties names → allowed r) →
      Reachable allowed t'
  | write {t t'} : Reachable allowed t → TensorWritten t t' → Reachable allowed t'

theorem MadeBlock.valid {b : TensorBlock A} (h : MadeBlock b) : BlockValid b := by
  obtain ⟨data, samples, components, properties, start, calls, names, h1, h2, h3, h4⟩ := h
  exact (C07_block_history data samples components properties start b calls names h1 h2 h3 h4).1

theorem TensorMap.new_valid {hash : HashOrder} {keys : Labels} {blocks : List (TensorBlock A)}
    {t : TensorMap A} (hk : keys.FromBuilder) (hb : ∀ b ∈ blocks, BlockValid b)
    (h : TensorMap.new hash keys blocks = .ok t) : TensorValid t := by
  obtain ⟨h1, h2, rfl⟩ := (TensorMap.new_eq_ok (fun b h => (hb b h).names)).1 h
  exact ⟨hk, h1, hb, h2⟩

theorem Spec.BasicWritten.valid {b b' : BasicBlock A} (h : BasicWritten b b') (hb : BasicValid b) :
    BasicValid b' := by
  obtain ⟨h1, h2, h3⟩ := hb
  refine ⟨?_, ?_, ?_⟩
  · rw [h.shape, h.samples, h.components, h.properties]; exact h1
  · rw [h.components]; exact h2
  · rw [h.samples, h.components, h.properties]; exact h3

theorem Spec.BlockWritten.fst_eq {b b' : TensorBlock A} (h : BlockWritten b b') :
    b'.gradients.map Prod.fst = b.gradients.map Prod.fst := by
  have h1 := h.gradients
  generalize b.gradients = l at h1
  generalize b'.gradients = l' at h1
  induction h1 with
  | nil => rfl
  | cons h _ ih => rw [List.map_cons, List.map_cons, h.1, ih]

theorem Spec.BlockWritten.mem {b b' : TensorBlock A} (h : BlockWritten b b') {p : String}
    {g' : BasicBlock A} (hg : (p, g') ∈ b'.gradients) :
    ∃ g, (p, g) ∈ b.gradients ∧ BasicWritten g g' := by
  have h1 := h.gradients
  generalize b.gradients = l at h1
  generalize b'.gradients = l' at h1 hg
  induction h1 with
  | nil => simp at hg
  | @cons a a' _ _ h _ ih =>
    rw [List.mem_cons] at hg
    rcases hg with rfl | hg
    · refine ⟨a.2, ?_, h.2⟩
      have : a = (p, a.2) := Prod.ext h.1.symm rfl
      rw [← this]; simp
    · obtain ⟨g, h1, h2⟩ := ih hg
      exact ⟨g, List.mem_cons_of_mem _ h1, h2⟩

theorem Spec.BlockWritten.valid {b b' : TensorBlock A} (h : BlockWritten b b') (hb : BlockValid b) :
    BlockValid b' := by
  refine ⟨h.values.valid hb.values, ?_, ?_, ?_, ?_⟩
  · intro p g' hg'
    obtain ⟨g, hg, hw⟩ := h.mem hg'
    obtain ⟨h1, h2, h3, h4, h5⟩ := hb.gradients p g hg
    refine ⟨hw.valid h1, ?_, ?_, ?_, ?_⟩
    · rw [hw.properties, h.values.properties]; exact h2
    · rw [hw.components, h.values.components]; exact h3
    · rw [hw.samples]; exact h4
    · rw [hw.origin, h.values.origin]; exact h5
  · rw [h.fst_eq]; exact hb.names
  · rw [h.fst_eq]; exact hb.reserved
  · rw [h.list, h.fst_eq]; exact hb.list

theorem Spec.BlockWritten.gradient {b b' : TensorBlock A} (h : BlockWritten b b') (hb : BlockValid b)
    (p : String) : (b'.gradient p).isSome = (b.gradient p).isSome ∧
      ∀ g', b'.gradient p = some g' → ∃ g, b.gradient p = some g ∧ BasicWritten g g' := by
  have n1 : b.GradientsNodup := hb.names
  have n2 : b'.GradientsNodup := (h.valid hb).names
  constructor
  · rw [Bool.eq_iff_iff, Option.isSome_iff_ne_none, Option.isSome_iff_ne_none, TensorBlock.gradient,
      TensorBlock.gradient, ne_eq, ne_eq, lookup_eq_none_iff_not_mem, lookup_eq_none_iff_not_mem, h.fst_eq]
  · intro g' hg'
    obtain ⟨g, hg, hw⟩ := h.mem ((gradient_eq_some n2).1 hg')
    exact ⟨g, (gradient_eq_some n1).2 hg, hw⟩

theorem Spec.BasicWritten.sameNames {a a' b b' : BasicBlock A} (ha : BasicWritten a a')
    (hb : BasicWritten b b') (h : SameNames a b) : SameNames a' b' := by
  unfold SameNames at h ⊢
  rw [ha.samples, hb.samples, ha.components, hb.components]; exact h

theorem Spec.TensorWritten.valid {t t' : TensorMap A} (h : TensorWritten t t') (ht : TensorValid t) :
    TensorValid t' := by
  have hmem : ∀ b' ∈ t'.blocks, ∃ b ∈ t.blocks, BlockWritten b b' := by
    have h1 := h.blocks
    generalize t.blocks = l at h1
    generalize t'.blocks = l' at h1
    induction h1 with
    | nil => simp
    | cons h _ ih =>
      intro b' hb'
      rw [List.mem_cons] at hb'
      rcases hb' with rfl | hb'
      · exact ⟨_, List.mem_cons_self, h⟩
      · obtain ⟨b, h1, h2⟩ := ih b' hb'
        exact ⟨b, List.mem_cons_of_mem _ h1, h2⟩
  refine ⟨by rw [h.keys]; exact ht.keys, by rw [h.keys, ht.count, h.blocks.length_eq], ?_, ?_⟩
  · intro b' hb'
    obtain ⟨b, hb, hw⟩ := hmem b' hb'
    exact hw.valid (ht.blocks b hb)
  · intro a' ha' b' hb'
    obtain ⟨a, ha, hwa⟩ := hmem a' ha'
    obtain ⟨b, hb, hwb⟩ := hmem b' hb'
    obtain ⟨h1, h2, h3, h4⟩ := ht.consistent a ha b hb
    refine ⟨hwa.values.sameNames hwb.values h1, ?_, ?_, ?_⟩
    · rw [hwa.values.properties, hwb.values.properties]; exact h2
    · intro p
      rw [(hwa.gradient (ht.blocks a ha) p).1, (hwb.gradient (ht.blocks b hb) p).1]; exact h3 p
    · intro p g g' hg hg'
      obtain ⟨g₀, e1, w1⟩ := (hwa.gradient (ht.blocks a ha) p).2 g hg
      obtain ⟨g₁, e2, w2⟩ := (hwb.gradient (ht.blocks b hb) p).2 g' hg'
      exact w1.sameNames w2 (h4 p _ _ e1 e2)

theorem keysToSamples_keeps {build : Build} {hash : HashOrder} {keysToMove : Labels} {sort : Bool}
    {t t' : TensorMap A} {r : Res Unit} (ht : TensorValid t) (hm : keysToMove.FromBuilder)
    (h : t.keysToSamples build hash keysToMove sort = (t', r)) : TensorValid t' := by
  cases r with
  | ok u => exact keysToSamples_valid ht hm h
  | err e =>
    rw [keysToSamples_eq] at h
    split at h <;> simp only [Prod.mk.injEq, reduceCtorEq, and_false] at h
    rw [← h.1]; exact ht
  | panic e =>
    rw [keysToSamples_eq] at h
    split at h <;> simp only [Prod.mk.injEq, reduceCtorEq, and_false] at h
    rw [← h.1]; exact ht

theorem keysToProperties_keeps {build : Build} {hash : HashOrder} {keysToMove : Labels} {sort : Bool}
    {t t' : TensorMap A} {r : Res Unit} (ht : TensorValid t) (hm : keysToMove.FromBuilder)
    (h : t.keysToProperties build hash keysToMove sort = (t', r)) : TensorValid t' := by
  cases r with
  | ok u => exact keysToProperties_valid ht hm h
  | err e =>
    rw [keysToProperties_eq] at h
    split at h <;> simp only [Prod.mk.injEq, reduceCtorEq, and_false] at h
    rw [← h.1]; exact ht
  | panic e =>
    rw [keysToProperties_eq] at h
    split at h <;> simp only [Prod.mk.injEq, reduceCtorEq, and_false] at h
    rw [← h.1]; exact ht

theorem componentsToProperties_keeps {hash : HashOrder} {vars : List String} (hA : LawfulArray A)
    {t t' : TensorMap A} (ht : TensorValid t)
    (h : t.componentsToProperties hash vars = (t', .ok ())) : TensorValid t' := by
  by_cases hv : vars = []
  · subst hv
    rw [C09_components_to_properties_nothing, Prod.mk.injEq] at h
    rw [← h.1]; exact ht
  · exact (C09_components_to_properties_labels hA hash vars t t' ht hv h).2.2

/-- **C28.** Every reachable tensor map is valid: distinct keys, one valid block for each of
them, and blocks consistent with each other. Calls to `components_to_properties` which panic
are excluded; the other operations can end in any way. -/
theorem C28_reachable_valid (t : TensorMap NdArray)
    (h : Reachable (fun r => ∀ message, r ≠ .panic message) t) : TensorValid t := by
  induction h with
  | new hk hb h => exact TensorMap.new_valid hk (fun b h => (hb b h).valid) h
  | write _ hw ih => exact hw.valid ih
  | @step build hash t t' r op _ hl hrun hr ih =>
    cases op with
    | keysToSamples k sort => exact keysToSamples_keeps ih hl hrun
    | keysToProperties k sort => exact keysToProperties_keeps ih hl hrun
    | componentsToProperties names =>
      cases r with
      | ok u => exact componentsToProperties_keeps lawful_ndArray ih hrun
      | err e => rw [C11_error_atomic_partial hash names t t' ih e hrun]; exact ih
      | panic m => exact absurd rfl (hr names rfl m)

/-- **C28** for any other kind of array, if `reshape` and `swap_axes` do what they say. Only
successful calls to `components_to_properties` are considered, since an array can fail in
the middle of the operation. -/
theorem C28_reachable_valid_any_array (hA : LawfulArray A) (t : TensorMap A)
    (h : Reachable (fun r => r = .ok ()) t) : TensorValid t := by
  induction h with
  | new hk hb h => exact TensorMap.new_valid hk (fun b h => (hb b h).valid) h
  | write _ hw ih => exact hw.valid ih
  | @step build hash t t' r op _ hl hrun hr ih =>
    cases op with
    | keysToSamples k sort => exact keysToSamples_keeps ih hl hrun
    | keysToProperties k sort => exact keysToProperties_keeps ih hl hrun
    | componentsToProperties names =>
      have := hr names rfl
      subst this
      exact componentsToProperties_keeps hA ih hrun

/-- **C28**: the keys of a reachable tensor map are different from each other, and there is
one block for each. -/
theorem C28_reachable_keys (t : TensorMap NdArray)
    (h : Reachable (fun r => ∀ message, r ≠ .panic message) t) :
    (entriesOf t.keys).Nodup ∧ t.blocks.length = (entriesOf t.keys).length := by
  have ht := C28_reachable_valid t h
  have hk := ht.keys_wf
  have e : entriesOf t.keys = t.keys.rows := by
    unfold entriesOf; rw [hk.iter_eq]
  rw [e]
  exact ⟨hk.nodup, ht.length_eq.symm⟩

/-! ### C29 -/

theorem PermTensor.run {build : Build} {hash hash' : HashOrder} {op : Op} (hop : op.LabelsExist)
    {t t₁ t' : TensorMap A} (ht : TensorValid t) (ht₁ : TensorValid t₁) (hp : PermTensor t t₁)
    (h : op.run build hash t = (t', .ok ())) :
    ∃ t₁', op.run build hash' t₁ = (t₁', .ok ()) ∧ PermTensor t' t₁' := by
  cases op with
  | keysToSamples k sort =>
    obtain ⟨h1, h2, h3⟩ := (keysToSamples_ok_iff ht hop).1 h
    obtain ⟨t₁', h4, h5⟩ := h3.perm hp fun _ _ _ hb => mergeBlocksAlongSamples_perm (hash' := hash') hb
    exact ⟨t₁', (keysToSamples_ok_iff ht₁ hop).2 ⟨h1, h2, h4⟩, h5⟩
  | keysToProperties k sort =>
    obtain ⟨h1, h3⟩ := (keysToProperties_ok_iff ht hop).1 h
    obtain ⟨t₁', h4, h5⟩ := h3.perm hp fun _ _ _ hb => mergeBlocksAlongProperties_perm (hash' := hash') hb
    exact ⟨t₁', (keysToProperties_ok_iff ht₁ hop).2 ⟨h1, h4⟩, h5⟩
  | componentsToProperties names => exact TensorMap.componentsToProperties_perm hp h

theorem Op.run_valid (hA : LawfulArray A) {build : Build} {hash : HashOrder} {op : Op}
    (hop : op.LabelsExist) {t t' : TensorMap A} (ht : TensorValid t)
    (h : op.run build hash t = (t', .ok ())) : TensorValid t' := by
  cases op with
  | keysToSamples k sort => exact keysToSamples_keeps ht hop h
  | keysToProperties k sort => exact keysToProperties_keeps ht hop h
  | componentsToProperties names => exact componentsToProperties_keeps hA ht h

/-- **C29** for one operation, on any kind of arrays: with two different iteration orders, on
tensor maps which are the same except for the order of gradients, the operation succeeds
with one order iff it does with the other, and gives the same result except for the order of
gradients. -/
theorem C29_any_order (build : Build) (hash hash' : HashOrder) (op : Op) (hop : op.LabelsExist)
    (t t₁ : TensorMap A) (ht : TensorValid t) (ht₁ : TensorValid t₁) (hs : SameTensor t t₁) :
    ((op.run build hash t).2 = .ok () ↔ (op.run build hash' t₁).2 = .ok ()) ∧
    ((op.run build hash t).2 = .ok () →
      SameTensor (op.run build hash t).1 (op.run build hash' t₁).1) := by
  have hp := hs.perm ht ht₁
  have hs' : SameTensor t₁ t :=
    ⟨hs.keys.symm, hs.blocks.flip.imp fun _ _ h => ⟨h.values.symm, fun p => (h.gradients p).symm, h.list.symm⟩⟩
  have hp' := hs'.perm ht₁ ht
  refine ⟨⟨fun h => ?_, fun h => ?_⟩, fun h => ?_⟩
  · obtain ⟨t', h1, -⟩ := hp.run (hash' := hash') hop ht ht₁ (t' := (op.run build hash t).1) (Prod.ext rfl h)
    rw [h1]
  · obtain ⟨t', h1, -⟩ := hp'.run (hash' := hash) hop ht₁ ht (t' := (op.run build hash' t₁).1) (Prod.ext rfl h)
    rw [h1]
  · obtain ⟨t', h1, h2⟩ := hp.run (hash' := hash') hop ht ht₁ (t' := (op.run build hash t).1) (Prod.ext rfl h)
    rw [h1]
    exact h2.same

/-- **C29** for sequences of operations: with two different choices of all iteration orders,
a sequence of operations applied to the same tensor map succeeds with one iff it does with
the other, and gives the same result except for the order of gradients. -/
theorem C29_sequence_any_order (hA : LawfulArray A) (build : Build) (hash hash' : Nat → HashOrder)
    (ops : List Op) (hops : ∀ op ∈ ops, op.LabelsExist) (t : TensorMap A) (ht : TensorValid t) :
    ((runAll build hash ops t).2 = .ok () ↔ (runAll build hash' ops t).2 = .ok ()) ∧
    ((runAll build hash ops t).2 = .ok () →
      SameTensor (runAll build hash ops t).1 (runAll build hash' ops t).1) := by
  suffices key : ∀ (t₁ : TensorMap A), TensorValid t₁ → SameTensor t t₁ →
      ((runAll build hash ops t).2 = .ok () ↔ (runAll build hash' ops t₁).2 = .ok ()) ∧
      ((runAll build hash ops t).2 = .ok () →
        SameTensor (runAll build hash ops t).1 (runAll build hash' ops t₁).1) by
    refine key t ht ⟨rfl, ?_⟩
    rw [List.forall₂_same]
    exact fun b _ => ⟨rfl, fun _ => rfl, .refl _⟩
  induction ops generalizing hash hash' t with
  | nil => intro t₁ _ h; exact ⟨by simp [runAll], fun _ => h⟩
  | cons op ops ih =>
    intro t₁ ht₁ hs
    have hop := hops op List.mem_cons_self
    obtain ⟨h1, h2⟩ := C29_any_order build (hash 0) (hash' 0) op hop t t₁ ht ht₁ hs
    simp only [runAll]
    cases hr : op.run build (hash 0) t with
    | mk t' r =>
      cases hr' : op.run build (hash' 0) t₁ with
      | mk t₁' r' =>
        rw [hr, hr'] at h1 h2
        simp only at h1 h2
        by_cases hok : r = .ok ()
        · obtain rfl := h1.1 hok
          subst hok
          exact ih (fun n => hash (n + 1)) (fun n => hash' (n + 1))
            (fun op h => hops op (List.mem_cons_of_mem _ h)) t' (Op.run_valid hA hop ht hr) t₁'
            (Op.run_valid hA hop ht₁ hr') (h2 rfl)
        · have hok' : r' ≠ .ok () := fun h => hok (h1.2 h)
          cases r with
          | ok u => exact absurd rfl hok
          | err e => cases r' with
            | ok u => exact absurd rfl hok'
            | err e => simp
            | panic e => simp
          | panic e => cases r' with
            | ok u => exact absurd rfl hok'
            | err e => simp
            | panic e => simp

/-- **C29** for the creation of tensor maps. -/
theorem C29_new_any_order (hash hash' : HashOrder) (keys : Labels) (blocks : List (TensorBlock A))
    (hb : ∀ b ∈ blocks, BlockValid b) (t : TensorMap A) :
    TensorMap.new hash keys blocks = .ok t ↔ TensorMap.new hash' keys blocks = .ok t :=
  C12_tensor_any_order hash hash' keys blocks (fun b h => (hb b h).names) t

/-! ### Examples -/

namespace Example

theorem gradBlock_made : MadeBlock gradBlock :=
  ⟨data, samples, [component], properties, block, [⟨"g", gradientData, gradientSamples, [direction, component]⟩],
    ["g"], block_new,
    fun l hl => Labels.rebuilds_fromBuilder (by revert l; decide +kernel),
    fun c hc => by
      rw [List.mem_singleton] at hc
      subst hc
      exact ⟨by decide +kernel, fun l hl => Labels.rebuilds_fromBuilder (by revert l; decide +kernel)⟩,
    .success (by unfold AddGradientCall.succeeds; decide +kernel) (.nil _)⟩

/-- `gradBlock` with a second gradient. -/
def twoGradients : TensorBlock NdArray :=
  (TensorBlock.addGradient "h" gradientData gradientSamples [direction, component] gradBlock).1
def tensor2 : TensorMap NdArray := ⟨keys, [twoGradients, twoGradients, twoGradients]⟩
theorem tensor2_valid : TensorValid tensor2 := TensorMap.valid_of_rebuilds (by decide +kernel)

theorem tensor_reachable (allowed : Res Unit → Prop) : Reachable allowed tensor :=
  .new (hash := .insertion) (Labels.rebuilds_fromBuilder (by decide +kernel))
    (by simp only [List.mem_cons, List.not_mem_nil, or_false, or_self]; rintro b rfl; exact gradBlock_made)
    (tensor_new _)

end Example

/-- Non-vacuity of `C28`: the example is reachable, and so is the result of an operation
on it. -/
example (allowed : Res Unit → Prop) : Reachable allowed Example.tensor ∧ Reachable allowed Example.movedL :=
  ⟨Example.tensor_reachable _, .step (build := ⟨false⟩) (hash := .insertion) (.keysToSamples Example.moveL true)
    (Example.tensor_reachable _) Example.moveL_fromBuilder Example.movedL_eq (by simp)⟩

/-- Non-vacuity of `C29`: two orders do give different lists of gradients, in a
sequence of two operations which succeeds. -/
example : TensorValid Example.tensor2 ∧
    (runAll ⟨true⟩ (fun _ => .insertion) [.keysToSamples Example.moveL true, .componentsToProperties ["c"]]
      Example.tensor2).2 = .ok () ∧
    ((runAll ⟨true⟩ (fun _ => .insertion) [.keysToSamples Example.moveL true, .componentsToProperties ["c"]]
      Example.tensor2).1.blocks.map (·.gradientParameters)) = [["g", "h"], ["g", "h"]] ∧
    ((runAll ⟨true⟩ (fun _ => .reversed) [.keysToSamples Example.moveL true, .componentsToProperties ["c"]]
      Example.tensor2).1.blocks.map (·.gradientParameters)) = [["h", "g"], ["h", "g"]] :=
  ⟨Example.tensor2_valid, by decide +kernel, by decide +kernel, by decide +kernel⟩

end Equistore
