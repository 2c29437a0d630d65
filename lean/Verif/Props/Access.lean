import Verif.Spec.Access
import Verif.Props.Reachable
import Verif.Lemmas.Concrete

/-!
# Read-write access to blocks (C99)
-/

namespace Equistore
open Spec

variable {A : Type} [ArrayLike A]

/-! ### C99 -/

/-- **C99**, full statement: whatever a program writes through the references it gets, the tensor map stays valid, and
blocks keep their number of components. -/
def C99_full_statement (A : Type) [ArrayLike A] : Prop :=
  ∀ (t t' : TensorMap A) (writes : List (Write A)), TensorValid t → (∀ w ∈ writes, CanHave w.new) →
    runWrites writes t = .ok t' →
    TensorValid t' ∧ ∀ (i : Nat) (place : Place) b b', readAt t i place = some b → readAt t' i place = some b' →
      b'.components.length = b.components.length

omit [ArrayLike A] in
theorem replaceGradient_names (p : String) (new : BasicBlock A) (gs : List (String × BasicBlock A)) :
    (replaceGradient p new gs).map Prod.fst = gs.map Prod.fst := by
  induction gs with
  | nil => rfl
  | cons g gs ih =>
    simp only [replaceGradient]
    split <;> simp [ih]

omit [ArrayLike A] in
theorem lookup_replaceGradient (p q : String) (new : BasicBlock A) (gs : List (String × BasicBlock A)) :
    (replaceGradient p new gs).lookup q = if p = q then (gs.lookup q).map fun _ => new else gs.lookup q := by
  induction gs with
  | nil => simp [replaceGradient]
  | cons g gs ih =>
    obtain ⟨name, g⟩ := g
    simp only [replaceGradient]
    by_cases h : name = p
    · subst h
      rw [if_pos rfl]
      by_cases hq : name = q
      · subst hq; simp
      · have : (q == name) = false := by simpa using fun h => hq h.symm
        simp [List.lookup_cons, this, hq]
    · rw [if_neg h]
      by_cases hq : name = q
      · subst hq
        rw [if_neg (fun h' => h h'.symm)]
        simp
      · have : (q == name) = false := by simpa using fun h => hq h.symm
        simp only [List.lookup_cons, this]
        exact ih

omit [ArrayLike A] in
theorem read_write (b : TensorBlock A) (new : BasicBlock A) (place place' : Place) :
    (b.write new place).read place' = if place = place' then (b.read place').map fun _ => new else b.read place' := by
  cases place with
  | values => cases place' <;> simp [TensorBlock.write, TensorBlock.read, TensorBlock.gradient]
  | gradient p =>
    cases place' with
    | values => simp [TensorBlock.write, TensorBlock.read]
    | gradient q => simp [TensorBlock.write, TensorBlock.read, TensorBlock.gradient, lookup_replaceGradient]

omit [ArrayLike A] in
theorem readAt_writeBlock {t t' : TensorMap A} {i : Nat} {place : Place} {new : BasicBlock A}
    (h : t.writeBlock i place new = .ok t') (j : Nat) (place' : Place) :
    readAt t' j place' = if i = j ∧ place = place' then (readAt t j place').map fun _ => new else readAt t j place' := by
  unfold TensorMap.writeBlock at h
  split at h
  · rename_i b hb
    cases h
    simp only [readAt, List.getElem?_set]
    have hi := (List.getElem?_eq_some_iff.1 hb).1
    by_cases hij : i = j
    · subst hij
      simp only [hi, hb, if_true, Option.bind_some, read_write, true_and]
    · simp [hij]
  · cases h

omit [ArrayLike A] in
/-- **C99**, what a write can change: the keys, the number of blocks, and the gradients each block has stay what they
are, whatever is written. What is missing: the labels and the shapes of arrays, see `C99_counterexample`. -/
theorem C99_partial (writes : List (Write A)) : ∀ (t t' : TensorMap A), runWrites writes t = .ok t' →
    t'.keys = t.keys ∧ t'.blocks.length = t.blocks.length ∧
    ∀ (i : Nat) b b', t.blocks[i]? = some b → t'.blocks[i]? = some b' →
      b'.gradientParameters = b.gradientParameters ∧ b'.gradients.map Prod.fst = b.gradients.map Prod.fst := by
  induction writes with
  | nil =>
    intro t t' h
    cases h
    exact ⟨rfl, rfl, fun i b b' h h' => by rw [h] at h'; cases h'; exact ⟨rfl, rfl⟩⟩
  | cons w ws ih =>
    intro t t' h
    simp only [runWrites, Res.bind_eq_ok] at h
    obtain ⟨t₁, h1, h2⟩ := h
    obtain ⟨k, l, g⟩ := ih t₁ t' h2
    unfold TensorMap.writeBlock at h1
    split at h1
    · rename_i b₀ hb₀
      cases h1
      refine ⟨k, by simpa using l, fun i b b' hb hb' => ?_⟩
      have hi := (List.getElem?_eq_some_iff.1 hb).1
      by_cases hij : w.block = i
      · subst hij
        rw [hb₀] at hb
        cases hb
        obtain ⟨e1, e2⟩ := g w.block (b₀.write w.new w.place) b' (by simp [hi]) hb'
        rw [e1, e2]
        cases hp : w.place with
        | values => exact ⟨rfl, rfl⟩
        | gradient p => exact ⟨rfl, replaceGradient_names _ _ _⟩
      · exact g i b b' (by simp [hij, hb]) hb'
    · cases h1

omit [ArrayLike A] in
/-- **C99**, where writes go: a write changes the place it is for, if there is something there, and no other one. It
panics exactly when there is no such block. -/
theorem C99_places (t : TensorMap A) (i : Nat) (place : Place) (new : BasicBlock A) :
    (t.blocks.length ≤ i ↔ ∃ m, t.writeBlock i place new = .panic m) ∧
    (i < t.blocks.length → ∃ t', t.writeBlock i place new = .ok t' ∧
      (∀ b, readAt t i place = some b → readAt t' i place = some new) ∧
      (∀ j place', (i, place) ≠ (j, place') → readAt t' j place' = readAt t j place')) := by
  by_cases hi : i < t.blocks.length
  · have e : t.writeBlock i place new = .ok { t with blocks := t.blocks.set i (t.blocks[i].write new place) } := by
      unfold TensorMap.writeBlock
      simp [hi]
    refine ⟨⟨fun h => absurd hi (by omega), fun ⟨m, hm⟩ => by rw [e] at hm; cases hm⟩, fun _ => ⟨_, e, ?_, ?_⟩⟩
    · intro b hb
      rw [readAt_writeBlock e, if_pos ⟨rfl, rfl⟩, hb]
      rfl
    · intro j place' hne
      rw [readAt_writeBlock e, if_neg (fun h => hne (by rw [h.1, h.2]))]
  · have hn : t.blocks[i]? = none := List.getElem?_eq_none_iff.2 (by omega)
    exact ⟨⟨fun _ => ⟨_, by unfold TensorMap.writeBlock; rw [hn]⟩, fun _ => by omega⟩, fun h => absurd h hi⟩

theorem BasicWritten.refl (b : BasicBlock A) : BasicWritten b b := ⟨rfl, rfl, rfl, rfl, rfl⟩

theorem replaceGradient_written {p : String} {new : BasicBlock A} : ∀ (gs : List (String × BasicBlock A)),
    (∀ g, gs.lookup p = some g → BasicWritten g new) →
    List.Forall₂ (fun p p' : String × BasicBlock A => p'.1 = p.1 ∧ BasicWritten p.2 p'.2) gs (replaceGradient p new gs)
  | [], _ => .nil
  | (name, g) :: gs, h => by
    simp only [replaceGradient]
    split
    · rename_i e
      subst e
      refine .cons ⟨rfl, h g (by simp)⟩ ?_
      exact List.forall₂_same.2 fun q _ => ⟨rfl, BasicWritten.refl _⟩
    · rename_i e
      refine .cons ⟨rfl, BasicWritten.refl _⟩ (replaceGradient_written gs fun g' hg' => h g' ?_)
      have : (p == name) = false := by simpa using fun h => e h.symm
      simpa [List.lookup_cons, this] using hg'

theorem writeBlock_written {t t' : TensorMap A} {i : Nat} {place : Place} {new : BasicBlock A}
    (h : t.writeBlock i place new = .ok t') (hw : ∀ b, readAt t i place = some b → BasicWritten b new) :
    TensorWritten t t' := by
  unfold TensorMap.writeBlock at h
  split at h
  · rename_i b hb
    cases h
    refine ⟨rfl, List.forall₂_iff_get.2 ⟨by simp, fun j h1 h2 => ?_⟩⟩
    simp only [List.get_eq_getElem, List.getElem_set]
    split
    · rename_i hij
      subst hij
      obtain ⟨h0, hb⟩ := List.getElem?_eq_some_iff.1 hb
      rw [hb]
      have hr : ∀ x, b.read place = some x → BasicWritten x new := by
        intro x hx
        refine hw x ?_
        simp [readAt, h0, hb, hx]
      cases place with
      | values => exact ⟨hr _ rfl, List.forall₂_same.2 fun q _ => ⟨rfl, BasicWritten.refl _⟩, rfl⟩
      | gradient p => exact ⟨BasicWritten.refl _, replaceGradient_written _ hr, rfl⟩
    · exact ⟨BasicWritten.refl _, List.forall₂_same.2 fun q _ => ⟨rfl, BasicWritten.refl _⟩, rfl⟩
  · cases h

/-- **C99**, writing elements: as long as a program keeps labels, shapes and origins, the tensor map stays valid. -/
theorem C99_elements (writes : List (Write A)) : ∀ (t t' : TensorMap A), TensorValid t → OnlyElements writes t →
    runWrites writes t = .ok t' → TensorValid t' := by
  induction writes with
  | nil => intro t t' ht _ h; cases h; exact ht
  | cons w ws ih =>
    intro t t' ht hw h
    simp only [runWrites, Res.bind_eq_ok] at h
    obtain ⟨t₁, h1, h2⟩ := h
    exact ih t₁ t' ((writeBlock_written h1 hw.1).valid ht) (hw.2 t₁ h1) h2

namespace Example

/-- The gradient of a block is written over its values: `*block.values_mut() = block.gradient("g").unwrap().clone()`. -/
def gradientOverValues : List (Write NdArray) :=
  [⟨0, .values, ⟨gradientData, gradientSamples, [direction, component], properties⟩⟩]

/-- Other samples are assigned, more than there are in the array: `block.values_mut().samples = ...`. -/
def moreSamples : List (Write NdArray) :=
  [⟨0, .values, ⟨data, Labels.mk' ["s"] [[0], [2], [4]], [component], properties⟩⟩]

/-- Other samples are assigned, fewer than there are in the array. -/
def fewerSamples : List (Write NdArray) := [⟨0, .values, ⟨data, Labels.mk' ["s"] [[0]], [component], properties⟩⟩]

/-- Blocks without gradients. -/
def noGradients : TensorMap NdArray := ⟨keys, [block, block, block]⟩

/-- Elements are written in the values of a block, and in a gradient of another one. -/
def elements : List (Write NdArray) :=
  [⟨0, .values, ⟨⟨[2, 2, 3], List.replicate 12 7⟩, samples, [component], properties⟩⟩,
   ⟨2, .gradient "g", ⟨⟨[2, 1, 2, 3], List.replicate 12 5⟩, gradientSamples, [direction, component], properties⟩⟩]

end Example

theorem Example.canHave_of {b : BasicBlock NdArray}
    (h : (b.samples :: b.properties :: b.components).all Labels.rebuilds = true)
    (hc : (∀ c ∈ b.components, c.names.length = 1) ∧ (b.components.map (·.names)).Nodup) : CanHave b := by
  have h := List.all_eq_true.1 h
  exact ⟨Labels.rebuilds_fromBuilder (h _ (by simp)), Labels.rebuilds_fromBuilder (h _ (by simp)), hc,
    fun c hc => Labels.rebuilds_fromBuilder (h _ (by simp [hc]))⟩

/-- **C99** is false: a block can be given another number of components. -/
theorem C99_counterexample : ¬ C99_full_statement NdArray := by
  intro h
  have h1 := h Example.tensor _ Example.gradientOverValues Example.tensor_valid
    (by
      intro w hw
      rw [Example.gradientOverValues, List.mem_singleton] at hw
      subst hw
      exact Example.canHave_of (by decide +kernel) (by decide +kernel)) rfl
  have h2 := h1.2 0 .values _ _ rfl rfl
  revert h2
  decide +kernel

/-- What follows from other samples: with more samples than there are in the array, moving keys to samples fails in the
array; with fewer samples it succeeds, and the values of the other samples of the block are lost. -/
theorem C99_later :
    (∃ t', runWrites Example.moreSamples Example.tensor = .ok t' ∧
      ∃ m, (t'.keysToSamples ⟨false⟩ .insertion Example.moveL true).2 = .err (.external 255 m)) ∧
    TensorValid Example.noGradients ∧
    (∃ t', runWrites Example.fewerSamples Example.noGradients = .ok t' ∧ ¬ TensorValid t' ∧
      (t'.keysToSamples ⟨false⟩ .insertion Example.moveL true).2 = .ok () ∧
      (t'.keysToSamples ⟨false⟩ .insertion Example.moveL true).1.blocks.map (fun b => b.values.data.shape) =
        [[3, 2, 3], [2, 2, 3]] ∧
      (Example.noGradients.keysToSamples ⟨false⟩ .insertion Example.moveL true).1.blocks.map
        (fun b => b.values.data.shape) = [[4, 2, 3], [2, 2, 3]]) := by
  refine ⟨⟨_, rfl, _, rfl⟩, TensorMap.valid_of_rebuilds (by decide +kernel), ⟨_, rfl, ?_, by decide +kernel, by decide +kernel, by decide +kernel⟩⟩
  intro h
  obtain ⟨shape, h1, h2⟩ := (h.blocks _ List.mem_cons_self).values.shape
  cases h1
  cases h2 with
  | cons h3 _ => exact absurd h3 (by decide +kernel)

/-- Non-vacuity of `C99_partial`, `C99_places` and `C99_elements`: a program which only writes elements. -/
example : TensorValid Example.tensor ∧ OnlyElements Example.elements Example.tensor ∧
    ∃ t', runWrites Example.elements Example.tensor = .ok t' ∧ t' ≠ Example.tensor := by
  refine ⟨Example.tensor_valid, ⟨?_, fun t₁ h1 => ⟨?_, fun _ _ => trivial⟩⟩, _, rfl, by decide +kernel⟩
  · intro b hb
    cases hb
    exact ⟨rfl, rfl, rfl, rfl, rfl⟩
  · cases h1
    intro b hb
    cases hb
    exact ⟨rfl, rfl, rfl, rfl, rfl⟩

end Equistore
