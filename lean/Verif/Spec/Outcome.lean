import Verif.Spec.Backend

/-!
# Specification vocabulary: when moving keys succeeds

Written in terms of names, keys, entries of labels and gradients, as given by the API.
-/

namespace Equistore
namespace Spec

variable {A : Type} [ArrayLike A]

/-- The first value of the gradient sample `r` is the index of one of the samples. -/
def RefersToSample (samples : Labels) (r : List LabelValue) : Prop :=
  ∃ v rest, ∃ i : Nat, ∃ s, r = v :: rest ∧ v.toInt = i ∧ EntryAt samples i s

/-- The gradients of a block can be merged: their names can be C strings, and all their samples
refer to samples of the block. -/
structure GradientsUsable (b : TensorBlock A) : Prop where
  names : ∀ q g, b.gradient q = some g → '\x00' ∉ q.toList
  samples : ∀ q g, b.gradient q = some g → ∀ r ∈ entriesOf g.samples, RefersToSample b.values.samples r

/-- `first` is the first of the blocks, with their keys, which are merged with `kb` when moving some
names of the keys. -/
def FirstMergedWith (t : TensorMap A) (moved : List String) (first kb : List LabelValue × TensorBlock A) :
    Prop :=
  ∃ pairs, t.iter = .ok pairs ∧ kb ∈ pairs ∧
    (group t.keys.names moved pairs (remainingKey t.keys.names moved kb.1)).head? = some first

/-- The gradients of two blocks have the same components. -/
def GradientComponentsEqual (a b : TensorBlock A) : Prop :=
  ∀ q g g', a.gradient q = some g → b.gradient q = some g' → g.components = g'.components

/-- Blocks merged together do not have more samples than an index in a gradient sample, a signed
32-bit integer, can refer to. -/
def SamplesFit (t : TensorMap A) (moved : List String) : Prop :=
  ∀ pairs, t.iter = .ok pairs → ∀ key',
    ((group t.keys.names moved pairs key').map fun kb => (entriesOf kb.2.values.samples).length).sum ≤ 2147483647

/-- What is needed for `keys_to_samples`. -/
structure CanMoveToSamples (build : Build) (t : TensorMap A) (keysToMove : Labels) : Prop where
  /-- there are names (`count` fails otherwise) and no entries -/
  noEntries : keysToMove.count = .ok 0
  names : ∀ n ∈ keysToMove.names, n ∈ t.keys.names
  something : t.blocks ≠ [] ∨ ∃ n ∈ t.keys.names, n ∉ keysToMove.names
  fresh : ∀ b ∈ t.blocks, ∀ n ∈ keysToMove.names, n ∉ b.values.samples.names
  components : ∀ first kb, FirstMergedWith t keysToMove.names first kb →
    kb.2.values.components = first.2.values.components
  properties : ∀ first kb, FirstMergedWith t keysToMove.names first kb →
    kb.2.values.properties = first.2.values.properties
  /-- only checked in debug builds -/
  gradients : build.debug = true → ∀ first kb, FirstMergedWith t keysToMove.names first kb →
    GradientComponentsEqual kb.2 first.2
  usable : ∀ b ∈ t.blocks, GradientsUsable b

/-- No entries were given, or the ones of this key were. -/
def Requested (names : List String) (keysToMove : Labels) (key : List LabelValue) : Prop :=
  entriesOf keysToMove = [] ∨ movedKey names keysToMove.names key ∈ entriesOf keysToMove

/-- What is needed for `keys_to_properties`. -/
structure CanMoveToProperties (build : Build) (t : TensorMap A) (keysToMove : Labels) : Prop where
  someName : keysToMove.names ≠ []
  names : ∀ n ∈ keysToMove.names, n ∈ t.keys.names
  something : t.blocks ≠ [] ∨ ∃ n ∈ t.keys.names, n ∉ keysToMove.names
  fresh : ∀ b ∈ t.blocks, ∀ n ∈ keysToMove.names, n ∉ b.values.properties.names
  someProperty : ∀ b ∈ t.blocks, ∃ p, EntryAt b.values.properties 0 p
  components : ∀ first kb, FirstMergedWith t keysToMove.names first kb →
    kb.2.values.components = first.2.values.components
  properties : entriesOf keysToMove ≠ [] → ∀ first kb, FirstMergedWith t keysToMove.names first kb →
    kb.2.values.properties = first.2.values.properties
  /-- only checked in debug builds -/
  gradients : build.debug = true → ∀ first kb, FirstMergedWith t keysToMove.names first kb →
    Requested t.keys.names keysToMove kb.1 → GradientComponentsEqual kb.2 first.2
  usable : ∀ b ∈ t.blocks, GradientsUsable b

/-- Arrays which accept moves between arrays with different sizes only when they can repeat values: there are as many
axes, and those between samples and properties have the same sizes, or a size of 1 in the input. Without any sample to
move, some arrays (`checksEmpty`) compare the sizes in the same way, and others accept all of them. -/
structure Broadcasts (view : A → NdArray) (checksEmpty : Bool) : Prop where
  accepts : ∀ output input samples start stop nOut nIn p src dst,
    (view output).shape = nOut :: dst ++ [p] → (view input).shape = nIn :: src ++ [stop - start] →
    src.length = dst.length → start ≤ stop → stop ≤ p → (∀ m ∈ samples, m.input < nIn ∧ m.output < nOut) →
    (samples = [] ∧ checksEmpty = false) ∨ List.Forall₂ (fun s d => s = d ∨ s = 1) src dst →
    ∃ output', ArrayLike.moveSamplesFrom output input samples start stop = (output', .ok ()) ∧
      (view output').shape = (view output).shape
  refuses : ∀ output input samples start stop nOut nIn p src dst,
    (view output).shape = nOut :: dst ++ [p] → (view input).shape = nIn :: src ++ [stop - start] →
    src.length = dst.length → start ≤ stop → stop ≤ p → (∀ m ∈ samples, m.input < nIn ∧ m.output < nOut) →
    (samples ≠ [] ∨ checksEmpty = true) → ¬ List.Forall₂ (fun s d => s = d ∨ s = 1) src dst →
    (ArrayLike.moveSamplesFrom output input samples start stop).2 ≠ .ok ()

/-- The components of the gradients of a block can be repeated to get the sizes of the components of another block. -/
def GradientsBroadcast (checksEmpty : Bool) (a b : TensorBlock A) : Prop :=
  ∀ q g g', a.gradient q = some g → b.gradient q = some g' → (entriesOf g.samples ≠ [] ∨ checksEmpty = true) →
    BroadcastsTo g.components g'.components

end Spec
end Equistore
