import Verif.Spec.Tensor

/-!
# Specification vocabulary for moving keys

Written only in terms of names, keys, label entries and values at labelled
positions.
-/

namespace Equistore
namespace Spec

/-- `r` lists the distinct elements of `l`, in the order in which they first
appear. -/
structure FirstAppearances {α : Type} [DecidableEq α] (l r : List α) : Prop where
  nodup : r.Nodup
  same : ∀ x, x ∈ r ↔ x ∈ l
  order : r.Pairwise fun x y => l.idxOf x < l.idxOf y

/-- The values in `key` of the names selected by `keep`, in the order of the key. -/
def restrict (keep : String → Bool) (names : List String) (key : List LabelValue) :
    List LabelValue :=
  ((names.zip key).filter fun p => keep p.1).map Prod.snd

/-- The values of the moved names, in the order they have in the keys. -/
def movedKey (names moved : List String) (key : List LabelValue) : List LabelValue :=
  restrict (fun n => moved.contains n) names key

/-- The values in `key` of the `wanted` names, in the order of `wanted`. -/
def valuesFor (names : List String) (key : List LabelValue) (wanted : List String) :
    List LabelValue :=
  wanted.filterMap fun n => (names.zip key).lookup n

/-- The names of the keys after moving some of them. -/
def remainingNames (names moved : List String) : List String :=
  let rest := names.filter fun n => !moved.contains n
  if rest = [] then ["_"] else rest

/-- What is left of a key. -/
def remainingKey (names moved : List String) (key : List LabelValue) : List LabelValue :=
  if names.filter (fun n => !moved.contains n) = [] then [0]
  else restrict (fun n => !moved.contains n) names key

variable {A : Type}

/-- The blocks going in the same block of the result: those with the same
remaining key. -/
def group (names moved : List String) (pairs : List (List LabelValue × TensorBlock A))
    (key' : List LabelValue) : List (List LabelValue × TensorBlock A) :=
  pairs.filter fun kb => decide (remainingKey names moved kb.1 = key')

/-- The entries of labels, as given by iterating over them. -/
def entriesOf (l : Labels) : List (List LabelValue) :=
  match l.iter with
  | .ok entries => entries
  | _ => []

/-- The labels have the entry `e` at index `i`. -/
def EntryAt (l : Labels) (i : Nat) (e : List LabelValue) : Prop := l.index i = .ok e

/-- The value `x` is stored in a block under the given sample, component entries and
property. -/
def HasValue (b : BasicBlock NdArray) (sample : List LabelValue)
    (components : List (List LabelValue)) (property : List LabelValue) (x : Elt) : Prop :=
  ∃ i k j, EntryAt b.samples i sample ∧
    List.Forall₂ (fun (l : Labels) (ie : Nat × List LabelValue) => EntryAt l ie.1 ie.2)
      b.components (k.zip components) ∧
    k.length = components.length ∧
    EntryAt b.properties j property ∧ b.data.get (i :: k ++ [j]) = x

/-- There are such entries in the components. -/
def HasEntries (C : List Labels) (cs : List (List LabelValue)) : Prop :=
  ∃ k : List Nat, List.Forall₂ (fun (l : Labels) (ie : Nat × List LabelValue) => EntryAt l ie.1 ie.2)
      C (k.zip cs) ∧ k.length = cs.length

/-- The gradient sample `r` is written `r'` after a merge: its first value is the
index `i` of a sample `s` in the old samples, and becomes the index of the
corresponding sample `extend s` in the new samples. -/
def SampleRenumbered (old new : Labels) (extend : List LabelValue → List LabelValue)
    (r r' : List LabelValue) : Prop :=
  ∃ v v' rest s, ∃ i i' : Nat, r = v :: rest ∧ r' = v' :: rest ∧ v.toInt = i ∧ v'.toInt = i' ∧
    EntryAt old i s ∧ EntryAt new i' (extend s)

/-- Blocks merged together have the same components for the gradients with respect
to `q`. -/
def SameGradientComponents (blocks : List (List LabelValue × TensorBlock A)) (q : String) : Prop :=
  ∀ a ∈ blocks, ∀ b ∈ blocks, ∀ g g', a.2.gradient q = some g → b.2.gradient q = some g' →
    g.components = g'.components

/-- Blocks merged together have gradients with respect to `q` with as many components, of the same sizes. -/
def SameGradientSizes (blocks : List (List LabelValue × TensorBlock A)) (q : String) : Prop :=
  ∀ a ∈ blocks, ∀ b ∈ blocks, ∀ g g', a.2.gradient q = some g → b.2.gradient q = some g' →
    g.components.map (fun c => (entriesOf c).length) = g'.components.map fun c => (entriesOf c).length

/-- The same array, with other labels for its components: what is at the `k`-th entry of a component is now at the
`k`-th entry of the component given in its place. -/
def withComponents (C : List Labels) (b : BasicBlock A) : BasicBlock A := { b with components := C }

/-- Positions in an array with the given sizes, for positions in a larger array: along an axis with a single element,
this element is used for all positions. -/
def broadcastPositions (sizes positions : List Nat) : List Nat :=
  sizes.zipWith (fun n i => if n = 1 then 0 else i) positions

/-- Components of sizes which can be used in the place of others: as many components, each with the same number of
entries or a single one. -/
def BroadcastsTo (C D : List Labels) : Prop :=
  List.Forall₂ (fun c d => (entriesOf c).length = (entriesOf d).length ∨ (entriesOf c).length = 1) C D

/-- The value `x` is stored in a block under the given sample and property, and for the given entries of the components
`C`, used in the place of the components of the block: `x` is at the same position in the components of the block, or
at the only position for components of the block with a single entry. -/
def HasBroadcastValue (C : List Labels) (b : BasicBlock NdArray) (sample : List LabelValue)
    (components : List (List LabelValue)) (property : List LabelValue) (x : Elt) : Prop :=
  ∃ i k j, EntryAt b.samples i sample ∧
    List.Forall₂ (fun (l : Labels) (ie : Nat × List LabelValue) => EntryAt l ie.1 ie.2) C (k.zip components) ∧
    k.length = components.length ∧
    EntryAt b.properties j property ∧
    b.data.get (i :: broadcastPositions (b.components.map fun c => (entriesOf c).length) k ++ [j]) = x

/-- The invariant of `ndarray` arrays: as many elements as the shape says. -/
def ArrayOk (a : NdArray) : Prop := a.elements.length = shapeSize a.shape

/-- All the arrays of a tensor map satisfy the invariant of `ndarray`. -/
def ArraysOk (t : TensorMap NdArray) : Prop :=
  ∀ b ∈ t.blocks, ArrayOk b.values.data ∧ ∀ p g, b.gradient p = some g → ArrayOk g.data

end Spec
end Equistore
