import Verif.Spec.Merge

/-!
# Specification vocabulary: a tensor map after `keys_to_properties`, without entries

`MovedToProperties` determines the tensor map, except for the order of properties and the order in which
gradients are listed (and the order of samples, unless they are sorted). `MovedToPropertiesInOrder` determines
it, except for the order in which gradients are listed.
-/

namespace Equistore
namespace Spec

/-- What a block `b'` contains after moving the names `moved` of the keys to the properties: it comes from
all the blocks with the remaining key `key'`. -/
structure BlockMovedToProperties (names moved : List String)
    (pairs : List (List LabelValue × TensorBlock NdArray)) (key' : List LabelValue) (b' : TensorBlock NdArray) :
    Prop where
  propertyNames : ∀ kb ∈ group names moved pairs key',
    b'.values.properties.names = moved ++ kb.2.values.properties.names
  properties : ∀ p', p' ∈ entriesOf b'.values.properties ↔ ∃ kb ∈ group names moved pairs key',
    ∃ p ∈ entriesOf kb.2.values.properties, p' = movedKey names moved kb.1 ++ p
  sampleNames : ∀ kb ∈ group names moved pairs key', b'.values.samples.names = kb.2.values.samples.names
  samples : ∀ s, s ∈ entriesOf b'.values.samples ↔ ∃ kb ∈ group names moved pairs key',
    s ∈ entriesOf kb.2.values.samples
  components : ∀ kb ∈ group names moved pairs key', b'.values.components = kb.2.values.components
  /-- the values of the blocks -/
  values : ∀ kb ∈ group names moved pairs key', ∀ s cs p x, HasValue kb.2.values s cs p x →
    HasValue b'.values s cs (movedKey names moved kb.1 ++ p) x
  /-- zero where no block has this sample and this property -/
  zeros : ∀ s cs p' x, HasValue b'.values s cs p' x → (∀ kb ∈ group names moved pairs key',
    s ∈ entriesOf kb.2.values.samples → ∀ p ∈ entriesOf kb.2.values.properties,
      p' ≠ movedKey names moved kb.1 ++ p) → x = 0
  parameters : ∀ kb ∈ group names moved pairs key', ∀ q, (b'.gradient q).isSome = (kb.2.gradient q).isSome
  gradientLabels : ∀ kb ∈ group names moved pairs key', ∀ q g g', kb.2.gradient q = some g →
    b'.gradient q = some g' → g'.samples.names = g.samples.names ∧ g'.components = g.components
  gradientSorted : ∀ q g', b'.gradient q = some g' → (entriesOf g'.samples).Pairwise (· < ·)
  gradientKept : ∀ kb ∈ group names moved pairs key', ∀ q g, kb.2.gradient q = some g →
    ∀ r ∈ entriesOf g.samples, ∃ r', SampleRenumbered kb.2.values.samples b'.values.samples id r r'
  gradientSamples : ∀ q g', b'.gradient q = some g' → ∀ r', r' ∈ entriesOf g'.samples ↔
    ∃ kb ∈ group names moved pairs key', ∃ g, kb.2.gradient q = some g ∧ ∃ r ∈ entriesOf g.samples,
      SampleRenumbered kb.2.values.samples b'.values.samples id r r'
  gradientValues : ∀ q g', b'.gradient q = some g' → ∀ kb ∈ group names moved pairs key', ∀ g,
    kb.2.gradient q = some g → ∀ r r' cs p x,
      SampleRenumbered kb.2.values.samples b'.values.samples id r r' → HasValue g r cs p x →
      HasValue g' r' cs (movedKey names moved kb.1 ++ p) x
  gradientZeros : ∀ q g', b'.gradient q = some g' → ∀ r' cs p' x, HasValue g' r' cs p' x →
    (∀ kb ∈ group names moved pairs key', ∀ g, kb.2.gradient q = some g → ∀ r ∈ entriesOf g.samples,
      SampleRenumbered kb.2.values.samples b'.values.samples id r r' →
      ∀ p ∈ entriesOf kb.2.values.properties, p' ≠ movedKey names moved kb.1 ++ p) → x = 0

/-- `t'` is the tensor map `t` after moving the names `moved` of the keys to the properties. -/
structure MovedToProperties (moved : List String) (sorted : Bool) (t t' : TensorMap NdArray) : Prop where
  valid : TensorValid t'
  keyNames : t'.keys.names = remainingNames t.keys.names moved
  keys : FirstAppearances ((entriesOf t.keys).map (remainingKey t.keys.names moved)) (entriesOf t'.keys)
  blocks : ∀ pairs pairs', t.iter = .ok pairs → t'.iter = .ok pairs' → ∀ kb' ∈ pairs',
    BlockMovedToProperties t.keys.names moved pairs kb'.1 kb'.2
  sorted : sorted = true → ∀ b' ∈ t'.blocks, (entriesOf b'.values.samples).Pairwise (· < ·)

/-- The same, with the order of properties and the order of samples: properties are taken from one block after
the other, and samples which are not sorted are in the order in which they first appear. -/
structure MovedToPropertiesInOrder (moved : List String) (sort : Bool) (t t' : TensorMap NdArray) : Prop extends
    MovedToProperties moved sort t t' where
  arrays : ArraysOk t'
  propertyOrder : ∀ pairs pairs', t.iter = .ok pairs → t'.iter = .ok pairs' → ∀ kb' ∈ pairs',
    entriesOf kb'.2.values.properties = (group t.keys.names moved pairs kb'.1).flatMap fun kb =>
      (entriesOf kb.2.values.properties).map (movedKey t.keys.names moved kb.1 ++ ·)
  unsorted : sort = false → ∀ pairs pairs', t.iter = .ok pairs → t'.iter = .ok pairs' → ∀ kb' ∈ pairs',
    FirstAppearances ((group t.keys.names moved pairs kb'.1).flatMap fun kb => entriesOf kb.2.values.samples)
      (entriesOf kb'.2.values.samples)

/-- The same labels and values, except for the order of properties. -/
structure SameUpToProperties (b b' : BasicBlock NdArray) : Prop where
  samples : b'.samples = b.samples
  components : b'.components = b.components
  propertyNames : b'.properties.names = b.properties.names
  properties : (entriesOf b'.properties).Perm (entriesOf b.properties)
  values : ∀ s cs p x, HasValue b' s cs p x ↔ HasValue b s cs p x

/-- The same block, except for the order of properties and the order in which gradients are listed. -/
structure SameBlockUpToProperties (b b' : TensorBlock NdArray) : Prop where
  values : SameUpToProperties b.values b'.values
  gradients : ∀ q, Option.Rel SameUpToProperties (b.gradient q) (b'.gradient q)
  list : b'.gradientParameters.Perm b.gradientParameters

/-- The same tensor map, except for the order of properties and the order in which gradients are listed. -/
structure SameTensorUpToProperties (t t' : TensorMap NdArray) : Prop where
  keys : t'.keys = t.keys
  blocks : List.Forall₂ SameBlockUpToProperties t.blocks t'.blocks

end Spec
end Equistore
