import Verif.Spec.Merge

/-!
# Specification vocabulary: a tensor map after `keys_to_samples`

This is a complete description: it determines the tensor map, except for the order in which gradients are
listed.
-/

namespace Equistore
namespace Spec

/-- What a block `b'` contains after moving the names `moved` of the keys to the samples: it comes from all
the blocks with the remaining key `key'`. -/
structure BlockMoved (names moved : List String) (pairs : List (List LabelValue × TensorBlock NdArray))
    (key' : List LabelValue) (b' : TensorBlock NdArray) : Prop where
  sampleNames : ∀ kb ∈ group names moved pairs key',
    b'.values.samples.names = kb.2.values.samples.names ++ moved
  samples : ∀ s', s' ∈ entriesOf b'.values.samples ↔ ∃ kb ∈ group names moved pairs key',
    ∃ s ∈ entriesOf kb.2.values.samples, s' = s ++ movedKey names moved kb.1
  labels : ∀ kb ∈ group names moved pairs key',
    b'.values.components = kb.2.values.components ∧ b'.values.properties = kb.2.values.properties
  values : ∀ s' cs p x, HasValue b'.values s' cs p x ↔ ∃ kb ∈ group names moved pairs key',
    ∃ s, s' = s ++ movedKey names moved kb.1 ∧ HasValue kb.2.values s cs p x
  parameters : ∀ kb ∈ group names moved pairs key', ∀ q, (b'.gradient q).isSome = (kb.2.gradient q).isSome
  gradientLabels : ∀ kb ∈ group names moved pairs key', ∀ q g g', kb.2.gradient q = some g →
    b'.gradient q = some g' → g'.samples.names = g.samples.names ∧ g'.components = g.components
  gradientSorted : ∀ q g', b'.gradient q = some g' → (entriesOf g'.samples).Pairwise (· < ·)
  gradientKept : ∀ kb ∈ group names moved pairs key', ∀ q g, kb.2.gradient q = some g →
    ∀ r ∈ entriesOf g.samples, ∃ r', SampleRenumbered kb.2.values.samples b'.values.samples
      (· ++ movedKey names moved kb.1) r r'
  gradientSamples : ∀ q g', b'.gradient q = some g' → ∀ r', r' ∈ entriesOf g'.samples ↔
    ∃ kb ∈ group names moved pairs key', ∃ g, kb.2.gradient q = some g ∧ ∃ r ∈ entriesOf g.samples,
      SampleRenumbered kb.2.values.samples b'.values.samples (· ++ movedKey names moved kb.1) r r'
  gradientValues : ∀ q g', b'.gradient q = some g' → ∀ r' cs p x, HasValue g' r' cs p x ↔
    ∃ kb ∈ group names moved pairs key', ∃ g, kb.2.gradient q = some g ∧ ∃ r,
      SampleRenumbered kb.2.values.samples b'.values.samples (· ++ movedKey names moved kb.1) r r' ∧
      HasValue g r cs p x

/-- `t'` is the tensor map `t` after moving the names `moved` of the keys to the samples. -/
structure MovedToSamples (moved : List String) (sort : Bool) (t t' : TensorMap NdArray) : Prop where
  valid : TensorValid t'
  arrays : ArraysOk t'
  keyNames : t'.keys.names = remainingNames t.keys.names moved
  keys : FirstAppearances ((entriesOf t.keys).map (remainingKey t.keys.names moved)) (entriesOf t'.keys)
  blocks : ∀ pairs pairs', t.iter = .ok pairs → t'.iter = .ok pairs' → ∀ kb' ∈ pairs',
    BlockMoved t.keys.names moved pairs kb'.1 kb'.2
  sorted : sort = true → ∀ b' ∈ t'.blocks, (entriesOf b'.values.samples).Pairwise (· < ·)
  unsorted : sort = false → ∀ pairs pairs', t.iter = .ok pairs → t'.iter = .ok pairs' → ∀ kb' ∈ pairs',
    FirstAppearances ((group t.keys.names moved pairs kb'.1).flatMap fun kb =>
      (entriesOf kb.2.values.samples).map (· ++ movedKey t.keys.names moved kb.1)) (entriesOf kb'.2.values.samples)

end Spec
end Equistore
