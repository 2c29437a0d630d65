import Verif.Spec.MovedProperties

/-!
# Specification vocabulary: a tensor map after moving keys to samples and other keys to properties
-/

namespace Equistore
namespace Spec

/-- What a block `b'` contains after moving the names `S` of the keys to the samples and the names `P` to the
properties: it comes from all the blocks with the remaining key `key'`. -/
structure BlockMovedToBoth (names S P : List String) (pairs : List (List LabelValue × TensorBlock NdArray))
    (key' : List LabelValue) (b' : TensorBlock NdArray) : Prop where
  sampleNames : ∀ kb ∈ group names (S ++ P) pairs key', b'.values.samples.names = kb.2.values.samples.names ++ S
  samples : ∀ s', s' ∈ entriesOf b'.values.samples ↔ ∃ kb ∈ group names (S ++ P) pairs key',
    ∃ s ∈ entriesOf kb.2.values.samples, s' = s ++ movedKey names S kb.1
  propertyNames : ∀ kb ∈ group names (S ++ P) pairs key',
    b'.values.properties.names = P ++ kb.2.values.properties.names
  properties : ∀ p', p' ∈ entriesOf b'.values.properties ↔ ∃ kb ∈ group names (S ++ P) pairs key',
    ∃ p ∈ entriesOf kb.2.values.properties, p' = movedKey names P kb.1 ++ p
  components : ∀ kb ∈ group names (S ++ P) pairs key', b'.values.components = kb.2.values.components
  /-- the values of the blocks -/
  values : ∀ kb ∈ group names (S ++ P) pairs key', ∀ s cs p x, HasValue kb.2.values s cs p x →
    HasValue b'.values (s ++ movedKey names S kb.1) cs (movedKey names P kb.1 ++ p) x
  /-- zero where no block has this sample and this property -/
  zeros : ∀ s' cs p' x, HasValue b'.values s' cs p' x → (∀ kb ∈ group names (S ++ P) pairs key',
    ∀ s ∈ entriesOf kb.2.values.samples, s' = s ++ movedKey names S kb.1 →
      ∀ p ∈ entriesOf kb.2.values.properties, p' ≠ movedKey names P kb.1 ++ p) → x = 0
  parameters : ∀ kb ∈ group names (S ++ P) pairs key', ∀ q, (b'.gradient q).isSome = (kb.2.gradient q).isSome
  gradientLabels : ∀ kb ∈ group names (S ++ P) pairs key', ∀ q g g', kb.2.gradient q = some g →
    b'.gradient q = some g' → g'.samples.names = g.samples.names ∧ g'.components = g.components
  gradientSorted : ∀ q g', b'.gradient q = some g' → (entriesOf g'.samples).Pairwise (· < ·)
  gradientKept : ∀ kb ∈ group names (S ++ P) pairs key', ∀ q g, kb.2.gradient q = some g →
    ∀ r ∈ entriesOf g.samples, ∃ r', SampleRenumbered kb.2.values.samples b'.values.samples
      (· ++ movedKey names S kb.1) r r'
  gradientSamples : ∀ q g', b'.gradient q = some g' → ∀ r', r' ∈ entriesOf g'.samples ↔
    ∃ kb ∈ group names (S ++ P) pairs key', ∃ g, kb.2.gradient q = some g ∧ ∃ r ∈ entriesOf g.samples,
      SampleRenumbered kb.2.values.samples b'.values.samples (· ++ movedKey names S kb.1) r r'
  gradientValues : ∀ q g', b'.gradient q = some g' → ∀ kb ∈ group names (S ++ P) pairs key', ∀ g,
    kb.2.gradient q = some g → ∀ r r' cs p x,
      SampleRenumbered kb.2.values.samples b'.values.samples (· ++ movedKey names S kb.1) r r' →
      HasValue g r cs p x → HasValue g' r' cs (movedKey names P kb.1 ++ p) x
  gradientZeros : ∀ q g', b'.gradient q = some g' → ∀ r' cs p' x, HasValue g' r' cs p' x →
    (∀ kb ∈ group names (S ++ P) pairs key', ∀ g, kb.2.gradient q = some g → ∀ r ∈ entriesOf g.samples,
      SampleRenumbered kb.2.values.samples b'.values.samples (· ++ movedKey names S kb.1) r r' →
      ∀ p ∈ entriesOf kb.2.values.properties, p' ≠ movedKey names P kb.1 ++ p) → x = 0

/-- `t'` is the tensor map `t` after moving the names `S` of the keys to the samples and the names `P` to the
properties, with sorted samples. This determines `t'`, except for the order in which gradients are listed. -/
structure MovedToBoth (S P : List String) (t t' : TensorMap NdArray) : Prop where
  valid : TensorValid t'
  arrays : ArraysOk t'
  keyNames : t'.keys.names = remainingNames t.keys.names (S ++ P)
  keys : FirstAppearances ((entriesOf t.keys).map (remainingKey t.keys.names (S ++ P))) (entriesOf t'.keys)
  blocks : ∀ pairs pairs', t.iter = .ok pairs → t'.iter = .ok pairs' → ∀ kb' ∈ pairs',
    BlockMovedToBoth t.keys.names S P pairs kb'.1 kb'.2
  sorted : ∀ b' ∈ t'.blocks, (entriesOf b'.values.samples).Pairwise (· < ·)
  /-- properties are in the order in which they first appear -/
  propertyOrder : ∀ pairs pairs', t.iter = .ok pairs → t'.iter = .ok pairs' → ∀ kb' ∈ pairs',
    FirstAppearances ((group t.keys.names (S ++ P) pairs kb'.1).flatMap fun kb =>
      (entriesOf kb.2.values.properties).map (movedKey t.keys.names P kb.1 ++ ·)) (entriesOf kb'.2.values.properties)

/-- Whatever the values of the names `S` of the keys, the values of the names `P` are the same ones, in the same
order. -/
def SameCombinations {A : Type} (t : TensorMap A) (S P : List String) : Prop :=
  ∀ key ∈ entriesOf t.keys, ∀ key' ∈ entriesOf t.keys,
    remainingKey t.keys.names (S ++ P) key = remainingKey t.keys.names (S ++ P) key' →
    ((entriesOf t.keys).filter fun k => remainingKey t.keys.names P k = remainingKey t.keys.names P key).map
      (movedKey t.keys.names P) =
    ((entriesOf t.keys).filter fun k => remainingKey t.keys.names P k = remainingKey t.keys.names P key').map
      (movedKey t.keys.names P)

end Spec
end Equistore
