import Verif.Model.CSlices

/-!
# Specification vocabulary for lists given to the C API
-/

namespace Equistore
namespace Spec

/-- A pointer gives a list: its elements can be read there. If `null` is true, `NULL` gives the list without elements. -/
def GivesList (null : Bool) {α : Type} (pointer : CPtr α) (list : List α) : Prop :=
  (null = true ∧ pointer = none ∧ list = []) ∨ ∃ rest, pointer = some (list ++ rest)

/-- A structure with labels made as documented in `equistore.h`: there are `size` names ending with a NUL, and `count * size`
values. Pointers may be `NULL`, with `null` also to the values if there are none. -/
def Documented (null : Bool) (c : CLabels) : Prop :=
  (∀ memory, c.names = some memory → c.size ≤ memory.length ∧ ∀ name ∈ memory.take c.size, 0 ∈ name) ∧
  (c.values = none → 0 < c.count ∨ null = true) ∧
  ∀ values, c.values = some values → c.count * c.size ≤ values.length

/-- All functions taking lists do with the pointers what they do with the lists. -/
structure ListsWork (null : Bool) : Prop where
  /-- labels in parameters of any function -/
  labels : ∀ c, Documented null c → Labels.ofPointers c () = some ((), Labels.ofC c)
  /-- `eqs_block` -/
  block : ∀ (A : Type) [ArrayLike A] (array : A) samples components list properties, Documented null samples →
    GivesList null components list → (∀ c ∈ list, Documented null c) → Documented null properties →
    blockOfPointers array samples components list.length properties () =
      some ((), blockOfC array samples list properties)
  /-- `eqs_block_add_gradient` -/
  gradient : ∀ name samples components list, 0 ∈ name → Documented null samples → GivesList null components list →
    (∀ c ∈ list, Documented null c) →
    gradientOfPointers (some name) samples components list.length () = some ((), do
      let name ← Res.expect (cstrStr name) "called `Result::unwrap()` on an `Err` value"
      let samples ← Labels.ofC samples
      let components ← list.mapM Labels.ofC
      return (name, samples, components))
  /-- `eqs_tensormap` -/
  tensormap : ∀ keys blocks list, Documented null keys → GivesList null blocks list →
    tensormapOfPointers keys blocks list.length () = some ((), do
      let keys ← Labels.ofC keys
      return (keys, list))
  /-- `eqs_labels_position` -/
  position : ∀ labels values list, GivesList null values list →
    positionOfPointers labels values list.length () = some ((), labelsPosition labels list list.length)
  /-- `eqs_tensormap_components_to_properties` -/
  names : ∀ names list, GivesList null names list →
    variablesOfPointers names list.length () = some ((), list.mapM variableName)
  /-- `eqs_tensormap_blocks_matching` -/
  indexes : ∀ indexes list, GivesList null indexes list →
    indexesOfPointers indexes list.length () = some ((), .ok list)
  /-- the data of an array -/
  data : ∀ shape data list, GivesList null data list → list.length = shapeSize shape →
    dataOfPointers shape data () = some ((), .ok list)
  /-- the shape of an array -/
  shape : ∀ shape list, GivesList null shape list → shapeOfPointers shape list.length () = some ((), .ok list)

end Spec
end Equistore
