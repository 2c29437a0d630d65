import Verif.Model.Tensor

/-!
# Iterating over tensor maps

Models `src/tensor/iter.rs` and the iterators of `src/labels.rs`. Rayon itself is
not part of the repository: its documented behaviour for slices
(`par_chunks_exact`, `par_iter` and `zip_eq`) is modelled by producers which can
be split at any position, any number of times.
-/

namespace Equistore

variable {A : Type}

/-- A producer of `ZipEq<ChunksExact, slice::Iter>`, the inner iterator of
`ParIter` and `ParIterMut` in `src/tensor/iter.rs` lines 95-97 and 130-132: the
flat values of the keys still to visit, the size of each key and the blocks still
to visit. -/
structure Producer (A : Type) where
  size : Nat
  values : List LabelValue
  blocks : List (TensorBlock A)

/-- `TensorMap::par_iter` and `TensorMap::par_iter_mut`, `src/tensor/iter.rs`
lines 23-40, together with `Labels::par_iter`, `src/labels.rs` lines 301-307.
`par_chunks_exact(0)` and `zip_eq` on different lengths panic. -/
def TensorMap.parIter (t : TensorMap A) : Res (Producer A) := do
  Res.assert (t.keys.size != 0) "chunk_size must not be zero"
  Res.assert (t.keys.values.length / t.keys.size == t.blocks.length)
    "iterators must have the same length"
  return { size := t.keys.size, values := t.keys.values, blocks := t.blocks }

/-- How rayon divides the work: a tree of positions at which producers are split.
Each leaf runs sequentially. Used for `ParIter` and `ParIterMut`, `src/tensor/iter.rs` lines 95-160. -/
inductive Schedule where
  | leaf
  | split (index : Nat) (left right : Schedule)

namespace Producer

/-- `Producer::split_at` of the zipped slices (rayon): the chunks are split at
`index * size` values, the blocks at `index`. Used by `with_producer`, `src/tensor/iter.rs` lines 120-122 and 156-158. -/
def splitAt (p : Producer A) (index : Nat) : Producer A × Producer A :=
  ({ p with values := p.values.take (index * p.size), blocks := p.blocks.take index },
   { p with values := p.values.drop (index * p.size), blocks := p.blocks.drop index })

/-- Sequential run of a leaf: the pairs it visits. `src/tensor/iter.rs` lines 103-108 and 138-143. -/
def pairs (p : Producer A) : List (List LabelValue × TensorBlock A) :=
  (chunksExact p.size p.values).zip p.blocks

/-- The pairs visited by each leaf of a schedule, from left to right. A position
outside of the slices panics. `src/tensor/iter.rs` lines 103-108 and 138-143. -/
def run (p : Producer A) : Schedule → Res (List (List (List LabelValue × TensorBlock A)))
  | .leaf => .ok [p.pairs]
  | .split index left right => do
    Res.assert (index ≤ p.blocks.length) "mid > len"
    let l ← (p.splitAt index).1.run left
    let r ← (p.splitAt index).2.run right
    return l ++ r

/-- The blocks after `par_iter_mut().for_each(|(key, block)| ...)` where the
closure replaces each block by `f key block`: every leaf updates its own part of
the slice. `src/tensor/iter.rs` lines 135-160. -/
def update (f : List LabelValue → TensorBlock A → TensorBlock A) (p : Producer A) :
    Schedule → Res (List (TensorBlock A))
  | .leaf => .ok (p.pairs.map (fun kb => f kb.1 kb.2) ++ p.blocks.drop p.pairs.length)
  | .split index left right => do
    Res.assert (index ≤ p.blocks.length) "mid > len"
    let l ← (p.splitAt index).1.update f left
    let r ← (p.splitAt index).2.update f right
    return l ++ r

end Producer

/-- `iter_mut` run to the end with a closure replacing each block by `f key block`,
`src/tensor/iter.rs` lines 66-83. -/
def TensorMap.iterMut (f : List LabelValue → TensorBlock A → TensorBlock A) (t : TensorMap A) :
    Res (TensorMap A) := do
  let keys ← t.keys.iter
  let updated := (keys.zip t.blocks).map fun kb => f kb.1 kb.2
  return { t with blocks := updated ++ t.blocks.drop updated.length }

/-! ### One step at a time -/

/-- `labels::Iter`, `src/labels.rs` lines 325-341: `slice::ChunksExact`. -/
structure LabelsIter where
  size : Nat
  rest : List LabelValue

/-- `Labels::iter`, `src/labels.rs` lines 292-297. -/
def Labels.intoIter (l : Labels) : Res LabelsIter := do
  Res.assert (l.size != 0) "chunk size must be non-zero"
  return { size := l.size, rest := l.values }

/-- `Iterator::next`, `src/labels.rs` lines 332-334. -/
def LabelsIter.next (it : LabelsIter) : LabelsIter × Option (List LabelValue) :=
  if it.rest.length < it.size then
    (it, none)
  else
    ({ it with rest := it.rest.drop it.size }, some (it.rest.take it.size))

/-- `ExactSizeIterator::len`, `src/labels.rs` lines 337-341. -/
def LabelsIter.len (it : LabelsIter) : Nat := it.rest.length / it.size

end Equistore
