import Verif.Model.Data

/-!
# Arrays of several implementations

Models `src/data.rs` when a program uses arrays coming from several places, for example `ndarray` in Rust, and numpy
in Python: each `eqs_array_t` carries its own table of callbacks (lines 72-165), and the functions
`eqs_array_t::origin`, …, `eqs_array_t::move_samples_from` (lines 271-452) call the callback of the array they are
called on.
-/

namespace Equistore

variable {ι : Type} (Arr : ι → Type)

/-- What the `move_samples_from` callback of one implementation does when it is given a pointer to an array of another
implementation. The callbacks cast the `void*` they get to their own type without any check, see
`rust_array_move_samples_from` in `src/data.rs` lines 635-655, and `_object_from_ptr` in `equistore/data.py` lines
205-207: what happens is undefined. It is modelled as an arbitrary function, which nothing is known about. -/
abbrev Confusion : Type :=
  (i j : ι) → Arr i → Arr j → List SampleMapping → Nat → Nat → Arr i × Res Unit

/-- An array and the table of callbacks it comes with (`eqs_array_t`), `src/data.rs` lines 72-165. -/
structure Mixed (wrong : Confusion Arr) where
  impl : ι
  array : Arr impl

variable {Arr} {wrong : Confusion Arr}

/-- The `move_samples_from` callback of the output gets the pointer of the input and nothing else, `src/data.rs` lines
426-452. -/
def Mixed.moveSamplesFrom [DecidableEq ι] [∀ i, ArrayLike (Arr i)] (output input : Mixed Arr wrong)
    (samples : List SampleMapping) (start stop : Nat) : Mixed Arr wrong × Res Unit :=
  let (array, r) :=
    if h : input.impl = output.impl then
      ArrayLike.moveSamplesFrom output.array (h ▸ input.array) samples start stop
    else
      wrong output.impl input.impl output.array input.array samples start stop
  (⟨output.impl, array⟩, r)

/-- `eqs_array_t`, `src/data.rs` lines 271-452: everything is done by the callbacks of the array itself, and new arrays
have the same callbacks as the array `create` is called on. -/
instance [DecidableEq ι] [∀ i, ArrayLike (Arr i)] : ArrayLike (Mixed Arr wrong) where
  origin a := ArrayLike.origin a.array
  data a := ArrayLike.data a.array
  shape a := ArrayLike.shape a.array
  reshape a shape := (⟨a.impl, (ArrayLike.reshape a.array shape).1⟩, (ArrayLike.reshape a.array shape).2)
  swapAxes a i j := (⟨a.impl, (ArrayLike.swapAxes a.array i j).1⟩, (ArrayLike.swapAxes a.array i j).2)
  create a shape := do
    let array ← ArrayLike.create a.array shape
    return ⟨a.impl, array⟩
  moveSamplesFrom := Mixed.moveSamplesFrom

end Equistore
