import Verif.Model.PyLabels
import Verif.Model.KeysToSamples
import Verif.Model.KeysToProperties

/-!
# Moving keys and components from Python

Models `keys_to_samples`, `keys_to_properties` and `components_to_properties` of `equistore/tensor.py`, and the functions of
`src/c_api/tensor.rs` they call.
-/

namespace Equistore

/-- The parameter `keys_to_move` or `variables`. An element of a list or tuple is `none` if this is not a `str`.
`equistore/tensor.py` lines 361 and 379. -/
inductive NamesArg where
  | str (name : String)
  | list (elements : List (Option String))
  | tuple (elements : List (Option String))
  | labels (v : PyLabels)
  | none
  deriving Repr

/-- The checks `assert isinstance(key, str)` in a loop, `equistore/tensor.py` lines 366-367 and 385. -/
def assertStrings (elements : List (Option String)) : Except PyExc (List String) :=
  elements.mapM fun
    | some s => .ok s
    | none => .error .assertionError

/-- `_normalize_keys_to_move`, `equistore/tensor.py` lines 361-376. Simplification: assertions are always checked (`python -O`
removes them). -/
def normalizeKeysToMove : NamesArg → Except PyExc PyLabels
  | .str name => PyLabels.new [name] (.array true [0, 1] []) none
  | .list elements => do
    let names ← assertStrings elements
    PyLabels.new names (.array true [0, names.length] []) none
  | .labels v => .ok v
  | .tuple _ => .error .assertionError
  | .none => .error .assertionError

/-- `_list_or_str_to_array_c_char`, `equistore/tensor.py` lines 379-388: what can be read at each pointer. Iterating over labels
gives entries, which are not strings. `len(None)` raises a `TypeError`. -/
def listOrStrToArrayCChar : NamesArg → Except PyExc (List Bytes)
  | .str name => .ok [cstring name]
  | .list elements => do return (← assertStrings elements).map cstring
  | .tuple elements => do return (← assertStrings elements).map cstring
  | .labels v => if v.count = 0 then .ok [] else .error .assertionError
  | .none => .error .typeError

section
variable {A : Type} [ArrayLike A]

/-- `eqs_tensormap_keys_to_samples` inside of `catch_unwind`, `src/c_api/tensor.rs` lines 351-358, for a pointer which is not
`NULL`. -/
def keysToSamplesC (build : Build) (hash : HashOrder) (keysToMove : CLabels) (sortSamples : Bool) :
    Act (TensorMap A) Unit := do
  let keysToMove ← Act.lift (Labels.ofC keysToMove)
  TensorMap.keysToSamples build hash keysToMove sortSamples

/-- `eqs_tensormap_keys_to_properties` inside of `catch_unwind`, `src/c_api/tensor.rs` lines 269-276, for a pointer which is not
`NULL`. -/
def keysToPropertiesC (build : Build) (hash : HashOrder) (keysToMove : CLabels) (sortSamples : Bool) :
    Act (TensorMap A) Unit := do
  let keysToMove ← Act.lift (Labels.ofC keysToMove)
  TensorMap.keysToProperties build hash keysToMove sortSamples

/-- `eqs_tensormap_components_to_properties` inside of `catch_unwind`, `src/c_api/tensor.rs` lines 300-313, for pointers which are
not `NULL`. -/
def componentsToPropertiesC (hash : HashOrder) (variables : List Bytes) : Act (TensorMap A) Unit := do
  let variables ← Act.lift (variables.mapM fun name => Res.expect (cstrStr name) "invalid utf8")
  TensorMap.componentsToProperties hash variables

/-- A method of `TensorMap` calling the library: `_check_status` raises an exception for all failures.
`equistore/status.py` lines 29-38, and the `restype` in `equistore/_c_api.py`. -/
def pyMethod (call : Act (TensorMap A) Unit) (t : TensorMap A) : TensorMap A × Except PyExc Unit :=
  let (t, r) := call t
  (t, pyCheck r)

/-- `keys_to_samples`, `equistore/tensor.py` lines 301-330. `none` if the library reads outside of the memory of the labels. -/
def pyKeysToSamples (build : Build) (hash : HashOrder) (keysToMove : NamesArg) (sortSamples : Bool) (t : TensorMap A) :
    Option (TensorMap A × Except PyExc Unit) :=
  match normalizeKeysToMove keysToMove with
  | .error e => some (t, .error e)
  | .ok v => if v.readable then some (pyMethod (keysToSamplesC build hash v.toC sortSamples) t) else none

/-- `keys_to_properties`, `equistore/tensor.py` lines 261-299. `none` if the library reads outside of the memory of the labels. -/
def pyKeysToProperties (build : Build) (hash : HashOrder) (keysToMove : NamesArg) (sortSamples : Bool) (t : TensorMap A) :
    Option (TensorMap A × Except PyExc Unit) :=
  match normalizeKeysToMove keysToMove with
  | .error e => some (t, .error e)
  | .ok v => if v.readable then some (pyMethod (keysToPropertiesC build hash v.toC sortSamples) t) else none

/-- `components_to_properties`, `equistore/tensor.py` lines 332-343. -/
def pyComponentsToProperties (hash : HashOrder) (variables : NamesArg) (t : TensorMap A) :
    TensorMap A × Except PyExc Unit :=
  match listOrStrToArrayCChar variables with
  | .error e => (t, .error e)
  | .ok variables => pyMethod (componentsToPropertiesC hash variables) t

end

end Equistore
