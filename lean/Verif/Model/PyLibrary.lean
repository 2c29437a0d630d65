import Verif.Model.NpyHeader

/-!
# Finding and loading the library in Python

Models `equistore/_c_lib.py` and `setup_functions` of `equistore/_c_api.py`, for several threads.
-/

namespace Equistore
namespace PyLibrary

/-- Exceptions raised while the library is loaded, `equistore/_c_lib.py` lines 22-104. `UnicodeDecodeError` is a `ValueError`;
`structError` is the exception of `struct.unpack`. -/
inductive LibExc where
  | importError
  | osError
  | attributeError
  | valueError
  | structError
  deriving DecidableEq, Repr

/-- `sys.platform`, `equistore/_c_lib.py` lines 47-56. -/
inductive Platform where
  | darwin
  | linux
  | windows
  | unknown
  deriving DecidableEq, Repr

/-- `platform.architecture()[0]`, `equistore/_c_lib.py` lines 93-101. -/
inductive Arch where
  | bits32
  | bits64
  | unknown
  deriving DecidableEq, Repr

/-- The computer. Used for `equistore/_c_lib.py` lines 8-104. Simplification: it does not change while the program runs. -/
structure Computer where
  platform : Platform
  arch : Arch
  /-- `os.path.join(_HERE, "lib")` with the separator -/
  here : String
  /-- regular files -/
  file : String → Option Bytes
  /-- whether `cdll.LoadLibrary` works -/
  loads : String → Bool
  /-- whether the library at this path has this function -/
  exports : String → String → Bool

/-- The name of the library, `equistore/_c_lib.py` lines 47-59. -/
def Computer.name (computer : Computer) : Option String :=
  match computer.platform with
  | .darwin => some "libequistore.dylib"
  | .linux => some "libequistore.so"
  | .windows => some "equistore.dll"
  | .unknown => none

/-- `fd.seek(offset)` then `fd.read(count)`, `equistore/_c_lib.py` lines 81-90. -/
def readAt (file : Bytes) (offset count : Nat) : Bytes := (file.drop offset).take count

/-- `struct.unpack("<L", bytes)` and `struct.unpack("<H", bytes)`, `equistore/_c_lib.py` lines 88 and 91. -/
def unpack (count : Nat) (bytes : Bytes) : Except LibExc Nat :=
  if bytes.length = count then .ok (leValue bytes) else .error .structError

/-- `_check_dll`, `equistore/_c_lib.py` lines 70-101. -/
def checkDll (arch : Arch) (file : Bytes) : Except LibExc Unit := do
  let header ← match NpyHeader.decodeUtf8 (readAt file 0 2) with
    | some text => pure text
    | none => .error .valueError
  if header ≠ "MZ".toList then
    .error .importError
  let headerOffset ← unpack 4 (readAt file 60 4)
  let machine ← unpack 2 (readAt file (headerOffset + 4) 2)
  match arch with
  | .bits32 => if machine ≠ 332 then .error .importError
  | .bits64 => if machine ≠ 34404 then .error .importError
  | .unknown => .error .importError

/-- The end of `_lib_path` with the default path, `equistore/_c_lib.py` lines 62-67. -/
def checkFile (computer : Computer) (path : String) : Except LibExc Unit :=
  match computer.file path with
  | some file => if computer.platform = .windows then checkDll computer.arch file else .ok ()
  | none => .error .importError

/-- The functions used from Python, `equistore/_c_api.py` lines 84-235. -/
def functionNames : List String :=
  ["eqs_disable_panic_printing", "eqs_last_error", "eqs_labels_position", "eqs_register_data_origin", "eqs_get_data_origin",
    "eqs_get_rust_array", "eqs_block", "eqs_block_free", "eqs_block_copy", "eqs_block_labels", "eqs_block_data",
    "eqs_block_add_gradient", "eqs_block_gradients_list", "eqs_tensormap", "eqs_tensormap_free", "eqs_tensormap_keys",
    "eqs_tensormap_block_by_id", "eqs_tensormap_blocks_matching", "eqs_tensormap_keys_to_properties",
    "eqs_tensormap_components_to_properties", "eqs_tensormap_keys_to_samples", "eqs_tensormap_load", "eqs_tensormap_save"]

/-- An object given by `cdll.LoadLibrary`, `equistore/_c_lib.py` line 33: where it comes from, and the functions which have their
`argtypes` and `restype`. -/
structure Dll where
  path : String
  functions : List String
  deriving DecidableEq, Repr

/-- What is shared by all threads: `EQUISTORE_LIBRARY_PATH` and `_cached_dll`, `equistore/_c_lib.py` lines 10 and 28, and all the
objects made by `cdll.LoadLibrary`. -/
structure Shared where
  path : Option String
  cached : Option Nat
  dlls : List Dll
  deriving DecidableEq, Repr

/-- When Python starts, `equistore/_c_lib.py` lines 10 and 28. -/
def Shared.start : Shared := ⟨none, none, []⟩

/-- `_set_equistore_library_path`, `equistore/_c_lib.py` lines 13-23, in one step. -/
def setPath (path : String) (s : Shared) : Shared × Except LibExc Unit :=
  match s.path with
  | some _ => (s, .error .valueError)
  | none => ({ s with path := some path }, .ok ())

/-- Where a thread is inside of `__call__`, `equistore/_c_lib.py` lines 30-67. Each phase ends after a read or a write of something
shared. -/
inductive Phase where
  /-- line 31 -/
  | start
  /-- lines 45 and 46 -/
  | readPath
  /-- line 60 -/
  | writePath (path : String)
  /-- lines 62-67 -/
  | checkPath (path : String)
  /-- line 33, before the assignment -/
  | load (path : String)
  /-- line 33, the assignment -/
  | store (dll : Nat)
  /-- line 34, the argument -/
  | setup
  /-- line 34, inside of `setup_functions` -/
  | functions (dll : Nat) (names : List String)
  /-- line 40 -/
  | return
  deriving DecidableEq, Repr

/-- What a step gives: the thread continues, or `__call__` returns or raises an exception. `equistore/_c_lib.py` lines 30-40. -/
inductive Outcome where
  | goes (phase : Phase)
  | returned (dll : Nat)
  | raised (exception : LibExc)
  deriving DecidableEq, Repr

/-- Set `argtypes` and `restype` of a function. `equistore/_c_api.py` lines 84-86, and the same for all functions. -/
def setupFunction (name : String) (dll : Dll) : Dll := { dll with functions := dll.functions ++ [name] }

/-- One step of `LibraryFinder.__call__`, `equistore/_c_lib.py` lines 30-40, `_lib_path`, lines 43-67, and `setup_functions`,
`equistore/_c_api.py` lines 81-235. Simplification: `argtypes` and `restype` of a function are set in one step; the call of
`eqs_disable_panic_printing` has no effect here, and is not a step. -/
def step (computer : Computer) (s : Shared) : Phase → Shared × Outcome
  | .start => if s.cached.isNone then (s, .goes .readPath) else (s, .goes .return)
  | .readPath =>
    match s.path with
    | some path => (s, .goes (.load path))
    | none =>
      match computer.name with
      | some name => (s, .goes (.writePath (computer.here ++ name)))
      | none => (s, .raised .importError)
  | .writePath path => ({ s with path := some path }, .goes (.checkPath path))
  | .checkPath path =>
    match checkFile computer path with
    | .ok () => (s, .goes (.load path))
    | .error e => (s, .raised e)
  | .load path =>
    if computer.loads path then ({ s with dlls := s.dlls ++ [⟨path, []⟩] }, .goes (.store s.dlls.length))
    else (s, .raised .osError)
  | .store dll => ({ s with cached := some dll }, .goes .setup)
  | .setup =>
    match s.cached with
    | some dll => (s, .goes (.functions dll functionNames))
    | none => (s, .raised .attributeError)
  | .functions dll (name :: names) =>
    match s.dlls[dll]? with
    | some object =>
      if computer.exports object.path name then
        ({ s with dlls := s.dlls.set dll (setupFunction name object) }, .goes (.functions dll names))
      else (s, .raised .attributeError)
    | none => (s, .raised .attributeError)
  | .functions _ [] => (s, .goes .return)
  | .return =>
    match s.cached with
    | some dll => (s, .returned dll)
    | none => (s, .raised .attributeError)

/-- A program with threads: what is shared, and where the threads inside of `__call__` are. `equistore/_c_lib.py` lines 30-40. -/
structure Program where
  shared : Shared
  threads : Nat → Option Phase

/-- When the program starts, no thread uses the library. `equistore/_c_lib.py` lines 10 and 104. -/
def Program.start : Program := ⟨.start, fun _ => none⟩

/-- What happens next: a thread calls `_get_library()`, a thread makes one step, or a thread calls
`_set_equistore_library_path`. `equistore/_c_lib.py` lines 13-40. -/
inductive Event where
  | call (thread : Nat)
  | step (thread : Nat)
  | setPath (path : String)
  deriving DecidableEq, Repr

/-- What can be seen of an event. `equistore/_c_lib.py` lines 13-40. -/
inductive Seen where
  | nothing
  | returned (thread dll : Nat)
  | raised (thread : Nat) (exception : LibExc)
  | pathSet (result : Except LibExc Unit)

/-- One event. A thread is in one call at a time. `equistore/_c_lib.py` lines 13-40. -/
def Program.next (computer : Computer) (p : Program) : Event → Program × Seen
  | .call thread =>
    match p.threads thread with
    | none => ({ p with threads := fun t => if t = thread then some .start else p.threads t }, .nothing)
    | some _ => (p, .nothing)
  | .step thread =>
    match p.threads thread with
    | none => (p, .nothing)
    | some phase =>
      match PyLibrary.step computer p.shared phase with
      | (s, .goes phase) => (⟨s, fun t => if t = thread then some phase else p.threads t⟩, .nothing)
      | (s, .returned dll) => (⟨s, fun t => if t = thread then none else p.threads t⟩, .returned thread dll)
      | (s, .raised e) => (⟨s, fun t => if t = thread then none else p.threads t⟩, .raised thread e)
  | .setPath path =>
    let (s, result) := PyLibrary.setPath path p.shared
    ({ p with shared := s }, .pathSet result)

/-- A list of events. `equistore/_c_lib.py` lines 13-40. -/
def Program.run (computer : Computer) (p : Program) : List Event → Program
  | [] => p
  | event :: events => Program.run computer (p.next computer event).1 events

end PyLibrary
end Equistore
