import Mathlib.Data.List.Basic

/-!
# Finding the library from CMake

Models the files for `find_package(equistore ...)` installed by `CMakeLists.txt`: `cmake/equistore-config-version.in.cmake`
and `cmake/equistore-config.in.cmake`, and how CMake uses them.
-/

namespace Equistore
namespace FindPackage

/-- The version of the installed library: the three numbers of `PROJECT_VERSION`, from `CMakeLists.txt` lines 9-21. -/
structure Installed where
  major : Nat
  minor : Nat
  patch : Nat
  deriving DecidableEq

/-- The numbers in a version, `PACKAGE_VERSION`, `cmake/equistore-config-version.in.cmake` line 1. -/
def Installed.numbers (v : Installed) : List Nat := [v.major, v.minor, v.patch]

/-- What `find_package` was asked for: no version; the numbers of a version, with or without `EXACT`; or a range of versions,
where the upper end is excluded after `...<`. Used in `cmake/equistore-config-version.in.cmake` lines 3-22. -/
inductive Request where
  | any
  | version (numbers : List Nat) (exact : Bool)
  | range (lower upper : List Nat) (excluded : Bool)
  deriving DecidableEq

/-- `PACKAGE_FIND_VERSION`: for ranges this is the lower end, `cmake/equistore-config-version.in.cmake` line 3. -/
def Request.numbers : Request → List Nat
  | .any => []
  | .version numbers _ => numbers
  | .range lower _ _ => lower

/-- `VERSION_GREATER`: the first different number decides, missing numbers are zero.
`cmake/equistore-config-version.in.cmake` line 10. -/
def versionGreater : List Nat → List Nat → Bool
  | [], _ => false
  | a :: rest, [] => a > 0 || versionGreater rest []
  | a :: rest, b :: rest' => a > b || (a == b && versionGreater rest rest')

/-- `VERSION_EQUAL`, `cmake/equistore-config-version.in.cmake` line 3. -/
def versionEqual (a b : List Nat) : Bool := !versionGreater a b && !versionGreater b a

/-- What the version file sets: `PACKAGE_VERSION_EXACT`, `PACKAGE_VERSION_COMPATIBLE`, `PACKAGE_VERSION_UNSUITABLE`.
`cmake/equistore-config-version.in.cmake` lines 3-34. -/
structure Verdict where
  exact : Bool
  compatible : Bool
  unsuitable : Bool
  deriving DecidableEq

/-- `cmake/equistore-config-version.in.cmake` lines 1-34, where `built` and `pointer` are `CMAKE_SIZEOF_VOID_P` when the library
was built, and in the project using it (`none` if this is not set). `PACKAGE_FIND_VERSION_MAJOR` and
`PACKAGE_FIND_VERSION_MINOR` are zero for missing numbers. -/
def versionFile (installed : Installed) (built : Option Nat) (request : Request) (pointer : Option Nat) : Verdict :=
  let exact := versionEqual request.numbers installed.numbers
  let compatible := !versionGreater request.numbers installed.numbers
  let compatible :=
    if installed.major = 0 then
      if request.numbers.getD 1 0 ≠ installed.minor then false else compatible
    else
      if request.numbers.getD 0 0 ≠ installed.major then false else compatible
  let unsuitable := match pointer, built with
    | some p, some b => p ≠ b
    | _, _ => false
  ⟨exact, compatible, unsuitable⟩

/-- How CMake uses the result of the version file: nothing but the pointer size has to fit if there is no version in the
request. `find_package` for the files in `CMakeLists.txt` lines 159-178. -/
def accepted (request : Request) (verdict : Verdict) : Bool :=
  !verdict.unsuitable && match request with
    | .any => true
    | .version _ true => verdict.exact
    | .version _ false => verdict.exact || verdict.compatible
    | .range _ _ _ => verdict.exact || verdict.compatible

/-! ### Projects with several directories -/

/-- What a `CMakeLists.txt` of a project using the library does: `find_package(equistore)`, or `add_subdirectory`.
`cmake/equistore-config.in.cmake` lines 1-11 runs for each `find_package`. -/
inductive Command where
  | findPackage
  | subdirectory (commands : List Command)

/-- Is there a target `equistore` (it is `GLOBAL`), and `equistore_FOUND` in this directory.
`cmake/equistore-config.in.cmake` lines 3 and 7. -/
structure Scope where
  target : Bool
  found : Bool
  deriving DecidableEq

/-- `cmake/equistore-config.in.cmake` lines 1-11: `none` is an error of `add_library`, there already is a target with this name.
`find_package` sets `equistore_FOUND` afterwards. -/
def configFile (s : Scope) : Option Scope :=
  if s.found then some s
  else if s.target then none
  else some ⟨true, true⟩

mutual
/-- Run one command: a subdirectory has its own variables, which start with the values in the parent; targets are shared.
`cmake/equistore-config.in.cmake` lines 3-7. -/
def Command.run : Command → Scope → Option Scope
  | .findPackage, s => configFile s
  | .subdirectory commands, s => (runAll commands s).map fun inside => ⟨inside.target, s.found⟩
/-- Run all commands of a directory. `cmake/equistore-config.in.cmake` lines 3-7. -/
def runAll : List Command → Scope → Option Scope
  | [], s => some s
  | c :: rest, s => match c.run s with
    | none => none
    | some s => runAll rest s
end

/-- Configure a project. `cmake/equistore-config.in.cmake` lines 3-7. -/
def configure (commands : List Command) : Option Scope := runAll commands ⟨false, false⟩

end FindPackage
end Equistore
