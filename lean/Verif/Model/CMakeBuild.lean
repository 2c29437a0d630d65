import Verif.Model.FindPackage

/-!
# Building the library with CMake

Models how `CMakeLists.txt` chooses the command to build the library and the file to install, and how `setup.py` runs CMake.
What `cargo` does is described in `Spec/CMakeBuild.lean`.
-/

namespace Equistore
namespace CMakeBuild

/-- A text of CMake, `CMakeLists.txt` lines 1-178. -/
abbrev Text : Type := List Char

/-- Split at semicolons. Used for lists, `CMakeLists.txt` lines 45 and 118. -/
def split : Text → List Text
  | [] => [[]]
  | c :: rest =>
    if c = ';' then [] :: split rest
    else match split rest with
      | [] => [[c]]
      | first :: others => (c :: first) :: others

/-- The arguments made from a variable which is not in quotes: the elements of the list which are not empty. `CMakeLists.txt` lines 45
and 118. -/
def elements (text : Text) : List Text := (split text).filter (· ≠ [])

/-- What the user gives to CMake: is this the main project, or one added by `add_subdirectory`; `CMAKE_BUILD_TYPE`,
`CMAKE_CONFIGURATION_TYPES` and `RUST_BUILD_TARGET`, empty if they are not set; `EQUISTORE_BUILD_FOR_PYTHON` and
`BUILD_SHARED_LIBS`. `CMakeLists.txt` lines 23-42. -/
structure Settings where
  top : Bool
  buildType : Text
  configurations : Text
  target : Text
  python : Bool
  shared : Bool
  deriving DecidableEq

/-- A version of `cargo`: three numbers. `CMakeLists.txt` lines 88-90. -/
abbrev Numbers : Type := Nat × Nat × Nat

/-- A program: the version it prints, `none` if it can not be run. `CMakeLists.txt` lines 75-79. Simplification: it prints
`cargo x.y.z`, with anything after that. -/
abbrev Cargo : Type := Option Numbers

/-- Why CMake stops. `CMakeLists.txt` lines 45, 56, 69, 82 and 91. -/
inductive Failure where
  /-- `string(TOLOWER)` without a text -/
  | noBuildType
  | unsupportedBuildType
  | cargoNotFound
  | cargoDoesNotRun
  | cargoTooOld
  deriving DecidableEq

/-- What CMake will do: the arguments of `cargo`, and the file to be installed. `CMakeLists.txt` lines 118 and 173. -/
structure Plan where
  args : List Text
  location : Text
  deriving DecidableEq

/-- The default build type, `CMakeLists.txt` lines 33-42. -/
def chosenType (s : Settings) : Text :=
  if s.top ∧ s.buildType = [] ∧ s.configurations = [] then "release".toList else s.buildType

/-- `string(TOLOWER ${CMAKE_BUILD_TYPE} BUILD_TYPE)`, `CMakeLists.txt` line 45: the first argument is the text, the second one is
the variable to set, which should be `BUILD_TYPE`. `none` is the error for missing arguments. -/
def lowered (buildType : Text) : Option Text :=
  match elements buildType ++ ["BUILD_TYPE".toList] with
  | input :: output :: _ => some (if output = "BUILD_TYPE".toList then input.map Char.toLower else [])
  | _ => none

/-- `CARGO_BUILD_ARG` and `CARGO_BUILD_TYPE`, `CMakeLists.txt` lines 46-57. -/
def profile (buildType : Text) : Option (Text × Text) :=
  if buildType = "debug".toList then some ([], "debug".toList)
  else if buildType = "release".toList then some ("--release".toList, "release".toList)
  else if buildType = "relwithdebinfo".toList then some ("--release".toList, "release".toList)
  else none

/-- `CARGO_BUILD_ARG` and `CARGO_TARGET_DIR`, `CMakeLists.txt` lines 60-65. Paths start at the directory of the project. -/
def withTarget (target : Text) (arg type : Text) : Text × Text :=
  if target = [] then (arg, "target/".toList ++ type)
  else (arg ++ ";--target=".toList ++ target, "target/".toList ++ target ++ '/' :: type)

/-- The checks of `cargo`, `CMakeLists.txt` lines 67-97. -/
def checkCargo (exe : Option Cargo) : Except Failure Unit :=
  match exe with
  | none => .error .cargoNotFound
  | some none => .error .cargoDoesNotRun
  | some (some (a, b, c)) =>
    if FindPackage.versionGreater [1, 53, 0] [a, b, c] then .error .cargoTooOld else .ok ()

/-- The command and the file, when nothing failed. `CMakeLists.txt` lines 60-65, 104-119 and 173. -/
def makePlan (name : Bool → Text) (s : Settings) (arg type : Text) : Plan :=
  let (arg, directory) := withTarget s.target arg type
  let arg := if s.python then arg ++ ";--features=serialization".toList else arg
  ⟨elements arg, directory ++ '/' :: name s.shared⟩

/-- `CMakeLists.txt` lines 23-173, where `exe` is the program in `CARGO_EXE`, found by CMake or given by the user (`none` if there is
none), and `name` is the name of the shared or static library on this system. -/
def configure (name : Bool → Text) (s : Settings) (exe : Option Cargo) : Except Failure Plan :=
  match lowered (chosenType s) with
  | none => .error .noBuildType
  | some type =>
    match profile type with
    | none => .error .unsupportedBuildType
    | some (arg, type) =>
      match checkCargo exe with
      | .error e => .error e
      | .ok () => .ok (makePlan name s arg type)

/-! ### Building for Python -/

/-- The environment of `setup.py`: `EQUISTORE_BUILD_TYPE`, `RUST_BUILD_TARGET`, and the program in `CARGO` (`some none` if it can not
be run). `setup.py` lines 16-23 and 64. -/
structure Environment where
  buildType : Option Text
  target : Option Text
  cargo : Option Cargo

/-- What is in the directory of the project: `build`, `build/cmake-build`, and what is in `CMakeCache.txt` after earlier runs:
`RUST_BUILD_TARGET` and `CARGO_EXE`. `setup.py` lines 46-52, `CMakeLists.txt` lines 27 and 67. -/
structure Checkout where
  build : Bool
  cmakeBuild : Bool
  target : Option Text
  cargo : Option Cargo

/-- How `setup.py` ends when it does not work, `setup.py` lines 17-21 and 67-71. -/
inductive PythonFailure where
  | invalidBuildType
  | noDirectory
  | cmake (e : Failure)
  deriving DecidableEq

/-- `setup.py` up to the end of the first run of CMake, lines 16-23 and 44-71, where `found` is the `cargo` CMake finds. `os.mkdir`
makes one directory, and its errors are ignored. Options which are not given keep the value they had in the last run. -/
def pythonConfigure (name : Bool → Text) (env : Environment) (found : Option Cargo) (checkout : Checkout) :
    Checkout × Except PythonFailure Plan :=
  let buildType := env.buildType.getD "release".toList
  if buildType ∉ ["debug".toList, "release".toList] then (checkout, .error .invalidBuildType)
  else if !(checkout.build || checkout.cmakeBuild) then (checkout, .error .noDirectory)
  else
    let target := env.target.or checkout.target
    let exe := (env.cargo.or checkout.cargo).or found
    (⟨checkout.build, true, target, exe⟩,
      match configure name ⟨true, buildType, [], target.getD [], true, true⟩ exe with
      | .error e => .error (.cmake e)
      | .ok plan => .ok plan)

/-- Several runs of `setup.py` in the same directory, with their environments and the `cargo` CMake finds: what is in the directory
afterwards. `setup.py` lines 16-71. -/
def pythonRuns (name : Bool → Text) (runs : List (Environment × Option Cargo)) (checkout : Checkout) : Checkout :=
  runs.foldl (fun checkout (env, found) => (pythonConfigure name env found checkout).1) checkout

end CMakeBuild
end Equistore
