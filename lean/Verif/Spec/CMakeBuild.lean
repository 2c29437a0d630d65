import Verif.Model.CMakeBuild

/-!
# Specification vocabulary for building the library

What `cargo build` does, from its documentation, and what the user asked for.
-/

namespace Equistore
namespace Spec
namespace CMakeBuild

open _root_.Equistore.CMakeBuild

/-- A library in a file: is it a shared or a static one, which compiler made it, with debug assertions or without, for which target (`none` for this machine), and
with which features. -/
structure Library where
  shared : Bool
  compiler : Cargo
  debug : Bool
  target : Option Text
  features : List Text
  deriving DecidableEq

/-- What `cargo build` is asked for. -/
structure Options where
  release : Bool
  target : Option Text
  features : List Text
  deriving DecidableEq

/-- The command line of `cargo build`; others are not accepted here. -/
def parse : List Text → Option Options
  | [] => some ⟨false, none, []⟩
  | arg :: rest =>
    match parse rest with
    | none => none
    | some o =>
      if arg = "--release".toList then some { o with release := true }
      else if "--target=".toList <+: arg then some { o with target := some (arg.drop 9) }
      else if "--features=".toList <+: arg then some { o with features := arg.drop 11 :: o.features }
      else none

instance (a b : Text) : Decidable (a <+: b) := List.instDecidableIsPrefixOfDecidableEq a b

/-- The variables `cargo` looks at: the directory for what it builds, and the target. -/
structure CargoEnvironment where
  targetDir : Option Text
  buildTarget : Option Text

/-- The directory for a target: the name of a target is used as it is, for a file describing a target its name without `.json`. -/
def targetDirectory (target : Text) : Text :=
  if ".json".toList <:+ target then ((target.reverse.takeWhile (· ≠ '/')).drop 5).reverse else target

/-- The files of the project, with libraries. -/
abbrev Files : Type := Text → Option Library

/-- `cargo build` in the directory of the project: where the libraries are written, and what the shared and the static one are. -/
def cargoBuild (cargo : Cargo) (env : CargoEnvironment) (args : List Text) : Option (Text × (Bool → Library)) :=
  match cargo, parse args with
  | some version, some o =>
    let target := o.target <|> env.buildTarget
    let root := env.targetDir.getD "target".toList
    let middle := match target with
      | none => []
      | some t => targetDirectory t ++ ['/']
    some (root ++ '/' :: middle ++ (if o.release then "release".toList else "debug".toList),
      fun shared => ⟨shared, some version, !o.release, target, o.features⟩)
  | _, _ => none

/-- Build and install: `cargo` writes the shared and the static library, then the file of the plan is installed. `none` if `cargo`
fails or there is no such file. -/
def install (name : Bool → Text) (onPath : Cargo) (env : CargoEnvironment) (plan : Plan) (files : Files) : Option Library :=
  match cargoBuild onPath env plan.args with
  | none => none
  | some (directory, library) =>
    (fun path =>
      if path = directory ++ '/' :: name true then some (library true)
      else if path = directory ++ '/' :: name false then some (library false)
      else files path) plan.location

/-- The user asked for a debug build. -/
def AsksDebug (s : Settings) : Prop := s.buildType.map Char.toLower = "debug".toList

/-- The user asked for a release build, also by saying nothing in the main project. -/
def AsksRelease (s : Settings) : Prop :=
  s.buildType.map Char.toLower = "release".toList ∨ s.buildType.map Char.toLower = "relwithdebinfo".toList ∨
    (s.top = true ∧ s.buildType = [] ∧ s.configurations = [])

/-- The library the user asked for, made by this compiler. -/
def Expected (s : Settings) (compiler : Cargo) (library : Library) : Prop :=
  library.shared = s.shared ∧ library.compiler = compiler ∧ (library.debug = true ↔ AsksDebug s) ∧
    library.target = (if s.target = [] then none else some s.target) ∧
    library.features = (if s.python then ["serialization".toList] else [])

/-- At least 1.53.0. -/
def RecentEnough : Numbers → Prop
  | (a, b, _) => a > 1 ∨ a = 1 ∧ b ≥ 53

/-- `EQUISTORE_BUILD_TYPE` is one of the two values which are accepted, or missing. -/
def Accepted (env : Environment) : Prop :=
  env.buildType = none ∨ env.buildType = some "debug".toList ∨ env.buildType = some "release".toList

/-- The last of these environments with `RUST_BUILD_TARGET` has this value. -/
def LastGiven (envs : List Environment) (target : Text) : Prop :=
  ∃ before env after, envs = before ++ env :: after ∧ env.target = some target ∧ ∀ e ∈ after, e.target = none

end CMakeBuild
end Spec
end Equistore
