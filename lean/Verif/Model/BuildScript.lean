/-!
# The script making the header

Models `build.rs`, which writes `include/equistore.h` with `cbindgen` when the library is built.
-/

namespace Equistore
namespace BuildScript

/-- The files of Rust in `src`, found by the pattern of `build.rs` line 35, with their text. -/
abbrev Files : Type := String → Option String

/-- What the last run of the script told `cargo`: it never ran; it printed nothing, since `cbindgen` failed; or it printed
`cargo:rerun-if-changed` for some files. `build.rs` lines 33-38. -/
inductive Last where
  | never
  | nothing
  | watch (paths : String → Bool)

/-- The directory of the project, `build.rs` lines 15-31: the files, the header, what the last run of the script said, and what was
changed since then: names of files in `src`, and is there any other change. Simplification: changing a file always changes its
time. -/
structure State (H : Type) where
  files : Files
  header : Option H
  last : Last
  changed : List String
  other : Bool

variable {H : Type}

/-- Does `cargo` run the script: always if it never ran, for all changes in the project if it printed nothing, and otherwise if one of
the files it printed was changed or removed. `build.rs` lines 33-38. Simplification: without changes of `Cargo.toml`, `build.rs` and the
compiler. -/
def State.runsScript (s : State H) : Bool :=
  match s.last with
  | .never => true
  | .nothing => s.other || !s.changed.isEmpty
  | .watch paths => s.changed.any paths

/-- `main`, `build.rs` lines 3-39, where `generate` is what `cbindgen` makes of the files, `none` if it fails. An error is not
reported. -/
def State.script (generate : Files → Option H) (s : State H) : State H :=
  match generate s.files with
  | some header =>
    { s with header := some header, last := .watch fun path => (s.files path).isSome, changed := [], other := false }
  | none => { s with last := .nothing, changed := [], other := false }

/-- What `cargo build` does with the script, `build.rs` lines 3-39. The library is made from the files, if they are correct. -/
def State.build (generate : Files → Option H) (s : State H) : State H :=
  if s.runsScript then s.script generate else s

/-- A change between two builds: write or remove a file in `src`, change the header, or change another file. Used for the histories of
`build.rs` lines 33-38. -/
inductive Edit (H : Type) where
  | write (path text : String)
  | remove (path : String)
  | header (new : Option H)
  | other

/-- The effect of a change, `build.rs` lines 33-38. -/
def Edit.run (s : State H) : Edit H → State H
  | .write path text => { s with files := fun p => if p = path then some text else s.files p, changed := path :: s.changed }
  | .remove path => { s with files := fun p => if p = path then none else s.files p, changed := path :: s.changed }
  | .header new => { s with header := new, other := true }
  | .other => { s with other := true }

/-- Changes and then `cargo build`, with `cbindgen` as it is at that time. `build.rs` lines 3-39. -/
structure Session (H : Type) where
  edits : List (Edit H)
  generate : Files → Option H

/-- `build.rs` lines 3-39, after some changes. -/
def Session.run (s : State H) (session : Session H) : State H :=
  (session.edits.foldl Edit.run s).build session.generate

/-- Several sessions, each with one run of `cargo build`. `build.rs` lines 3-39. -/
def runAll (s : State H) (sessions : List (Session H)) : State H := sessions.foldl Session.run s

/-- A new copy of the project, in which nothing was built, with the header it has in the repository. `build.rs` lines 3-39. -/
def fresh (files : Files) (header : Option H) : State H := ⟨files, header, .never, [], false⟩

end BuildScript
end Equistore
