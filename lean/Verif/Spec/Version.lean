import Verif.Model.Version

/-!
# Specification vocabulary for versions
-/

namespace Equistore
namespace Spec
namespace Version

open Equistore.Version

/-- A number, in decimal digits. -/
def decimal (n : Nat) : Text := (toString n).toList

/-- A name given by `git`: not empty, and without white space. -/
def IsName (name : Text) : Prop := name ≠ [] ∧ ∀ c ∈ name, c ≠ ' ' ∧ c ≠ '\n' ∧ c ≠ '\t' ∧ c ≠ '\r'

/-- The history of the sources: all tags, the last tag before (or at) the current commit, the commits without parents, and
the number of commits after a tag or commit. -/
structure History where
  tags : List Text
  last : Option Text
  roots : List Text
  since : Text → Nat

/-- One name on each line. -/
def listing (names : List Text) : Text := names.flatMap fun name => name ++ ['\n']

/-- `git` answers for this history. -/
structure Answers (git : Git) (h : History) : Prop where
  names : ∀ name, name ∈ h.tags ∨ name ∈ h.roots → IsName name
  known : ∀ tag, h.last = some tag → tag ∈ h.tags
  tag : git.tag = some (listing h.tags)
  roots : git.roots = some (listing h.roots)
  describe : git.describe = h.last.map (· ++ ['\n'])
  count : ∀ name, name ∈ h.tags ∨ name ∈ h.roots →
    git.count (name ++ "..HEAD".toList) = some (decimal (h.since name) ++ ['\n'])
  current : git.count "..HEAD".toList = some "0\n".toList
  lines : ∀ name, '\n' ∈ name → git.count (name ++ "..HEAD".toList) = none

/-- There is no `git`, or the sources are not in a repository. -/
def NoGit (git : Git) : Prop := git.tag = none ∧ git.roots = none ∧ git.describe = none ∧ ∀ name, git.count name = none

/-- The content of `Cargo.toml`: `before` is some lines, none of them starting with `version`, and then comes the line with
this version. -/
def HasVersion (cargo before version after : Text) : Prop :=
  cargo = before ++ ("version = \"".toList ++ version ++ "\"\n".toList) ++ after ∧
  (before = [] ∨ before.getLast? = some '\n') ∧
  ¬ "version".toList <+: before ∧ ¬ "\nversion".toList <:+: before ∧
  ∀ c ∈ version, c ≠ '\n' ∧ c ≠ ' '

/-- Digits. -/
def IsNumber (text : Text) : Prop := text ≠ [] ∧ ∀ c ∈ text, c.isDigit = true

/-- Three numbers with dots. -/
def IsTriple (version : Text) : Prop :=
  ∃ a b c, IsNumber a ∧ IsNumber b ∧ IsNumber c ∧ version = a ++ '.' :: b ++ '.' :: c

/-- What the version of the Python package should be: the one of `Cargo.toml` for a release (the last tag is the current commit)
and without `git`, otherwise with the number of commits since the last tag, or the first commit. -/
def Expected (version : Text) (h : History) (result : Text) : Prop :=
  (∀ tag, h.last = some tag → result = if h.since tag = 0 then version else version ++ ".dev".toList ++ decimal (h.since tag)) ∧
  (∀ first, h.tags = [] → h.roots = [first] → result = version ++ ".dev".toList ++ decimal (h.since first))

end Version
end Spec
end Equistore
