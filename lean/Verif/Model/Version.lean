/-!
# The version of the Python and CMake packages

Models `get_version` of `setup.py`, and the loop of `CMakeLists.txt` reading `Cargo.toml`.
-/

namespace Equistore
namespace Version

/-- Text, as its characters. The content of `Cargo.toml` and what `git` prints, used in `setup.py` lines 82-149.
Simplification: lines end with a newline character only. -/
abbrev Text : Type := List Char

/-- What iterating over a file gives: its lines, with their newline characters. `setup.py` line 93. -/
def lines : Text → List Text
  | [] => []
  | c :: rest =>
    if c = '\n' then ['\n'] :: lines rest
    else match lines rest with
      | [] => [[c]]
      | l :: ls => (c :: l) :: ls

/-- `line.split(" = ")`, `setup.py` line 95. -/
def splitEquals : Text → List Text
  | [] => [[]]
  | ' ' :: '=' :: ' ' :: rest => [] :: splitEquals rest
  | c :: rest => match splitEquals rest with
    | [] => [[c]]
    | piece :: pieces => (c :: piece) :: pieces

/-- `version[1:-2]`, `setup.py` line 97. -/
def removeQuotes (s : Text) : Text := (s.take (s.length - 2)).drop 1

/-- The exceptions of `get_version`, `setup.py` lines 82-149. -/
inductive PyError where
  | valueError
  | unboundLocalError
  deriving DecidableEq

/-- The first loop, `setup.py` lines 92-100: without a line, the variable `version` is not set, which raises when it is
returned. -/
def readVersion : List Text → Except PyError Text
  | [] => .error .unboundLocalError
  | line :: rest =>
    if "version".toList.isPrefixOf line then
      match splitEquals line with
      | [_, version] => .ok (removeQuotes version)
      | _ => .error .valueError
    else
      readVersion rest

/-- `str.strip`. Simplification: only the characters for white space in ASCII. `setup.py` lines 110, 119, 129 and 142. -/
def strip (s : Text) : Text :=
  let space := fun c => c == ' ' || c == '\n' || c == '\t' || c == '\r'
  ((s.dropWhile space).reverse.dropWhile space).reverse

/-- What `git` prints for the commands in `setup.py` lines 103-142: `none` if it fails or is not there. -/
structure Git where
  tag : Option Text
  roots : Option Text
  describe : Option Text
  count : Text → Option Text

/-- The tag or commit to start from, `setup.py` lines 103-133. -/
def reference (git : Git) : Text :=
  match git.tag with
  | none => []
  | some tags =>
    if strip tags = [] then
      match git.roots with
      | none => []
      | some first => strip first
    else
      match git.describe with
      | none => []
      | some last => strip last

/-- `get_version`, `setup.py` lines 82-149. The comparison in line 144, of the text `n_commits_since_tag` with the number 0, is
always true. -/
def getVersion (cargo : Text) (git : Git) : Except PyError Text :=
  match readVersion (lines cargo) with
  | .error e => .error e
  | .ok version =>
    match git.count (reference git ++ "..HEAD".toList) with
    | none => .ok version
    | some n => .ok (version ++ ".dev".toList ++ strip n)

/-! ### CMake -/

/-- `[0-9]+`, followed by something else: the digits and the rest. `CMakeLists.txt` line 11. -/
def digits : Text → Option (Text × Text)
  | [] => none
  | c :: rest =>
    if c.isDigit then
      match digits rest with
      | none => some ([c], rest)
      | some (ds, rest) => some (c :: ds, rest)
    else none

/-- This text. `CMakeLists.txt` line 11. -/
def literal (expected text : Text) : Option Text :=
  if expected.isPrefixOf text then some (text.drop expected.length) else none

/-- The regular expression at the start of a text: the part in parentheses. `CMakeLists.txt` line 11. -/
def matchHere (text : Text) : Option Text := do
  let rest ← literal "version = \"".toList text
  let (a, rest) ← digits rest
  let rest ← literal ['.'] rest
  let (b, rest) ← digits rest
  let rest ← literal ['.'] rest
  let (c, rest) ← digits rest
  let _ ← literal ['"'] rest
  return a ++ '.' :: b ++ '.' :: c

/-- `string(REGEX REPLACE ...)` for a line: the first match, up to the end of the line, is replaced by the part in parentheses;
`none` if there is no match. `CMakeLists.txt` lines 11-12. -/
def replace : Text → Option Text
  | [] => none
  | c :: rest =>
    match matchHere (c :: rest) with
    | some version => some version
    | none => (replace rest).map (c :: ·)

/-- The loop over the lines, `CMakeLists.txt` lines 9-16: the version, if there is a line with one. Simplifications: the lines
are not changed by being elements of a CMake list (no semicolon, brackets in pairs); they keep their newline, which
`file(STRINGS)` removes; and without any match the result is `none`, where CMake keeps the last line. -/
def cmakeVersion : List Text → Option Text
  | [] => none
  | line :: rest =>
    match replace line with
    | some version => some version
    | none => cmakeVersion rest

end Version
end Equistore
