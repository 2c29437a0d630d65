import Verif.Model.PyPrint

/-!
# Printing labels in Rust

Models `{:?}` for `Labels`, `src/labels.rs` lines 228-247. Texts are lists of characters.
-/

namespace Equistore

/-- `{:^width$}`, as used in `src/labels.rs` line 237: half of the spaces on each side, with the additional one on the right. -/
def center (width : Nat) (text : List Char) : List Char :=
  let padding := width - text.length
  List.replicate (padding / 2) ' ' ++ text ++ List.replicate ((padding + 1) / 2) ' '

namespace Labels

/-- The values of one entry, `src/labels.rs` lines 235-240. `str::len`, line 233, is the number of bytes. -/
def debugEntry (names : List String) (entry : List LabelValue) : List Char :=
  "    ".toList ++ (entry.zip (names.map fun s => s.utf8ByteSize)).flatMap fun (value, width) =>
    center width (decimal value.toInt) ++ "  ".toList

/-- `names.join(", ")`, `src/labels.rs` line 231. -/
def joinNames : List String → List Char
  | [] => []
  | [name] => name.toList
  | name :: names => name.toList ++ ", ".toList ++ joinNames names

/-- `Debug for Labels`, `src/labels.rs` lines 228-247. Simplifications: the text is always written, without errors of
the formatter; what was written before a panic is lost. -/
def debug (l : Labels) : Res (List Char) := do
  let header := "Labels{\n    ".toList ++ joinNames l.names ++ ['\n']
  let entries ← l.iter
  return header ++ (entries.flatMap fun entry => debugEntry l.names entry ++ ['\n']) ++ "}\n".toList

end Labels
end Equistore
