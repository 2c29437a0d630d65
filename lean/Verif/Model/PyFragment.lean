import Verif.Model.PyLiteral

/-!
# A formatter and a parser for Python literals

The `py_literal` crate is not part of the repository. These functions follow its documentation
for strings, integers, booleans, `None`, tuples, lists and dictionaries; floating point numbers, bytes and
sets are left out. They show that what the theorems assume of `py_literal` can be
satisfied, and allow to run the model.
-/

namespace Equistore
namespace PyFragment

/-! ### Formatting -/

/-- A hexadecimal digit. Part of `py_literal`, used in `src/io/npy_header.rs` line 451. -/
def hexDigit (n : Nat) : Char :=
  if n < 10 then Char.ofNat (48 + n) else Char.ofNat (87 + n)

/-- The last `k` hexadecimal digits of a number. Part of `py_literal`, used in `src/io/npy_header.rs` line 451. -/
def hexChars : Nat → Nat → List Char
  | 0, _ => []
  | k + 1, n => hexChars k (n / 16) ++ [hexDigit (n % 16)]

/-- One character inside of a string. Part of `py_literal`, used in `src/io/npy_header.rs` line 451. -/
def formatChar (c : Char) : List Char :=
  if c = '\\' then ['\\', '\\']
  else if c = '\r' then ['\\', 'r']
  else if c = '\n' then ['\\', 'n']
  else if c = '\'' then ['\\', '\'']
  else if c.toNat < 128 then [c]
  else if c.toNat < 256 then '\\' :: 'x' :: hexChars 2 c.toNat
  else if c.toNat < 65536 then '\\' :: 'u' :: hexChars 4 c.toNat
  else '\\' :: 'U' :: hexChars 8 c.toNat

/-- Decimal digits of a number. Part of `py_literal`, used in `src/io/npy_header.rs` line 451. -/
def decChars : Nat → Nat → List Char
  | 0, _ => []
  | fuel + 1, n =>
    if n < 10 then [Char.ofNat (48 + n)] else decChars fuel (n / 10) ++ [Char.ofNat (48 + n % 10)]

/-- An integer. Part of `py_literal`, used in `src/io/npy_header.rs` line 451. -/
def formatInt : Int → List Char
  | .ofNat n => decChars (n + 1) n
  | .negSucc n => '-' :: decChars (n + 2) (n + 1)

mutual
/-- A value. Part of `py_literal`, used in `src/io/npy_header.rs` line 451. -/
def format : PyValue → Option (List Char)
  | .string s => some ('\'' :: s.flatMap formatChar ++ ['\''])
  | .integer i => some (formatInt i)
  | .boolean true => some "True".toList
  | .boolean false => some "False".toList
  | .none => some "None".toList
  | .tuple values => do
    let text ← formatSeq values
    if values.length = 1 then return '(' :: text ++ [',', ')'] else return '(' :: text ++ [')']
  | .list values => do
    let text ← formatSeq values
    return '[' :: text ++ [']']
  | .dict entries => do
    let text ← formatEntries entries
    return '{' :: text ++ ['}']
  | .bytes _ | .float | .complex | .set _ => Option.none

/-- Values separated by commas. Part of `py_literal`, used in `src/io/npy_header.rs` line 451. -/
def formatSeq : List PyValue → Option (List Char)
  | [] => some []
  | [v] => format v
  | v :: values => do
    let first ← format v
    let others ← formatSeq values
    return first ++ ',' :: ' ' :: others

/-- Entries of a dictionary separated by commas. Part of `py_literal`, used in `src/io/npy_header.rs` line 451. -/
def formatEntries : List (PyValue × PyValue) → Option (List Char)
  | [] => some []
  | [(k, v)] => do
    let key ← format k
    let value ← format v
    return key ++ ':' :: ' ' :: value
  | (k, v) :: entries => do
    let key ← format k
    let value ← format v
    let others ← formatEntries entries
    return key ++ ':' :: ' ' :: value ++ ',' :: ' ' :: others
end

/-! ### Parsing -/

/-- Value of a hexadecimal digit. Part of `py_literal`, used in `src/io/npy_header.rs` line 422. -/
def hexValue (c : Char) : Option Nat :=
  if '0' ≤ c ∧ c ≤ '9' then some (c.toNat - 48)
  else if 'a' ≤ c ∧ c ≤ 'f' then some (c.toNat - 87)
  else if 'A' ≤ c ∧ c ≤ 'F' then some (c.toNat - 55)
  else none

/-- A number from hexadecimal digits, most significant digit first. Part of `py_literal`, used in `src/io/npy_header.rs` line 422. -/
def hexNumber : Nat → List Char → Option Nat
  | n, [] => some n
  | n, c :: cs => do
    let d ← hexValue c
    hexNumber (16 * n + d) cs

/-- The character given by `k` hexadecimal digits, and the remaining text. Part of `py_literal`, used in `src/io/npy_header.rs` line 422. -/
def hexEscape (k : Nat) (text : List Char) : Option (Char × List Char) :=
  if k ≤ text.length then do
    let n ← hexNumber 0 (text.take k)
    if n.isValidChar then return (Char.ofNat n, text.drop k) else none
  else none

/-- One character of a string, possibly escaped. Part of `py_literal`, used in `src/io/npy_header.rs` line 422. -/
def nextChar : List Char → Option (Char × List Char)
  | '\\' :: c :: text =>
    if c = '\\' then some ('\\', text)
    else if c = '\'' then some ('\'', text)
    else if c = '"' then some ('"', text)
    else if c = 'n' then some ('\n', text)
    else if c = 'r' then some ('\r', text)
    else if c = 't' then some ('\t', text)
    else if c = 'x' then hexEscape 2 text
    else if c = 'u' then hexEscape 4 text
    else if c = 'U' then hexEscape 8 text
    else none
  | c :: text => if c = '\\' ∨ c = '\n' ∨ c = '\r' then none else some (c, text)
  | [] => none

/-- The rest of a string until the closing quote. Part of `py_literal`, used in `src/io/npy_header.rs` line 422. -/
def parseString (quote : Char) : Nat → List Char → Option (List Char × List Char)
  | 0, _ => none
  | fuel + 1, text =>
    if text.head? = some quote then some ([], text.tail)
    else do
      let (c, text) ← nextChar text
      let (cs, text) ← parseString quote fuel text
      return (c :: cs, text)

/-- Spaces between tokens. Part of `py_literal`, used in `src/io/npy_header.rs` line 422. -/
def skipSpaces (text : List Char) : List Char := text.dropWhile fun c => c = ' ' ∨ c = '\t' ∨ c = '\x0c'

/-- Value of decimal digits. Part of `py_literal`, used in `src/io/npy_header.rs` line 422. -/
def decNumber (digits : List Char) : Nat := digits.foldl (fun n c => 10 * n + (c.toNat - 48)) 0

/-- A natural number. Part of `py_literal`, used in `src/io/npy_header.rs` line 422. -/
def parseNat (text : List Char) : Option (Nat × List Char) :=
  if (text.takeWhile Char.isDigit).isEmpty then none
  else some (decNumber (text.takeWhile Char.isDigit), text.dropWhile Char.isDigit)

mutual
/-- A value, and the remaining text. Part of `py_literal`, used in `src/io/npy_header.rs` line 422. -/
def parseValue : Nat → List Char → Option (PyValue × List Char)
  | 0, _ => none
  | fuel + 1, text =>
    match text with
    | [] => none
    | c :: rest =>
      if c = '\'' ∨ c = '"' then do
        let (s, rest) ← parseString c fuel rest
        return (.string s, rest)
      else if c = '(' then do
        let (values, comma, rest) ← parseSeq ')' fuel rest
        if values.length = 1 ∧ comma = false then none else return (.tuple values, rest)
      else if c = '[' then do
        let (values, _, rest) ← parseSeq ']' fuel rest
        return (.list values, rest)
      else if c = '{' then do
        let (entries, rest) ← parseEntries fuel rest
        return (.dict entries, rest)
      else if c = '-' then do
        let (n, rest) ← parseNat rest
        return (.integer (-(n : Int)), rest)
      else if "True".toList.isPrefixOf text then some (.boolean true, text.drop 4)
      else if "False".toList.isPrefixOf text then some (.boolean false, text.drop 5)
      else if "None".toList.isPrefixOf text then some (.none, text.drop 4)
      else do
        let (n, rest) ← parseNat text
        return (.integer (n : Int), rest)

/-- Values separated by commas, until the closing bracket: the values, whether there is a comma
at the end, and the remaining text. Part of `py_literal`, used in `src/io/npy_header.rs` line 422. -/
def parseSeq (close : Char) : Nat → List Char → Option (List PyValue × Bool × List Char)
  | 0, _ => none
  | fuel + 1, text =>
    let text := skipSpaces text
    if text.head? = some close then some ([], true, text.tail)
    else do
      let (v, text) ← parseValue fuel text
      let text := skipSpaces text
      if text.head? = some ',' then
        let (values, comma, text) ← parseSeq close fuel text.tail
        return (v :: values, comma, text)
      else if text.head? = some close then
        return ([v], false, text.tail)
      else none

/-- Entries of a dictionary, until the closing bracket. Part of `py_literal`, used in `src/io/npy_header.rs` line 422. -/
def parseEntries : Nat → List Char → Option (List (PyValue × PyValue) × List Char)
  | 0, _ => none
  | fuel + 1, text =>
    let text := skipSpaces text
    if text.head? = some '}' then some ([], text.tail)
    else do
      let (k, text) ← parseValue fuel text
      let text := skipSpaces text
      if text.head? = some ':' then
        let (v, text) ← parseValue fuel (skipSpaces text.tail)
        let text := skipSpaces text
        if text.head? = some ',' then
          let (entries, text) ← parseEntries fuel text.tail
          return ((k, v) :: entries, text)
        else if text.head? = some '}' then
          return ([(k, v)], text.tail)
        else none
      else none
end

/-- Parse a complete text. Part of `py_literal`, used in `src/io/npy_header.rs` line 422. -/
def parse (text : List Char) : Option PyValue := do
  let (v, rest) ← parseValue (text.length + 1) (skipSpaces text)
  if (skipSpaces rest).isEmpty then return v else none

end PyFragment

/-- The formatter and parser above. They stand for `py_literal` in `src/io/npy_header.rs` lines 422 and 451. -/
def PyLiteral.fragment : PyLiteral where
  format v := (PyFragment.format v).map fun text => text.map fun c => UInt8.ofNat c.toNat
  parse := PyFragment.parse

end Equistore
