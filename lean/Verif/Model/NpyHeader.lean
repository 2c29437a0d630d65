import Verif.Model.PyLiteral

/-!
# Header of NPY files

Models `src/io/npy_header.rs`. Simplification: the messages of errors are not complete, the actual ones
also contain the offending value.
-/

namespace Equistore

/-- `MAGIC_STRING`, `src/io/npy_header.rs` line 14. -/
def magicString : Bytes := [0x93, 0x4e, 0x55, 0x4d, 0x50, 0x59]

/-- `HEADER_DIVISOR`, `src/io/npy_header.rs` line 20. -/
def headerDivisor : Nat := 64

/-- `ParseHeaderError` converted to `Error`, `src/io/npy_header.rs` lines 22-83 and 484-491. -/
def parseError (message : String) : Error := .serialization s!"error parsing header: {message}"

/-- `Version`, `src/io/npy_header.rs` lines 133-139. -/
inductive NpyVersion where
  | v1
  | v2
  | v3
  deriving DecidableEq, Repr

namespace NpyVersion

/-- `Version::from_bytes`, `src/io/npy_header.rs` lines 146-154. -/
def fromBytes (bytes : Bytes) : Res NpyVersion :=
  match bytes with
  | [1, 0] => .ok .v1
  | [2, 0] => .ok .v2
  | [3, 0] => .ok .v3
  | _ => .err (parseError "unknown version number")

/-- `Version::major_version`, `src/io/npy_header.rs` lines 157-163. -/
def major : NpyVersion → UInt8
  | .v1 => 1
  | .v2 => 2
  | .v3 => 3

/-- `Version::minor_version`, `src/io/npy_header.rs` lines 166-170. -/
def minor : NpyVersion → UInt8
  | _ => 0

/-- `Version::header_len_num_bytes`, `src/io/npy_header.rs` lines 173-178. -/
def headerLenNumBytes : NpyVersion → Nat
  | .v1 => 2
  | .v2 | .v3 => 4

/-- `Version::read_header_len`, `src/io/npy_header.rs` lines 181-190. A `u32` always fits in
a `usize` on 64-bit platforms. -/
def readHeaderLen (v : NpyVersion) (reader : Bytes) : Res (Nat × Bytes) := do
  let (bytes, reader) ← readExact v.headerLenNumBytes reader
  return (Endian.little.decode bytes, reader)

/-- `Version::format_header_len`, `src/io/npy_header.rs` lines 195-210. -/
def formatHeaderLen (v : NpyVersion) (headerLen : Nat) : Option Bytes :=
  match v with
  | .v1 => if headerLen < 2 ^ 16 then some (Endian.little.encode 2 headerLen) else none
  | .v2 | .v3 => if headerLen < 2 ^ 32 then some (Endian.little.encode 4 headerLen) else none

/-- `Version::compute_lengths`, `src/io/npy_header.rs` lines 220-237: total length and formatted
`HEADER_LEN`. -/
def computeLengths (v : NpyVersion) (arrFormat : Bytes) : Option (Nat × Bytes) := do
  let newlineLen := 1
  let prefixLen := magicString.length + 2 + v.headerLenNumBytes
  let unpaddedTotalLen ← checkedAdd (← checkedAdd prefixLen arrFormat.length) newlineLen
  let paddingLen := headerDivisor - unpaddedTotalLen % headerDivisor
  let totalLen ← checkedAdd unpaddedTotalLen paddingLen
  let headerLen := totalLen - prefixLen
  let formatted ← v.formatHeaderLen headerLen
  return (totalLen, formatted)

end NpyVersion

/-- `Header`, `src/io/npy_header.rs` lines 317-322. -/
structure NpyHeader where
  typeDescriptor : PyValue
  fortranOrder : Bool
  shape : List Nat

namespace NpyHeader

/-- `parse_shape`, `src/io/npy_header.rs` lines 352-358. -/
def parseShape : PyValue → Option (List Nat)
  | .tuple values => values.mapM fun
    | .integer i => if 0 ≤ i ∧ i < usizeSize then some i.toNat else none
    | _ => none
  | _ => none

/-- Loop of `Header::from_py_value`, `src/io/npy_header.rs` lines 336-372: the last entry for
each key is kept. -/
def readEntries : List (PyValue × PyValue) → Option PyValue × Option Bool × Option (List Nat) →
    Res (Option PyValue × Option Bool × Option (List Nat))
  | [], found => .ok found
  | (key, value) :: dict, (descr, fortran, shape) =>
    match key with
    | .string k =>
      if k = "descr".toList then
        readEntries dict (some value, fortran, shape)
      else if k = "fortran_order".toList then
        match value with
        | .boolean b => readEntries dict (descr, some b, shape)
        | _ => .err (parseError "illegal value for key fortran_order")
      else if k = "shape".toList then
        match parseShape value with
        | some s => readEntries dict (descr, fortran, some s)
        | none => .err (parseError "illegal value for key shape")
      else
        .err (parseError "unknown key")
    | _ => .err (parseError "unknown key")

/-- `Header::from_py_value`, `src/io/npy_header.rs` lines 331-384. -/
def fromPyValue : PyValue → Res NpyHeader
  | .dict dict => do
    match ← readEntries dict (none, none, none) with
    | (some typeDescriptor, some fortranOrder, some shape) =>
      return { typeDescriptor, fortranOrder, shape }
    | (none, _, _) => .err (parseError "missing key: descr")
    | (_, none, _) => .err (parseError "missing key: fortran_order")
    | (_, _, none) => .err (parseError "missing key: shaper")
  | _ => .err (parseError "metadata is not a dict")

/-- `str::from_utf8`. Used in `src/io/npy_header.rs` line 419. -/
def decodeUtf8 (bytes : Bytes) : Option (List Char) :=
  (String.fromUTF8? ⟨bytes.toArray⟩).map String.toList

/-- Bytes of an ASCII string as characters. Used in `src/io/npy_header.rs` lines 410-417. -/
def asciiChars (bytes : Bytes) : List Char := bytes.map fun b => Char.ofNat b.toNat

/-- The string to parse in `Header::from_reader`, `src/io/npy_header.rs` lines 407-421. -/
def headerString (version : NpyVersion) (bytes : Bytes) : Res (List Char) :=
  match version with
  | .v1 | .v2 =>
    if bytes.all (· < 128) then .ok (asciiChars bytes) else .err (parseError "non-ascii in array format string")
  | .v3 => Res.okOr (decodeUtf8 bytes) (parseError "error parsing array format string as UTF-8")

/-- `Header::from_reader`, `src/io/npy_header.rs` lines 386-424: the header and the remaining bytes. -/
def fromReader (py : PyLiteral) (reader : Bytes) : Res (NpyHeader × Bytes) := do
  let (buf, reader) ← readExact magicString.length reader
  Res.guardErr (buf == magicString) (parseError "start does not match magic string")
  let (buf, reader) ← readExact 2 reader
  let version ← NpyVersion.fromBytes buf
  let (headerLen, reader) ← version.readHeaderLen reader
  let (buf, reader) ← readExact headerLen reader
  Res.guardErr (buf.getLast? == some 10) (parseError "newline missing at end of header")
  let headerStr ← headerString version buf.dropLast
  let arrFormat ← Res.okOr (py.parse headerStr) (parseError "error parsing metadata dict")
  let header ← fromPyValue arrFormat
  return (header, reader)

/-- `Header::to_py_value`, `src/io/npy_header.rs` lines 426-446. -/
def toPyValue (h : NpyHeader) : PyValue :=
  .dict [
    (.string "descr".toList, h.typeDescriptor),
    (.string "fortran_order".toList, .boolean h.fortranOrder),
    (.string "shape".toList, .tuple (h.shape.map fun n : Nat => .integer (n : Int)))]

/-- `Header::to_bytes`, `src/io/npy_header.rs` lines 448-475, and `Header::write`, lines 477-481.
`Vec::resize` cuts the vector if it is too long. -/
def toBytes (build : Build) (py : PyLiteral) (h : NpyHeader) : Res Bytes := do
  let arrFormat ← Res.okOr (py.format h.toPyValue)
    (.serialization "error formatting header: error formatting Python value")
  let (version, totalLen, formattedHeaderLen) ← Res.okOr
    ([NpyVersion.v1, NpyVersion.v2].findSome? fun version =>
      (version.computeLengths arrFormat).map fun info => (version, info))
    (.serialization "error formatting header: the header is too long")
  let out := magicString ++ [version.major, version.minor] ++ formattedHeaderLen ++ arrFormat
  let out := (out ++ List.replicate (totalLen - 1 - out.length) 32).take (totalLen - 1)
  let out := out ++ [10]
  build.debugAssert (out.length == totalLen) "assertion failed: out.len() == length_info.total_len"
  build.debugAssert (out.length % headerDivisor == 0) "assertion failed: out.len() % HEADER_DIVISOR == 0"
  return out

end NpyHeader

end Equistore
