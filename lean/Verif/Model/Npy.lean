import Verif.Model.NpyHeader
import Verif.Model.Labels
import Verif.Model.Data

/-!
# Labels and arrays in NPY files

Models `src/io/labels.rs` and the part of `src/io/mod.rs` about data. `native` is the byte order of the
machine, `build` the build configuration.
-/

namespace Equistore

/-- `check_for_extra_bytes`, `src/io/mod.rs` lines 202-209. -/
def checkForExtraBytes (reader : Bytes) : Res Unit :=
  Res.guardErr (reader.length == 0)
    (.serialization s!"found {reader.length} extra bytes after the expected end of data")

/-- Cut bytes in values of `n` bytes each.
`read_i32_into` and `read_f64_into`, used in `src/io/labels.rs` lines 24-27 and `src/io/mod.rs` lines 180-186. -/
def decodeAll (e : Endian) (n : Nat) (bytes : Bytes) : List Nat :=
  (chunksExact n bytes).map e.decode

/-! ### Labels -/

/-- The text of the type of 32-bit integers. `src/io/labels.rs` lines 46-51. -/
def Endian.i4 : Endian → String
  | .little => "<i4"
  | .big => ">i4"

/-- Loop of `check_type_descriptor`, `src/io/labels.rs` lines 86-124. -/
def checkTypeLoop : List PyValue → List String → Option Endian → Res (List String × Option Endian)
  | [], names, endianness => .ok (names, endianness)
  | element :: list, names, endianness =>
    let error := Error.serialization "invalid dtype for labels"
    match element with
    | .tuple [.string name, .string typ] =>
      let endianness :=
        if endianness.isNone then
          if typ = "<i4".toList then some Endian.little
          else if typ = ">i4".toList then some Endian.big
          else none
        else endianness
      if typ = "<i4".toList then
        if endianness ≠ some .little then .err error
        else checkTypeLoop list (names ++ [String.ofList name]) endianness
      else if typ = ">i4".toList then
        if endianness ≠ some .big then .err error
        else checkTypeLoop list (names ++ [String.ofList name]) endianness
      else .err error
    | _ => .err error

/-- `check_type_descriptor`, `src/io/labels.rs` lines 79-133. -/
def checkTypeDescriptor : PyValue → Res (List String × Endian)
  | .list list => do
    let (names, endianness) ← checkTypeLoop list [] none
    let endianness ← Res.expect endianness "failed to find endianness"
    return (names, endianness)
  | _ => .err (.serialization "invalid dtype for labels")

/-- `read_npy_labels`, `src/io/labels.rs` lines 14-37. -/
def readNpyLabels (build : Build) (py : PyLiteral) (reader : Bytes) : Res Labels := do
  let (header, reader) ← NpyHeader.fromReader py reader
  Res.guardErr (!header.fortranOrder)
    (.serialization "Labels can not be loaded from fortran-order arrays")
  Res.guardErr (header.shape.length == 1)
    (.serialization "Expected a 1-D array when loading Labels")
  let (names, endianness) ← checkTypeDescriptor header.typeDescriptor
  let rows ← Res.expect header.shape[0]? "index out of bounds"
  let count ← usizeMul build rows names.length
  allocate count 4
  let (bytes, reader) ← readExact (4 * count) reader
  let data := (decodeAll endianness 4 bytes).map fun n => Int32.ofNat n
  checkForExtraBytes reader
  let builder ← LabelsBuilder.new names
  let builder ← builder.addAll (chunksExact names.length data)
  builder.finish

/-- The string in `write_npy_labels`, `src/io/labels.rs` lines 44-53. -/
def labelsDescriptor (native : Endian) (names : List String) : List Char :=
  "[".toList ++
    names.flatMap (fun name => "('".toList ++ name.toList ++ "', '".toList ++ native.i4.toList ++ "'), ".toList) ++
    "]".toList

/-- `write_npy_labels`, `src/io/labels.rs` lines 43-69: the bytes written. -/
def writeNpyLabels (build : Build) (py : PyLiteral) (native : Endian) (labels : Labels) : Res Bytes := do
  let typeDescriptor ← Res.expect (py.parse (labelsDescriptor native labels.names)) "invalid dtype"
  let count ← labels.count
  let header : NpyHeader := { typeDescriptor, fortranOrder := false, shape := [count] }
  let headerBytes ← header.toBytes build py
  let entries ← labels.iter
  return headerBytes ++ entries.flatten.flatMap fun value => native.encode 4 value.toUInt32.toNat

/-! ### Data -/

/-- The text of the type of 64-bit floating point numbers. `src/io/mod.rs` lines 213-217. -/
def Endian.f8 : Endian → String
  | .little => "<f8"
  | .big => ">f8"

/-- `Dimension::size` in `ndarray`: the product of the dimensions as `usize`. Used by `ArrayD::from_shape_vec`, `src/io/mod.rs` line 197. -/
def dimensionSize (build : Build) : List Nat → Nat → Res Nat
  | [], size => .ok size
  | n :: shape, size => do
    let size ← usizeMul build size n
    dimensionSize build shape size

/-- `ArrayD::from_shape_vec` in `ndarray`: the number of elements must match the shape, and the product
of non-zero dimensions must not overflow `isize`. Used in `src/io/mod.rs` line 197. -/
def fromShapeVec (shape : List Nat) (data : List Elt) : Option NdArray :=
  if shapeSize (shape.filter (· ≠ 0)) ≤ isizeMax ∧ data.length = shapeSize shape then
    some { shape, elements := data }
  else none

/-- `read_data`, `src/io/mod.rs` lines 172-199. -/
def readData (build : Build) (py : PyLiteral) (reader : Bytes) : Res NdArray := do
  let (header, reader) ← NpyHeader.fromReader py reader
  Res.guardErr (!header.fortranOrder)
    (.serialization "data can not be loaded from fortran-order arrays")
  let size ← dimensionSize build header.shape 1
  allocate size 8
  let (data, reader) ← match header.typeDescriptor with
    | .string s =>
      if s = "<f8".toList then do
        let (bytes, reader) ← readExact (8 * size) reader
        pure ((decodeAll .little 8 bytes).map (BitVec.ofNat 64), reader)
      else if s = ">f8".toList then do
        let (bytes, reader) ← readExact (8 * size) reader
        pure ((decodeAll .big 8 bytes).map (BitVec.ofNat 64), reader)
      else
        .err (.serialization "unknown type for data array, expected 64-bit floating points")
    | _ => .err (.serialization "unknown type for data array, expected 64-bit floating points")
  checkForExtraBytes reader
  Res.expect (fromShapeVec header.shape data) "invalid shape"

/-- `write_data`, `src/io/mod.rs` lines 212-232: the bytes written. -/
def writeData {A : Type} [ArrayLike A] (build : Build) (py : PyLiteral) (native : Endian) (array : A) :
    Res Bytes := do
  let typeDescriptor ← Res.expect (py.parse ("'".toList ++ native.f8.toList ++ "'".toList)) "invalid dtype"
  let shape ← ArrayLike.shape array
  let header : NpyHeader := { typeDescriptor, fortranOrder := false, shape }
  let headerBytes ← header.toBytes build py
  let data ← ArrayLike.data array
  return headerBytes ++ data.flatMap fun value => native.encode 8 value.toNat

end Equistore
