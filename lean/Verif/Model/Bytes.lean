import Verif.Model.Res

/-!
# Bytes, integers as bytes and machine arithmetic

What `src/io` uses of `std::io::Read`, of the `byteorder` crate and of `usize`
arithmetic.
-/

namespace Equistore

/-- Bytes read and written in `src/io`, for example `src/io/npy_header.rs` lines 386-475. -/
abbrev Bytes := List UInt8

/-- Byte order of integers in a file, `src/io/labels.rs` lines 71-75. Also used for the byte order of
the machine (`cfg!(target_endian = "little")`). -/
inductive Endian where
  | little
  | big
  deriving DecidableEq, Repr

/-- `Read::read_exact` on a reader with the given remaining bytes: the bytes read, and
the remaining ones. Simplification: running out of bytes is the only possible I/O error.
Used in `src/io/npy_header.rs` lines 386-404 and by `byteorder` in `src/io/mod.rs` lines 180-186 and `src/io/labels.rs` lines 24-27. -/
def readExact (n : Nat) (reader : Bytes) : Res (Bytes × Bytes) :=
  if n ≤ reader.length then
    .ok (reader.take n, reader.drop n)
  else
    .err (.io "failed to fill whole buffer")

/-- The `n` bytes of an unsigned integer, least significant byte first. Part of `byteorder`, used in `src/io/mod.rs` lines 212-232. -/
def leBytes : Nat → Nat → Bytes
  | 0, _ => []
  | n + 1, value => UInt8.ofNat value :: leBytes n (value / 256)

/-- The integer with the given bytes, least significant byte first. Part of `byteorder`, used in `src/io/mod.rs` lines 180-186. -/
def leValue : Bytes → Nat
  | [] => 0
  | b :: bytes => b.toNat + 256 * leValue bytes

/-- `byteorder`'s `write_*::<E>`: the `n` bytes of an unsigned integer.
Used in `src/io/mod.rs` lines 212-232, `src/io/labels.rs` lines 62-66 and `src/io/npy_header.rs` lines 195-210. -/
def Endian.encode (e : Endian) (n value : Nat) : Bytes :=
  match e with
  | .little => leBytes n value
  | .big => (leBytes n value).reverse

/-- `byteorder`'s `read_*::<E>`: the integer with the given bytes.
Used in `src/io/mod.rs` lines 180-186, `src/io/labels.rs` lines 24-27 and `src/io/npy_header.rs` lines 181-190. -/
def Endian.decode (e : Endian) (bytes : Bytes) : Nat :=
  match e with
  | .little => leValue bytes
  | .big => leValue bytes.reverse

/-- `usize::MAX + 1` on a 64-bit platform. Used for arithmetic in `src/io/npy_header.rs` lines 220-235 and `src/io/mod.rs` lines 173-198. -/
def usizeSize : Nat := 2 ^ 64

/-- `isize::MAX` on a 64-bit platform. Used for allocations in `src/io/mod.rs` lines 173-198 and `src/io/labels.rs` line 23. -/
def isizeMax : Nat := 2 ^ 63 - 1

/-- `usize::checked_add`. Used in `src/io/npy_header.rs` lines 226-230. -/
def checkedAdd (a b : Nat) : Option Nat := if a + b < usizeSize then some (a + b) else none

/-- `a * b` for `usize`: an overflow panics in debug builds and wraps in release builds. Used in `src/io/labels.rs` line 23. -/
def usizeMul (build : Build) (a b : Nat) : Res Nat :=
  if a * b < usizeSize then .ok (a * b)
  else if build.debug then .panic "attempt to multiply with overflow"
  else .ok (a * b % usizeSize)

/-- `a - b` for `usize`: an overflow panics in debug builds and wraps in release builds. Used in `src/io/mod.rs` lines 61, 77 and 99. -/
def usizeSub (build : Build) (a b : Nat) : Res Nat :=
  if b ≤ a then .ok (a - b)
  else if build.debug then .panic "attempt to subtract with overflow"
  else .ok (usizeSize + a - b)

/-- `vec![0; count]` for elements of `size` bytes: allocations of more than `isize::MAX` bytes panic.
Simplification: memory is never exhausted. Used in `src/io/mod.rs` lines 173-198 and `src/io/labels.rs` line 23. -/
def allocate (count size : Nat) : Res Unit :=
  if count * size ≤ isizeMax then .ok () else .panic "capacity overflow"

end Equistore
