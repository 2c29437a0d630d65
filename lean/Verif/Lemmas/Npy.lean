import Verif.Spec.Io
import Verif.Lemmas.Labels
import Verif.Lemmas.Act

/-! NPY headers, labels and data. -/

namespace Equistore
open Spec

/-! ### Bytes -/

theorem leBytes_length (n v : Nat) : (leBytes n v).length = n := by
  induction n generalizing v with
  | zero => rfl
  | succ n ih => rw [leBytes, List.length_cons, ih]

theorem leValue_leBytes (n v : Nat) : leValue (leBytes n v) = v % 256 ^ n := by
  induction n generalizing v with
  | zero => rw [leBytes, leValue, Nat.pow_zero, Nat.mod_one]
  | succ n ih =>
    have e : v % 256 ^ (n + 1) = v % 256 + 256 * (v / 256 % 256 ^ n) := by
      rw [Nat.pow_succ, Nat.mul_comm (256 ^ n) 256, Nat.mod_mul]
    rw [leBytes, leValue, ih, e, UInt8.toNat_ofNat']

theorem Endian.encode_length (e : Endian) (n v : Nat) : (e.encode n v).length = n := by
  cases e <;> simp [Endian.encode, leBytes_length]

theorem Endian.decode_encode (e : Endian) {n v : Nat} (h : v < 256 ^ n) : e.decode (e.encode n v) = v := by
  cases e <;> simp [Endian.encode, Endian.decode, leValue_leBytes, Nat.mod_eq_of_lt h]

theorem readExact_append {n : Nat} {a b : Bytes} (h : a.length = n) : readExact n (a ++ b) = .ok (a, b) := by
  unfold readExact
  rw [if_pos (by rw [List.length_append]; omega), List.take_left' h, List.drop_left' h]

theorem readExact_eq_ok {n : Nat} {r a b : Bytes} :
    readExact n r = .ok (a, b) ↔ r = a ++ b ∧ a.length = n := by
  constructor
  · intro h
    unfold readExact at h
    split at h
    · next hn =>
      simp only [Res.ok.injEq, Prod.mk.injEq] at h
      obtain ⟨rfl, rfl⟩ := h
      exact ⟨(List.take_append_drop n r).symm, by rw [List.length_take]; omega⟩
    · simp at h
  · rintro ⟨rfl, h⟩
    exact readExact_append h

/-! ### Lengths -/

/-- Total length of a header with a prefix of `p` bytes and a text of `n` bytes. -/
def paddedLength (p n : Nat) : Nat := p + n + 1 + (64 - (p + n + 1) % 64)

theorem checkedAdd_bind {β : Type} (a b : Nat) (f : Nat → Option β) :
    (do let x ← checkedAdd a b; f x) = if a + b < usizeSize then f (a + b) else none := by
  unfold checkedAdd
  split <;> rfl

theorem computeLengths_v1 (text : Bytes) : NpyVersion.v1.computeLengths text =
    if paddedLength 10 text.length - 10 < 2 ^ 16 then
      some (paddedLength 10 text.length, leBytes 2 (paddedLength 10 text.length - 10)) else none := by
  unfold NpyVersion.computeLengths
  have e : magicString.length + 2 + NpyVersion.v1.headerLenNumBytes = 10 := rfl
  simp only [e, checkedAdd_bind, headerDivisor]
  rw [show 10 + text.length + 1 + (64 - (10 + text.length + 1) % 64) = paddedLength 10 text.length from rfl]
  have h2 : 10 + text.length + 1 ≤ paddedLength 10 text.length := Nat.le_add_right _ _
  simp only [NpyVersion.formatHeaderLen, Endian.encode]
  by_cases h : paddedLength 10 text.length - 10 < 2 ^ 16
  · have h3 : paddedLength 10 text.length < usizeSize := by
      have : usizeSize = 2 ^ 64 := rfl
      omega
    rw [if_pos (by omega), if_pos (by omega), if_pos h3, if_pos h, if_pos h]
    rfl
  · rw [if_neg h]
    split
    · split
      · split
        · rfl
        · rfl
      · rfl
    · rfl

theorem computeLengths_v2 (text : Bytes) : NpyVersion.v2.computeLengths text =
    if paddedLength 12 text.length - 12 < 2 ^ 32 then
      some (paddedLength 12 text.length, leBytes 4 (paddedLength 12 text.length - 12)) else none := by
  unfold NpyVersion.computeLengths
  have e : magicString.length + 2 + NpyVersion.v2.headerLenNumBytes = 12 := rfl
  simp only [e, checkedAdd_bind, headerDivisor]
  rw [show 12 + text.length + 1 + (64 - (12 + text.length + 1) % 64) = paddedLength 12 text.length from rfl]
  have h2 : 12 + text.length + 1 ≤ paddedLength 12 text.length := Nat.le_add_right _ _
  simp only [NpyVersion.formatHeaderLen, Endian.encode]
  by_cases h : paddedLength 12 text.length - 12 < 2 ^ 32
  · have h3 : paddedLength 12 text.length < usizeSize := by
      have : usizeSize = 2 ^ 64 := rfl
      omega
    rw [if_pos (by omega), if_pos (by omega), if_pos h3, if_pos h, if_pos h]
    rfl
  · rw [if_neg h]
    split
    · split
      · split
        · rfl
        · rfl
      · rfl
    · rfl

/-- The bytes of a header: first part, text, padding and newline. -/
def headerBytes (v : NpyVersion) (p : Nat) (text : Bytes) : Bytes :=
  magicString ++ [v.major, v.minor] ++ leBytes v.headerLenNumBytes (paddedLength p text.length - p) ++ text ++
    List.replicate (63 - (p + text.length + 1) % 64 + 1) 32 ++ [10]

theorem headerBytes_eq (v : NpyVersion) (p : Nat) (text : Bytes) (hp : 8 + v.headerLenNumBytes = p) :
    (((magicString ++ [v.major, v.minor] ++ leBytes v.headerLenNumBytes (paddedLength p text.length - p) ++ text ++
      List.replicate (paddedLength p text.length - 1 - (magicString ++ [v.major, v.minor] ++
        leBytes v.headerLenNumBytes (paddedLength p text.length - p) ++ text).length) 32).take
          (paddedLength p text.length - 1)) ++ [10]) = headerBytes v p text := by
  have hl : (magicString ++ [v.major, v.minor] ++ leBytes v.headerLenNumBytes (paddedLength p text.length - p) ++
      text).length = p + text.length := by
    simp only [List.length_append, magicString, List.length_cons, List.length_nil, leBytes_length]
    omega
  have e : paddedLength p text.length - 1 - (p + text.length) = 63 - (p + text.length + 1) % 64 + 1 := by
    unfold paddedLength; omega
  rw [hl, e, List.take_of_length_le]
  · rfl
  · rw [List.length_append, hl, List.length_replicate]
    unfold paddedLength; omega

theorem headerBytes_length (v : NpyVersion) (p : Nat) (text : Bytes) (hp : 8 + v.headerLenNumBytes = p) :
    (headerBytes v p text).length = paddedLength p text.length := by
  unfold headerBytes paddedLength
  simp only [List.length_append, magicString, List.length_cons, List.length_nil, leBytes_length,
    List.length_replicate]
  omega

theorem paddedLength_mod (p n : Nat) : paddedLength p n % 64 = 0 := by
  unfold paddedLength; omega

/-- What `to_bytes` writes. -/
theorem toBytes_eq {build : Build} {py : PyLiteral} {h : NpyHeader} {text : Bytes}
    (ht : py.format h.toPyValue = some text) : h.toBytes build py =
      if paddedLength 10 text.length - 10 < 2 ^ 16 then .ok (headerBytes .v1 10 text)
      else if paddedLength 12 text.length - 12 < 2 ^ 32 then .ok (headerBytes .v2 12 text)
      else .err (.serialization "error formatting header: the header is too long") := by
  have key : ∀ (v : NpyVersion) (p : Nat), 8 + v.headerLenNumBytes = p →
      [NpyVersion.v1, NpyVersion.v2].findSome? (fun version =>
        (version.computeLengths text).map fun info => (version, info)) =
          some (v, paddedLength p text.length, leBytes v.headerLenNumBytes (paddedLength p text.length - p)) →
      h.toBytes build py = .ok (headerBytes v p text) := by
    intro v p hp hf
    unfold NpyHeader.toBytes
    simp only [ht, Res.okOr, Res.ok_bind, hf]
    rw [headerBytes_eq v p text hp, headerBytes_length v p text hp]
    simp only [headerDivisor, paddedLength_mod, beq_self_eq_true, Build.debugAssert_true, Res.ok_bind, Res.pure_eq]
  by_cases h1 : paddedLength 10 text.length - 10 < 2 ^ 16
  · rw [if_pos h1]
    refine key .v1 10 rfl ?_
    simp only [List.findSome?_cons, computeLengths_v1, if_pos h1, Option.map_some]
    rfl
  · rw [if_neg h1]
    by_cases h2 : paddedLength 12 text.length - 12 < 2 ^ 32
    · rw [if_pos h2]
      refine key .v2 12 rfl ?_
      simp only [List.findSome?_cons, computeLengths_v1, computeLengths_v2, if_neg h1, if_pos h2,
        Option.map_some, Option.map_none]
      rfl
    · rw [if_neg h2]
      unfold NpyHeader.toBytes
      simp only [ht, Res.okOr, Res.ok_bind, List.findSome?_cons, List.findSome?_nil, computeLengths_v1,
        computeLengths_v2, if_neg h1, if_neg h2, Option.map_none]
      rfl

/-! ### Reading a header -/

theorem asciiChars_append (a b : Bytes) :
    NpyHeader.asciiChars (a ++ b) = NpyHeader.asciiChars a ++ NpyHeader.asciiChars b := List.map_append

theorem asciiChars_spaces (n : Nat) : NpyHeader.asciiChars (List.replicate n 32) = List.replicate n ' ' := by
  unfold NpyHeader.asciiChars
  rw [List.map_replicate]
  rfl

theorem parseShape_ints {shape : List Nat} (h : ∀ n ∈ shape, n < usizeSize) :
    NpyHeader.parseShape (.tuple (shape.map fun n : Nat => .integer (n : Int))) = some shape := by
  unfold NpyHeader.parseShape
  simp only
  induction shape with
  | nil => rfl
  | cons n shape ih =>
    rw [List.forall_mem_cons] at h
    have := ih h.2
    rw [List.map_cons, List.mapM_cons, this]
    have hc : (0 : Int) ≤ (n : Int) ∧ (n : Int) < (usizeSize : Int) := ⟨by omega, by have := h.1; omega⟩
    simp only [if_pos hc]
    rfl

theorem fromPyValue_toPyValue {h : NpyHeader} (hs : ∀ n ∈ h.shape, n < usizeSize) :
    NpyHeader.fromPyValue h.toPyValue = .ok h := by
  have h1 : ∀ v l d f s', NpyHeader.readEntries ((.string "descr".toList, v) :: l) (d, f, s') =
      NpyHeader.readEntries l (some v, f, s') := by
    intro v l d f s'
    conv_lhs => unfold NpyHeader.readEntries
    simp only [if_true]
  have h2 : ∀ v l d f s', NpyHeader.readEntries ((.string "fortran_order".toList, .boolean v) :: l) (d, f, s') =
      NpyHeader.readEntries l (d, some v, s') := by
    intro v l d f s'
    conv_lhs => unfold NpyHeader.readEntries
    simp only [if_true, if_neg (show ¬ "fortran_order".toList = "descr".toList by decide)]
  have h3 : ∀ v n l d f s', NpyHeader.parseShape v = some n →
      NpyHeader.readEntries ((.string "shape".toList, v) :: l) (d, f, s') =
      NpyHeader.readEntries l (d, f, some n) := by
    intro v n l d f s' hv
    conv_lhs => unfold NpyHeader.readEntries
    simp only [if_true, if_neg (show ¬ "shape".toList = "descr".toList by decide),
      if_neg (show ¬ "shape".toList = "fortran_order".toList by decide), hv]
  have h4 : NpyHeader.readEntries [
    (.string "descr".toList, h.typeDescriptor),
    (.string "fortran_order".toList, .boolean h.fortranOrder),
    (.string "shape".toList, .tuple (h.shape.map fun n : Nat => .integer (n : Int)))] (none, none, none) =
      .ok (some h.typeDescriptor, some h.fortranOrder, some h.shape) := by
    rw [h1, h2, h3 _ _ _ _ _ _ (parseShape_ints hs), NpyHeader.readEntries]
  unfold NpyHeader.toPyValue NpyHeader.fromPyValue
  simp only [h4, Res.ok_bind]
  rfl

theorem toPyValue_plain {h : NpyHeader} (hd : Plain h.typeDescriptor) : Plain h.toPyValue := by
  unfold NpyHeader.toPyValue
  refine .dict ?_ ?_
  · intro k v hkv
    simp only [List.mem_cons, Prod.mk.injEq, List.not_mem_nil, or_false] at hkv
    rcases hkv with ⟨rfl, -⟩ | ⟨rfl, -⟩ | ⟨rfl, -⟩ <;> exact .string _
  · intro k v hkv
    simp only [List.mem_cons, Prod.mk.injEq, List.not_mem_nil, or_false] at hkv
    rcases hkv with ⟨-, rfl⟩ | ⟨-, rfl⟩ | ⟨-, rfl⟩
    · exact hd
    · exact .boolean _
    · refine .tuple ?_
      intro v hv
      rw [List.mem_map] at hv
      obtain ⟨n, -, rfl⟩ := hv
      exact .integer _

theorem fromReader_headerBytes {py : PyLiteral} {h : NpyHeader} {text : Bytes} {v : NpyVersion} {p : Nat}
    (hp : 8 + v.headerLenNumBytes = p) (hv : v ≠ .v3) (hlen : paddedLength p text.length - p < 256 ^ v.headerLenNumBytes)
    (hascii : ∀ b ∈ text, b < 128)
    (hparse : ∀ n, py.parse (NpyHeader.asciiChars text ++ List.replicate n ' ') = some h.toPyValue)
    (hs : ∀ n ∈ h.shape, n < usizeSize) (rest : Bytes) :
    NpyHeader.fromReader py (headerBytes v p text ++ rest) = .ok (h, rest) := by
  have e1 : headerBytes v p text ++ rest = magicString ++ ([v.major, v.minor] ++
      (leBytes v.headerLenNumBytes (paddedLength p text.length - p) ++ ((text ++
        List.replicate (63 - (p + text.length + 1) % 64 + 1) 32 ++ [10]) ++ rest))) := by
    unfold headerBytes; simp only [List.append_assoc]
  unfold NpyHeader.fromReader
  rw [e1, readExact_append rfl]
  simp only [Res.ok_bind, beq_self_eq_true, Res.guardErr, if_true]
  rw [readExact_append (n := 2) (a := [v.major, v.minor]) rfl]
  simp only [Res.ok_bind]
  have e2 : NpyVersion.fromBytes [v.major, v.minor] = .ok v := by
    cases v
    · rfl
    · rfl
    · exact absurd rfl hv
  rw [e2]
  simp only [Res.ok_bind, NpyVersion.readHeaderLen]
  rw [readExact_append (leBytes_length _ _)]
  simp only [Res.ok_bind, Res.pure_eq, Endian.decode]
  rw [leValue_leBytes, Nat.mod_eq_of_lt hlen, readExact_append (by
    simp only [List.length_append, List.length_replicate, List.length_cons, List.length_nil]
    unfold paddedLength
    omega)]
  simp only [Res.ok_bind]
  rw [List.getLast?_concat, List.dropLast_concat]
  simp only [beq_self_eq_true, if_true, Res.ok_bind]
  have e3 : NpyHeader.headerString v (text ++ List.replicate (63 - (p + text.length + 1) % 64 + 1) 32) =
      .ok (NpyHeader.asciiChars text ++ List.replicate (63 - (p + text.length + 1) % 64 + 1) ' ') := by
    have ha : (text ++ List.replicate (63 - (p + text.length + 1) % 64 + 1) (32 : UInt8)).all (· < 128) = true := by
      rw [List.all_eq_true]
      intro b hb
      rw [List.mem_append, List.mem_replicate] at hb
      rcases hb with hb | ⟨-, rfl⟩
      · simpa using hascii b hb
      · decide
    cases v
    · simp only [NpyHeader.headerString, ha, if_true, asciiChars_append, asciiChars_spaces]
    · simp only [NpyHeader.headerString, ha, if_true, asciiChars_append, asciiChars_spaces]
    · exact absurd rfl hv
  rw [e3]
  simp only [Res.ok_bind, hparse, Res.okOr]
  rw [fromPyValue_toPyValue hs]
  rfl

/-- The version used. -/
def chosenVersion (n : Nat) : NpyVersion := if paddedLength 10 n - 10 < 2 ^ 16 then .v1 else .v2

theorem toBytes_ok {build : Build} {py : PyLiteral} {h : NpyHeader} {bytes : Bytes} (hpy : LawfulPy py)
    (hd : Plain h.typeDescriptor) (hs : ∀ n ∈ h.shape, n < usizeSize) (hb : h.toBytes build py = .ok bytes)
    (rest : Bytes) : NpyHeader.fromReader py (bytes ++ rest) = .ok (h, rest) := by
  obtain ⟨text, h1, h2, h3⟩ := hpy.roundtrip _ (toPyValue_plain hd)
  rw [toBytes_eq h1] at hb
  split at hb
  · next hl =>
    simp only [Res.ok.injEq] at hb
    subst hb
    exact fromReader_headerBytes (v := .v1) rfl (by decide) hl h2 h3 hs rest
  · split at hb
    · next hl =>
      simp only [Res.ok.injEq] at hb
      subst hb
      exact fromReader_headerBytes (v := .v2) rfl (by decide) hl h2 h3 hs rest
    · simp at hb

end Equistore
