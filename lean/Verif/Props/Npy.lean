import Verif.Spec.LongHeader
import Verif.Lemmas.NpyFiles
import Verif.Lemmas.PyLiteral
import Verif.Props.Tensor

/-! # NPY files: headers, labels and data -/

namespace Equistore
open Spec
variable {A : Type} [ArrayLike A]

namespace Example

/-- The header of the array `Example.data`. -/
def header : NpyHeader := { typeDescriptor := .string "<f8".toList, fortranOrder := false, shape := [2, 2, 3] }

/-- The number of bytes written, if any. -/
def written (r : Res Bytes) : Option Nat :=
  match r with
  | .ok bytes => some bytes.length
  | _ => none

theorem written_ok {r : Res Bytes} {n : Nat} (h : written r = some n) : ∃ bytes, r = .ok bytes ∧ bytes.length = n := by
  cases r with
  | ok bytes => exact ⟨bytes, rfl, by simpa [written] using h⟩
  | err e => simp [written] at h
  | panic m => simp [written] at h

theorem header_written : written (header.toBytes ⟨true⟩ PyLiteral.fragment) = some 128 := by decide +kernel

theorem labels_written : written (writeNpyLabels ⟨true⟩ PyLiteral.fragment .little gradientSamples) = some 144 := by
  decide +kernel

theorem labels_written_big : written (writeNpyLabels ⟨true⟩ PyLiteral.fragment .big gradientSamples) = some 144 := by
  decide +kernel

theorem data_written : written (writeData ⟨true⟩ PyLiteral.fragment .little data) = some 224 := by
  decide +kernel

theorem data_written_big : written (writeData ⟨true⟩ PyLiteral.fragment .big data) = some 224 := by
  decide +kernel

theorem gradientSamples_wf : gradientSamples.WF := by
  have : gradientSamples.Holds ["sample", "g"] [[0, 7], [1, 3]] :=
    Labels.mk'_holds ⟨by decide +kernel, by decide +kernel⟩ (by decide) (by decide +kernel) (by decide +kernel)
  exact this.wf

theorem data_readable : Readable data [2, 2, 3] ((List.range 12).map (BitVec.ofNat 64)) :=
  ⟨rfl, rfl, by decide +kernel, by decide +kernel, by decide +kernel⟩

end Example

/-! ### C32 -/

/-- **C32.** For any header and any formatter of Python literals, the bytes of a header are: the magic string, the
version, the length of the remaining part, the text, between 1 and 64 spaces, and a newline, for a total
length which is a multiple of 64. Version 2.0 is only used when version 1.0 (with a 16-bit length) has no
room for the text and at least one space. -/
theorem C32_header_bytes (build : Build) (py : PyLiteral) (h : NpyHeader) (text bytes : Bytes)
    (ht : py.format h.toPyValue = some text) (hb : h.toBytes build py = .ok bytes) :
    ∃ version lengthBytes spaces,
      bytes = [0x93, 0x4e, 0x55, 0x4d, 0x50, 0x59] ++ [version, 0] ++ lengthBytes ++ text ++
        List.replicate spaces 32 ++ [10] ∧
      bytes.length % 64 = 0 ∧ 1 ≤ spaces ∧ spaces ≤ 64 ∧
      ((version = 1 ∧ text.length + spaces + 1 < 65536 ∧
        lengthBytes = [UInt8.ofNat (text.length + spaces + 1), UInt8.ofNat ((text.length + spaces + 1) / 256)]) ∨
       (version = 2 ∧ text.length + spaces + 1 < 4294967296 ∧
        lengthBytes = [UInt8.ofNat (text.length + spaces + 1), UInt8.ofNat ((text.length + spaces + 1) / 256),
          UInt8.ofNat ((text.length + spaces + 1) / 65536), UInt8.ofNat ((text.length + spaces + 1) / 16777216)] ∧
        ∀ n, 1 ≤ n → (10 + text.length + n + 1) % 64 = 0 → 65536 ≤ text.length + n + 1)) := by
  rw [toBytes_eq ht] at hb
  split at hb
  · next hl =>
    simp only [Res.ok.injEq] at hb
    subst hb
    refine ⟨1, leBytes 2 (paddedLength 10 text.length - 10), 63 - (10 + text.length + 1) % 64 + 1, rfl, ?_, by omega,
      by omega, .inl ⟨rfl, ?_, ?_⟩⟩
    · rw [headerBytes_length _ _ _ (by rfl), paddedLength_mod]
    · unfold paddedLength at hl; omega
    · have e : paddedLength 10 text.length - 10 = text.length + (63 - (10 + text.length + 1) % 64 + 1) + 1 := by
        unfold paddedLength; omega
      rw [e]
      rfl
  · next hv1 =>
    split at hb
    · next hl =>
      simp only [Res.ok.injEq] at hb
      subst hb
      refine ⟨2, leBytes 4 (paddedLength 12 text.length - 12), 63 - (12 + text.length + 1) % 64 + 1, rfl, ?_, by omega,
        by omega, .inr ⟨rfl, ?_, ?_, ?_⟩⟩
      · rw [headerBytes_length _ _ _ (by rfl), paddedLength_mod]
      · unfold paddedLength at hl; omega
      · have e : paddedLength 12 text.length - 12 = text.length + (63 - (12 + text.length + 1) % 64 + 1) + 1 := by
          unfold paddedLength; omega
        rw [e]
        simp only [leBytes, Nat.div_div_eq_div_mul]
      · intro n hn hmod
        unfold paddedLength at hv1
        omega
    · simp at hb

example : ∃ text bytes, PyLiteral.fragment.format Example.header.toPyValue = some text ∧
    Example.header.toBytes ⟨true⟩ PyLiteral.fragment = .ok bytes ∧ bytes.length = 128 := by
  obtain ⟨bytes, h, hl⟩ := Example.written_ok Example.header_written
  exact ⟨_, bytes, rfl, h, hl⟩

/-- **C32**, reading: a written header (of any type made of strings, integers, booleans, tuples, lists and
dictionaries, with any shape) is read back as the same header, and exactly the bytes after it are
left. -/
theorem C32_header_roundtrip (build : Build) (py : PyLiteral) (hpy : LawfulPy py) (h : NpyHeader)
    (hd : Plain h.typeDescriptor) (hs : ∀ n ∈ h.shape, n < 2 ^ 64) (bytes : Bytes)
    (hb : h.toBytes build py = .ok bytes) (rest : Bytes) :
    NpyHeader.fromReader py (bytes ++ rest) = .ok (h, rest) :=
  toBytes_ok hpy hd hs hb rest

example : ∃ bytes, LawfulPy PyLiteral.fragment ∧ Plain Example.header.typeDescriptor ∧
    (∀ n ∈ Example.header.shape, n < 2 ^ 64) ∧
    Example.header.toBytes ⟨true⟩ PyLiteral.fragment = .ok bytes := by
  obtain ⟨bytes, h, -⟩ := Example.written_ok Example.header_written
  exact ⟨bytes, lawful_fragment, .string _, by decide, h⟩

/-- **C32**, failures: writing a header never panics, and the only reason for an error is a text of 4 GiB. -/
theorem C32_header_failure (build : Build) (py : PyLiteral) (hpy : LawfulPy py) (h : NpyHeader)
    (hd : Plain h.typeDescriptor) : ∃ text, py.format h.toPyValue = some text ∧
      ((∃ bytes, h.toBytes build py = .ok bytes) ∨
       (2 ^ 32 ≤ text.length + 65 ∧ ∃ message, h.toBytes build py = .err (.serialization message))) := by
  obtain ⟨text, ht, -, -⟩ := hpy.roundtrip _ (toPyValue_plain hd)
  refine ⟨text, ht, ?_⟩
  rw [toBytes_eq ht]
  split
  · exact .inl ⟨_, rfl⟩
  · split
    · exact .inl ⟨_, rfl⟩
    · next h2 =>
      refine .inr ⟨?_, _, rfl⟩
      unfold paddedLength at h2
      omega

/-! ### C33 -/

/-- **C33.** Labels (with at least one name) written by a machine of any byte order are read back as equal
labels, by any build. -/
theorem C33_labels_roundtrip (build build' : Build) (py : PyLiteral) (hpy : LawfulPy py) (native : Endian)
    (l : Labels) (hl : l.FromBuilder) (hn : l.names ≠ []) (hm : l.InMemory) (bytes : Bytes)
    (hw : writeNpyLabels build py native l = .ok bytes) :
    readNpyLabels build' py bytes = .ok l := by
  have := readNpyLabels_written (build' := build') hpy (Labels.FromBuilder.wf hl hn) hm hw []
  rw [List.append_nil] at this
  exact this

example : ∃ bytes, LawfulPy PyLiteral.fragment ∧ Example.gradientSamples.FromBuilder ∧
    Example.gradientSamples.names ≠ [] ∧ Example.gradientSamples.InMemory ∧
    writeNpyLabels ⟨true⟩ PyLiteral.fragment .little Example.gradientSamples = .ok bytes := by
  obtain ⟨bytes, h, -⟩ := Example.written_ok Example.labels_written
  exact ⟨bytes, lawful_fragment, Labels.rebuilds_fromBuilder (by decide +kernel), by decide,
    (by unfold Labels.InMemory; decide +kernel), h⟩

/-- **C33**, failures: labels with at least one name are written, unless the text of the header does not fit in 4 GiB,
which is an error. Writing never panics. -/
theorem C33_labels_write_failure (build : Build) (py : PyLiteral) (hpy : LawfulPy py) (native : Endian)
    (l : Labels) (hl : l.FromBuilder) (hn : l.names ≠ []) :
    (∃ bytes, writeNpyLabels build py native l = .ok bytes) ∨
    (LongLabels py native l ∧ ∃ message, writeNpyLabels build py native l = .err (.serialization message)) := by
  have h := Labels.FromBuilder.wf hl hn
  rw [writeNpyLabels_eq hpy h]
  obtain ⟨text, ht, ⟨bytes, h1⟩ | ⟨hlen, m, h1⟩⟩ := C32_header_failure build py hpy
    (labelsHeader native l.names l.rows.length) (labelsType_plain _ _)
  · rw [h1]; exact .inl ⟨_, rfl⟩
  · rw [h1]; exact .inr ⟨⟨_, h.count_eq, text, ht, hlen⟩, _, rfl⟩

/-! ### C34 -/

/-- **C34.** For any array backend, reading back a written array gives the same shape and the same 64-bit
patterns, for writers of any byte order and any build. -/
theorem C34_data_roundtrip (build build' : Build) (py : PyLiteral) (hpy : LawfulPy py) (native : Endian)
    (array : A) (shape : List Nat) (elements : List Elt) (ha : Readable array shape elements) (bytes : Bytes)
    (hw : writeData build py native array = .ok bytes) :
    readData build' py bytes = .ok { shape, elements } := by
  have := readData_written (build' := build') hpy ha.shape ha.data ha.memory ha.length hw []
  rw [List.append_nil] at this
  exact this

example : ∃ bytes, LawfulPy PyLiteral.fragment ∧
    Readable Example.data [2, 2, 3] ((List.range 12).map (BitVec.ofNat 64)) ∧
    writeData ⟨true⟩ PyLiteral.fragment .little Example.data = .ok bytes := by
  obtain ⟨bytes, h, -⟩ := Example.written_ok Example.data_written
  exact ⟨bytes, lawful_fragment, Example.data_readable, h⟩

/-- **C34**, failures: when the callbacks succeed, an array is written, unless the text of the header does not fit in 4 GiB,
which is an error. Writing never panics. -/
theorem C34_data_write_failure (build : Build) (py : PyLiteral) (hpy : LawfulPy py) (native : Endian)
    (array : A) (shape : List Nat) (elements : List Elt) (hs : ArrayLike.shape array = .ok shape)
    (hd : ArrayLike.data array = .ok elements) :
    (∃ bytes, writeData build py native array = .ok bytes) ∨
    (LongArray py native array ∧ ∃ message, writeData build py native array = .err (.serialization message)) := by
  rw [writeData_eq hpy hs hd]
  obtain ⟨text, ht, ⟨bytes, h1⟩ | ⟨hlen, m, h1⟩⟩ := C32_header_failure build py hpy
    (dataHeader native shape) (.string _)
  · rw [h1]; exact .inl ⟨_, rfl⟩
  · rw [h1]; exact .inr ⟨⟨_, hs, text, ht, hlen⟩, _, rfl⟩

/-! ### C37 -/

/-- **C37**, labels: every strict prefix of written labels is rejected with an I/O error, and everything
which continues written labels is rejected with a serialization error. -/
theorem C37_labels_all_or_nothing (build build' : Build) (py : PyLiteral) (hpy : LawfulPy py) (native : Endian)
    (l : Labels) (hl : l.FromBuilder) (hn : l.names ≠ []) (hm : l.InMemory) (bytes : Bytes)
    (hw : writeNpyLabels build py native l = .ok bytes) :
    (∀ p, p <+: bytes → p ≠ bytes → ∃ message, readNpyLabels build' py p = .err (.io message)) ∧
    (∀ extra, extra ≠ [] → ∃ message, readNpyLabels build' py (bytes ++ extra) = .err (.serialization message)) := by
  refine ⟨fun p hp hne => ⟨_, readNpyLabels_truncated hpy (Labels.FromBuilder.wf hl hn) hm hw hp hne⟩, ?_⟩
  intro extra hne
  rw [readNpyLabels_written hpy (Labels.FromBuilder.wf hl hn) hm hw extra]
  obtain ⟨m, h⟩ := checkForExtraBytes_cons hne
  exact ⟨m, by rw [h]; rfl⟩

example : ∃ bytes, writeNpyLabels ⟨true⟩ PyLiteral.fragment .little Example.gradientSamples = .ok bytes ∧
    bytes.take 143 <+: bytes ∧ bytes.take 143 ≠ bytes := by
  obtain ⟨bytes, h, hl⟩ := Example.written_ok Example.labels_written
  refine ⟨bytes, h, List.take_prefix _ _, fun he => ?_⟩
  have := congrArg List.length he
  rw [List.length_take, hl] at this
  omega

/-- **C37**, data: every strict prefix of a written array is rejected with an I/O error, and everything
which continues a written array is rejected with a serialization error. -/
theorem C37_data_all_or_nothing (build build' : Build) (py : PyLiteral) (hpy : LawfulPy py) (native : Endian)
    (array : A) (shape : List Nat) (elements : List Elt) (ha : Readable array shape elements) (bytes : Bytes)
    (hw : writeData build py native array = .ok bytes) :
    (∀ p, p <+: bytes → p ≠ bytes → ∃ message, readData build' py p = .err (.io message)) ∧
    (∀ extra, extra ≠ [] → ∃ message, readData build' py (bytes ++ extra) = .err (.serialization message)) := by
  refine ⟨fun p hp hne => ⟨_, readData_truncated hpy ha.shape ha.data ha.memory ha.length hw hp hne⟩, ?_⟩
  intro extra hne
  rw [readData_written hpy ha.shape ha.data ha.memory ha.length hw extra]
  obtain ⟨m, h⟩ := checkForExtraBytes_cons hne
  exact ⟨m, by rw [h]; rfl⟩

example : ∃ bytes, writeData ⟨true⟩ PyLiteral.fragment .little Example.data = .ok bytes ∧
    bytes.take 130 <+: bytes ∧ bytes.take 130 ≠ bytes := by
  obtain ⟨bytes, h, hl⟩ := Example.written_ok Example.data_written
  refine ⟨bytes, h, List.take_prefix _ _, fun he => ?_⟩
  have := congrArg List.length he
  rw [List.length_take, hl] at this
  omega

/-! ### C39 -/

theorem leBytes_getElem? (n v j : Nat) (h : j < n) : (leBytes n v)[j]? = some (UInt8.ofNat (v / 256 ^ j)) := by
  induction n generalizing v j with
  | zero => omega
  | succ n ih =>
    rw [leBytes]
    cases j with
    | zero => simp
    | succ j =>
      rw [List.getElem?_cons_succ, ih _ _ (by omega), Nat.div_div_eq_div_mul, Nat.pow_succ, Nat.mul_comm]

theorem flatMap_getElem? {α : Type} {n : Nat} (l : List α) (f : α → Bytes) (hf : ∀ a, (f a).length = n) (i j : Nat)
    (hj : j < n) : (l.flatMap f)[n * i + j]? = l[i]?.bind fun a => (f a)[j]? := by
  induction l generalizing i with
  | nil => simp
  | cons a l ih =>
    rw [List.flatMap_cons]
    cases i with
    | zero =>
      rw [Nat.mul_zero, Nat.zero_add, List.getElem?_append_left (by rw [hf]; exact hj)]
      rfl
    | succ i =>
      rw [List.getElem?_append_right (by rw [hf, Nat.mul_succ]; omega), hf, List.getElem?_cons_succ, ← ih i]
      congr 1
      rw [Nat.mul_succ]
      omega

/-- **C39**, meaning of the byte orders: after the header, byte `j` of element `i` of a written array is byte `j` of
the 64-bit pattern counted from the least significant one for little-endian machines, and from the most
significant one for big-endian machines. -/
theorem C39_byte_order (build : Build) (py : PyLiteral) (hpy : LawfulPy py) (native : Endian)
    (array : A) (shape : List Nat) (elements : List Elt) (hs : ArrayLike.shape array = .ok shape)
    (hd : ArrayLike.data array = .ok elements) (bytes : Bytes) (hw : writeData build py native array = .ok bytes) :
    ∃ header body, bytes = header ++ body ∧ body.length = 8 * elements.length ∧
      ∀ (i : Nat) (value : Elt), elements[i]? = some value → ∀ j < 8, body[8 * i + j]? = some (UInt8.ofNat
        (value.toNat / 256 ^ (match native with | .little => j | .big => 7 - j))) := by
  rw [writeData_eq hpy hs hd] at hw
  obtain ⟨hb, -, h2⟩ := Res.bind_eq_ok.1 hw
  simp only [Res.ok.injEq] at h2
  subst h2
  refine ⟨hb, _, rfl, dataBody_length _ _, ?_⟩
  intro i value hi j hj
  unfold dataBody
  rw [flatMap_getElem? _ _ (fun a => Endian.encode_length native 8 _) i j hj, hi, Option.bind_some]
  cases native with
  | little => exact leBytes_getElem? _ _ _ hj
  | big =>
    show (leBytes 8 value.toNat).reverse[j]? = _
    rw [List.getElem?_reverse (by rw [leBytes_length]; exact hj), leBytes_length, leBytes_getElem? _ _ _ (by omega)]

/-- **C39**, labels: the files of a little-endian and of a big-endian machine are read as the same labels. -/
theorem C39_labels_same (build build' : Build) (py : PyLiteral) (hpy : LawfulPy py)
    (l : Labels) (hl : l.FromBuilder) (hn : l.names ≠ []) (hm : l.InMemory) (little big : Bytes)
    (h1 : writeNpyLabels build py .little l = .ok little) (h2 : writeNpyLabels build py .big l = .ok big) :
    readNpyLabels build' py little = .ok l ∧ readNpyLabels build' py big = .ok l :=
  ⟨C33_labels_roundtrip build build' py hpy .little l hl hn hm little h1,
    C33_labels_roundtrip build build' py hpy .big l hl hn hm big h2⟩

example : ∃ little big, writeNpyLabels ⟨true⟩ PyLiteral.fragment .little Example.gradientSamples = .ok little ∧
    writeNpyLabels ⟨true⟩ PyLiteral.fragment .big Example.gradientSamples = .ok big := by
  obtain ⟨little, h1, -⟩ := Example.written_ok Example.labels_written
  obtain ⟨big, h2, -⟩ := Example.written_ok Example.labels_written_big
  exact ⟨little, big, h1, h2⟩

/-- **C39**, data: the files of a little-endian and of a big-endian machine are read as the same array. -/
theorem C39_data_same (build build' : Build) (py : PyLiteral) (hpy : LawfulPy py)
    (array : A) (shape : List Nat) (elements : List Elt) (ha : Readable array shape elements) (little big : Bytes)
    (h1 : writeData build py .little array = .ok little) (h2 : writeData build py .big array = .ok big) :
    readData build' py little = .ok { shape, elements } ∧ readData build' py big = .ok { shape, elements } :=
  ⟨C34_data_roundtrip build build' py hpy .little array shape elements ha little h1,
    C34_data_roundtrip build build' py hpy .big array shape elements ha big h2⟩

example : ∃ little big, writeData ⟨true⟩ PyLiteral.fragment .little Example.data = .ok little ∧
    writeData ⟨true⟩ PyLiteral.fragment .big Example.data = .ok big := by
  obtain ⟨little, h1, -⟩ := Example.written_ok Example.data_written
  obtain ⟨big, h2, -⟩ := Example.written_ok Example.data_written_big
  exact ⟨little, big, h1, h2⟩

theorem checkTypeLoop_mixed {list : List PyValue} {ns : List String} {o : Option Endian}
    (h : ∀ e, ∃ name e', e' ≠ e ∧ labelsElement name e' ∈ list) (hl : ∃ e, o = some e) :
    checkTypeLoop list ns o = .err invalidType := by
  obtain ⟨e, rfl⟩ := hl
  obtain ⟨name, e', hne, hmem⟩ := h e
  clear h
  induction list generalizing ns with
  | nil => simp at hmem
  | cons v list ih =>
    rcases checkTypeLoop_cases v list ns (some e) with ⟨name', e'', hv, ho, h'⟩ | ⟨-, h'⟩
    · have he : e'' = e := by
        rcases ho with ho | ho
        · simp at ho
        · simpa using ho.symm
      subst he
      rw [h']
      refine ih ?_
      rcases List.mem_cons.1 hmem with hm | hm
      · subst hm
        simp only [labelsElement, PyValue.tuple.injEq, List.cons.injEq, PyValue.string.injEq, and_true] at hv
        have : e' = e'' := by
          have hv2 := hv.2
          revert hv2
          cases e' <;> cases e'' <;> simp [Endian.i4]
        exact absurd this hne
      · exact hm
    · exact h'

/-- **C39**, mixed byte orders: labels with both little-endian and big-endian names are rejected, whatever else
the file contains. -/
theorem C39_mixed_rejected (build : Build) (py : PyLiteral) (reader rest : Bytes) (h : NpyHeader)
    (hr : NpyHeader.fromReader py reader = .ok (h, rest)) (elements : List PyValue) (a b : List Char)
    (ht : h.typeDescriptor = .list elements)
    (h1 : PyValue.tuple [.string a, .string "<i4".toList] ∈ elements)
    (h2 : PyValue.tuple [.string b, .string ">i4".toList] ∈ elements) :
    ∃ message, readNpyLabels build py reader = .err (.serialization message) := by
  unfold readNpyLabels
  rw [hr]
  simp only [Res.ok_bind]
  cases h.fortranOrder with
  | true => exact ⟨_, rfl⟩
  | false =>
    simp only [Bool.not_false, Res.guardErr_true, Res.ok_bind]
    cases h.shape.length == 1 with
    | false => exact ⟨_, rfl⟩
    | true =>
      simp only [Res.guardErr_true, Res.ok_bind]
      rw [ht]
      have key : checkTypeLoop elements [] none = .err invalidType := by
        cases elements with
        | nil => simp at h1
        | cons v list =>
          rcases checkTypeLoop_cases v list [] none with ⟨name', e, hv, -, h'⟩ | ⟨-, h'⟩
          · rw [h']
            have hall : ∀ e, ∃ name e', e' ≠ e ∧ labelsElement name e' ∈ v :: list := by
              intro e
              cases e with
              | little => exact ⟨b, .big, by decide, h2⟩
              | big => exact ⟨a, .little, by decide, h1⟩
            have hwhole := checkTypeLoop_mixed (ns := []) hall ⟨e, rfl⟩
            rcases checkTypeLoop_cases v list [] (some e) with ⟨name'', e'', hv', ho, h''⟩ | ⟨hno, -⟩
            · have he : e'' = e := by
                rcases ho with ho | ho
                · simp at ho
                · simpa using ho.symm
              subst he
              have hn : name'' = name' := by
                rw [hv] at hv'
                simp only [labelsElement, PyValue.tuple.injEq, List.cons.injEq, PyValue.string.injEq, and_true] at hv'
                exact hv'.symm
              subst hn
              rw [← h'']
              exact hwhole
            · exact absurd (.inr rfl) (hno name' e hv)
          · exact h'
      unfold checkTypeDescriptor
      simp only [key]
      exact ⟨_, rfl⟩

/-- A file with mixed byte orders. -/
def Example.mixedHeader : NpyHeader :=
  { typeDescriptor := .list [.tuple [.string "a".toList, .string "<i4".toList],
      .tuple [.string "b".toList, .string ">i4".toList]], fortranOrder := false, shape := [1] }

theorem Example.mixed_plain : Plain Example.mixedHeader.typeDescriptor := by
  refine .list ?_
  intro v hv
  simp only [List.mem_cons, List.not_mem_nil, or_false] at hv
  rcases hv with rfl | rfl <;>
  · refine .tuple ?_
    intro v hv
    simp only [List.mem_cons, List.not_mem_nil, or_false] at hv
    rcases hv with rfl | rfl <;> exact .string _

example : ∃ bytes, NpyHeader.fromReader PyLiteral.fragment (bytes ++ [1, 0, 0, 0, 0, 0, 0, 1]) =
    .ok (Example.mixedHeader, [1, 0, 0, 0, 0, 0, 0, 1]) := by
  obtain ⟨text, -, ⟨bytes, h⟩ | ⟨hl, -⟩⟩ := C32_header_failure ⟨true⟩ PyLiteral.fragment lawful_fragment Example.mixedHeader
    Example.mixed_plain
  · exact ⟨bytes, C32_header_roundtrip _ _ lawful_fragment _ Example.mixed_plain (by decide) _ h _⟩
  · have : Example.written (Example.mixedHeader.toBytes ⟨true⟩ PyLiteral.fragment) = some 128 := by decide +kernel
    obtain ⟨bytes, h, -⟩ := Example.written_ok this
    exact ⟨bytes, C32_header_roundtrip _ _ lawful_fragment _ Example.mixed_plain (by decide) _ h _⟩

/-- **C39**, memory order: labels and arrays in Fortran order are rejected, whatever else the file contains. -/
theorem C39_fortran_rejected (build : Build) (py : PyLiteral) (reader rest : Bytes) (h : NpyHeader)
    (hr : NpyHeader.fromReader py reader = .ok (h, rest)) (hf : h.fortranOrder = true) :
    (∃ message, readNpyLabels build py reader = .err (.serialization message)) ∧
    (∃ message, readData build py reader = .err (.serialization message)) := by
  constructor
  · unfold readNpyLabels
    rw [hr]
    simp only [Res.ok_bind, hf]
    exact ⟨_, rfl⟩
  · unfold readData
    rw [hr]
    simp only [Res.ok_bind, hf]
    exact ⟨_, rfl⟩

/-- A header in Fortran order. -/
def Example.fortran : NpyHeader := { Example.header with fortranOrder := true }

example : ∃ bytes rest, NpyHeader.fromReader PyLiteral.fragment (bytes ++ rest) = .ok (Example.fortran, rest) := by
  have : Example.written (Example.fortran.toBytes ⟨true⟩ PyLiteral.fragment) = some 128 := by decide +kernel
  obtain ⟨bytes, h, -⟩ := Example.written_ok this
  exact ⟨bytes, [], C32_header_roundtrip _ _ lawful_fragment _ (.string _) (by decide) _ h _⟩

end Equistore
