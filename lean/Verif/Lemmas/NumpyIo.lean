import Verif.Spec.NumpyIo
import Verif.Lemmas.Load
import Verif.Lemmas.PyLabels
import Verif.Lemmas.PyLiteral
import Verif.Props.PySelection

/-!
# Saving and loading with numpy
-/

namespace Equistore
open Spec

/-! ### Headers -/

theorem toPyValue_ascii {h : NpyHeader} (hd : AsciiValue h.typeDescriptor) : AsciiValue h.toPyValue := by
  unfold NpyHeader.toPyValue
  refine .dict ?_ ?_
  · intro k v hkv
    simp only [List.mem_cons, Prod.mk.injEq, List.not_mem_nil, or_false] at hkv
    rcases hkv with ⟨rfl, -⟩ | ⟨rfl, -⟩ | ⟨rfl, -⟩ <;> exact .string (by decide)
  · intro k v hkv
    simp only [List.mem_cons, Prod.mk.injEq, List.not_mem_nil, or_false] at hkv
    rcases hkv with ⟨-, rfl⟩ | ⟨-, rfl⟩ | ⟨-, rfl⟩
    · exact hd
    · exact .boolean _
    · refine .tuple ?_
      intro v hv
      rw [List.mem_map] at hv
      obtain ⟨n, -, rfl⟩ := hv
      exact .integer _

theorem takeBytes_append {n : Nat} {a b : Bytes} (h : a.length = n) : takeBytes n (a ++ b) = some (a, b) := by
  unfold takeBytes
  rw [if_pos (by rw [List.length_append]; omega), List.take_left' h, List.drop_left' h]

theorem npRead_headerBytes {np : Numpy} {h : NpyHeader} {text : Bytes} {v : NpyVersion} {p itemsize : Nat}
    (hp : 8 + v.headerLenNumBytes = p) (hv : v ≠ .v3) (hlen : paddedLength p text.length - p < 256 ^ v.headerLenNumBytes)
    (hparse : ∀ n, np.text.parse (NpyHeader.asciiChars text ++ List.replicate n ' ' ++ ['\n']) = some h.toPyValue)
    (hlimit : ∀ limit, np.maxHeader = some limit → text.length + 65 ≤ limit)
    (hs : ∀ n ∈ h.shape, n < usizeSize) (hi : np.itemsize h.typeDescriptor = some itemsize) {body : Bytes}
    (hb : body.length = shapeSize h.shape * itemsize) (extra : Bytes) :
    npRead np (headerBytes v p text ++ (body ++ extra)) = some { descr := h.typeDescriptor, itemsize, fortran := h.fortranOrder, shape := h.shape, memory := body } := by
  have e1 : headerBytes v p text ++ (body ++ extra) = magicString ++ ([v.major, v.minor] ++
      (leBytes v.headerLenNumBytes (paddedLength p text.length - p) ++ ((text ++
        List.replicate (63 - (p + text.length + 1) % 64 + 1) 32 ++ [10]) ++ (body ++ extra)))) := by
    unfold headerBytes; simp only [List.append_assoc]
  have e2 : NpyVersion.fromBytes [v.major, v.minor] = .ok v := by
    cases v
    · rfl
    · rfl
    · exact absurd rfl hv
  have hl : (text ++ List.replicate (63 - (p + text.length + 1) % 64 + 1) (32 : UInt8) ++ [10]).length =
      paddedLength p text.length - p := by
    simp only [List.length_append, List.length_replicate, List.length_cons, List.length_nil]
    unfold paddedLength
    omega
  have htext : NpyHeader.asciiChars (text ++ List.replicate (63 - (p + text.length + 1) % 64 + 1) (32 : UInt8) ++ [10]) =
      NpyHeader.asciiChars text ++ List.replicate (63 - (p + text.length + 1) % 64 + 1) ' ' ++ ['\n'] := by
    rw [asciiChars_append, asciiChars_append, asciiChars_spaces]
    rfl
  have hh : npHeader np v (leBytes v.headerLenNumBytes (paddedLength p text.length - p) ++ ((text ++
        List.replicate (63 - (p + text.length + 1) % 64 + 1) 32 ++ [10]) ++ (body ++ extra))) = some (h, body ++ extra) := by
    unfold npHeader
    rw [takeBytes_append (leBytes_length _ _)]
    simp only [Option.bind_eq_bind, Option.bind_some, Endian.decode]
    rw [leValue_leBytes, Nat.mod_eq_of_lt hlen, takeBytes_append hl]
    simp only [Option.bind_some]
    have e3 : npHeaderText v (text ++ List.replicate (63 - (p + text.length + 1) % 64 + 1) (32 : UInt8) ++ [10]) =
        some (NpyHeader.asciiChars text ++ List.replicate (63 - (p + text.length + 1) % 64 + 1) ' ' ++ ['\n']) := by
      unfold npHeaderText
      cases v
      · simp only [htext]
      · simp only [htext]
      · exact absurd rfl hv
    have e4 : npTooLong np (NpyHeader.asciiChars text ++ List.replicate (63 - (p + text.length + 1) % 64 + 1) ' ' ++ ['\n']) =
        false := by
      unfold npTooLong
      cases hm : np.maxHeader with
      | none => rfl
      | some limit =>
        have := hlimit limit hm
        simp only [NpyHeader.asciiChars, List.length_append, List.length_map, List.length_replicate, List.length_cons,
          List.length_nil, decide_eq_false_iff_not]
        omega
    rw [e3]
    simp only [Option.bind_some, npParseHeader, e4, hparse]
    rw [fromPyValue_toPyValue hs]
    rfl
  unfold npRead
  rw [e1, takeBytes_append rfl]
  simp only [Option.bind_eq_bind, Option.bind_some, ne_eq, not_true, if_false]
  rw [takeBytes_append (n := 2) (a := [v.major, v.minor]) rfl]
  simp only [Option.pure_def, Option.bind_some, e2, hh, hi]
  rw [takeBytes_append hb]
  rfl

/-- What is written with a header by `writer` is read by numpy. -/
theorem npRead_toBytes {np : Numpy} {writer : PyLiteral} {build : Build} {h : NpyHeader} {itemsize : Nat} {bytes : Bytes}
    (hw : ReadBy writer np.text ['\n']) (hd : AsciiValue h.typeDescriptor)
    (hb : h.toBytes build writer = .ok bytes)
    (hlimit : ∀ limit text, np.maxHeader = some limit → writer.format h.toPyValue = some text → text.length + 65 ≤ limit)
    (hs : ∀ n ∈ h.shape, n < usizeSize) (hi : np.itemsize h.typeDescriptor = some itemsize) {body : Bytes}
    (hl : body.length = shapeSize h.shape * itemsize) (extra : Bytes) :
    npRead np (bytes ++ (body ++ extra)) = some { descr := h.typeDescriptor, itemsize, fortran := h.fortranOrder, shape := h.shape, memory := body } := by
  obtain ⟨text, h1, h2, h3⟩ := hw _ (toPyValue_ascii hd)
  have hlimit' := fun limit hm => hlimit limit text hm h1
  rw [toBytes_eq h1] at hb
  split at hb
  · next hlen =>
    simp only [Res.ok.injEq] at hb
    subst hb
    exact npRead_headerBytes (v := .v1) rfl (by decide) hlen h3 hlimit' hs hi hl extra
  · split at hb
    · next hlen =>
      simp only [Res.ok.injEq] at hb
      subst hb
      exact npRead_headerBytes (v := .v2) rfl (by decide) hlen h3 hlimit' hs hi hl extra
    · simp at hb

theorem npWrite_eq_ok {np : Numpy} {a : NpArray} {bytes : Bytes} (h : npWrite np a = .ok bytes) :
    ∃ header, (npHeaderOf a).toBytes ⟨false⟩ np.text = .ok header ∧ bytes = header ++ a.memory := by
  unfold npWrite at h
  change (match (npHeaderOf a).toBytes ⟨false⟩ np.text with
    | .ok header => Except.ok (header ++ a.memory)
    | _ => Except.error PyExc.valueError) = _ at h
  cases hh : (npHeaderOf a).toBytes ⟨false⟩ np.text with
  | ok header => rw [hh] at h; cases h; exact ⟨header, rfl, rfl⟩
  | err e => rw [hh] at h; cases h
  | panic m => rw [hh] at h; cases h

/-- Arrays are read as they have been written. -/
theorem npRead_npWrite {np : Numpy} (hnp : LawfulNumpy np) {a : NpArray} (ha : CompleteArray np a) (hs : ShortHeader np a)
    {bytes : Bytes} (h : npWrite np a = .ok bytes) : npRead np bytes = some a := by
  obtain ⟨header, hh, rfl⟩ := npWrite_eq_ok h
  have := npRead_toBytes (itemsize := a.itemsize) hnp.roundtrip ha.descr hh hs ha.shape ha.itemsize (body := a.memory) ha.memory []
  rw [List.append_nil] at this
  exact this

/-! ### Labels -/

/-- Labels with names and rows, as Python has them after loading. -/
def pyView (l : Labels) : PyLabels := PyLabels.ofMemory l.names l.rows.flatten l.rows.length none

theorem pyView_ofC {l : Labels} (h : l.WF) : Labels.ofC (pyView l).toC = .ok l := by
  have hne : l.names ≠ [] := by
    intro hn
    have := h.names_pos
    rw [hn] at this
    exact absurd this (by simp)
  have hcan := PyLabels.canonical_ofMemory (names := l.names) (rows := l.rows) none h.row_length
  have hn := PyLabels.names_ofMemory l.names l.rows.flatten l.rows.length none
  have hd := hcan.describes (by
    rw [hn]
    exact fun n hm => identifier_no_nul ((isValidLabelName_iff n).1 (h.names_ok.1 n hm)))
  rw [hn] at hd
  have := ofC_eq_build hd hne
  rw [pyView, this]
  exact (Labels.build_eq_ok h.names_pos).2 h

theorem identifier_ascii {s : String} (h : Identifier s) : ∀ c ∈ s.toList, c.toNat < 128 := by
  obtain ⟨c, cs, hs, h1, h2⟩ := h
  rw [hs]
  have key : ∀ c, (IdentRest c ∨ IdentStart c) → c.toNat < 128 := fun c hc => (PyFragment.ident_plain hc).2.2.2.2
  intro d hd
  rcases List.mem_cons.1 hd with rfl | hd
  · exact key _ (.inr h1)
  · exact key _ (.inl (h2 d hd))

theorem labelsDescr_ascii (e : Endian) {names : List String} (h : ∀ name ∈ names, Identifier name) :
    AsciiValue (labelsDescr e names) := by
  refine .list ?_
  intro v hv
  rw [List.mem_map] at hv
  obtain ⟨name, hn, rfl⟩ := hv
  refine .tuple ?_
  intro v hv
  simp only [List.mem_cons, List.not_mem_nil, or_false] at hv
  rcases hv with rfl | rfl
  · exact .string (identifier_ascii (h name hn))
  · refine .string ?_
    cases e <;> decide

theorem fieldsOf_labelsDescr (e : Endian) (names : List String) : fieldsOf (labelsDescr e names) = some names := by
  unfold fieldsOf labelsDescr
  simp only
  induction names with
  | nil => rfl
  | cons n names ih =>
    rw [List.map_cons, List.mapM_cons, ih]
    simp

theorem wf_names_ne {l : Labels} (h : l.WF) : l.names ≠ [] := by
  intro hn
  have := h.names_pos
  rw [hn] at this
  exact absurd this (by simp)

theorem wf_identifiers {l : Labels} (h : l.WF) : ∀ name ∈ l.names, Identifier name := fun n hm =>
  (isValidLabelName_iff n).1 (h.names_ok.1 n hm)

/-- Labels in the byte order of the machine are read back. -/
theorem labelsFromNpz_eq (native : Endian) {l : Labels} (h : l.WF) :
    labelsFromNpz native (arrayOfLabels native l.names l.rows) = .ok (pyView l) := by
  have hne := wf_names_ne h
  have hpos : l.names.length ≠ 0 := by simpa using hne
  have he : "" ∉ l.names := by
    intro hm
    obtain ⟨c, cs, h1, _⟩ := wf_identifiers h "" hm
    cases h1
  have hvalues : (decodeAll native 4 (l.rows.flatten.flatMap fun value => native.encode 4 value.toUInt32.toNat)).map
      (fun n => (Int32.ofNat n).toInt) = l.rows.flatten.map Int32.toInt := by
    have := decode_labelsBody native l.rows.flatten
    unfold labelsBody at this
    conv_rhs => rw [← this]
    rw [List.map_map]
    rfl
  have hlen : (l.rows.flatten.map Int32.toInt).length = l.rows.length * l.names.length := by
    rw [List.length_map, flatten_length_const h.row_length]
  unfold labelsFromNpz arrayOfLabels
  simp only [fieldsOf_labelsDescr, hvalues, hlen]
  rw [if_neg (by simp), if_neg (by simp [hpos]), Nat.mul_div_cancel _ (Nat.pos_of_ne_zero hpos)]
  unfold PyLabels.new
  simp only [ne_eq, not_true_eq_false, if_false, Bool.not_true, Bool.false_eq_true, hpos, fieldNames_eq he,
    map_ofInt_toInt]
  rw [if_neg (by simpa using h.names_ok.2), chunksExact_flatten h.names_pos h.row_length,
    countDistinct_eq_length.2 h.nodup, if_neg (by simp)]
  rfl

/-- The array for labels given by the library. -/
theorem npLibraryLabels_eq (native : Endian) {l : Labels} (h : l.WF) :
    npLibraryLabels native l = .ok (arrayOfLabels native l.names l.rows) := by
  obtain ⟨c, hc⟩ : ∃ c, l.toC = .ok c := ⟨_, Labels.Holds.toC h⟩
  have h1 := PyLabels.ofC_eq h (wf_names_ne h) hc
  have hcan := PyLabels.canonical_ofMemory (names := l.names) (rows := l.rows)
    (if l.rows = [] then none else some c) h.row_length
  have hn := PyLabels.names_ofMemory l.names l.rows.flatten l.rows.length (if l.rows = [] then none else some c)
  unfold npLibraryLabels
  rw [hc]
  change (do
    let v ← PyLabels.ofC c
    match npLabels native v with
    | some a => Except.ok a
    | none => Except.error PyExc.exception) = _
  rw [h1]
  change (match npLabels native _ with
    | some a => Except.ok a
    | none => Except.error PyExc.exception) = _
  have : npLabels native (PyLabels.ofMemory l.names l.rows.flatten l.rows.length (if l.rows = [] then none else some c)) =
      some (arrayOfLabels native l.names l.rows) := by
    unfold npLabels
    rw [hcan.entries]
    simp only [Option.bind_eq_bind, Option.bind_some, hn]
    rfl
  rw [this]

theorem arrayOfLabels_complete {np : Numpy} (hnp : LawfulNumpy np) (native : Endian) {l : Labels} (h : l.WF) (hm : l.InMemory) :
    CompleteArray np (arrayOfLabels native l.names l.rows) := by
  refine ⟨labelsDescr_ascii native (wf_identifiers h),
    hnp.labels native l.names (wf_names_ne h) h.names_ok.2 (wf_identifiers h), ?_, ?_⟩
  · have := labelsBody_length native l.rows.flatten
    unfold labelsBody at this
    rw [flatten_length_const h.row_length] at this
    show (l.rows.flatten.flatMap fun value => native.encode 4 value.toUInt32.toNat).length = l.rows.length * 1 * (4 * l.names.length)
    rw [this, Nat.mul_one, Nat.mul_left_comm]
  · intro n hn
    have : n = l.rows.length := by simpa [arrayOfLabels] using hn
    rw [this]
    exact h.rows_lt hm

/-! ### Names of entries -/

/-- The key of a part in the dictionary: the name of the entry without the extension. -/
def Part.key : Part → String
  | .keys => "keys"
  | .values i what => "blocks/" ++ toString i ++ "/values/" ++ what.text
  | .gradient i parameter what => "blocks/" ++ toString i ++ "/gradients/" ++ parameter ++ "/" ++ what.text

theorem Part.key_npy (part : Part) : Part.key part ++ ".npy" = part.name := by
  apply String.toList_inj.1
  cases part <;> simp [Part.key, Part.name, String.toList_append]

theorem What.text_last (w : What) : w.text.toList.getLast? ≠ some 'y' := by
  cases w with
  | data => decide
  | samples => decide
  | properties => decide
  | component i =>
    intro h
    have h1 : (What.component i).text.toList = "components/".toList ++ digits i := by
      show ("components/" ++ toString i).toList = _
      rw [String.toList_append, toString_toList]
    rw [h1, List.getLast?_append] at h
    cases hd : (digits i).getLast? with
    | none =>
      rw [hd] at h
      exact absurd h (by decide)
    | some c =>
      rw [hd] at h
      have hc := digits_isDigit (List.mem_of_getLast? hd)
      simp only [Option.some_or, Option.some.injEq] at h
      rw [h] at hc
      exact absurd hc (by decide)

theorem What.text_ne (w : What) : w.text.toList ≠ [] := by
  cases w with
  | data => decide
  | samples => decide
  | properties => decide
  | component i =>
    show ("components/" ++ toString i).toList ≠ []
    rw [String.toList_append]
    simp

theorem getLast?_append_ne {α : Type} {a b : List α} (h : b ≠ []) : (a ++ b).getLast? = b.getLast? := by
  rw [List.getLast?_append]
  cases hb : b.getLast? with
  | none => exact absurd (List.getLast?_eq_none_iff.1 hb) h
  | some c => rfl

theorem Part.key_last (part : Part) : (Part.key part).toList.getLast? ≠ some 'y' := by
  cases part with
  | keys => decide
  | values i w =>
    simp only [Part.key, String.toList_append]
    rw [getLast?_append_ne (What.text_ne w)]
    exact What.text_last w
  | gradient i p w =>
    simp only [Part.key, String.toList_append]
    rw [getLast?_append_ne (What.text_ne w)]
    exact What.text_last w

theorem Part.key_ne_name (part part' : Part) : Part.key part ≠ part'.name := by
  intro h
  apply Part.key_last part
  rw [h, ← Part.key_npy, String.toList_append, getLast?_append_ne (by decide)]
  decide

theorem Part.key_injective {a b : Part} (h : Part.key a = Part.key b) : a = b := by
  apply Part.name_injective
  rw [← Part.key_npy, ← Part.key_npy, h]

theorem valuesKey_data (i : Nat) : s!"{s!"blocks/{i}/values"}/data" = Part.key (.values i .data) := by
  apply String.toList_inj.1
  simp [toString, Part.key, What.text, String.toList_append]

theorem valuesKey_samples (i : Nat) : s!"{s!"blocks/{i}/values"}/samples" = Part.key (.values i .samples) := by
  apply String.toList_inj.1
  simp [toString, Part.key, What.text, String.toList_append]

theorem valuesKey_properties (i : Nat) : s!"{s!"blocks/{i}/values"}/properties" = Part.key (.values i .properties) := by
  apply String.toList_inj.1
  simp [toString, Part.key, What.text, String.toList_append]

theorem gradientKey_data (i : Nat) (p : String) : s!"{s!"blocks/{i}/gradients/{p}"}/data" = Part.key (.gradient i p .data) := by
  apply String.toList_inj.1
  simp [toString, Part.key, What.text, String.toList_append]

theorem gradientKey_samples (i : Nat) (p : String) : s!"{s!"blocks/{i}/gradients/{p}"}/samples" = Part.key (.gradient i p .samples) := by
  apply String.toList_inj.1
  simp [toString, Part.key, What.text, String.toList_append]

theorem valuesComponentKey_eq (i c : Nat) :
    s!"{s!"blocks/{i}/values"}/components/{c}" = Part.key (.values i (.component c)) := by
  apply String.toList_inj.1
  simp [toString, Part.key, What.text, String.toList_append]

theorem gradientComponentKey_eq (i : Nat) (p : String) (c : Nat) :
    s!"{s!"blocks/{i}/gradients/{p}"}/components/{c}" = Part.key (.gradient i p (.component c)) := by
  apply String.toList_inj.1
  simp [toString, Part.key, What.text, String.toList_append]

/-- An entry is found by its key. -/
theorem npGet_key {np : Numpy} {archive : Archive} {part : Part} {bytes : Bytes} {x : NpArray}
    (hall : ∀ name ∈ archive.map Prod.fst, ∃ part' : Part, name = part'.name)
    (hb : archive.byName part.name = .ok bytes) (hx : npRead np bytes = some x) :
    npGet np archive (Part.key part) = .ok x := by
  unfold npGet
  have : (archive.map Prod.fst).contains (Part.key part) = false := by
    rw [← Bool.not_eq_true, List.contains_iff_mem]
    intro hm
    obtain ⟨part', h⟩ := hall _ hm
    exact Part.key_ne_name part part' h
  simp only [this, Bool.false_eq_true, if_false, Part.key_npy, hb, hx]

end Equistore
