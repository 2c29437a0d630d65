import Verif.Lemmas.NumpySave

/-!
# Archives saved by one implementation and loaded by another
-/

namespace Equistore
open Spec

/-! ### Headers which are too long -/

theorem npRead_headerBytes_long {np : Numpy} {text : Bytes} {v : NpyVersion} {p limit : Nat}
    (hp : 8 + v.headerLenNumBytes = p) (hv : v ≠ .v3) (hlen : paddedLength p text.length - p < 256 ^ v.headerLenNumBytes)
    (hm : np.maxHeader = some limit) (hlimit : limit < text.length) (rest : Bytes) :
    npRead np (headerBytes v p text ++ rest) = none := by
  have e1 : headerBytes v p text ++ rest = magicString ++ ([v.major, v.minor] ++
      (leBytes v.headerLenNumBytes (paddedLength p text.length - p) ++ ((text ++
        List.replicate (63 - (p + text.length + 1) % 64 + 1) 32 ++ [10]) ++ rest))) := by
    unfold headerBytes; simp only [List.append_assoc]
  have e2 : NpyVersion.fromBytes [v.major, v.minor] = .ok v := by
    cases v
    · rfl
    · rfl
    · exact absurd rfl hv
  have hl : (text ++ List.replicate (63 - (p + text.length + 1) % 64 + 1) (32 : UInt8) ++ [10]).length =
      paddedLength p text.length - p := by
    simp only [List.length_append, List.length_replicate, List.length_cons, List.length_nil]
    unfold paddedLength
    omega
  have hh : npHeader np v (leBytes v.headerLenNumBytes (paddedLength p text.length - p) ++ ((text ++
        List.replicate (63 - (p + text.length + 1) % 64 + 1) 32 ++ [10]) ++ rest)) = none := by
    unfold npHeader
    rw [takeBytes_append (leBytes_length _ _)]
    simp only [Option.bind_eq_bind, Option.bind_some, Endian.decode]
    rw [leValue_leBytes, Nat.mod_eq_of_lt hlen, takeBytes_append hl]
    simp only [Option.bind_some]
    have e3 : npHeaderText v (text ++ List.replicate (63 - (p + text.length + 1) % 64 + 1) (32 : UInt8) ++ [10]) =
        some (NpyHeader.asciiChars (text ++ List.replicate (63 - (p + text.length + 1) % 64 + 1) (32 : UInt8) ++ [10])) := by
      unfold npHeaderText
      cases v
      · rfl
      · rfl
      · exact absurd rfl hv
    have e4 : npTooLong np (NpyHeader.asciiChars (text ++
        List.replicate (63 - (p + text.length + 1) % 64 + 1) (32 : UInt8) ++ [10])) = true := by
      unfold npTooLong
      rw [hm]
      simp only [NpyHeader.asciiChars, List.length_append, List.length_map, List.length_replicate, List.length_cons,
        List.length_nil, decide_eq_true_eq]
      omega
    rw [e3]
    simp only [Option.bind_some, npParseHeader, e4]
    rfl
  unfold npRead
  rw [e1, takeBytes_append rfl]
  simp only [Option.bind_eq_bind, Option.bind_some, ne_eq, not_true, if_false]
  rw [takeBytes_append (n := 2) (a := [v.major, v.minor]) rfl]
  simp only [Option.pure_def, Option.bind_some, e2, hh]
  rfl

theorem npRead_long {np : Numpy} {a : NpArray} {text bytes : Bytes} {limit : Nat} (hm : np.maxHeader = some limit)
    (ht : np.text.format (npHeaderOf a).toPyValue = some text) (hlimit : limit < text.length) (h : npWrite np a = .ok bytes) :
    npRead np bytes = none := by
  obtain ⟨header, hh, rfl⟩ := npWrite_eq_ok h
  rw [toBytes_eq ht] at hh
  split at hh
  · next hl =>
    simp only [Res.ok.injEq] at hh
    subst hh
    exact npRead_headerBytes_long (v := .v1) rfl (by decide) hl hm hlimit _
  · split at hh
    · next hl =>
      simp only [Res.ok.injEq] at hh
      subst hh
      exact npRead_headerBytes_long (v := .v2) rfl (by decide) hl hm hlimit _
    · simp at hh

/-! ### Files written by numpy, read by the library -/

/-- What is written with a header by `writer` is read by the library. -/
theorem fromReader_toBytes {writer py : PyLiteral} {build : Build} {h : NpyHeader} {bytes : Bytes}
    (hw : ReadBy writer py []) (hd : AsciiValue h.typeDescriptor) (hb : h.toBytes build writer = .ok bytes)
    (hs : ∀ n ∈ h.shape, n < usizeSize) (rest : Bytes) :
    NpyHeader.fromReader py (bytes ++ rest) = .ok (h, rest) := by
  obtain ⟨text, h1, h2, h3⟩ := hw _ (toPyValue_ascii hd)
  simp only [List.append_nil] at h3
  rw [toBytes_eq h1] at hb
  split at hb
  · next hl =>
    simp only [Res.ok.injEq] at hb
    subst hb
    exact fromReader_headerBytes (v := .v1) rfl (by decide) hl h2 h3 hs rest
  · split at hb
    · next hl =>
      simp only [Res.ok.injEq] at hb
      subst hb
      exact fromReader_headerBytes (v := .v2) rfl (by decide) hl h2 h3 hs rest
    · simp at hb

theorem f8_ascii (e : Endian) : AsciiValue (.string e.f8.toList) := by
  cases e <;> exact .string (by decide)

theorem dims_lt {dims : List Nat} (hs : ShapeInMemory dims) : ∀ n ∈ dims, n < usizeSize := by
  intro n hn
  have h1 : isizeMax = 2 ^ 63 - 1 := rfl
  have h2 : usizeSize = 2 ^ 64 := rfl
  have h3 := mem_le_filterSize (shape := dims) hn
  have h4 := hs.dimensions
  omega

theorem readNpyLabels_npWrite {np : Numpy} {py : PyLiteral} {build : Build} {native : Endian} (hw : ReadBy np.text py [])
    {l : Labels} (hl : l.WF) (hm : l.InMemory) {bytes : Bytes} (h : npWrite np (labelsArray native l) = .ok bytes) :
    readNpyLabels build py bytes = .ok l := by
  obtain ⟨header, hh, rfl⟩ := npWrite_eq_ok h
  have h1 : NpyHeader.fromReader py (header ++ (labelsArray native l).memory) =
      .ok (npHeaderOf (labelsArray native l), (labelsArray native l).memory) := by
    refine fromReader_toBytes hw (labelsDescr_ascii native (wf_identifiers hl)) hh ?_ _
    intro n hn
    have : n = l.rows.length := by simpa [npHeaderOf, labelsArray, arrayOfLabels] using hn
    rw [this]
    exact hl.rows_lt hm
  have h2 : (labelsArray native l).memory = labelsBody native l.values ++ [] := by
    rw [List.append_nil, hl.values_eq]
    rfl
  rw [h2] at h1 ⊢
  exact readNpyLabels_body hl hm h1

theorem readData_npWrite {np : Numpy} {py : PyLiteral} {build : Build} {order : Endian} (hw : ReadBy np.text py [])
    {dims : List Nat} {elements : List Elt} (hs : ShapeInMemory dims) (hl : elements.length = shapeSize dims) {bytes : Bytes}
    (h : npWrite np (arrayOfData order dims elements) = .ok bytes) : readData build py bytes = .ok ⟨dims, elements⟩ := by
  obtain ⟨header, hh, rfl⟩ := npWrite_eq_ok h
  have h1 : NpyHeader.fromReader py (header ++ (arrayOfData order dims elements).memory) =
      .ok (npHeaderOf (arrayOfData order dims elements), (arrayOfData order dims elements).memory) :=
    fromReader_toBytes hw (f8_ascii order) hh (dims_lt hs) _
  have h2 : (arrayOfData order dims elements).memory = dataBody order elements ++ [] := by
    rw [List.append_nil]
    rfl
  rw [h2] at h1 ⊢
  exact readData_body hs hl h1

/-- Arrays which are not 64-bit floating point numbers in C order are refused. -/
theorem loadGradients_reads {build : Build} {py : PyLiteral} {archive : Archive} {i : Nat} {ps : List String}
    {b b' : TensorBlock NdArray} (h : loadGradients build py archive i ps b = .ok b') {p : String} (hp : p ∈ ps) :
    ∃ file x, archive.byName (gradientPath i p "data") = .ok file ∧ readData build py file = .ok x := by
  induction ps generalizing b with
  | nil => simp at hp
  | cons q ps ih =>
    simp only [loadGradients, Res.bind_eq_ok] at h
    obtain ⟨file, h1, x, h2, _, -, _, -, _, -, _, -, h⟩ := h
    split at h
    · rcases List.mem_cons.1 hp with rfl | hp
      · exact ⟨file, x, h1, h2⟩
      · exact ih h hp
    · cases h
    · cases h

theorem readData_refused {np : Numpy} {py : PyLiteral} {build : Build} (hw : ReadBy np.text py [])
    {a : NpArray} (hd : AsciiValue a.descr) (hs : ∀ n ∈ a.shape, n < usizeSize) {bytes : Bytes} (h : npWrite np a = .ok bytes)
    {x : NdArray} (hx : readData build py bytes = .ok x) : a.fortran = false ∧ ∃ e : Endian, a.descr = .string e.f8.toList := by
  obtain ⟨header, hh, rfl⟩ := npWrite_eq_ok h
  have h1 := fromReader_toBytes hw (h := npHeaderOf a) hd hh hs a.memory
  unfold readData at hx
  rw [h1] at hx
  simp only [Res.ok_bind, npHeaderOf] at hx
  have hf : a.fortran = false := by
    cases hc : a.fortran with
    | false => rfl
    | true =>
      rw [hc] at hx
      simp [Res.guardErr, Res.bind_eq_ok] at hx
  refine ⟨hf, ?_⟩
  rw [hf] at hx
  simp only [Bool.not_false, Res.guardErr_true, Res.ok_bind] at hx
  rw [Res.bind_eq_ok] at hx
  obtain ⟨size, -, hx⟩ := hx
  split at hx
  · next s hd =>
    by_cases h1 : s = "<f8".toList
    · exact ⟨.little, by rw [hd, h1]; rfl⟩
    · by_cases h2 : s = ">f8".toList
      · exact ⟨.big, by rw [hd, h2]; rfl⟩
      · rw [if_neg h1, if_neg h2] at hx
        simp [Res.bind_eq_ok] at hx
  · simp [Res.bind_eq_ok] at hx

variable {A B : Type} [ArrayLike A] [ArrayLike B] {view : A → NpArray} {native : Endian} {np : Numpy} {archive : Archive}

/-- Numpy finds all parts in what it saved. -/
theorem npGet_pySave {t : TensorMap A} (hv : TensorValid t) (hs : t.blocks.length ≤ 18446744073709551616)
    (h : pySave view native np t = .ok archive) {part : Part} {a : NpArray}
    (hm : (part, a) ∈ tensorArrays view native t) {np' : Numpy} {x : NpArray}
    (hx : ∀ bytes, npWrite np a = .ok bytes → npRead np' bytes = some x) :
    npGet np' archive (Part.key part) = .ok x := by
  obtain ⟨bytes, h1, h2⟩ := pySave_byName hv hs h hm
  refine npGet_key ?_ h2 (hx bytes h1)
  intro name hn
  rw [pySave_names hv hs h, List.mem_map] at hn
  obtain ⟨part', -, rfl⟩ := hn
  exact ⟨part', rfl⟩

theorem labelsAt_pySave {t : TensorMap A} (hnp : LawfulNumpy np) (hv : TensorValid t)
    (hs : t.blocks.length ≤ 18446744073709551616) (h : pySave view native np t = .ok archive) {part : Part} {l : Labels}
    (hm : (part, labelsArray native l) ∈ tensorArrays view native t) (hl : l.WF) (hi : l.InMemory)
    (hh : ShortHeader np (labelsArray native l)) : LabelsAt native np archive part l :=
  ⟨_, npGet_pySave hv hs h hm fun _ hb => npRead_npWrite hnp (arrayOfLabels_complete hnp native hl hi) hh hb,
    labelsFromNpz_eq native hl⟩

theorem pyContains_of_arrays {t : TensorMap A} {wrap : NpArray → A} (hnp : LawfulNumpy np) (ha : NumpyArrays view wrap)
    (hv : TensorValid t)
    (hs : t.blocks.length ≤ 18446744073709551616) (h : pySave view native np t = .ok archive) {b : BasicBlock A}
    {part : What → Part} {withProperties : Bool} (hb : BasicValid b)
    (hm : ∀ w a, WhatArray view native b w a → (w = .properties → withProperties = true) → (part w, a) ∈ tensorArrays view native t)
    (hl : ∀ l ∈ b.samples :: b.components, l.InMemory ∧ ShortHeader np (labelsArray native l))
    (hp : withProperties = true → b.properties.InMemory ∧ ShortHeader np (labelsArray native b.properties))
    (hd : CompleteArray np (view b.data) ∧ ShortHeader np (view b.data)) :
    PyContains wrap native np archive (fun a a' => view a' = view a) b part withProperties := by
  obtain ⟨dims, hdims, -⟩ := hb.shape
  refine ⟨⟨view b.data, npGet_pySave hv hs h (hm _ _ .data (by simp)) fun _ hb => npRead_npWrite hnp hd.1 hd.2 hb, ?_, ?_⟩,
    ?_, ?_, ?_⟩
  · rw [hdims, ha.shape _ _ hdims]
  · exact ha.wrap_view _
  · have := hl b.samples (by simp)
    exact labelsAt_pySave hnp hv hs h (hm _ _ .samples (by simp)) hb.wf.samples this.1 this.2
  · intro k c hc
    have hmem := List.mem_of_getElem? hc
    have := hl c (by simp [hmem])
    exact labelsAt_pySave hnp hv hs h (hm _ _ (.component hc) (by simp)) (hb.wf.components c hmem) this.1 this.2
  · intro hw
    have := hp hw
    exact labelsAt_pySave hnp hv hs h (hm _ _ .properties fun _ => hw) hb.wf.properties this.1 this.2

/-! ### Files written by numpy, loaded by the library -/

theorem contains_of_arrays {py : PyLiteral} {build : Build} {t : TensorMap A} (hw : ReadBy np.text py []) (hv : TensorValid t)
    (hs : t.blocks.length ≤ 18446744073709551616) (h : pySave view native np t = .ok archive) {b : BasicBlock A}
    {part : What → Part} {withProperties : Bool} (hb : BasicValid b) (hst : BasicStorable b)
    (hm : ∀ w a, WhatArray view native b w a → (w = .properties → withProperties = true) → (part w, a) ∈ tensorArrays view native t)
    (hd : ∀ dims elements, Readable b.data dims elements → ∃ order, view b.data = arrayOfData order dims elements) :
    Contains build py archive b (fun w => (part w).name) withProperties := by
  have hl : ∀ {w l}, l.WF → l.InMemory → WhatArray view native b w (labelsArray native l) →
      (w = .properties → withProperties = true) →
      ∃ bytes, archive.byName (part w).name = .ok bytes ∧ readNpyLabels build py bytes = .ok l := by
    intro w l hl hi hwa hp
    obtain ⟨bytes, h1, h2⟩ := pySave_byName hv hs h (hm _ _ hwa hp)
    exact ⟨bytes, h2, readNpyLabels_npWrite hw hl hi h1⟩
  refine ⟨?_, hl hb.wf.samples (hst.labels _ (by simp)) .samples (by simp), ?_,
    fun hp => hl hb.wf.properties (hst.labels _ (by simp)) .properties fun _ => hp⟩
  · intro dims elements hr
    obtain ⟨order, ho⟩ := hd dims elements hr
    obtain ⟨bytes, h1, h2⟩ := pySave_byName hv hs h (hm _ _ .data (by simp))
    rw [ho] at h1
    exact ⟨bytes, h2, readData_npWrite hw hr.memory hr.length h1⟩
  · intro k c hk
    have hmem := List.mem_of_getElem? hk
    exact hl (hb.wf.components c hmem) (hst.labels c (by simp [hmem])) (.component hk) (by simp)

/-! ### Files written by the library, loaded with numpy -/

theorem npGet_save {py : PyLiteral} {build : Build} {hash : HashOrder} {t : TensorMap A} (hv : TensorValid t)
    (h : save build py native hash t = .ok archive) {part : Part} {r : Res Bytes}
    (hm : (part, r) ∈ tensorItems build py native hash t) {x : NpArray}
    (hx : ∀ bytes, r = .ok bytes → npRead np bytes = some x) : npGet np archive (Part.key part) = .ok x := by
  have hn : ∀ b ∈ t.blocks, b.GradientsNodup := fun b hb => (hv.blocks b hb).names
  obtain ⟨bytes, h1, h2⟩ := save_byName hn h hm
  refine npGet_key ?_ h2 (hx bytes h1)
  intro name hname
  rw [save_names h, List.mem_map] at hname
  obtain ⟨part', -, rfl⟩ := hname
  exact ⟨part', rfl⟩

theorem npRead_writeNpyLabels {py : PyLiteral} {build : Build} (hnp : LawfulNumpy np) (hpy : LawfulPy py)
    (hw : ReadBy py np.text ['\n']) {l : Labels} (hl : l.WF) (hm : l.InMemory)
    (hh : ShortHeaderBy py np (labelsArray native l)) {bytes : Bytes} (h : writeNpyLabels build py native l = .ok bytes) :
    npRead np bytes = some (labelsArray native l) := by
  rw [writeNpyLabels_eq hpy hl] at h
  obtain ⟨header, h1, h2⟩ := Res.bind_eq_ok.1 h
  simp only [Res.ok.injEq] at h2
  subst h2
  have hc := arrayOfLabels_complete hnp native hl hm
  have := npRead_toBytes (itemsize := 4 * l.names.length) (body := (labelsArray native l).memory) hw hc.descr h1 hh hc.shape
    hc.itemsize hc.memory []
  rw [List.append_nil] at this
  rw [hl.values_eq]
  exact this

theorem npRead_writeData {py : PyLiteral} {build : Build} (hnp : LawfulNumpy np) (hpy : LawfulPy py)
    (hw : ReadBy py np.text ['\n']) {array : A} {dims : List Nat} {elements : List Elt} (hr : Readable array dims elements)
    (hh : ShortHeaderBy py np (arrayOfData native dims elements)) {bytes : Bytes} (h : writeData build py native array = .ok bytes) :
    npRead np bytes = some (arrayOfData native dims elements) := by
  rw [writeData_eq hpy hr.shape hr.data] at h
  obtain ⟨header, h1, h2⟩ := Res.bind_eq_ok.1 h
  simp only [Res.ok.injEq] at h2
  subst h2
  have := npRead_toBytes (itemsize := 8) (body := (arrayOfData native dims elements).memory) hw (f8_ascii native) h1 hh
    (dims_lt hr.memory) (hnp.data native) (by
      have := dataBody_length native elements
      rw [hr.length] at this
      show (dataBody native elements).length = shapeSize dims * 8
      omega) []
  rw [List.append_nil] at this
  exact this

theorem pyContains_of_items {py : PyLiteral} {build : Build} {hash : HashOrder} {wrap : NpArray → B} {t : TensorMap A}
    (hnp : LawfulNumpy np) (hpy : LawfulPy py) (hw : ReadBy py np.text ['\n']) (hv : TensorValid t)
    (h : save build py native hash t = .ok archive) {b : BasicBlock A}
    {part : What → Part} {withProperties : Bool} (hb : BasicValid b) (hst : BasicStorable b)
    (hm : ∀ w r, WhatItem build py native b w r → (w = .properties → withProperties = true) →
      (part w, r) ∈ tensorItems build py native hash t)
    (hl : ∀ l ∈ b.samples :: b.components, ShortHeaderBy py np (labelsArray native l))
    (hp : withProperties = true → ShortHeaderBy py np (labelsArray native b.properties))
    (hd : ∀ dims elements, Readable b.data dims elements → ShortHeaderBy py np (arrayOfData native dims elements)) :
    PyContains wrap native np archive
      (fun a a' => ∃ dims elements, Readable a dims elements ∧ a' = wrap (arrayOfData native dims elements)) b part withProperties := by
  have hlabels : ∀ {w l}, l.WF → l.InMemory → ShortHeaderBy py np (labelsArray native l) →
      WhatItem build py native b w (writeNpyLabels build py native l) →
      (w = .properties → withProperties = true) → LabelsAt native np archive (part w) l := by
    intro w l hl hi hh hwa hp
    exact ⟨_, npGet_save hv h (hm _ _ hwa hp) fun _ hb => npRead_writeNpyLabels hnp hpy hw hl hi hh hb,
      labelsFromNpz_eq native hl⟩
  refine ⟨?_, hlabels hb.wf.samples (hst.labels _ (by simp)) (hl _ (by simp)) .samples (by simp), ?_,
    fun hw => hlabels hb.wf.properties (hst.labels _ (by simp)) (hp hw) .properties fun _ => hw⟩
  · obtain ⟨dims, elements, hr⟩ := hst.data
    exact ⟨_, npGet_save hv h (hm _ _ .data (by simp)) fun _ hb => npRead_writeData hnp hpy hw hr (hd _ _ hr) hb,
      hr.shape, dims, elements, hr, rfl⟩
  · intro k c hk
    have hmem := List.mem_of_getElem? hk
    exact hlabels (hb.wf.components c hmem) (hst.labels c (by simp [hmem])) (hl c (by simp [hmem])) (.component hk) (by simp)

theorem save_pyParameters {py : PyLiteral} {build : Build} {hash : HashOrder} {t : TensorMap A}
    (h : save build py native hash t = .ok archive) : (pyGradientParameters archive).Perm (firstParameters t) := by
  rw [pyGradientParameters_parts (save_names h)]
  exact tensorItems_parameter t

end Equistore
