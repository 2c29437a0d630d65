import Verif.Lemmas.NpyValues

/-! Complete, truncated and extended NPY files. -/

namespace Equistore
open Spec

/-! ### Truncated headers -/

/-- The error for a file which is too short. -/
abbrev truncated : Error := .io "failed to fill whole buffer"

theorem readExact_short {n : Nat} {r : Bytes} (h : r.length < n) : readExact n r = .err truncated := by
  unfold readExact
  rw [if_neg (by omega)]

theorem prefix_split {α : Type} {p a b : List α} (h : p <+: a ++ b) :
    p.length < a.length ∨ ∃ p', p = a ++ p' ∧ p' <+: b := by
  by_cases hl : p.length < a.length
  · exact .inl hl
  · right
    obtain ⟨t, ht⟩ := h
    have h1 : a <+: p := List.prefix_of_prefix_length_le (l₃ := a ++ b) ⟨b, rfl⟩ ⟨t, ht⟩ (by omega)
    obtain ⟨p', rfl⟩ := h1
    refine ⟨p', rfl, t, ?_⟩
    rw [List.append_assoc] at ht
    exact List.append_cancel_left ht

/-- A header is read from the bytes at the start of a file: anything can come after it, and all of it is needed. -/
theorem fromReader_used {py : PyLiteral} {r : Bytes} {h : NpyHeader} {rest : Bytes}
    (hr : NpyHeader.fromReader py r = .ok (h, rest)) :
    ∃ used, r = used ++ rest ∧ (∀ x, NpyHeader.fromReader py (used ++ x) = .ok (h, x)) ∧
      ∀ p, p <+: used → p ≠ used → NpyHeader.fromReader py p = .err truncated := by
  have hr' := hr
  unfold NpyHeader.fromReader NpyVersion.readHeaderLen at hr'
  simp only [Res.bind_eq_ok, Res.guardErr_eq_ok, Res.okOr_eq_ok, Prod.exists, readExact_eq_ok, Res.pure_eq,
    Res.ok.injEq, Prod.mk.injEq, exists_and_left, exists_eq_left, and_assoc] at hr'
  obtain ⟨a, r1, rfl, ha, hma, -, b, r2, rfl, hb, v, hv, n, r4, ⟨c, r3, rfl, hc, rfl, rfl⟩, d, r5, rfl, hd, hnl, -,
    s, hs, value, hval, header, hh, rfl, rfl⟩ := hr'
  refine ⟨a ++ (b ++ (c ++ d)), by simp only [List.append_assoc], ?_, ?_⟩
  · intro x
    simp only [List.append_assoc]
    unfold NpyHeader.fromReader NpyVersion.readHeaderLen
    rw [readExact_append ha]
    simp only [Res.ok_bind]
    rw [hma, Res.guardErr_true]
    simp only [Res.ok_bind]
    rw [readExact_append hb]
    simp only [Res.ok_bind]
    rw [hv]
    simp only [Res.ok_bind]
    rw [readExact_append hc]
    simp only [Res.ok_bind, Res.pure_eq]
    rw [readExact_append hd]
    simp only [Res.ok_bind]
    rw [hnl, hs]
    simp only [Res.guardErr_true, Res.ok_bind, hval, Res.okOr, hh]
  · intro p hp hne
    unfold NpyHeader.fromReader NpyVersion.readHeaderLen
    rcases prefix_split hp with hl | ⟨p1, rfl, hp1⟩
    · rw [readExact_short (by rw [← ha]; exact hl)]; rfl
    rw [readExact_append ha]
    simp only [Res.ok_bind]
    rw [hma, Res.guardErr_true]
    simp only [Res.ok_bind]
    rcases prefix_split hp1 with hl | ⟨p2, rfl, hp2⟩
    · rw [readExact_short (by rw [← hb]; exact hl)]; rfl
    rw [readExact_append hb]
    simp only [Res.ok_bind]
    rw [hv]
    simp only [Res.ok_bind]
    rcases prefix_split hp2 with hl | ⟨p3, rfl, hp3⟩
    · rw [readExact_short (by rw [← hc]; exact hl)]; rfl
    rw [readExact_append hc]
    simp only [Res.ok_bind, Res.pure_eq]
    rw [readExact_short]
    · rfl
    · rw [← hd]
      refine Nat.lt_of_le_of_ne hp3.length_le fun hl => hne ?_
      rw [hp3.eq_of_length hl]

/-! ### Labels -/

theorem checkForExtraBytes_nil : checkForExtraBytes [] = .ok () := rfl

theorem checkForExtraBytes_cons {extra : Bytes} (h : extra ≠ []) :
    ∃ m, checkForExtraBytes extra = .err (.serialization m) := by
  cases extra with
  | nil => exact absurd rfl h
  | cons b extra => exact ⟨_, rfl⟩

theorem labelsHeader_bytes {build : Build} {py : PyLiteral} {e : Endian} {names : List String} {count : Nat}
    {bytes : Bytes} (hpy : LawfulPy py) (hc : count < usizeSize)
    (h : (labelsHeader e names count).toBytes build py = .ok bytes) (rest : Bytes) :
    NpyHeader.fromReader py (bytes ++ rest) = .ok (labelsHeader e names count, rest) := by
  refine toBytes_ok hpy (labelsType_plain e names) ?_ h rest
  intro n hn
  have : n = count := by simpa [labelsHeader] using hn
  omega

theorem Labels.Holds.values_length {l : Labels} {names : List String} {rows : List (List LabelValue)}
    (h : l.Holds names rows) : l.values.length = rows.length * names.length := by
  rw [h.values_eq, flatten_length_const h.row_length]

theorem Labels.Holds.rows_lt {l : Labels} {names : List String} {rows : List (List LabelValue)}
    (h : l.Holds names rows) (hm : l.InMemory) : rows.length < usizeSize := by
  have h1 : isizeMax = 2 ^ 63 - 1 := rfl
  have h2 : usizeSize = 2 ^ 64 := rfl
  have h3 := h.values_length
  have h4 := Nat.le_mul_of_pos_right rows.length h.names_pos
  unfold Labels.InMemory at hm
  omega

/-- What is read after a header for labels. -/
theorem readNpyLabels_body {build : Build} {py : PyLiteral} {e : Endian} {l : Labels} {names : List String}
    {rows : List (List LabelValue)} (h : l.Holds names rows) (hm : l.InMemory) {reader : Bytes} {extra : Bytes}
    (hr : NpyHeader.fromReader py reader = .ok (labelsHeader e names rows.length, labelsBody e l.values ++ extra)) :
    readNpyLabels build py reader = (do checkForExtraBytes extra; .ok l) := by
  have hne : names ≠ [] := by
    rintro rfl
    exact absurd h.names_pos (by simp)
  have hv := h.values_length
  have hmem : rows.length * names.length * 4 ≤ isizeMax := by
    unfold Labels.InMemory at hm
    omega
  rw [readNpyLabels_eq hne hmem hr, readExact_append (by rw [labelsBody_length, hv])]
  simp only [Res.ok_bind]
  rw [decode_labelsBody, h.values_eq, chunksExact_flatten h.names_pos h.row_length,
    (Labels.build_eq_ok h.names_pos).2 h]

theorem readNpyLabels_short {build : Build} {py : PyLiteral} {e : Endian} {l : Labels} {names : List String}
    {rows : List (List LabelValue)} (h : l.Holds names rows) (hm : l.InMemory) {reader : Bytes} {rest : Bytes}
    (hr : NpyHeader.fromReader py reader = .ok (labelsHeader e names rows.length, rest))
    (hs : rest.length < (labelsBody e l.values).length) :
    readNpyLabels build py reader = .err truncated := by
  have hne : names ≠ [] := by
    rintro rfl
    exact absurd h.names_pos (by simp)
  have hv := h.values_length
  have hmem : rows.length * names.length * 4 ≤ isizeMax := by
    unfold Labels.InMemory at hm
    omega
  rw [readNpyLabels_eq hne hmem hr, readExact_short (by rw [← hv, ← labelsBody_length e]; exact hs)]
  rfl

theorem readNpyLabels_err {build : Build} {py : PyLiteral} {reader : Bytes} {er : Error}
    (h : NpyHeader.fromReader py reader = .err er) : readNpyLabels build py reader = .err er := by
  unfold readNpyLabels
  rw [h]
  rfl

theorem readData_err {build : Build} {py : PyLiteral} {reader : Bytes} {er : Error}
    (h : NpyHeader.fromReader py reader = .err er) : readData build py reader = .err er := by
  unfold readData
  rw [h]
  rfl

/-- Reading written labels, whatever comes after them. -/
theorem readNpyLabels_written {build build' : Build} {py : PyLiteral} {e : Endian} {l : Labels} {bytes : Bytes}
    (hpy : LawfulPy py) (hl : l.WF) (hm : l.InMemory) (hw : writeNpyLabels build py e l = .ok bytes) (extra : Bytes) :
    readNpyLabels build' py (bytes ++ extra) = (do checkForExtraBytes extra; .ok l) := by
  rw [writeNpyLabels_eq hpy hl] at hw
  obtain ⟨hb, h1, h2⟩ := Res.bind_eq_ok.1 hw
  simp only [Res.ok.injEq] at h2
  subst h2
  rw [List.append_assoc]
  exact readNpyLabels_body hl hm (labelsHeader_bytes hpy (hl.rows_lt hm) h1 _)

theorem readNpyLabels_truncated {build build' : Build} {py : PyLiteral} {e : Endian} {l : Labels} {bytes p : Bytes}
    (hpy : LawfulPy py) (hl : l.WF) (hm : l.InMemory) (hw : writeNpyLabels build py e l = .ok bytes)
    (hp : p <+: bytes) (hne : p ≠ bytes) : readNpyLabels build' py p = .err truncated := by
  rw [writeNpyLabels_eq hpy hl] at hw
  obtain ⟨hb, h1, h2⟩ := Res.bind_eq_ok.1 hw
  simp only [Res.ok.injEq] at h2
  subst h2
  have hr := labelsHeader_bytes hpy (hl.rows_lt hm) h1
  obtain ⟨used, hu1, -, hu3⟩ := fromReader_used (hr [])
  rw [List.append_nil, List.append_nil] at hu1
  subst hu1
  rcases prefix_split hp with hlt | ⟨p', rfl, hp'⟩
  · refine readNpyLabels_err (hu3 p ?_ fun h => by rw [h] at hlt; omega)
    exact List.prefix_of_prefix_length_le hp ⟨_, rfl⟩ (by omega)
  · refine readNpyLabels_short hl hm (hr p') ?_
    refine Nat.lt_of_le_of_ne hp'.length_le fun h => hne ?_
    rw [hp'.eq_of_length h]

/-! ### Data -/

theorem dataHeader_bytes {build : Build} {py : PyLiteral} {e : Endian} {shape : List Nat}
    {bytes : Bytes} (hpy : LawfulPy py) (hs : ShapeInMemory shape)
    (h : (dataHeader e shape).toBytes build py = .ok bytes) (rest : Bytes) :
    NpyHeader.fromReader py (bytes ++ rest) = .ok (dataHeader e shape, rest) := by
  refine toBytes_ok hpy (.string _) ?_ h rest
  intro n hn
  have h1 : isizeMax = 2 ^ 63 - 1 := rfl
  have h2 : usizeSize = 2 ^ 64 := rfl
  have h3 := mem_le_filterSize (shape := shape) hn
  have h4 := hs.dimensions
  omega

theorem readData_body {build : Build} {py : PyLiteral} {e : Endian} {shape : List Nat} {elements : List Elt}
    (hs : ShapeInMemory shape) (hl : elements.length = shapeSize shape) {reader : Bytes} {extra : Bytes}
    (hr : NpyHeader.fromReader py reader = .ok (dataHeader e shape, dataBody e elements ++ extra)) :
    readData build py reader = (do checkForExtraBytes extra; .ok { shape, elements }) := by
  have h1 := dimensionSize_eq build (shape := shape) (size := 1) (by rw [Nat.one_mul]; exact hs.dimensions)
  rw [Nat.one_mul] at h1
  rw [readData_eq h1 (by have := hs.elements; omega) hr, readExact_append (by rw [dataBody_length, hl])]
  simp only [Res.ok_bind]
  rw [decode_dataBody, fromShapeVec, if_pos ⟨hs.dimensions, hl⟩]
  rfl

theorem readData_short {build : Build} {py : PyLiteral} {e : Endian} {shape : List Nat} {elements : List Elt}
    (hs : ShapeInMemory shape) (hl : elements.length = shapeSize shape) {reader : Bytes} {rest : Bytes}
    (hr : NpyHeader.fromReader py reader = .ok (dataHeader e shape, rest))
    (hlt : rest.length < (dataBody e elements).length) :
    readData build py reader = .err truncated := by
  have h1 := dimensionSize_eq build (shape := shape) (size := 1) (by rw [Nat.one_mul]; exact hs.dimensions)
  rw [Nat.one_mul] at h1
  rw [readData_eq h1 (by have := hs.elements; omega) hr,
    readExact_short (by rw [← hl, ← dataBody_length e]; exact hlt)]
  rfl

section
variable {A : Type} [ArrayLike A]

theorem readData_written {build build' : Build} {py : PyLiteral} {e : Endian} {array : A} {bytes : Bytes}
    {shape : List Nat} {elements : List Elt} (hpy : LawfulPy py) (ha : ArrayLike.shape array = .ok shape)
    (hd : ArrayLike.data array = .ok elements) (hs : ShapeInMemory shape) (hl : elements.length = shapeSize shape)
    (hw : writeData build py e array = .ok bytes) (extra : Bytes) :
    readData build' py (bytes ++ extra) = (do checkForExtraBytes extra; .ok { shape, elements }) := by
  rw [writeData_eq hpy ha hd] at hw
  obtain ⟨hb, h1, h2⟩ := Res.bind_eq_ok.1 hw
  simp only [Res.ok.injEq] at h2
  subst h2
  rw [List.append_assoc]
  exact readData_body hs hl (dataHeader_bytes hpy hs h1 _)

theorem readData_truncated {build build' : Build} {py : PyLiteral} {e : Endian} {array : A} {bytes p : Bytes}
    {shape : List Nat} {elements : List Elt} (hpy : LawfulPy py) (ha : ArrayLike.shape array = .ok shape)
    (hd : ArrayLike.data array = .ok elements) (hs : ShapeInMemory shape) (hl : elements.length = shapeSize shape)
    (hw : writeData build py e array = .ok bytes)
    (hp : p <+: bytes) (hne : p ≠ bytes) : readData build' py p = .err truncated := by
  rw [writeData_eq hpy ha hd] at hw
  obtain ⟨hb, h1, h2⟩ := Res.bind_eq_ok.1 hw
  simp only [Res.ok.injEq] at h2
  subst h2
  have hr := dataHeader_bytes hpy hs h1
  obtain ⟨used, hu1, -, hu3⟩ := fromReader_used (hr [])
  rw [List.append_nil, List.append_nil] at hu1
  subst hu1
  rcases prefix_split hp with hlt | ⟨p', rfl, hp'⟩
  · refine readData_err (hu3 p ?_ fun h => by rw [h] at hlt; omega)
    exact List.prefix_of_prefix_length_le hp ⟨_, rfl⟩ (by omega)
  · refine readData_short hs hl (hr p') ?_
    refine Nat.lt_of_le_of_ne hp'.length_le fun h => hne ?_
    rw [hp'.eq_of_length h]

end

/-! ### Arbitrary files -/

/-- The error for a type which is not a type for labels. -/
abbrev invalidType : Error := .serialization "invalid dtype for labels"

/-- The element of a type for one name. -/
def labelsElement (name : List Char) (e : Endian) : PyValue := .tuple [.string name, .string e.i4.toList]

theorem checkTypeLoop_cases (v : PyValue) (list : List PyValue) (ns : List String) (o : Option Endian) :
    (∃ name e, v = labelsElement name e ∧ (o = none ∨ o = some e) ∧
      checkTypeLoop (v :: list) ns o = checkTypeLoop list (ns ++ [String.ofList name]) (some e)) ∨
    ((∀ name e, v = labelsElement name e → ¬ (o = none ∨ o = some e)) ∧
      checkTypeLoop (v :: list) ns o = .err invalidType) := by
  by_cases h : ∃ name e, v = labelsElement name e ∧ (o = none ∨ o = some e)
  · obtain ⟨name, e, rfl, ho⟩ := h
    refine .inl ⟨name, e, rfl, ho, ?_⟩
    have := checkTypeLoop_cons e (String.ofList name) list ns ho
    rw [String.toList_ofList] at this
    exact this
  · have h' : ∀ name e, v = labelsElement name e → ¬ (o = none ∨ o = some e) :=
      fun name e hv ho => h ⟨name, e, hv, ho⟩
    refine .inr ⟨h', ?_⟩
    have h1 : ¬ ">i4".toList = "<i4".toList := by decide
    unfold checkTypeLoop
    split
    · next name typ =>
      by_cases ht : typ = "<i4".toList
      · have hno := h' name .little (by rw [ht]; rfl)
        rw [not_or] at hno
        have hn : o.isNone = false := by
          cases o with
          | none => exact absurd rfl hno.1
          | some _ => rfl
        simp only [hn, Bool.false_eq_true, if_false, if_pos ht, ne_eq, hno.2, not_false_eq_true, if_true]
      · by_cases ht' : typ = ">i4".toList
        · have hno := h' name .big (by rw [ht']; rfl)
          rw [not_or] at hno
          have hn : o.isNone = false := by
            cases o with
            | none => exact absurd rfl hno.1
            | some _ => rfl
          simp only [hn, Bool.false_eq_true, if_false, if_neg ht, if_pos ht', ne_eq, hno.2, not_false_eq_true, if_true]
        · simp only [if_neg ht, if_neg ht']
    · rfl

theorem checkTypeLoop_length {list : List PyValue} {ns ns' : List String} {o o' : Option Endian}
    (h : checkTypeLoop list ns o = .ok (ns', o')) : ns.length + list.length = ns'.length := by
  induction list generalizing ns o with
  | nil =>
    simp only [checkTypeLoop, Res.ok.injEq, Prod.mk.injEq] at h
    rw [h.1]; rfl
  | cons v list ih =>
    rcases checkTypeLoop_cases v list ns o with ⟨name, e, -, -, h'⟩ | ⟨-, h'⟩
    · rw [h'] at h
      have := ih h
      rw [List.length_append, List.length_singleton] at this
      rw [List.length_cons]
      omega
    · rw [h'] at h
      simp at h

/-- Labels read from any file are valid. -/
theorem readNpyLabels_build {build : Build} {py : PyLiteral} {reader : Bytes} {l : Labels}
    (h : readNpyLabels build py reader = .ok l) : ∃ names entries, 0 < names.length ∧ Labels.build names entries = .ok l := by
  unfold readNpyLabels at h
  simp only [Res.bind_eq_ok, Prod.exists] at h
  obtain ⟨header, r1, -, -, -, -, -, names, e, hn, rows, hrows, count, -, -, -, bytes, r2, -, -, -, b, hb, b', hb', h⟩ := h
  refine ⟨names, chunksExact names.length ((decodeAll e 4 bytes).map fun n => Int32.ofNat n), ?_, ?_⟩
  · generalize header.typeDescriptor = descriptor at hn
    unfold checkTypeDescriptor at hn
    split at hn
    · next list =>
      simp only [Res.bind_eq_ok, Prod.exists, Res.expect_eq_ok, Res.pure_eq, Res.ok.injEq, Prod.mk.injEq] at hn
      obtain ⟨names', o, hloop, e', he', rfl, rfl⟩ := hn
      subst he'
      cases list with
      | nil => simp [checkTypeLoop] at hloop
      | cons v list =>
        have := checkTypeLoop_length hloop
        simp only [List.length_cons] at this
        omega
    · simp at hn
  · unfold Labels.build
    rw [hb]
    simp only [Res.ok_bind]
    rw [hb']
    exact h

theorem readNpyLabels_wf {build : Build} {py : PyLiteral} {reader : Bytes} {l : Labels}
    (h : readNpyLabels build py reader = .ok l) : l.WF := by
  obtain ⟨names, entries, hpos, hb⟩ := readNpyLabels_build h
  exact ((Labels.build_eq_ok hpos).1 hb).wf

theorem readData_ok {build : Build} {py : PyLiteral} {reader : Bytes} {a : NdArray}
    (h : readData build py reader = .ok a) : a.elements.length = shapeSize a.shape := by
  have key : ∀ {shape : List Nat} {data : List Elt}, fromShapeVec shape data = some a →
      a.elements.length = shapeSize a.shape := by
    intro shape data h
    unfold fromShapeVec at h
    split at h
    · next hc =>
      simp only [Option.some.injEq] at h
      subst h
      exact hc.2
    · simp at h
  unfold readData at h
  simp only [Res.bind_eq_ok, Prod.exists] at h
  obtain ⟨header, r1, -, -, -, size, -, -, -, h⟩ := h
  split at h
  · split at h
    · simp only [Res.bind_eq_ok, Prod.exists, Res.expect_eq_ok] at h
      obtain ⟨_, _, _, _, _, _, -, -, h⟩ := h
      exact key h
    · split at h
      · simp only [Res.bind_eq_ok, Prod.exists, Res.expect_eq_ok] at h
        obtain ⟨_, _, _, _, _, _, -, -, h⟩ := h
        exact key h
      · simp at h
  · simp at h

end Equistore
