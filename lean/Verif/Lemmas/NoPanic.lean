import Verif.Lemmas.Load
import Verif.Lemmas.Components

/-! When reading files does not panic. -/

namespace Equistore
open Spec

/-- An outcome which is not a panic. -/
def Res.NoPanic {α : Type} (r : Res α) : Prop := ∀ m, r ≠ .panic m

namespace Res.NoPanic
variable {α β : Type}

theorem ok (a : α) : (Res.ok a).NoPanic := by intro m h; simp at h
theorem err (e : Error) : (Res.err e : Res α).NoPanic := by intro m h; simp at h
theorem pure (a : α) : (Pure.pure a : Res α).NoPanic := ok a

theorem bind {x : Res α} {f : α → Res β} (hx : x.NoPanic) (hf : ∀ a, x = .ok a → (f a).NoPanic) :
    (x >>= f).NoPanic := by
  intro m h
  rcases Res.bind_eq_panic.1 h with h | ⟨a, h1, h2⟩
  · exact hx m h
  · exact hf a h1 m h2

theorem guardErr (c : Bool) (e : Error) : (Res.guardErr c e).NoPanic := by
  intro m h; simp at h

theorem okOr (x : Option α) (e : Error) : (Res.okOr x e).NoPanic := by
  intro m h; simp at h

theorem of_ok {r : Res α} {a : α} (h : r = .ok a) : r.NoPanic := by rw [h]; exact ok a

theorem mapM {f : α → Res β} {l : List α} (h : ∀ a ∈ l, (f a).NoPanic) : (l.mapM f).NoPanic := by
  induction l with
  | nil => exact ok _
  | cons a l ih =>
    rw [List.mapM_cons]
    exact bind (h a List.mem_cons_self) fun _ _ =>
      bind (ih fun b hb => h b (List.mem_cons_of_mem _ hb)) fun _ _ => pure _

end Res.NoPanic

open Res (NoPanic)
variable {build : Build} {py : PyLiteral} {archive : Archive}

theorem readExact_noPanic (n : Nat) (r : Bytes) : (readExact n r).NoPanic := by
  unfold readExact
  split
  · exact .ok _
  · exact .err _

theorem readEntries_noPanic (dict : List (PyValue × PyValue)) (found) :
    (NpyHeader.readEntries dict found).NoPanic := by
  induction dict generalizing found with
  | nil => exact .ok _
  | cons e dict ih =>
    obtain ⟨key, value⟩ := e
    obtain ⟨d, f, s⟩ := found
    unfold NpyHeader.readEntries
    split
    · split
      · exact ih _
      · split
        · split
          · exact ih _
          · exact .err _
        · split
          · split
            · exact ih _
            · exact .err _
          · exact .err _
    · exact .err _

theorem fromPyValue_noPanic (v : PyValue) : (NpyHeader.fromPyValue v).NoPanic := by
  unfold NpyHeader.fromPyValue
  split
  · refine .bind (readEntries_noPanic _ _) fun a _ => ?_
    split
    · exact .ok _
    · exact .err _
    · exact .err _
    · exact .err _
  · exact .err _

/-- Reading a header never panics. -/
theorem fromReader_noPanic (py : PyLiteral) (r : Bytes) : (NpyHeader.fromReader py r).NoPanic := by
  unfold NpyHeader.fromReader NpyVersion.readHeaderLen
  refine .bind (readExact_noPanic _ _) fun _ _ => ?_
  refine .bind (.guardErr _ _) fun _ _ => ?_
  refine .bind (readExact_noPanic _ _) fun _ _ => ?_
  refine .bind ?_ fun _ _ => ?_
  · unfold NpyVersion.fromBytes
    split
    · exact .ok _
    · exact .ok _
    · exact .ok _
    · exact .err _
  refine .bind (.bind (readExact_noPanic _ _) fun _ _ => .pure _) fun _ _ => ?_
  refine .bind (readExact_noPanic _ _) fun _ _ => ?_
  refine .bind (.guardErr _ _) fun _ _ => ?_
  refine .bind ?_ fun _ _ => ?_
  · unfold NpyHeader.headerString
    split
    · split
      · exact .ok _
      · exact .err _
    · split
      · exact .ok _
      · exact .err _
    · exact .okOr _ _
  refine .bind (.okOr _ _) fun _ _ => ?_
  exact .bind (fromPyValue_noPanic _) fun _ _ => .pure _

theorem checkTypeLoop_noPanic (list : List PyValue) (ns : List String) (o : Option Endian) :
    (checkTypeLoop list ns o).NoPanic := by
  induction list generalizing ns o with
  | nil => exact .ok _
  | cons v list ih =>
    rcases checkTypeLoop_cases v list ns o with ⟨name, e, -, -, h⟩ | ⟨-, h⟩
    · rw [h]; exact ih _ _
    · rw [h]; exact .err _

theorem checkTypeLoop_fields {list : List PyValue} {ns ns' : List String} {o o' : Option Endian}
    (h : checkTypeLoop list ns o = .ok (ns', o')) :
    ns' = ns ++ list.filterMap fieldName ∧ (list ≠ [] ∨ o.isSome = true → o'.isSome = true) := by
  induction list generalizing ns o with
  | nil =>
    simp only [checkTypeLoop, Res.ok.injEq, Prod.mk.injEq] at h
    obtain ⟨rfl, rfl⟩ := h
    simp
  | cons v list ih =>
    rcases checkTypeLoop_cases v list ns o with ⟨name, e, rfl, -, hv⟩ | ⟨-, hv⟩
    · rw [hv] at h
      obtain ⟨h1, h2⟩ := ih h
      refine ⟨?_, fun _ => h2 (.inr rfl)⟩
      rw [h1, List.append_assoc]
      rfl
    · rw [hv] at h; simp at h

theorem checkTypeDescriptor_noPanic {v : PyValue} (h : v ≠ .list []) : (checkTypeDescriptor v).NoPanic := by
  unfold checkTypeDescriptor
  split
  · next list =>
    refine .bind (checkTypeLoop_noPanic _ _ _) fun a ha => ?_
    obtain ⟨ns, o⟩ := a
    have hne : list ≠ [] := by rintro rfl; exact h rfl
    obtain ⟨e, rfl⟩ := Option.isSome_iff_exists.1 ((checkTypeLoop_fields ha).2 (.inl hne))
    exact .ok _
  · exact .err _

theorem checkTypeDescriptor_fields {v : PyValue} {names : List String} {e : Endian}
    (h : checkTypeDescriptor v = .ok (names, e)) :
    ∃ fields, v = .list fields ∧ names = fields.filterMap fieldName ∧ names.length = fields.length := by
  unfold checkTypeDescriptor at h
  split at h
  · next list =>
    simp only [Res.bind_eq_ok, Prod.exists, Res.pure_eq, Res.ok.injEq, Prod.mk.injEq] at h
    obtain ⟨ns, o, h1, e', -, rfl, -⟩ := h
    refine ⟨list, rfl, ?_, ?_⟩
    · have := (checkTypeLoop_fields h1).1
      simpa using this
    · have := checkTypeLoop_length h1
      simp at this
      exact this.symm
  · simp at h

theorem usizeMul_ok {a b : Nat} (h : a * b < usizeSize) : usizeMul build a b = .ok (a * b) := by
  unfold usizeMul
  rw [if_pos h]

theorem readNpyLabels_noPanic_of_sound {file : Bytes} (h : SoundLabels py file) : (readNpyLabels build py file).NoPanic := by
  unfold readNpyLabels
  refine .bind (fromReader_noPanic _ _) fun a ha => ?_
  obtain ⟨header, rest⟩ := a
  have hs := h header rest ha
  refine .bind (.guardErr _ _) fun _ _ => ?_
  refine .bind (.guardErr _ _) fun _ hl => ?_
  refine .bind (checkTypeDescriptor_noPanic ?_) fun b hb => ?_
  · intro he; exact (hs [] he).1 rfl
  obtain ⟨names, e⟩ := b
  obtain ⟨fields, hf, hn, hlen⟩ := checkTypeDescriptor_fields hb
  obtain ⟨h1, h2, h3, h4, h5⟩ := hs fields hf
  simp only [Res.guardErr_eq_ok, beq_iff_eq] at hl
  obtain ⟨n, hshape⟩ := List.length_eq_one_iff.1 hl
  have hsize := h4 n (by rw [hshape]; exact List.mem_cons_self)
  have hmax : isizeMax = 2 ^ 63 - 1 := rfl
  have husize : usizeSize = 2 ^ 64 := rfl
  have hrow : Res.expect header.shape[0]? "index out of bounds" = .ok n := by rw [hshape]; rfl
  simp only [hrow, Res.ok_bind]
  rw [hlen, usizeMul_ok (by omega), Res.ok_bind]
  have halloc : allocate (n * fields.length) 4 = .ok () := by
    unfold allocate
    rw [if_pos (by omega)]
  rw [halloc, Res.ok_bind]
  refine .bind (readExact_noPanic _ _) fun c hc => ?_
  obtain ⟨bytes, extra⟩ := c
  refine .bind (.guardErr _ _) fun _ hx => ?_
  have hx' : extra = [] := by
    simp only [checkForExtraBytes, Res.guardErr_eq_ok, beq_iff_eq] at hx
    exact List.length_eq_zero_iff.1 hx
  subst hx'
  have hrest : rest = bytes := by
    have := (readExact_eq_ok.1 hc).1
    simpa using this
  subst hrest
  have hpos : 0 < names.length := by
    rw [hlen]; exact List.length_pos_iff.2 h1
  have hbuild := (Labels.build_eq_ok (l := Labels.mk' names
    (chunksExact fields.length ((decodeAll e 4 rest).map fun n => Int32.ofNat n))) hpos).2
    (Labels.mk'_holds ⟨by rw [hn]; exact fun n hn => (isValidLabelName_iff n).2 (h2 n hn), by rw [hn]; exact h3⟩ hpos
      (fun r hr => by rw [chunksExact_row_length hr, hlen]) (h5 e))
  exact NoPanic.of_ok hbuild

theorem readData_noPanic_of_sound {file : Bytes} (h : SoundData py file) : (readData build py file).NoPanic := by
  unfold readData
  refine .bind (fromReader_noPanic _ _) fun a ha => ?_
  obtain ⟨header, rest⟩ := a
  obtain ⟨-, hm⟩ := h header rest ha
  refine .bind (.guardErr _ _) fun _ _ => ?_
  have h1 := dimensionSize_eq build (shape := header.shape) (size := 1) (by rw [Nat.one_mul]; exact hm.dimensions)
  rw [Nat.one_mul] at h1
  rw [h1, Res.ok_bind]
  have halloc : allocate (shapeSize header.shape) 8 = .ok () := by
    unfold allocate
    rw [if_pos (by have := hm.elements; omega)]
  rw [halloc, Res.ok_bind]
  have key : ∀ (e : Endian) (bytes extra : Bytes), readExact (8 * shapeSize header.shape) rest = .ok (bytes, extra) →
      (fromShapeVec header.shape ((decodeAll e 8 bytes).map (BitVec.ofNat 64))).isSome = true := by
    intro e bytes extra hb
    have hlen := (readExact_eq_ok.1 hb).2
    unfold fromShapeVec
    have hd : ((decodeAll e 8 bytes).map (BitVec.ofNat 64)).length = shapeSize header.shape := by
      rw [List.length_map, decodeAll, List.length_map, chunksExact_length, hlen, Nat.mul_div_cancel_left _ (by omega)]
    rw [if_pos ⟨hm.dimensions, hd⟩]
    rfl
  have fin : ∀ (e : Endian) (bytes extra : Bytes), readExact (8 * shapeSize header.shape) rest = .ok (bytes, extra) →
      ((do
        checkForExtraBytes extra
        Res.expect (fromShapeVec header.shape ((decodeAll e 8 bytes).map (BitVec.ofNat 64))) "invalid shape") :
        Res NdArray).NoPanic := by
    intro e bytes extra hb
    refine .bind (.guardErr _ _) fun _ _ => ?_
    obtain ⟨a, ha⟩ := Option.isSome_iff_exists.1 (key e bytes extra hb)
    rw [ha]; exact .ok _
  split
  · split
    · simp only [bind_assoc]
      refine .bind (readExact_noPanic _ _) fun c hc => ?_
      exact fin .little c.1 c.2 hc
    · split
      · simp only [bind_assoc]
        refine .bind (readExact_noPanic _ _) fun c hc => ?_
        exact fin .big c.1 c.2 hc
      · exact .bind (.err _) fun _ h => by simp at h
  · exact .bind (.err _) fun _ h => by simp at h

theorem checkTypeLoop_eq_ok {list : List PyValue} {ns ns' : List String} {o o' : Option Endian}
    (h : checkTypeLoop list ns o = .ok (ns', o')) :
    (list = [] ∧ ns' = ns ∧ o' = o) ∨
    ∃ e names, o' = some e ∧ ns' = ns ++ names ∧ names ≠ [] ∧ (o = none ∨ o = some e) ∧
      list = names.map fun name => .tuple [.string name.toList, .string e.i4.toList] := by
  induction list generalizing ns o with
  | nil =>
    simp only [checkTypeLoop, Res.ok.injEq, Prod.mk.injEq] at h
    exact .inl ⟨rfl, h.1.symm, h.2.symm⟩
  | cons v list ih =>
    rcases checkTypeLoop_cases v list ns o with ⟨name, e, rfl, ho, hv⟩ | ⟨-, hv⟩
    · rw [hv] at h
      rcases ih h with ⟨rfl, rfl, rfl⟩ | ⟨e', names, rfl, rfl, hne, ho', rfl⟩
      · exact .inr ⟨e, [String.ofList name], rfl, rfl, by simp, ho, by simp [labelsElement]⟩
      · have he : e = e' := by simpa using ho'
        subst he
        exact .inr ⟨e, String.ofList name :: names, rfl, by simp, by simp, ho, by simp [labelsElement]⟩
    · rw [hv] at h; simp at h

/-- The types of labels which are accepted. -/
theorem checkTypeDescriptor_eq_ok {v : PyValue} {names : List String} {e : Endian} :
    checkTypeDescriptor v = .ok (names, e) ↔ names ≠ [] ∧ v = labelsType e names := by
  constructor
  · intro h
    unfold checkTypeDescriptor at h
    split at h
    · simp only [Res.bind_eq_ok, Prod.exists, Res.pure_eq, Res.ok.injEq, Prod.mk.injEq] at h
      obtain ⟨ns, o, h1, e', h2, rfl, rfl⟩ := h
      rcases checkTypeLoop_eq_ok h1 with ⟨rfl, rfl, rfl⟩ | ⟨e'', names, rfl, rfl, hne, -, rfl⟩
      · simp [Res.expect] at h2
      · simp only [Res.expect, Res.ok.injEq] at h2
        subst h2
        exact ⟨by simpa using hne, by simp [labelsType]⟩
    · simp at h
  · rintro ⟨hne, rfl⟩
    exact checkTypeDescriptor_labels e hne

theorem checkTypeDescriptor_panics {v : PyValue} {m : String} (h : checkTypeDescriptor v = .panic m) : v = .list [] := by
  by_contra hne
  exact checkTypeDescriptor_noPanic hne m h

/-- Building labels panics exactly for names or rows which are not valid. -/
theorem Labels.build_panics_iff {names : List String} {rows : List (List LabelValue)} (hpos : 0 < names.length)
    (hrow : ∀ r ∈ rows, r.length = names.length) :
    (∃ m, Labels.build names rows = .panic m) ↔ ¬ ((∀ name ∈ names, Identifier name) ∧ names.Nodup ∧ rows.Nodup) := by
  constructor
  · rintro ⟨m, hm⟩ ⟨h1, h2, h3⟩
    have := (Labels.build_eq_ok hpos).2
      (Labels.mk'_holds (rows := rows) ⟨fun n hn => (isValidLabelName_iff n).2 (h1 n hn), h2⟩ hpos hrow h3)
    rw [this] at hm
    simp at hm
  · intro h
    cases hb : Labels.build names rows with
    | ok l =>
      have := (Labels.build_eq_ok hpos).1 hb
      exact absurd ⟨fun n hn => (isValidLabelName_iff n).1 (this.names_ok.1 n hn), this.names_ok.2, this.nodup⟩ h
    | err e => exact absurd hb Labels.build_ne_err
    | panic m => exact ⟨m, rfl⟩

theorem usizeMul_panics_iff {a b : Nat} : (∃ m, usizeMul build a b = .panic m) ↔ build.debug = true ∧ 2 ^ 64 ≤ a * b := by
  have husize : usizeSize = 2 ^ 64 := rfl
  unfold usizeMul
  split
  · simp; omega
  · split
    · next h => simp [h]; omega
    · next h => simp [h]

theorem usizeMul_eq_mod {a b c : Nat} (h : usizeMul build a b = .ok c) : c = a * b % 2 ^ 64 := by
  have husize : usizeSize = 2 ^ 64 := rfl
  unfold usizeMul at h
  split at h
  · simp only [Res.ok.injEq] at h
    rw [Nat.mod_eq_of_lt (by omega), h]
  · split at h
    · simp at h
    · simp only [Res.ok.injEq] at h
      rw [← h, husize]

theorem usizeMul_outcome (a b : Nat) :
    (∃ m, usizeMul build a b = .panic m) ∨ usizeMul build a b = .ok (a * b % 2 ^ 64) := by
  cases h : usizeMul build a b with
  | ok c => rw [usizeMul_eq_mod h]; exact .inr rfl
  | err e =>
    unfold usizeMul at h
    split at h
    · simp at h
    · split at h <;> simp at h
  | panic m => exact .inl ⟨m, rfl⟩

/-- Reading labels panics exactly for the contents of the specification. -/
theorem readNpyLabels_panics_iff {file : Bytes} :
    (∃ m, readNpyLabels build py file = .panic m) ↔ PanickingLabels build py file := by
  unfold readNpyLabels PanickingLabels
  cases hr : NpyHeader.fromReader py file with
  | err e => simp
  | panic m => exact absurd hr (fromReader_noPanic py file m)
  | ok a =>
  obtain ⟨header, rest⟩ := a
  simp only [Res.ok_bind, Res.ok.injEq, Prod.mk.injEq]
  cases hf : header.fortranOrder with
  | true =>
    constructor
    · rintro ⟨m, hm⟩; simp [Res.guardErr] at hm
    · rintro ⟨_, _, n, ⟨rfl, rfl⟩, h, _⟩; simp [hf] at h
  | false =>
  by_cases hl : header.shape.length = 1
  swap
  · constructor
    · rintro ⟨m, hm⟩; simp [Res.guardErr, hl] at hm
    · rintro ⟨_, _, n, ⟨rfl, rfl⟩, h, h', _⟩
      rw [h'] at hl
      simp at hl
  obtain ⟨n, hshape⟩ := List.length_eq_one_iff.1 hl
  have hrow : Res.expect header.shape[0]? "index out of bounds" = .ok n := by rw [hshape]; rfl
  have hguard : Res.guardErr (!false) (Error.serialization "Labels can not be loaded from fortran-order arrays") = .ok () := rfl
  have hguard' : Res.guardErr (header.shape.length == 1) (Error.serialization "Expected a 1-D array when loading Labels") = .ok () := by
    rw [hl]; rfl
  simp only [hguard, hguard', Res.ok_bind, hrow]
  cases hd : checkTypeDescriptor header.typeDescriptor with
  | panic m =>
    refine ⟨fun _ => ?_, fun _ => ⟨m, rfl⟩⟩
    exact ⟨header, rest, n, ⟨rfl, rfl⟩, hf, hshape, .inl (checkTypeDescriptor_panics hd)⟩
  | err e =>
    constructor
    · rintro ⟨m, hm⟩; simp at hm
    · rintro ⟨_, _, n', ⟨rfl, rfl⟩, h, h', h'' | ⟨e', names, hne, h'', -⟩⟩
      · rw [h''] at hd
        simp [checkTypeDescriptor, checkTypeLoop, Res.expect] at hd
      · rw [h'', ← labelsType, checkTypeDescriptor_labels e' hne] at hd
        simp at hd
  | ok a =>
  obtain ⟨names, e⟩ := a
  obtain ⟨hne, htype⟩ := checkTypeDescriptor_eq_ok.1 hd
  have hpos : 0 < names.length := List.length_pos_iff.2 hne
  have spec : (∃ header' rest' n', (header = header' ∧ rest = rest') ∧ header'.fortranOrder = false ∧ header'.shape = [n'] ∧
      (header'.typeDescriptor = .list [] ∨
      ∃ (e : Endian) (names : List String), names ≠ [] ∧
        header'.typeDescriptor = .list (names.map fun name => .tuple [.string name.toList, .string e.i4.toList]) ∧
        ((build.debug = true ∧ 2 ^ 64 ≤ n' * names.length) ∨
        2 ^ 63 ≤ 4 * (n' * names.length % 2 ^ 64) ∨
        (rest'.length = 4 * (n' * names.length % 2 ^ 64) ∧
          ¬ ((∀ name ∈ names, Identifier name) ∧ names.Nodup ∧
            (chunksExact names.length ((decodeAll e 4 rest').map fun n => Int32.ofNat n)).Nodup))))) ↔
      ((build.debug = true ∧ 2 ^ 64 ≤ n * names.length) ∨
        2 ^ 63 ≤ 4 * (n * names.length % 2 ^ 64) ∨
        (rest.length = 4 * (n * names.length % 2 ^ 64) ∧
          ¬ ((∀ name ∈ names, Identifier name) ∧ names.Nodup ∧
            (chunksExact names.length ((decodeAll e 4 rest).map fun n => Int32.ofNat n)).Nodup))) := by
    constructor
    · rintro ⟨_, _, n', ⟨rfl, rfl⟩, -, h', h'' | ⟨e', names', hne', h'', h⟩⟩
      · rw [h''] at htype
        simp [labelsType] at htype
        exact absurd htype hne
      · have h1 := checkTypeDescriptor_labels e' hne'
        rw [labelsType, ← h'', hd] at h1
        simp only [Res.ok.injEq, Prod.mk.injEq] at h1
        obtain ⟨rfl, rfl⟩ := h1
        rw [hshape] at h'
        simp only [List.cons.injEq, and_true] at h'
        subst h'
        exact h
    · intro h
      exact ⟨header, rest, n, ⟨rfl, rfl⟩, hf, hshape, .inr ⟨e, names, hne, htype, h⟩⟩
  rw [spec, ← usizeMul_panics_iff (build := build)]
  simp only [Res.ok_bind]
  rcases usizeMul_outcome (build := build) n names.length with ⟨m, hm⟩ | hm
  · rw [hm]
    exact ⟨fun _ => .inl ⟨m, rfl⟩, fun _ => ⟨m, rfl⟩⟩
  rw [hm, Res.ok_bind]
  have hmax : isizeMax = 2 ^ 63 - 1 := rfl
  generalize n * names.length % 2 ^ 64 = count
  unfold allocate
  by_cases hc : count * 4 ≤ isizeMax
  swap
  · rw [if_neg hc]
    exact ⟨fun _ => .inr (.inl (by omega)), fun _ => ⟨"capacity overflow", rfl⟩⟩
  rw [if_pos hc, Res.ok_bind]
  have hsmall : ¬ 2 ^ 63 ≤ 4 * count := by omega
  simp only [reduceCtorEq, exists_false, false_or, hsmall]
  cases hx : readExact (4 * count) rest with
  | panic m => exact absurd hx (readExact_noPanic _ _ m)
  | err e' =>
    constructor
    · rintro ⟨m, hm⟩; simp at hm
    · rintro ⟨hlen, -⟩
      have : readExact (4 * count) rest = .ok (rest, []) := readExact_eq_ok.2 ⟨by simp, hlen⟩
      rw [this] at hx
      simp at hx
  | ok a =>
  obtain ⟨bytes, extra⟩ := a
  obtain ⟨rfl, hlen⟩ := readExact_eq_ok.1 hx
  simp only [Res.ok_bind, checkForExtraBytes]
  by_cases hextra : extra = []
  swap
  · have : extra.length ≠ 0 := mt List.length_eq_zero_iff.1 hextra
    constructor
    · rintro ⟨m, hm⟩; simp [Res.guardErr, this] at hm
    · rintro ⟨h, -⟩
      rw [List.length_append] at h
      omega
  subst hextra
  have : Res.guardErr (([] : Bytes).length == 0) (Error.serialization "found extra bytes in the file") = .ok () := rfl
  simp only [List.append_nil, hlen, true_and]
  exact Labels.build_panics_iff hpos (fun r hr => chunksExact_row_length hr)

theorem readNpyLabels_noPanic {file : Bytes} (h : ¬ PanickingLabels build py file) :
    (readNpyLabels build py file).NoPanic :=
  fun m hm => h (readNpyLabels_panics_iff.1 ⟨m, hm⟩)

theorem shapeSize_eq_prod (shape : List Nat) : shapeSize shape = shape.prod := by
  induction shape with
  | nil => rfl
  | cons n shape ih => rw [List.prod_cons, ← ih]; rfl

theorem dimensionSize_outcome (shape : List Nat) {size : Nat} (hs : size < 2 ^ 64) :
    ((∃ m, dimensionSize build shape size = .panic m) ∧ build.debug = true ∧ ∃ k, 2 ^ 64 ≤ size * (shape.take k).prod) ∨
    (dimensionSize build shape size = .ok (size * shape.prod % 2 ^ 64) ∧
      ¬ (build.debug = true ∧ ∃ k, 2 ^ 64 ≤ size * (shape.take k).prod)) := by
  induction shape generalizing size with
  | nil =>
    refine .inr ⟨?_, ?_⟩
    · rw [dimensionSize, List.prod_nil, Nat.mul_one, Nat.mod_eq_of_lt hs]
    · rintro ⟨-, k, hk⟩
      simp at hk
      omega
  | cons n shape ih =>
    rw [dimensionSize]
    rcases usizeMul_outcome (build := build) size n with ⟨m, hm⟩ | hm
    · obtain ⟨h1, h2⟩ := usizeMul_panics_iff.1 ⟨m, hm⟩
      refine .inl ⟨⟨m, by rw [hm]; rfl⟩, h1, 1, ?_⟩
      simpa using h2
    · rw [hm, Res.ok_bind]
      have hnp : ¬ (build.debug = true ∧ 2 ^ 64 ≤ size * n) := by
        intro h
        obtain ⟨m, hm'⟩ := usizeMul_panics_iff.2 h
        rw [hm] at hm'
        simp at hm'
      have heq : build.debug = true → size * n % 2 ^ 64 = size * n := by
        intro h
        exact Nat.mod_eq_of_lt (by by_contra hc; exact hnp ⟨h, by omega⟩)
      have hval : size * n % 2 ^ 64 * shape.prod % 2 ^ 64 = size * (n :: shape).prod % 2 ^ 64 := by
        rw [List.prod_cons, ← Nat.mul_assoc, Nat.mod_mul_mod]
      rcases ih (size := size * n % 2 ^ 64) (Nat.mod_lt _ (by decide)) with ⟨h1, h2, k, hk⟩ | ⟨h1, h2⟩
      · refine .inl ⟨h1, h2, k + 1, ?_⟩
        rw [heq h2, Nat.mul_assoc] at hk
        simpa using hk
      · refine .inr ⟨by rw [h1, hval], ?_⟩
        rintro ⟨hd, k, hk⟩
        cases k with
        | zero => simp at hk; omega
        | succ k =>
          refine h2 ⟨hd, k, ?_⟩
          rw [heq hd, Nat.mul_assoc]
          simpa using hk

theorem filter_prod {shape : List Nat} (h : shape.prod ≠ 0) : (shape.filter (· ≠ 0)).prod = shape.prod := by
  induction shape with
  | nil => rfl
  | cons n shape ih =>
    rw [List.prod_cons] at h
    have hn : n ≠ 0 := by rintro rfl; simp at h
    rw [List.filter_cons_of_pos (by simpa using hn), List.prod_cons, List.prod_cons,
      ih (by rintro h'; rw [h'] at h; simp at h)]

/-- Reading data panics exactly for the contents of the specification. -/
theorem readData_panics_iff {file : Bytes} :
    (∃ m, readData build py file = .panic m) ↔ PanickingData build py file := by
  unfold readData PanickingData
  cases hr : NpyHeader.fromReader py file with
  | err e => simp
  | panic m => exact absurd hr (fromReader_noPanic py file m)
  | ok a =>
  obtain ⟨header, rest⟩ := a
  simp only [Res.ok_bind, Res.ok.injEq, Prod.mk.injEq]
  cases hf : header.fortranOrder with
  | true =>
    constructor
    · rintro ⟨m, hm⟩; simp [Res.guardErr] at hm
    · rintro ⟨_, _, ⟨rfl, rfl⟩, h, _⟩; simp [hf] at h
  | false =>
  have spec : ∀ P : NpyHeader → Bytes → Prop,
      (∃ header' rest', (header = header' ∧ rest = rest') ∧ header'.fortranOrder = false ∧ P header' rest') ↔ P header rest := by
    intro P
    constructor
    · rintro ⟨_, _, ⟨rfl, rfl⟩, -, h⟩; exact h
    · intro h; exact ⟨_, _, ⟨rfl, rfl⟩, hf, h⟩
  rw [spec fun header rest => (build.debug = true ∧ ∃ k, 2 ^ 64 ≤ (header.shape.take k).prod) ∨
    2 ^ 63 ≤ 8 * (header.shape.prod % 2 ^ 64) ∨
    ((∃ e : Endian, header.typeDescriptor = .string e.f8.toList) ∧ rest.length = 8 * (header.shape.prod % 2 ^ 64) ∧
      2 ^ 63 ≤ (header.shape.filter (· ≠ 0)).prod)]
  have hguard : Res.guardErr (!false) (Error.serialization "data can not be loaded from fortran-order arrays") = .ok () := rfl
  simp only [hguard, Res.ok_bind]
  have hout := dimensionSize_outcome (build := build) header.shape (size := 1) (by decide)
  simp only [Nat.one_mul] at hout
  rcases hout with ⟨⟨m, hm⟩, h⟩ | ⟨hm, h⟩
  · rw [hm]
    exact ⟨fun _ => .inl h, fun _ => ⟨m, rfl⟩⟩
  rw [hm, Res.ok_bind]
  simp only [h, false_or]
  have hmax : isizeMax = 2 ^ 63 - 1 := rfl
  have hshape : ∀ data : List Elt, data.length = header.shape.prod % 2 ^ 64 →
      ((∃ m, Res.expect (fromShapeVec header.shape data) "invalid shape" = .panic m) ↔
        2 ^ 63 ≤ (header.shape.filter (· ≠ 0)).prod) := by
    intro data hdata
    unfold fromShapeVec
    rw [shapeSize_eq_prod, shapeSize_eq_prod]
    by_cases hc : (header.shape.filter (· ≠ 0)).prod ≤ isizeMax ∧ data.length = header.shape.prod
    · rw [if_pos hc]
      simp [Res.expect]
      have := hc.1
      simp at this
      omega
    · rw [if_neg hc]
      refine ⟨fun _ => ?_, fun _ => ⟨"invalid shape", rfl⟩⟩
      by_contra hlt
      refine hc ⟨by omega, ?_⟩
      rw [hdata]
      refine Nat.mod_eq_of_lt ?_
      by_cases h0 : header.shape.prod = 0
      · omega
      · have := filter_prod h0
        omega
  generalize header.shape.prod % 2 ^ 64 = count at hshape ⊢
  unfold allocate
  by_cases hc : count * 8 ≤ isizeMax
  swap
  · rw [if_neg hc]
    exact ⟨fun _ => .inl (by omega), fun _ => ⟨"capacity overflow", rfl⟩⟩
  rw [if_pos hc, Res.ok_bind]
  have hsmall : ¬ 2 ^ 63 ≤ 8 * count := by omega
  simp only [false_or, hsmall]
  have fin : ∀ e : Endian, (∃ m, (do
        let x ← readExact (8 * count) rest
        let x ← (pure ((decodeAll e 8 x.fst).map (BitVec.ofNat 64), x.snd) : Res (List Elt × Bytes))
        checkForExtraBytes x.snd
        Res.expect (fromShapeVec header.shape x.fst) "invalid shape" : Res NdArray) = .panic m) ↔
      rest.length = 8 * count ∧ 2 ^ 63 ≤ (header.shape.filter (· ≠ 0)).prod := by
    intro e
    cases hx : readExact (8 * count) rest with
    | panic m => exact absurd hx (readExact_noPanic _ _ m)
    | err e' =>
      constructor
      · rintro ⟨m, hm⟩; simp at hm
      · rintro ⟨hlen, -⟩
        have : readExact (8 * count) rest = .ok (rest, []) := readExact_eq_ok.2 ⟨by simp, hlen⟩
        rw [this] at hx
        simp at hx
    | ok a =>
    obtain ⟨bytes, extra⟩ := a
    obtain ⟨rfl, hlen⟩ := readExact_eq_ok.1 hx
    simp only [Res.ok_bind, checkForExtraBytes, Res.pure_eq]
    by_cases hextra : extra = []
    swap
    · have : extra.length ≠ 0 := mt List.length_eq_zero_iff.1 hextra
      constructor
      · rintro ⟨m, hm⟩; simp [Res.guardErr, this] at hm
      · rintro ⟨h, -⟩
        rw [List.length_append] at h
        omega
    subst hextra
    simp only [List.append_nil, hlen, true_and]
    refine hshape ((decodeAll e 8 bytes).map (BitVec.ofNat 64)) ?_
    rw [List.length_map, decodeAll, List.length_map, chunksExact_length, hlen, Nat.mul_div_cancel_left _ (by omega)]
  cases ht : header.typeDescriptor with
  | string s =>
    by_cases h1 : s = "<f8".toList
    · subst h1
      simp only [if_true]
      refine (fin .little).trans ?_
      exact ⟨fun h => ⟨⟨.little, rfl⟩, h⟩, fun h => h.2⟩
    · by_cases h2 : s = ">f8".toList
      · subst h2
        simp only [h1, if_false, if_true]
        refine (fin .big).trans ?_
        exact ⟨fun h => ⟨⟨.big, rfl⟩, h⟩, fun h => h.2⟩
      · simp only [h1, h2, if_false]
        constructor
        · rintro ⟨m, hm⟩; simp at hm
        · rintro ⟨⟨e, he⟩, -⟩
          cases e
          · exact absurd (PyValue.string.inj he) h1
          · exact absurd (PyValue.string.inj he) h2
  | _ =>
    constructor
    · rintro ⟨m, hm⟩; simp at hm
    · rintro ⟨⟨e, he⟩, -⟩
      simp at he

theorem readData_noPanic {file : Bytes} (h : ¬ PanickingData build py file) : (readData build py file).NoPanic :=
  fun m hm => h (readData_panics_iff.1 ⟨m, hm⟩)

/-- Data which has been read has the shape in the header. -/
theorem readData_shape {file : Bytes} {a : NdArray} (h : readData build py file = .ok a) :
    ∃ header rest, NpyHeader.fromReader py file = .ok (header, rest) ∧ a.shape = header.shape := by
  unfold readData at h
  simp only [Res.bind_eq_ok, Prod.exists] at h
  obtain ⟨header, rest, h1, -, -, size, -, -, -, h⟩ := h
  refine ⟨header, rest, h1, ?_⟩
  have key : ∀ {data : List Elt}, fromShapeVec header.shape data = some a → a.shape = header.shape := by
    intro data h
    unfold fromShapeVec at h
    split at h
    · simp only [Option.some.injEq] at h
      rw [← h]
    · simp at h
  split at h
  · split at h
    · simp only [Res.bind_eq_ok, Prod.exists, Res.expect_eq_ok] at h
      obtain ⟨_, _, _, _, _, _, -, -, h⟩ := h
      exact key h
    · split at h
      · simp only [Res.bind_eq_ok, Prod.exists, Res.expect_eq_ok] at h
        obtain ⟨_, _, _, _, _, _, -, -, h⟩ := h
        exact key h
      · simp at h
  · simp at h

/-! ### Archives -/

theorem lookup_mem {α : Type} {l : List (String × α)} {k : String} {v : α} (h : l.lookup k = some v) : (k, v) ∈ l := by
  induction l with
  | nil => simp at h
  | cons p l ih =>
    obtain ⟨n, w⟩ := p
    rw [List.lookup_cons] at h
    by_cases hk : k = n
    · subst hk
      simp only [beq_self_eq_true, Option.some.injEq] at h
      subst h
      exact List.mem_cons_self
    · have : (k == n) = false := by simpa using hk
      rw [this] at h
      exact List.mem_cons_of_mem _ (ih h)

theorem byName_mem {name : String} {file : Bytes} (h : archive.byName name = .ok file) : (name, file) ∈ archive := by
  unfold Archive.byName at h
  split at h
  · next hl =>
    simp only [Res.ok.injEq] at h
    subst h
    exact List.mem_reverse.1 (lookup_mem hl)
  · simp at h

theorem byName_noPanic (name : String) : (archive.byName name).NoPanic := by
  unfold Archive.byName
  split
  · exact .ok _
  · exact .err _

theorem data_suffix {dir : List Char} {w : What} :
    "/data.npy".toList <:+ dir ++ '/' :: (w.text.toList ++ ".npy".toList) ↔ w = .data := by
  constructor
  · rintro ⟨t, ht⟩
    have h2 : t ++ '/' :: (What.data.text.toList ++ ".npy".toList) = dir ++ '/' :: (w.text.toList ++ ".npy".toList) := ht
    exact (tail_injective h2).2.symm
  · rintro rfl
    exact ⟨dir, rfl⟩

theorem data_suffix_values {i : Nat} {w : What} :
    "/data.npy".toList <:+ (Part.values i w).name.toList ↔ w = .data := by
  have : (Part.values i w).name.toList =
      ("blocks/".toList ++ (digits i ++ "/values".toList)) ++ '/' :: (w.text.toList ++ ".npy".toList) := by
    rw [values_name]
    simp
  rw [this]
  exact data_suffix

theorem data_suffix_gradient {i : Nat} {p : String} {w : What} :
    "/data.npy".toList <:+ (Part.gradient i p w).name.toList ↔ w = .data := by
  have : (Part.gradient i p w).name.toList =
      ("blocks/".toList ++ (digits i ++ '/' :: ("gradients/".toList ++ p.toList))) ++
        '/' :: (w.text.toList ++ ".npy".toList) := by
    rw [gradient_name]
    simp
  rw [this]
  exact data_suffix

theorem SoundArchive.values_labels (h : SoundArchive build py archive) {i : Nat} {w : What} (hw : w ≠ .data) {file : Bytes}
    (hf : archive.byName (Part.values i w).name = .ok file) : ¬ PanickingLabels build py file :=
  h.labels _ _ (byName_mem hf) (mt data_suffix_values.1 hw)

theorem SoundArchive.gradient_labels (h : SoundArchive build py archive) {i : Nat} {p : String} {w : What} (hw : w ≠ .data)
    {file : Bytes} (hf : archive.byName (Part.gradient i p w).name = .ok file) : ¬ PanickingLabels build py file :=
  h.labels _ _ (byName_mem hf) (mt data_suffix_gradient.1 hw)

theorem SoundArchive.values_data (h : SoundArchive build py archive) {i : Nat} {file : Bytes}
    (hf : archive.byName (Part.values i .data).name = .ok file) : ¬ PanickingData build py file ∧
      (build.debug = true → ∀ header rest, NpyHeader.fromReader py file = .ok (header, rest) → 2 ≤ header.shape.length) :=
  h.data _ _ (byName_mem hf) (data_suffix_values.2 rfl)

theorem SoundArchive.gradient_data (h : SoundArchive build py archive) {i : Nat} {p : String} {file : Bytes}
    (hf : archive.byName (Part.gradient i p .data).name = .ok file) : ¬ PanickingData build py file ∧
      (build.debug = true → ∀ header rest, NpyHeader.fromReader py file = .ok (header, rest) → 2 ≤ header.shape.length) :=
  h.data _ _ (byName_mem hf) (data_suffix_gradient.2 rfl)

/-- Splitting the names of entries to find gradients. -/
theorem parameter_split {name : List Char} (h1 : "blocks/0/gradients/".toList <+: name) (h2 : "/data.npy".toList <:+ name)
    (hne : name ≠ "blocks/0/gradients/data.npy".toList) :
    ∃ p, name = "blocks/0/gradients/".toList ++ (p ++ "/data.npy".toList) := by
  obtain ⟨t, rfl⟩ := h1
  have ht : t <:+ "blocks/0/gradients/".toList ++ t := ⟨_, rfl⟩
  by_cases hl : t.length < 9
  · exfalso
    obtain ⟨u, hu⟩ := h2
    have h3 : t <:+ "data.npy".toList := by
      refine List.suffix_of_suffix_length_le ht ⟨u ++ ['/'], ?_⟩ (Nat.le_of_lt_succ hl)
      rw [← hu, List.append_assoc]
      rfl
    have h4 : '/' ∉ t := fun hm => by
      have := h3.subset hm
      revert this
      decide
    have h5 : u ++ '/' :: "data.npy".toList = "blocks/0/gradients".toList ++ '/' :: t := hu
    obtain ⟨-, h6⟩ := split_last (by decide) h4 h5
    exact hne (by rw [← h6]; rfl)
  · obtain ⟨p, hp⟩ := List.suffix_of_suffix_length_le h2 ht (Nat.le_of_not_lt hl)
    exact ⟨p, by rw [hp]⟩

theorem gradientParameters_noPanic (names : List String) (hn : "blocks/0/gradients/data.npy" ∉ names) :
    (gradientParameters build names).NoPanic ∧
      ∀ ps, gradientParameters build names = .ok ps → ∀ p ∈ ps, ∃ name ∈ names, p.toList ⊆ name.toList := by
  induction names with
  | nil =>
    refine ⟨.ok _, ?_⟩
    intro ps h
    simp only [gradientParameters, Res.ok.injEq] at h
    subst h; simp
  | cons name names ih =>
    rw [List.mem_cons, not_or] at hn
    obtain ⟨ih1, ih2⟩ := ih hn.2
    by_cases hm : ("blocks/0/gradients/".toList.isPrefixOf name.toList &&
        "/data.npy".toList.isSuffixOf name.toList) = true
    · have hm' := hm
      rw [Bool.and_eq_true, List.isPrefixOf_iff_prefix, List.isSuffixOf_iff_suffix] at hm'
      obtain ⟨p, hp⟩ := parameter_split hm'.1 hm'.2 (fun he => hn.1 (String.toList_inj.1 he).symm)
      have hstep : gradientParameters build (name :: names) =
          (do let others ← gradientParameters build names; return String.ofList p :: others) := by
        rw [gradientParameters, hm]
        simp only [if_true]
        rw [hp]
        unfold splitAt usizeSub
        rw [if_pos (by simp), List.drop_left' (by rfl)]
        simp only [Res.ok_bind]
        have hlen : (p ++ "/data.npy".toList).length = p.length + 9 := by
          rw [List.length_append]; rfl
        rw [hlen, if_pos (by omega)]
        simp only [Res.ok_bind, Nat.add_sub_cancel]
        rw [if_pos (by omega)]
        simp only [Res.ok_bind, List.take_left' rfl]
      rw [hstep]
      refine ⟨.bind ih1 fun _ _ => .pure _, ?_⟩
      intro ps h q hq
      simp only [Res.bind_eq_ok, Res.pure_eq, Res.ok.injEq] at h
      obtain ⟨others, ho, rfl⟩ := h
      rcases List.mem_cons.1 hq with rfl | hq
      · refine ⟨name, List.mem_cons_self, ?_⟩
        rw [String.toList_ofList, hp]
        intro c hc
        simp [hc]
      · obtain ⟨n, hn, hs⟩ := ih2 others ho q hq
        exact ⟨n, List.mem_cons_of_mem _ hn, hs⟩
    · have hstep : gradientParameters build (name :: names) = gradientParameters build names := by
        rw [gradientParameters, if_neg hm]
      rw [hstep]
      refine ⟨ih1, fun ps h q hq => ?_⟩
      obtain ⟨n, hn, hs⟩ := ih2 ps h q hq
      exact ⟨n, List.mem_cons_of_mem _ hn, hs⟩

theorem loadComponents_noPanic {path : Nat → String} (n i : Nat)
    (h : ∀ k file, archive.byName (path k) = .ok file → ¬ PanickingLabels build py file) :
    (loadComponents build py archive path n i).NoPanic := by
  induction n generalizing i with
  | zero => exact .ok _
  | succ n ih =>
    unfold loadComponents
    refine .bind (byName_noPanic _) fun file hf => ?_
    refine .bind (readNpyLabels_noPanic (h i file hf)) fun _ _ => ?_
    exact .bind (ih (i + 1)) fun _ _ => .pure _

theorem usizeSub_noPanic {a b : Nat} (h : build.debug = true → b ≤ a) : (usizeSub build a b).NoPanic := by
  unfold usizeSub
  split
  · exact .ok _
  · next hba =>
    rw [if_neg fun hb => hba (h hb)]
    exact .ok _

theorem checkDataAndLabels_noPanic {context : String} {data : NdArray} {samples : Labels} {components : List Labels}
    {properties : Labels} (hs : samples.WF) (hc : ∀ c ∈ components, c.WF) (hp : properties.WF) :
    (checkDataAndLabels context data samples components properties).NoPanic := by
  intro m h
  rcases checkDataAndLabels_err (context := context) (data := data) (shape := data.shape) rfl hs hc hp with
    ⟨u, h'⟩ | ⟨e, h'⟩ <;> rw [h'] at h <;> simp at h

theorem checkComponentLabels_noPanic {i : Nat} {cs : List Labels} : (checkComponentLabels i cs).NoPanic := by
  intro m h
  rcases checkComponentLabels_err (i := i) (cs := cs) with ⟨u, h'⟩ | ⟨e, h'⟩ <;> rw [h'] at h <;> simp at h

theorem block_new_noPanic {data : NdArray} {samples : Labels} {components : List Labels}
    {properties : Labels} (hs : samples.WF) (hc : ∀ c ∈ components, c.WF) (hp : properties.WF) :
    (TensorBlock.new data samples components properties).NoPanic := by
  unfold TensorBlock.new BasicBlock.new
  refine .bind (.bind (checkDataAndLabels_noPanic hs hc hp) fun _ _ => ?_) fun _ _ => .pure _
  exact .bind checkComponentLabels_noPanic fun _ _ => .pure _

theorem checkGradientComponents_noPanic (i : Nat) (l : List (Labels × Labels)) :
    (TensorBlock.checkGradientComponents i l).NoPanic := by
  induction l generalizing i with
  | nil => exact .ok _
  | cons a l ih =>
    unfold TensorBlock.checkGradientComponents
    exact .bind (.guardErr _ _) fun _ _ => ih _

theorem checkGradient_noPanic {b : TensorBlock NdArray} {parameter : String} {data : NdArray} {samples : Labels}
    {components : List Labels} (hs : samples.WF) (hc : ∀ c ∈ components, c.WF) (hp : b.values.properties.WF) :
    (TensorBlock.checkGradient b parameter data samples components).NoPanic := by
  unfold TensorBlock.checkGradient
  refine .bind (.guardErr _ _) fun _ _ => .bind (.ok _) fun _ _ => .bind (.ok _) fun _ _ => ?_
  refine .bind (.guardErr _ _) fun _ _ => .bind (.guardErr _ _) fun _ _ => .bind (.guardErr _ _) fun _ _ => ?_
  refine .bind checkComponentLabels_noPanic fun _ _ => .bind (.guardErr _ _) fun _ _ => ?_
  exact .bind (checkGradientComponents_noPanic _ _) fun _ _ => checkDataAndLabels_noPanic hs hc hp

theorem loadGradients_noPanic (h : SoundArchive build py archive) {i : Nat} {parameters : List String}
    (hz : ∀ p ∈ parameters, '\x00' ∉ p.toList) {block : TensorBlock NdArray} (hb : block.values.properties.WF) :
    (loadGradients build py archive i parameters block).NoPanic := by
  induction parameters generalizing block with
  | nil => exact .ok _
  | cons p parameters ih =>
    unfold loadGradients
    rw [show gradientPath i p "data" = (Part.gradient i p .data).name from gradientPath_eq i p .data,
      show gradientPath i p "samples" = (Part.gradient i p .samples).name from gradientPath_eq i p .samples]
    refine .bind (byName_noPanic _) fun f1 h1 => ?_
    have hd1 := SoundArchive.gradient_data h h1
    refine .bind (readData_noPanic hd1.1) fun data hdata => ?_
    refine .bind (byName_noPanic _) fun f2 h2 => ?_
    refine .bind (readNpyLabels_noPanic (SoundArchive.gradient_labels h (by simp) h2)) fun samples hsamples => ?_
    refine .bind ?_ fun n hn => ?_
    · obtain ⟨header, rest, e1, e2⟩ := readData_shape hdata
      exact usizeSub_noPanic fun hb => by rw [e2]; exact hd1.2 hb header rest e1
    refine .bind (loadComponents_noPanic _ _ fun k file hf => ?_) fun components hcomponents => ?_
    · rw [componentsPath_gradient] at hf
      exact SoundArchive.gradient_labels h (by simp) hf
    rw [addGradient_eq]
    have hg := checkGradient_noPanic (b := block) (parameter := p) (data := data) (readNpyLabels_wf hsamples)
      (loadComponents_wf hcomponents) hb
    have hzp : p.toList.contains '\x00' = false := by
      have := hz p List.mem_cons_self
      simpa using this
    cases hk : TensorBlock.checkGradient block p data samples components with
    | err e => exact .err _
    | panic m => exact absurd hk (hg m)
    | ok u =>
      simp only [hzp]
      exact ih (fun q hq => hz q (List.mem_cons_of_mem _ hq)) hb

theorem loadBlock_noPanic (h : SoundArchive build py archive) {i : Nat} {parameters : List String}
    (hz : ∀ p ∈ parameters, '\x00' ∉ p.toList) : (loadBlock build py archive parameters i).NoPanic := by
  unfold loadBlock
  rw [show valuesPath i "data" = (Part.values i .data).name from valuesPath_eq i .data,
    show valuesPath i "samples" = (Part.values i .samples).name from valuesPath_eq i .samples,
    show valuesPath i "properties" = (Part.values i .properties).name from valuesPath_eq i .properties]
  refine .bind (byName_noPanic _) fun f1 h1 => ?_
  have hd1 := SoundArchive.values_data h h1
  refine .bind (readData_noPanic hd1.1) fun data hdata => ?_
  refine .bind (byName_noPanic _) fun f2 h2 => ?_
  refine .bind (readNpyLabels_noPanic (SoundArchive.values_labels h (by simp) h2)) fun samples hsamples => ?_
  refine .bind ?_ fun n hn => ?_
  · obtain ⟨header, rest, e1, e2⟩ := readData_shape hdata
    exact usizeSub_noPanic fun hb => by rw [e2]; exact hd1.2 hb header rest e1
  refine .bind (loadComponents_noPanic _ _ fun k file hf => ?_) fun components hcomponents => ?_
  · rw [componentsPath_values] at hf
    exact SoundArchive.values_labels h (by simp) hf
  refine .bind (byName_noPanic _) fun f3 h3 => ?_
  refine .bind (readNpyLabels_noPanic (SoundArchive.values_labels h (by simp) h3)) fun properties hproperties => ?_
  refine .bind (block_new_noPanic (readNpyLabels_wf hsamples) (loadComponents_wf hcomponents)
    (readNpyLabels_wf hproperties)) fun block hblock => ?_
  obtain ⟨-, -, rfl⟩ := TensorBlock.new_eq_ok.1 hblock
  exact loadGradients_noPanic h hz (readNpyLabels_wf hproperties)

theorem fileNames_mem {hash : HashOrder} {name : String} :
    name ∈ archive.fileNames hash ↔ name ∈ archive.map Prod.fst := by
  unfold Archive.fileNames
  rw [((hash.perm _).map Prod.fst).mem_iff, List.map_map]
  have : (Prod.fst ∘ fun name : String => (name, ())) = id := rfl
  rw [this, List.map_id, List.mem_eraseDups]

/-- Loading a sound archive does not panic. -/
theorem load_noPanic {hash hash' : HashOrder} (h : SoundArchive build py archive) :
    (load build py hash hash' archive).NoPanic := by
  unfold load
  refine .bind (byName_noPanic _) fun f hf => ?_
  refine .bind (readNpyLabels_noPanic (h.labels _ _ (byName_mem hf) ?_)) fun keys hkeys => ?_
  · rw [← List.isSuffixOf_iff_suffix]; decide
  obtain ⟨hp1, hp2⟩ := gradientParameters_noPanic (build := build) (archive.fileNames hash)
    (mt fileNames_mem.1 h.name)
  refine .bind hp1 fun ps hps => ?_
  have hz : ∀ p ∈ ps, '\x00' ∉ p.toList := by
    intro p hp hm
    obtain ⟨name, hn, hs⟩ := hp2 ps hps p hp
    exact h.nul name (fileNames_mem.1 hn) (hs hm)
  have hk := readNpyLabels_wf hkeys
  refine .bind (.of_ok hk.count_eq) fun n hn => ?_
  refine .bind (.mapM fun i _ => loadBlock_noPanic h hz) fun blocks hblocks => ?_
  intro m hm
  unfold TensorMap.new at hm
  rw [hk.count_eq] at hm
  simp only [Res.ok_bind, Res.bind_eq_panic, Res.guardErr_eq_panic, false_or] at hm
  obtain ⟨_, _, hm⟩ := hm
  cases blocks with
  | nil => simp at hm
  | cons a l => simp [Res.bind_eq_panic, checkBlocks_ne_panic] at hm

end Equistore
