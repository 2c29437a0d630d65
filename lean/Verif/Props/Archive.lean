import Verif.Lemmas.NoPanic
import Verif.Lemmas.PyLiteral
import Verif.Props.Npy
import Verif.Props.KeysToSamples

/-! # Saving and loading tensor maps -/

namespace Equistore
open Spec
variable {A : Type} [ArrayLike A]

namespace Example

/-- Whether an outcome is a success. -/
def isOk {α : Type} : Res α → Bool
  | .ok _ => true
  | _ => false

theorem isOk_iff {α : Type} {r : Res α} (h : isOk r = true) : ∃ a, r = .ok a := by
  cases r with
  | ok a => exact ⟨a, rfl⟩
  | err e => simp [isOk] at h
  | panic m => simp [isOk] at h

/-- Whether an outcome is a panic. -/
def isPanic {α : Type} : Res α → Bool
  | .panic _ => true
  | _ => false

theorem isPanic_iff {α : Type} {r : Res α} (h : isPanic r = true) : ∃ m, r = .panic m := by
  cases r with
  | ok a => simp [isPanic] at h
  | err e => simp [isPanic] at h
  | panic m => exact ⟨m, rfl⟩

theorem tensor_saved : isOk (save ⟨true⟩ PyLiteral.fragment .little .reversed tensor) = true := by decide +kernel

/-- Decides `BasicStorable` for `ndarray` arrays. -/
def storable (b : BasicBlock NdArray) : Bool :=
  (b.samples :: b.components ++ [b.properties]).all (fun l => decide (4 * l.values.length ≤ isizeMax)) &&
  decide (b.data.elements.length = shapeSize b.data.shape) &&
  decide (shapeSize (b.data.shape.filter (· ≠ 0)) ≤ isizeMax) && decide (8 * shapeSize b.data.shape ≤ isizeMax)

theorem storable_iff {b : BasicBlock NdArray} (h : storable b = true) : BasicStorable b := by
  simp only [storable, Bool.and_eq_true, List.all_eq_true, decide_eq_true_eq] at h
  obtain ⟨⟨⟨h1, h2⟩, h3⟩, h4⟩ := h
  exact ⟨h1, _, _, rfl, rfl, h2, h3, h4⟩

theorem tensor_storable : Storable tensor := by
  refine ⟨?_, ?_, ?_⟩
  · unfold Labels.InMemory; decide +kernel
  · intro b hb
    have : ∀ b ∈ tensor.blocks, storable b.values = true := by decide +kernel
    exact storable_iff (this b hb)
  · intro b hb p g hg
    have : ∀ b ∈ tensor.blocks, ∀ x ∈ b.gradients, storable x.2 = true := by decide +kernel
    exact storable_iff (this b hb _ (lookup_mem hg))

theorem tensor_noNul : NoNul tensor := by
  intro b hb p g hg
  have : ∀ b ∈ tensor.blocks, ∀ x ∈ b.gradients, '\x00' ∉ x.1.toList := by decide +kernel
  exact this b hb _ (lookup_mem hg)

end Example

/-! ### C35 -/

/-- **C35.** What `save` wrote is loaded back with the same keys, labels, shapes and elements, whatever the
byte order and hash maps of the machine which wrote the file, and whatever the order in which the
archive lists its entries. The origin of arrays is not kept, loaded arrays are `ndarray` arrays. -/
theorem C35_save_load (build build' : Build) (py : PyLiteral) (hpy : LawfulPy py) (native : Endian)
    (hash hash1 hash2 : HashOrder) (t : TensorMap A) (hv : TensorValid t) (hs : Storable t) (hz : NoNul t)
    (archive : Archive) (h : save build py native hash t = .ok archive) :
    ∃ t', load build' py hash1 hash2 archive = .ok t' ∧ SameContent t t' :=
  load_save hpy hv hs hz h hash1 hash2

theorem sameBasic_eq {b b' : BasicBlock NdArray} (h : SameBasic b b') : b = b' := by
  obtain ⟨⟨s, e⟩, l, c, p⟩ := b
  obtain ⟨⟨s', e'⟩, l', c', p'⟩ := b'
  obtain ⟨h1, h2, h3, h4, h5⟩ := h
  have h4' : (Res.ok s : Res (List Nat)) = .ok s' := h4
  have h5' : (Res.ok e : Res (List Elt)) = .ok e' := h5
  simp only [Res.ok.injEq] at h4' h5'
  simp only at h1 h2 h3
  rw [h1, h2, h3, h4', h5']

/-- **C35**, for tensor maps with `ndarray` arrays: the same tensor map is loaded, up to the order in which
gradients are listed. -/
theorem C35_save_load_same (build build' : Build) (py : PyLiteral) (hpy : LawfulPy py) (native : Endian)
    (hash hash1 hash2 : HashOrder) (t : TensorMap NdArray) (hv : TensorValid t) (hs : Storable t) (hz : NoNul t)
    (archive : Archive) (h : save build py native hash t = .ok archive) :
    ∃ t', load build' py hash1 hash2 archive = .ok t' ∧ SameTensor t t' := by
  obtain ⟨t', h1, h2, h3⟩ := C35_save_load build build' py hpy native hash hash1 hash2 t hv hs hz archive h
  refine ⟨t', h1, h2.symm, h3.imp ?_⟩
  intro b b' hb
  refine ⟨sameBasic_eq hb.values, fun p => ?_, hb.list.symm⟩
  have := hb.gradients p
  cases h1 : b.gradient p with
  | none =>
    rw [h1] at this
    cases h2 : b'.gradient p with
    | none => rfl
    | some g' => rw [h2] at this; cases this
  | some g =>
    rw [h1] at this
    cases h2 : b'.gradient p with
    | none => rw [h2] at this; cases this
    | some g' =>
      rw [h2] at this
      cases this with
      | some h => rw [sameBasic_eq h]

theorem mapM_save {P : Prop} {items : List (Part × Res Bytes)}
    (h : ∀ x ∈ items, (∃ bytes, x.2 = .ok bytes) ∨ P ∧ ∃ m, x.2 = .err (.serialization m)) :
    (∃ archive, items.mapM writeItem = .ok archive) ∨ P ∧ ∃ m, items.mapM writeItem = .err (.serialization m) := by
  induction items with
  | nil => exact .inl ⟨[], rfl⟩
  | cons x items ih =>
    rw [List.mapM_cons]
    unfold writeItem
    rcases h x List.mem_cons_self with ⟨bytes, hx⟩ | ⟨hP, m, hx⟩
    · rcases ih (fun y hy => h y (List.mem_cons_of_mem _ hy)) with ⟨archive, ha⟩ | ⟨hP, m, ha⟩
      · left
        unfold writeItem at ha
        rw [hx, Res.ok_bind, Res.pure_eq, Res.ok_bind, ha]
        exact ⟨_, rfl⟩
      · right
        unfold writeItem at ha
        rw [hx, Res.ok_bind, Res.pure_eq, Res.ok_bind, ha]
        exact ⟨hP, _, rfl⟩
    · right
      rw [hx]
      exact ⟨hP, m, rfl⟩

/-- **C35**, failures: a valid tensor map is saved, unless the text of the header for one of its parts does not fit in 4 GiB,
which is an error. Saving never panics. -/
theorem C35_save_failure (build : Build) (py : PyLiteral) (hpy : LawfulPy py) (native : Endian) (hash : HashOrder)
    (t : TensorMap A) (hv : TensorValid t) (hs : Storable t) :
    (∃ archive, save build py native hash t = .ok archive) ∨
    (LongTensor py native t ∧ ∃ message, save build py native hash t = .err (.serialization message)) := by
  have hwhat : ∀ (b : BasicBlock A), BasicValid b → BasicStorable b → ∀ w r, WhatItem build py native b w r →
      (∃ bytes, r = .ok bytes) ∨ LongBasic py native b ∧ ∃ m, r = .err (.serialization m) := by
    intro b hb hsb w r hw
    have hwf := hb.wf
    have hl : ∀ l : Labels, l.WF → l ∈ b.samples :: b.components ++ [b.properties] →
        (∃ bytes, writeNpyLabels build py native l = .ok bytes) ∨
        LongBasic py native b ∧ ∃ m, writeNpyLabels build py native l = .err (.serialization m) := fun l hl hm =>
      (C33_labels_write_failure build py hpy native l hl.fromBuilder (by
        have := hl.names_pos
        rintro he
        rw [he] at this
        simp at this)).imp_right fun ⟨h1, h2⟩ => ⟨.inr ⟨l, hm, h1⟩, h2⟩
    cases hw with
    | data =>
      obtain ⟨dims, elements, hr⟩ := hsb.data
      exact (C34_data_write_failure build py hpy native b.data dims elements hr.shape hr.data).imp_right
        fun ⟨h1, h2⟩ => ⟨.inl h1, h2⟩
    | samples => exact hl _ hwf.samples (by simp)
    | component hc => exact hl _ (hwf.components _ (List.mem_of_getElem? hc)) (by simp [List.mem_of_getElem? hc])
    | properties => exact hl _ hwf.properties (by simp)
  rw [save_eq]
  refine mapM_save ?_
  intro x hx
  rcases mem_tensorItems.1 hx with rfl | ⟨b, i, hb, ⟨w, r, hw, rfl⟩ | ⟨p, g, w, r, hg, hw, -, rfl⟩⟩
  · have hk := hv.keys.wf_of_count hv.count
    refine (C33_labels_write_failure build py hpy native t.keys hv.keys (by
        have := hk.names_pos
        rintro he
        rw [he] at this
        simp at this)).imp_right fun ⟨h1, h2⟩ => ⟨.inl h1, h2⟩
  · have hm := List.mem_of_getElem? hb
    exact (hwhat _ (hv.blocks b hm).values (hs.values b hm) w r hw).imp_right
      fun ⟨h1, h2⟩ => ⟨.inr ⟨b, hm, .inl h1⟩, h2⟩
  · have hm := List.mem_of_getElem? hb
    have hbv := hv.blocks b hm
    have hgr := (gradient_eq_some hbv.names).2 hg
    exact (hwhat _ (hbv.gradients p g hg).basic (hs.gradients b hm p g hgr) w r hw).imp_right
      fun ⟨h1, h2⟩ => ⟨.inr ⟨b, hm, .inr ⟨p, g, hgr, h1⟩⟩, h2⟩

/-- Non-vacuity of C35, for a tensor map with three blocks, components and gradients. -/
example : ∃ archive, TensorValid Example.tensor ∧ Storable Example.tensor ∧ NoNul Example.tensor ∧
    save ⟨true⟩ PyLiteral.fragment .little .reversed Example.tensor = .ok archive := by
  obtain ⟨archive, h⟩ := Example.isOk_iff Example.tensor_saved
  exact ⟨archive, Example.tensor_valid, Example.tensor_storable, Example.tensor_noNul, h⟩

/-! ### C36 -/

/-- **C36.** Different parts have different names, for all block indexes, component indexes and gradient names. -/
theorem C36_names_injective (part part' : Part) (h : part.name = part'.name) : part = part' :=
  Part.name_injective h

/-- **C36.** An archive written by `save` has exactly one entry for each part of the tensor map, and no other entry. -/
theorem C36_entries (build : Build) (py : PyLiteral) (native : Endian) (hash : HashOrder)
    (t : TensorMap A) (hv : TensorValid t) (archive : Archive) (h : save build py native hash t = .ok archive) :
    (archive.map Prod.fst).Nodup ∧
    ∀ name, name ∈ archive.map Prod.fst ↔ ∃ part : Part, part.Of t ∧ name = part.name := by
  have hn : ∀ b ∈ t.blocks, b.GradientsNodup := fun b hb => (hv.blocks b hb).names
  refine ⟨save_names_nodup hn h, fun name => ?_⟩
  have hof : ∀ (b : BasicBlock A) (w : What), (∃ r, WhatItem build py native b w r) ↔ w.Of b := by
    intro b w
    constructor
    · rintro ⟨r, hw⟩
      cases hw with
      | component hc =>
        show _ < _
        exact (List.getElem?_eq_some_iff.1 hc).1
      | _ => exact trivial
    · intro hw
      cases w with
      | data => exact ⟨_, .data⟩
      | samples => exact ⟨_, .samples⟩
      | component i => exact ⟨_, .component (List.getElem?_eq_getElem hw)⟩
      | properties => exact ⟨_, .properties⟩
  rw [save_names h, List.mem_map]
  constructor
  · rintro ⟨part, hp, rfl⟩
    refine ⟨part, ?_, rfl⟩
    rw [List.mem_map] at hp
    obtain ⟨x, hx, rfl⟩ := hp
    rcases mem_tensorItems.1 hx with rfl | ⟨b, i, hb, ⟨w, r, hw, rfl⟩ | ⟨p, g, w, r, hg, hw, hne, rfl⟩⟩
    · exact trivial
    · exact ⟨b, hb, (hof _ w).1 ⟨r, hw⟩⟩
    · exact ⟨b, g, hb, (gradient_eq_some (hn b (List.mem_of_getElem? hb))).2 hg, (hof _ w).1 ⟨r, hw⟩, hne⟩
  · rintro ⟨part, hp, rfl⟩
    refine ⟨part, ?_, rfl⟩
    rw [List.mem_map]
    cases part with
    | keys => exact ⟨_, mem_tensorItems.2 (.inl rfl), rfl⟩
    | values i w =>
      obtain ⟨b, hb, hw⟩ := hp
      obtain ⟨r, hr⟩ := (hof _ w).2 hw
      exact ⟨_, mem_tensorItems.2 (.inr ⟨b, i, hb, .inl ⟨w, r, hr, rfl⟩⟩), rfl⟩
    | gradient i p w =>
      obtain ⟨b, g, hb, hg, hw, hne⟩ := hp
      obtain ⟨r, hr⟩ := (hof _ w).2 hw
      exact ⟨_, mem_tensorItems.2 (.inr ⟨b, i, hb, .inr ⟨p, g, w, r,
        (gradient_eq_some (hn b (List.mem_of_getElem? hb))).1 hg, hr, hne, rfl⟩⟩), rfl⟩

/-- **C36.** The gradient names found in the names of the entries are exactly the ones of the blocks, each of them
once, whatever the order of the entries. -/
theorem C36_gradient_names (build build' : Build) (py : PyLiteral) (native : Endian) (hash hash' : HashOrder)
    (t : TensorMap A) (hv : TensorValid t) (archive : Archive) (h : save build py native hash t = .ok archive) :
    ∃ parameters, gradientParameters build' (archive.fileNames hash') = .ok parameters ∧
      (∀ b ∈ t.blocks, parameters.Perm b.gradientParameters) ∧ (t.blocks = [] → parameters = []) := by
  obtain ⟨ps, h1, h2⟩ := save_parameters (fun b hb => (hv.blocks b hb).names) h build' hash'
  refine ⟨ps, h1, fun b hb => ?_, fun he => ?_⟩
  · rw [(hv.blocks b hb).list]
    exact h2.trans (firstParameters_perm hv hb)
  · unfold firstParameters at h2
    rw [he] at h2
    exact List.perm_nil.1 h2

/-- Non-vacuity of C36: the entries of a tensor map, and names which look alike. -/
example : (∃ archive, save ⟨true⟩ PyLiteral.fragment .little .reversed Example.tensor = .ok archive) ∧
    (Part.gradient 2 "g" (.component 1)).Of Example.tensor ∧
    (Part.gradient 0 "a/components/1" .data).name = "blocks/0/gradients/a/components/1/data.npy" ∧
    (Part.gradient 0 "a" (.component 1)).name = "blocks/0/gradients/a/components/1.npy" ∧
    gradientParameters ⟨true⟩ ["blocks/0/gradients/a/components/1/data.npy", "blocks/0/gradients/a/data.npy",
      "blocks/1/gradients/b/data.npy", "blocks/0/gradients//data.npy"] = .ok ["a/components/1", "a", ""] := by
  refine ⟨Example.isOk_iff Example.tensor_saved, ?_, by decide +kernel, by decide +kernel, by decide +kernel⟩
  refine ⟨Example.gradBlock, ⟨Example.gradientData, Example.gradientSamples, [Example.direction, Example.component],
    Example.properties⟩, rfl, by decide +kernel, by show 1 < 2; decide, by decide⟩

/-! ### C38 -/

/-- **C38.** Whatever the content of the archive, a tensor map which has been loaded is valid, and its arrays have as
many elements as their shape says. Nothing is assumed of the parser of Python literals. -/
theorem C38_load_valid (build : Build) (py : PyLiteral) (hash hash' : HashOrder) (archive : Archive)
    (t : TensorMap NdArray) (h : load build py hash hash' archive = .ok t) : TensorValid t ∧ ArraysOk t :=
  load_ok h

/-- **C38**, labels: whatever the content of the file, labels which have been read can be made by a builder with
at least one name. -/
theorem C38_labels_valid (build : Build) (py : PyLiteral) (file : Bytes) (l : Labels)
    (h : readNpyLabels build py file = .ok l) : l.FromBuilder ∧ l.names ≠ [] := by
  have hw := readNpyLabels_wf h
  refine ⟨hw.fromBuilder, fun he => ?_⟩
  have := hw.names_pos
  rw [he] at this
  simp at this

/-- Non-vacuity of C38: something can be loaded. -/
example : ∃ archive t, load ⟨true⟩ PyLiteral.fragment .insertion .insertion archive = .ok t := by
  obtain ⟨archive, h⟩ := Example.isOk_iff Example.tensor_saved
  obtain ⟨t, ht, -⟩ := C35_save_load ⟨true⟩ ⟨true⟩ _ lawful_fragment _ _ .insertion .insertion _ Example.tensor_valid
    Example.tensor_storable Example.tensor_noNul archive h
  exact ⟨archive, t, ht⟩

/-! ### C40 -/

/-- **C40**, full statement: loading never panics. This is false. -/
def C40_full_statement : Prop :=
  ∀ (build : Build) (py : PyLiteral), LawfulPy py → ∀ (hash hash' : HashOrder) (archive : Archive) (m : String),
    load build py hash hash' archive ≠ .panic m

namespace Example

/-- The bytes written, if any. -/
def bytesOf (r : Res Bytes) : Bytes :=
  match r with
  | .ok bytes => bytes
  | _ => []

/-- The entries written, if any. -/
def archiveOf (r : Res Archive) : Archive :=
  match r with
  | .ok archive => archive
  | _ => []

/-- A file for labels with the given names and type, and the given bytes of data. -/
def labelsFile (names : List String) (count : Nat) (data : Bytes) : Bytes :=
  bytesOf (NpyHeader.toBytes ⟨true⟩ PyLiteral.fragment
    ⟨.list (names.map fun name => .tuple [.string name.toList, .string "<i4".toList]), false, [count]⟩) ++ data

/-- A file for data. -/
def dataFile (shape : List Nat) (data : Bytes) : Bytes :=
  bytesOf (NpyHeader.toBytes ⟨true⟩ PyLiteral.fragment ⟨.string "<f8".toList, false, shape⟩) ++ data

/-- What is saved for the tensor map of the examples. -/
def saved : Archive := archiveOf (save ⟨true⟩ PyLiteral.fragment .little .insertion tensor)

/-- Contents for which `load` panics: an empty type for labels; two identical rows; an invalid name; the same name
twice; more rows than memory; data with a single dimension; data with more elements than memory; an
unexpected file name. -/
def panicking : List Archive := [
  [("keys.npy", labelsFile [] 0 [])],
  [("keys.npy", labelsFile ["a"] 2 [1, 0, 0, 0, 1, 0, 0, 0])],
  [("keys.npy", labelsFile ["not valid"] 0 [])],
  [("keys.npy", labelsFile ["a", "a"] 0 [])],
  [("keys.npy", labelsFile ["a"] (2 ^ 63) [])],
  saved ++ [("blocks/0/values/data.npy", dataFile [1] [0, 0, 0, 0, 0, 0, 0, 0])],
  saved ++ [("blocks/0/values/data.npy", dataFile [2 ^ 63, 2] [])],
  saved ++ [("blocks/0/gradients/data.npy", [])]]

theorem panicking_panics :
    panicking.all (fun archive => isPanic (load ⟨true⟩ PyLiteral.fragment .insertion .insertion archive)) = true := by
  decide +kernel

end Example

/-- **C40** is false: `load` panics on an archive with an unexpected file name, and for seven other reasons, see
`Example.panicking`. -/
theorem C40_counterexample : ¬ C40_full_statement := by
  intro h
  have hp := List.all_eq_true.1 Example.panicking_panics
  obtain ⟨m, hm⟩ := Example.isPanic_iff (hp (Example.saved ++ [("blocks/0/gradients/data.npy", [])]) (by simp [Example.panicking]))
  exact h ⟨true⟩ _ lawful_fragment .insertion .insertion _ m hm

/-- **C40**, partial: without these contents, loading does not panic: it gives a tensor map or an error. What is
missing: these contents should give errors. -/
theorem C40_load_no_panic_partial (build : Build) (py : PyLiteral) (hash hash' : HashOrder) (archive : Archive)
    (hs : SoundArchive build py archive) :
    (∃ t, load build py hash hash' archive = .ok t) ∨ ∃ e, load build py hash hash' archive = .err e := by
  cases h : load build py hash hash' archive with
  | ok t => exact .inl ⟨t, rfl⟩
  | err e => exact .inr ⟨e, rfl⟩
  | panic m => exact absurd h (load_noPanic hs m)

/-- **C40**, headers: reading the header of a file does not panic, for all contents and parsers. -/
theorem C40_header_no_panic (py : PyLiteral) (file : Bytes) :
    (∃ r, NpyHeader.fromReader py file = .ok r) ∨ ∃ e, NpyHeader.fromReader py file = .err e := by
  cases h : NpyHeader.fromReader py file with
  | ok r => exact .inl ⟨r, rfl⟩
  | err e => exact .inr ⟨e, rfl⟩
  | panic m => exact absurd h (fromReader_noPanic py file m)

namespace Example

/-- Decides `SoundLabels`. -/
def soundLabels (py : PyLiteral) (file : Bytes) : Bool :=
  match NpyHeader.fromReader py file with
  | .ok (header, rest) =>
    match header.typeDescriptor with
    | .list fields =>
      !fields.isEmpty && (fields.filterMap fieldName).all isValidLabelName &&
      decide (fields.filterMap fieldName).Nodup && header.shape.all (fun n => decide (4 * (n * fields.length) ≤ isizeMax)) &&
      [Endian.little, .big].all fun e =>
        decide (chunksExact fields.length ((decodeAll e 4 rest).map fun n => Int32.ofNat n)).Nodup
    | _ => true
  | _ => true

theorem soundLabels_iff {py : PyLiteral} {file : Bytes} (h : soundLabels py file = true) : SoundLabels py file := by
  intro header rest hr fields hf
  unfold soundLabels at h
  rw [hr] at h
  simp only [hf, Bool.and_eq_true, List.all_eq_true, decide_eq_true_eq] at h
  obtain ⟨⟨⟨⟨h1, h2⟩, h3⟩, h4⟩, h5⟩ := h
  refine ⟨?_, fun n hn => (isValidLabelName_iff n).1 (h2 n hn), h3, h4, fun e => h5 e (by cases e <;> simp)⟩
  rintro rfl
  simp at h1

/-- Decides `SoundData`. -/
def soundData (py : PyLiteral) (file : Bytes) : Bool :=
  match NpyHeader.fromReader py file with
  | .ok (header, _) => decide (2 ≤ header.shape.length) &&
      decide (shapeSize (header.shape.filter (· ≠ 0)) ≤ isizeMax) && decide (8 * shapeSize header.shape ≤ isizeMax)
  | _ => true

theorem soundData_iff {py : PyLiteral} {file : Bytes} (h : soundData py file = true) : SoundData py file := by
  intro header rest hr
  unfold soundData at h
  rw [hr] at h
  simp only [Bool.and_eq_true, decide_eq_true_eq] at h
  exact ⟨h.1.1, h.1.2, h.2⟩

/-- Decides `SoundArchive`. -/
def soundArchive (py : PyLiteral) (archive : Archive) : Bool :=
  archive.all (fun e => if "/data.npy".toList.isSuffixOf e.1.toList then soundData py e.2 else soundLabels py e.2) &&
  decide ("blocks/0/gradients/data.npy" ∉ archive.map Prod.fst) &&
  (archive.map Prod.fst).all fun name => decide ('\x00' ∉ name.toList)

theorem soundArchive_iff {build : Build} {py : PyLiteral} {archive : Archive} (h : soundArchive py archive = true) :
    SoundArchive build py archive := by
  simp only [soundArchive, Bool.and_eq_true, List.all_eq_true, decide_eq_true_eq] at h
  obtain ⟨⟨h1, h2⟩, h3⟩ := h
  refine ⟨fun name file hm hd => ?_, fun name file hm hd => ?_, h2, h3⟩
  · have := h1 _ hm
    rw [if_pos (List.isSuffixOf_iff_suffix.2 hd)] at this
    refine ⟨fun hp => ?_, fun _ header rest hr => (soundData_iff this header rest hr).1⟩
    obtain ⟨m, hm⟩ := readData_panics_iff.2 hp
    exact readData_noPanic_of_sound (soundData_iff this) m hm
  · have := h1 _ hm
    rw [if_neg (mt List.isSuffixOf_iff_suffix.1 hd)] at this
    intro hp
    obtain ⟨m, hm⟩ := readNpyLabels_panics_iff.2 hp
    exact readNpyLabels_noPanic_of_sound (soundLabels_iff this) m hm

end Example

/-- Non-vacuity of C40: a saved archive, with one more file which can not be read and one with data which does not
match the labels. -/
example (build : Build) : SoundArchive build PyLiteral.fragment
    (Example.saved ++ [("blocks/1/values/samples.npy", [1, 2, 3]), ("blocks/0/values/data.npy", Example.dataFile [0, 3] [])]) :=
  Example.soundArchive_iff (by decide +kernel)

/-- **C40**, files for labels, exactly: which contents make the function which reads labels panic. -/
theorem C40_labels_panic_exact (build : Build) (py : PyLiteral) (file : Bytes) :
    (∃ m, readNpyLabels build py file = .panic m) ↔ PanickingLabels build py file :=
  readNpyLabels_panics_iff

/-- **C40**, files for data, exactly: which contents make the function which reads data panic. -/
theorem C40_data_panic_exact (build : Build) (py : PyLiteral) (file : Bytes) :
    (∃ m, readData build py file = .panic m) ↔ PanickingData build py file :=
  readData_panics_iff

/-- **C40**, keys: such contents for the keys always make loading panic, whatever the other files are. See
`C111_one_entry_partial` for one file with such contents among the other files of a saved tensor map. -/
theorem C40_keys_panic (build : Build) (py : PyLiteral) (hash hash' : HashOrder) (before after : Archive) (file : Bytes)
    (hlast : "keys.npy" ∉ after.map Prod.fst) (h : PanickingLabels build py file) :
    ∃ m, load build py hash hash' (before ++ ("keys.npy", file) :: after) = .panic m := by
  obtain ⟨m, hm⟩ := readNpyLabels_panics_iff.2 h
  have hnone : after.reverse.lookup "keys.npy" = none := by
    rw [List.lookup_eq_none_iff]
    intro p hp
    have hne : p.1 ≠ "keys.npy" := by
      intro he
      exact hlast (List.mem_map.2 ⟨p, List.mem_reverse.1 hp, he⟩)
    exact bne_iff_ne.2 hne.symm
  have hf : Archive.byName (before ++ ("keys.npy", file) :: after) "keys.npy" = .ok file := by
    unfold Archive.byName
    rw [List.reverse_append, List.reverse_cons, List.append_assoc, List.lookup_append, hnone]
    rfl
  unfold load
  rw [hf, Res.ok_bind, hm]
  exact ⟨m, rfl⟩

/-- Non-vacuity: all these contents, also in release builds. -/
example : PanickingLabels ⟨false⟩ PyLiteral.fragment (Example.labelsFile [] 0 []) ∧
    PanickingLabels ⟨false⟩ PyLiteral.fragment (Example.labelsFile ["a"] 2 [1, 0, 0, 0, 1, 0, 0, 0]) ∧
    PanickingLabels ⟨false⟩ PyLiteral.fragment (Example.labelsFile ["not valid"] 0 []) ∧
    PanickingLabels ⟨false⟩ PyLiteral.fragment (Example.labelsFile ["a"] (2 ^ 63) []) ∧
    PanickingLabels ⟨true⟩ PyLiteral.fragment (Example.labelsFile ["a", "b"] (2 ^ 63) []) ∧
    PanickingData ⟨true⟩ PyLiteral.fragment (Example.dataFile [2 ^ 63, 2, 0] []) ∧
    PanickingData ⟨false⟩ PyLiteral.fragment (Example.dataFile [2 ^ 61, 1] []) ∧
    PanickingData ⟨false⟩ PyLiteral.fragment (Example.dataFile [2 ^ 63, 2, 0] []) := by
  refine ⟨?_, ?_, ?_, ?_, ?_, ?_, ?_, ?_⟩ <;>
    first
    | exact (C40_labels_panic_exact ..).1 (Example.isPanic_iff (by decide +kernel))
    | exact (C40_data_panic_exact ..).1 (Example.isPanic_iff (by decide +kernel))

/-- Non-vacuity: not so for other contents, such as the first one below in release builds: the number of values wraps
around, and these are labels without entries; or files which are too short or too long. -/
example : ¬ PanickingLabels ⟨false⟩ PyLiteral.fragment (Example.labelsFile ["a", "b"] (2 ^ 63) []) ∧
    ¬ PanickingLabels ⟨true⟩ PyLiteral.fragment (Example.labelsFile ["a"] 2 [1, 0, 0, 0, 1, 0, 0]) ∧
    ¬ PanickingData ⟨true⟩ PyLiteral.fragment (Example.dataFile [2, 0, 3] [0]) := by
  refine ⟨fun h => ?_, fun h => ?_, fun h => ?_⟩
  · obtain ⟨m, hm⟩ := (C40_labels_panic_exact ..).2 h
    have : Example.isPanic (readNpyLabels ⟨false⟩ PyLiteral.fragment (Example.labelsFile ["a", "b"] (2 ^ 63) [])) = false := by
      decide +kernel
    rw [hm] at this
    simp [Example.isPanic] at this
  · obtain ⟨m, hm⟩ := (C40_labels_panic_exact ..).2 h
    have : Example.isPanic (readNpyLabels ⟨true⟩ PyLiteral.fragment (Example.labelsFile ["a"] 2 [1, 0, 0, 0, 1, 0, 0])) = false := by
      decide +kernel
    rw [hm] at this
    simp [Example.isPanic] at this
  · obtain ⟨m, hm⟩ := (C40_data_panic_exact ..).2 h
    have : Example.isPanic (readData ⟨true⟩ PyLiteral.fragment (Example.dataFile [2, 0, 3] [0])) = false := by
      decide +kernel
    rw [hm] at this
    simp [Example.isPanic] at this

end Equistore
