import Verif.Lemmas.SaveOutcome

/-!
# Files: interrupted saves, successful saves, and the previous content of files

C52 to C54.
-/

namespace Equistore
open Spec
variable {A : Type} [ArrayLike A]

/-! ### What saving does to files -/

theorem saveFiles_ok {build : Build} {py : PyLiteral} {native : Endian} {hash : HashOrder} {disk : Disk} {memory : Bytes}
    {t : TensorMap A} {files : Files} {path : String} (hp : cstrStr memory = some path) (hc : disk.canCreate = true) :
    eqsTensormapSaveFile build py native hash disk (some memory) (some t) files =
      (files.write path (disk.closed ((saveTo build py native hash t ⟨[], none, disk.left⟩).2 == .ok ())
        (saveTo build py native hash t ⟨[], none, disk.left⟩).1), (saveTo build py native hash t ⟨[], none, disk.left⟩).2) := by
  unfold eqsTensormapSaveFile
  simp only [Act.bind_def, Act.lift, checkPointer, Res.okOr, Res.expect, hp, Res.guardErr, hc, if_true]
  rfl

theorem saveFiles_none {build : Build} {py : PyLiteral} {native : Endian} {hash : HashOrder} {disk : Disk} {memory : Option Bytes}
    {t : Option (TensorMap A)} {files : Files}
    (h : memory = none ∨ t = none ∨ (∃ m, memory = some m ∧ cstrStr m = none) ∨ disk.canCreate = false) :
    (eqsTensormapSaveFile build py native hash disk memory t files).1 = files ∧
    (eqsTensormapSaveFile build py native hash disk memory t files).2 ≠ .ok () := by
  unfold eqsTensormapSaveFile
  cases memory with
  | none => simp [Act.bind_def, Act.lift, checkPointer, Res.okOr]
  | some m =>
    cases t with
    | none => simp [Act.bind_def, Act.lift, checkPointer, Res.okOr]
    | some t =>
      cases hm : cstrStr m with
      | none => simp [Act.bind_def, Act.lift, checkPointer, Res.okOr, Res.expect, hm]
      | some path =>
        have hc : disk.canCreate = false := by
          rcases h with h | h | ⟨m', h1, h2⟩ | h
          · cases h
          · cases h
          · cases h1; rw [hm] at h2; cases h2
          · exact h
        simp only [Act.bind_def, Act.lift, checkPointer, Res.okOr, Res.expect, hm, Res.guardErr, hc, Bool.false_eq_true,
          if_false]
        exact ⟨rfl, fun h => by cases h⟩

theorem loadFiles {build : Build} {py : PyLiteral} {hash hash' : HashOrder} {memory : Bytes} {files : Files} {path : String}
    (hp : cstrStr memory = some path) :
    eqsTensormapLoadFile build py hash hash' (some memory) files =
      match files path with
      | none => .err (.io "No such file or directory")
      | some .notArchive => .err (.serialization "invalid Zip archive: ")
      | some (.archive entries) => load build py hash hash' entries := by
  unfold eqsTensormapLoadFile
  simp only [checkPointer, Res.okOr, Res.expect, hp, Res.ok_bind]
  rfl

theorem write_same {files : Files} {path : String} {content : Content} : files.write path content path = some content := by
  simp [Files.write]

theorem write_other {files : Files} {path other : String} {content : Content} (h : other ≠ path) :
    files.write path content other = files other := by
  simp [Files.write, h]

theorem closed_entries {disk : Disk} {success : Bool} {w : ZipWriter} {entries : Archive}
    (h : disk.closed success w = .archive entries) : entries = w.entries := by
  unfold Disk.closed at h
  dsimp only at h
  by_cases hif : ((!success && disk.recovers) ||
      w.left.all fun x => decide ((if success = true then 1 else 2) ≤ x)) = true
  · rw [if_pos hif, Content.archive.injEq] at h
    exact h.symm
  · rw [if_neg hif] at h
    cases h

theorem pair_of_snd {α β : Type} {p : α × β} {b : β} (h : p.2 = b) : p = (p.1, b) := by rw [← h]

/-! ### C52 -/

/-- **C52**, full statement: whatever happens while a tensor map is saved (the disk fails at any point, and may work
again; the process dies; an array cannot be read), what can be loaded from the file afterwards is this tensor
map. The only exception is that the file could not be created, and is what it was before. This is false. -/
def C52_full_statement : Prop :=
  ∀ (build build' : Build) (py : PyLiteral), LawfulPy py → ∀ (native : Endian) (hash hash1 hash2 : HashOrder) (disk : Disk)
    (memory : Bytes) (t : TensorMap NdArray), TensorValid t → Sound t → ∀ (files : Files) (t' : TensorMap NdArray),
    eqsTensormapLoadFile build' py hash1 hash2 (some memory)
      (eqsTensormapSaveFile build py native hash disk (some memory) (some t) files).1 = .ok t' →
    SameContent t t' ∨
    disk.canCreate = false ∧ (eqsTensormapSaveFile build py native hash disk (some memory) (some t) files).1 = files

/-- **C52**, partial: this holds if the disk does not fail, or does not work again after the failure (this is the
case when the process dies), or there is not exactly one block, or there are no gradients. Missing: a disk which works
again after it failed to open the entry for a gradient of the only block. -/
theorem C52_interrupted_partial (build build' : Build) (py : PyLiteral) (hpy : LawfulPy py) (native : Endian)
    (hash hash1 hash2 : HashOrder) (disk : Disk) (memory : Bytes) (t : TensorMap A) (hv : TensorValid t) (hs : Sound t)
    (hdisk : disk.left = none ∨ disk.recovers = false ∨ t.blocks.length ≠ 1 ∨ ∀ b ∈ t.blocks, ∀ p, b.gradient p = none)
    (files : Files) (t' : TensorMap NdArray)
    (h : eqsTensormapLoadFile build' py hash1 hash2 (some memory)
      (eqsTensormapSaveFile build py native hash disk (some memory) (some t) files).1 = .ok t') :
    SameContent t t' ∨
    disk.canCreate = false ∧ (eqsTensormapSaveFile build py native hash disk (some memory) (some t) files).1 = files := by
  cases hp : cstrStr memory with
  | none =>
    exfalso
    unfold eqsTensormapLoadFile at h
    simp only [checkPointer, Res.okOr, Res.expect, hp, Res.ok_bind] at h
    cases h
  | some path =>
    cases hc : disk.canCreate with
    | false => exact .inr ⟨rfl, (saveFiles_none (.inr (.inr (.inr hc)))).1⟩
    | true =>
      left
      rw [saveFiles_ok hp hc, loadFiles hp] at h
      dsimp only at h
      rw [write_same] at h
      rcases hr : saveTo build py native hash t ⟨[], none, disk.left⟩ with ⟨w, r⟩
      rw [hr] at h
      obtain ⟨hn, hres⟩ := saveTo_result hr
      cases hcl : disk.closed (r == .ok ()) w with
      | notArchive =>
        simp only [hcl] at h
        cases h
      | archive entries =>
        simp only [hcl] at h
        have hent : entries = w.entries ∧ (r ≠ .ok () → w.left = some 0 → disk.recovers = true) := by
          unfold Disk.closed at hcl
          dsimp only at hcl
          by_cases hif : ((!(r == Res.ok ()) && disk.recovers) ||
              w.left.all fun x => decide ((if (r == Res.ok ()) = true then 1 else 2) ≤ x)) = true
          · rw [if_pos hif, Content.archive.injEq] at hcl
            refine ⟨hcl.symm, fun hne hl => ?_⟩
            have : (r == Res.ok ()) = false := by simpa using hne
            rw [this, hl] at hif
            simpa using hif
          · rw [if_neg hif] at hcl
            cases hcl
        obtain ⟨rfl, hrec⟩ := hent
        rcases hres with hw | ⟨hne, before, part, source, archive, content, hst, he, hleft⟩
        · obtain ⟨t'', h1, h2⟩ := load_written (build' := build') hpy hv hs hw hash1 hash2
          rw [h1, Res.ok.injEq] at h
          exact h ▸ h2
        · exfalso
          rw [he] at h
          refine hst.not_loaded hpy hv hs ?_ hash1 hash2 t' h
          rintro hcontent ⟨i, p, rfl⟩
          have hl := hleft hcontent
          rcases hdisk with hd | hd | hd | hd
          · rw [hn hd] at hl; cases hl
          · rw [hrec hne hl] at hd; cases hd
          · exact hd
          · exfalso
            obtain ⟨after, hparts⟩ := hst.parts
            have hm : ((Part.gradient i p .data, source) : Part × SaveSource A) ∈ tensorParts hash t := by rw [hparts]; simp
            rcases mem_tensorParts.1 hm with he | ⟨b, j, hb, ⟨w, s, -, he⟩ | ⟨q, g, w, s, hg, -, -, he⟩⟩
            · cases he
            · cases he
            · have hbm := List.mem_of_getElem? hb
              have := (gradient_eq_some (hv.blocks b hbm).names).2 hg
              rw [hd b hbm q] at this
              cases this

namespace Example

/-- One block with a gradient. -/
def single : TensorMap NdArray := ⟨Labels.mk' ["k"] [[0]], [gradBlock]⟩
theorem single_valid : TensorValid single := TensorMap.valid_of_rebuilds (by decide +kernel)
theorem single_storable : Storable single := by
  refine ⟨?_, ?_, ?_⟩
  · unfold Labels.InMemory; decide +kernel
  · intro b hb
    have : ∀ b ∈ single.blocks, storable b.values = true := by decide +kernel
    exact storable_iff (this b hb)
  · intro b hb p g hg
    have : ∀ b ∈ single.blocks, ∀ x ∈ b.gradients, storable x.2 = true := by decide +kernel
    exact storable_iff (this b hb _ (lookup_mem hg))
theorem single_noNul : NoNul single := by
  intro b hb p g hg
  have : ∀ b ∈ single.blocks, ∀ x ∈ b.gradients, '\x00' ∉ x.1.toList := by decide +kernel
  exact this b hb _ (lookup_mem hg)

/-- Tensor maps which can be saved meet the hypotheses here. -/
theorem sound_of_storable {t : TensorMap NdArray} (hs : Storable t) (hn : NoNul t) : Sound t := by
  have h : ∀ b : BasicBlock NdArray, BasicStorable b → BasicSound b := by
    intro b hb
    obtain ⟨dims, elements, h1, h2, h3, h4⟩ := hb.data
    refine ⟨hb.labels, fun dims' elements' h5 h6 => ?_⟩
    rw [h1, Res.ok.injEq] at h5
    rw [h2, Res.ok.injEq] at h6
    subst h5 h6
    exact ⟨h3, h4⟩
  exact ⟨hs.keys, fun b hb => h _ (hs.values b hb), fun b hb p g hg => h _ (hs.gradients b hb p g hg), hn⟩

/-- A disk which fails after `n` operations, and works again. -/
def failing (n : Nat) : Disk := { canCreate := true, left := some n, recovers := true }
/-- A disk which never fails. -/
def working : Disk := { canCreate := true, left := none, recovers := true }

/-- No files. -/
def noFiles : Files := fun _ => none
/-- The path of a file. -/
def file : Bytes := cstring "a.npz"
/-- The path of another file. -/
def file2 : Bytes := cstring "b.npz"

theorem file_str : cstrStr file = some "a.npz" := by decide +kernel
theorem file2_str : cstrStr file2 = some "b.npz" := by decide +kernel

/-- Save `single` with a given disk. -/
def savedWith (disk : Disk) : Files × Res Unit :=
  eqsTensormapSaveFile ⟨true⟩ PyLiteral.fragment .little .insertion disk (some file) (some single) noFiles

/-- Load the file. -/
def loaded (files : Files) : Res (TensorMap NdArray) :=
  eqsTensormapLoadFile ⟨true⟩ PyLiteral.fragment .insertion .insertion (some file) files

/-- The entries for the values of the block need 773 operations. -/
theorem single_lost : ∃ t', loaded (savedWith (failing 773)).1 = .ok t' ∧ ∀ b ∈ t'.blocks, b.gradient "g" = none := by
  have h : (match loaded (savedWith (failing 773)).1 with
    | .ok t' => t'.blocks.all fun b => (b.gradient "g").isNone
    | _ => false) = true := by decide +kernel
  revert h
  cases loaded (savedWith (failing 773)).1 with
  | ok t' =>
    intro h
    refine ⟨t', rfl, fun b hb => ?_⟩
    have := List.all_eq_true.1 h b hb
    simpa using this
  | err e => intro h; cases h
  | panic m => intro h; cases h

end Example

/-- **C52**, counterexample: the disk fails when the entry for the gradient of the only block should be opened, and works
again afterwards. `save` reports the error, but leaves a file which is loaded as a tensor map without the gradient. -/
theorem C52_counterexample : ¬ C52_full_statement := by
  intro h
  obtain ⟨t', h1, h2⟩ := Example.single_lost
  rcases h ⟨true⟩ ⟨true⟩ _ lawful_fragment .little .insertion .insertion .insertion (Example.failing 773) Example.file
    Example.single Example.single_valid (Example.sound_of_storable Example.single_storable Example.single_noNul)
    Example.noFiles t' h1 with hs | ⟨hc, -⟩
  · have hb := hs.blocks
    obtain ⟨b', hb', hsame⟩ := forall₂_mem_left hb (show Example.gradBlock ∈ Example.single.blocks from List.mem_cons_self)
    have hg := hsame.gradients "g"
    rw [h2 b' hb'] at hg
    have hsome : (Example.gradBlock.gradient "g").isSome = true := by decide +kernel
    obtain ⟨g, hg'⟩ := Option.isSome_iff_exists.1 hsome
    rw [hg'] at hg
    cases hg
  · cases hc

/-- Non-vacuity of C52: tensor maps with one and three blocks meet the hypotheses. A disk which fails too early leaves a
file which cannot be loaded; the same disk fails too late to lose anything, if it works again when the writer is dropped. -/
example :
    (TensorValid Example.single ∧ Sound Example.single) ∧ (TensorValid Example.tensor ∧ Sound Example.tensor) ∧
    Example.tensor.blocks.length ≠ 1 ∧
    Example.isOk (Example.loaded (Example.savedWith (Example.failing 1412)).1) = false ∧
    Example.isOk (Example.savedWith (Example.failing 1413)).2 = false ∧
    Example.isOk (Example.loaded (Example.savedWith (Example.failing 1413)).1) = true ∧
    Example.isOk (Example.loaded (Example.savedWith { Example.failing 773 with recovers := false }).1) = false :=
  ⟨⟨Example.single_valid, Example.sound_of_storable Example.single_storable Example.single_noNul⟩,
    ⟨Example.tensor_valid, Example.sound_of_storable Example.tensor_storable Example.tensor_noNul⟩,
    by decide, by decide +kernel, by decide +kernel, by decide +kernel, by decide +kernel⟩

/-! ### C53 -/

/-- **C53**, full statement: when saving a tensor map succeeded, it is loaded back from the file, also if
tensor maps are saved to other files in between. This is false. -/
def C53_full_statement : Prop :=
  ∀ (build build' : Build) (py : PyLiteral), LawfulPy py → ∀ (native : Endian) (hash hash1 hash2 : HashOrder) (disk : Disk)
    (memory : Bytes) (path : String), cstrStr memory = some path → ∀ (t : TensorMap NdArray), TensorValid t → Sound t →
    ∀ (files files' files'' : Files),
    eqsTensormapSaveFile build py native hash disk (some memory) (some t) files = (files', .ok ()) →
    OtherSaves py path files' files'' →
    ∃ t', eqsTensormapLoadFile build' py hash1 hash2 (some memory) files'' = .ok t' ∧ SameContent t t'

theorem saveFiles_other {build : Build} {py : PyLiteral} {native : Endian} {hash : HashOrder} {disk : Disk}
    {memory : Option Bytes} {t : Option (TensorMap A)} {files : Files} {path : String}
    (hp : ∀ m, memory = some m → cstrStr m ≠ some path) :
    (eqsTensormapSaveFile build py native hash disk memory t files).1 path = files path := by
  by_cases h : memory = none ∨ t = none ∨ (∃ m, memory = some m ∧ cstrStr m = none) ∨ disk.canCreate = false
  · rw [(saveFiles_none h).1]
  · simp only [not_or, not_exists, not_and] at h
    obtain ⟨h1, h2, h3, h4⟩ := h
    obtain ⟨m, rfl⟩ := Option.ne_none_iff_exists'.1 h1
    obtain ⟨t, rfl⟩ := Option.ne_none_iff_exists'.1 h2
    obtain ⟨other, ho⟩ := Option.ne_none_iff_exists'.1 (h3 m rfl)
    rw [saveFiles_ok ho (by simpa using h4)]
    refine write_other ?_
    rintro rfl
    exact hp m rfl ho

theorem otherSaves_same {py : PyLiteral} {path : String} {files files' : Files} (h : OtherSaves py path files files') :
    files' path = files path := by
  induction h with
  | none => rfl
  | save h build native hash disk other hother tensor ih => rw [saveFiles_other hother, ih]

/-- **C53**, partial: this holds for a disk which does not fail. Missing: when the disk fails for the last bytes of the
file, the failure is not reported. -/
theorem C53_saved_partial (build build' : Build) (py : PyLiteral) (hpy : LawfulPy py) (native : Endian)
    (hash hash1 hash2 : HashOrder) (disk : Disk) (hdisk : disk.left = none) (memory : Bytes) (path : String)
    (hp : cstrStr memory = some path) (t : TensorMap A) (hv : TensorValid t) (hs : Sound t) (files files' files'' : Files)
    (h : eqsTensormapSaveFile build py native hash disk (some memory) (some t) files = (files', .ok ()))
    (hother : OtherSaves py path files' files'') :
    ∃ t', eqsTensormapLoadFile build' py hash1 hash2 (some memory) files'' = .ok t' ∧ SameContent t t' := by
  cases hc : disk.canCreate with
  | false =>
    have := (saveFiles_none (A := A) (build := build) (py := py) (native := native) (hash := hash) (memory := some memory)
      (t := some t) (files := files) (.inr (.inr (.inr hc)))).2
    rw [h] at this
    exact absurd rfl this
  | true =>
    rw [saveFiles_ok hp hc] at h
    rcases hr : saveTo build py native hash t ⟨[], none, disk.left⟩ with ⟨w, r⟩
    rw [hr] at h
    simp only [Prod.mk.injEq] at h
    obtain ⟨rfl, rfl⟩ := h
    obtain ⟨hn, hres⟩ := saveTo_result hr
    rw [loadFiles hp, otherSaves_same hother, write_same]
    have hcl : disk.closed ((Res.ok () : Res Unit) == .ok ()) w = .archive w.entries := by
      unfold Disk.closed
      rw [hn hdisk]
      simp
    rw [hcl]
    rcases hres with hw | ⟨hne, -⟩
    · exact load_written (build' := build') hpy hv hs hw hash1 hash2
    · exact absurd rfl hne

/-- **C53**, any disk: when saving succeeded, either the tensor map is loaded back, or loading reports that the file is
not a ZIP archive. Nothing else is ever loaded. -/
theorem C53_saved_or_rejected (build build' : Build) (py : PyLiteral) (hpy : LawfulPy py) (native : Endian)
    (hash hash1 hash2 : HashOrder) (disk : Disk) (memory : Bytes) (path : String)
    (hp : cstrStr memory = some path) (t : TensorMap A) (hv : TensorValid t) (hs : Sound t) (files files' files'' : Files)
    (h : eqsTensormapSaveFile build py native hash disk (some memory) (some t) files = (files', .ok ()))
    (hother : OtherSaves py path files' files'') :
    (∃ t', eqsTensormapLoadFile build' py hash1 hash2 (some memory) files'' = .ok t' ∧ SameContent t t') ∨
    ∃ message, eqsTensormapLoadFile build' py hash1 hash2 (some memory) files'' = .err (.serialization message) := by
  cases hc : disk.canCreate with
  | false =>
    have := (saveFiles_none (A := A) (build := build) (py := py) (native := native) (hash := hash) (memory := some memory)
      (t := some t) (files := files) (.inr (.inr (.inr hc)))).2
    rw [h] at this
    exact absurd rfl this
  | true =>
    rw [saveFiles_ok hp hc] at h
    rcases hr : saveTo build py native hash t ⟨[], none, disk.left⟩ with ⟨w, r⟩
    rw [hr] at h
    simp only [Prod.mk.injEq] at h
    obtain ⟨rfl, rfl⟩ := h
    obtain ⟨hn, hres⟩ := saveTo_result hr
    rw [loadFiles hp, otherSaves_same hother, write_same]
    rcases hres with hw | ⟨hne, -⟩
    · cases hcl : disk.closed ((Res.ok () : Res Unit) == .ok ()) w with
      | notArchive => exact .inr ⟨_, rfl⟩
      | archive entries =>
        have := closed_entries hcl
        subst this
        exact .inl (load_written (build' := build') hpy hv hs hw hash1 hash2)
    · exact absurd rfl hne

/-- **C53**, counterexample: the disk fails for the record at the end of the file. `save` reports a success, and the file
cannot be loaded. -/
theorem C53_counterexample : ¬ C53_full_statement := by
  intro h
  have h1 : (Example.savedWith (Example.failing 1414)).2 = .ok () := by decide +kernel
  obtain ⟨t', h2, -⟩ := h ⟨true⟩ ⟨true⟩ _ lawful_fragment .little .insertion .insertion .insertion (Example.failing 1414)
    Example.file _ Example.file_str Example.single Example.single_valid
    (Example.sound_of_storable Example.single_storable Example.single_noNul) Example.noFiles
    (Example.savedWith (Example.failing 1414)).1 _ (pair_of_snd h1) .none
  have h3 : Example.isOk (Example.loaded (Example.savedWith (Example.failing 1414)).1) = false := by decide +kernel
  unfold Example.loaded at h3
  rw [h2] at h3
  cases h3

/-- Non-vacuity of C53: a tensor map is saved, then another one is saved to another file, and a third call fails. -/
example :
    ∃ files', eqsTensormapSaveFile ⟨true⟩ PyLiteral.fragment .little .insertion Example.working (some Example.file)
        (some Example.single) Example.noFiles = (files', .ok ()) ∧
    ∃ files'', files'' ≠ files' ∧ OtherSaves PyLiteral.fragment "a.npz" files' files'' := by
  have h1 : (Example.savedWith Example.working).2 = .ok () := by decide +kernel
  refine ⟨_, pair_of_snd h1, _, ?_, .save (.save .none ⟨true⟩ .big .reversed Example.working (some Example.file2) ?_
    (some Example.tensor)) ⟨false⟩ .little .insertion Example.working none (fun m hm => by cases hm)
    (none : Option (TensorMap NdArray))⟩
  · rw [(saveFiles_none (.inl rfl)).1, saveFiles_ok Example.file2_str rfl]
    intro he
    have := congrFun he "b.npz"
    rw [saveFiles_ok Example.file_str rfl] at this
    dsimp only at this
    rw [write_same, write_other (by decide)] at this
    cases this
  · intro m hm
    cases hm
    rw [Example.file2_str]
    decide

/-! ### C54 -/

/-- **C54**, full statement: a call to save a tensor map which fails leaves all files as they were. This is false. -/
def C54_full_statement : Prop :=
  ∀ (build : Build) (py : PyLiteral), LawfulPy py → ∀ (native : Endian) (hash : HashOrder) (disk : Disk)
    (memory : Option Bytes) (t : Option (TensorMap NdArray)) (files : Files),
    (eqsTensormapSaveFile build py native hash disk memory t files).2 ≠ .ok () →
    (eqsTensormapSaveFile build py native hash disk memory t files).1 = files

/-- **C54**, partial: this holds if the failure is about the parameters (`NULL` pointers, paths which are not UTF-8) or
the file cannot be created. Missing: failures after the file has been created. -/
theorem C54_rejected_partial (build : Build) (py : PyLiteral) (native : Endian) (hash : HashOrder) (disk : Disk)
    (memory : Option Bytes) (t : Option (TensorMap A)) (files : Files)
    (h : memory = none ∨ t = none ∨ (∃ m, memory = some m ∧ cstrStr m = none) ∨ disk.canCreate = false) :
    (eqsTensormapSaveFile build py native hash disk memory t files).1 = files ∧
    (eqsTensormapSaveFile build py native hash disk memory t files).2 ≠ .ok () :=
  saveFiles_none h

/-- **C54**, other files: whatever the outcome, only the file with the given path changes. -/
theorem C54_other_files (build : Build) (py : PyLiteral) (native : Endian) (hash : HashOrder) (disk : Disk)
    (memory : Option Bytes) (t : Option (TensorMap A)) (files : Files) (path : String)
    (h : (eqsTensormapSaveFile build py native hash disk memory t files).1 path ≠ files path) :
    ∃ m, memory = some m ∧ cstrStr m = some path := by
  by_contra hne
  refine h (saveFiles_other ?_)
  intro m hm he
  exact hne ⟨m, hm, he⟩

/-- **C54**, the file itself: as soon as the file could be created its previous content is gone, whether the call
fails or not: what is there afterwards does not depend on it. -/
theorem C54_overwritten (build : Build) (py : PyLiteral) (native : Endian) (hash : HashOrder) (disk : Disk)
    (hc : disk.canCreate = true) (m : Bytes) (path : String) (hp : cstrStr m = some path) (t : TensorMap A)
    (files files' : Files) :
    (eqsTensormapSaveFile build py native hash disk (some m) (some t) files).1 path =
      (eqsTensormapSaveFile build py native hash disk (some m) (some t) files').1 path ∧
    (eqsTensormapSaveFile build py native hash disk (some m) (some t) files).2 =
      (eqsTensormapSaveFile build py native hash disk (some m) (some t) files').2 := by
  rw [saveFiles_ok hp hc, saveFiles_ok hp hc]
  exact ⟨by dsimp only; rw [write_same, write_same], rfl⟩

/-- **C54**, counterexample: the disk fails while a tensor map is saved to a file which contains another one. The call
reports the error, and the previous tensor map is lost. -/
theorem C54_counterexample : ¬ C54_full_statement := by
  intro h
  have h1 := h ⟨true⟩ PyLiteral.fragment lawful_fragment .little .insertion (Example.failing 0) (some Example.file)
    (some Example.single) (Example.savedWith Example.working).1 (by
      rw [saveFiles_ok Example.file_str rfl]
      decide +kernel)
  have h2 : Example.isOk (Example.loaded (eqsTensormapSaveFile ⟨true⟩ PyLiteral.fragment .little .insertion (Example.failing 0)
    (some Example.file) (some Example.single) (Example.savedWith Example.working).1).1) = false := by decide +kernel
  have h3 : Example.isOk (Example.loaded (Example.savedWith Example.working).1) = true := by decide +kernel
  rw [h1, h3] at h2
  cases h2

/-- Non-vacuity of C54: calls which fail in these ways, for a directory which is not empty; and one which changes a file. -/
example :
    Example.isOk (Example.loaded (Example.savedWith Example.working).1) = true ∧
    (∃ m, some m = some [255] ∧ cstrStr m = none) ∧
    Example.isPanic (eqsTensormapSaveFile ⟨true⟩ PyLiteral.fragment .little .insertion Example.working (some [255])
      (some Example.single) (Example.savedWith Example.working).1).2 = true ∧
    (Example.savedWith Example.working).1 "a.npz" ≠ Example.noFiles "a.npz" := by
  refine ⟨by decide +kernel, ⟨[255], rfl, by decide +kernel⟩, by decide +kernel, ?_⟩
  unfold Example.savedWith
  rw [saveFiles_ok Example.file_str rfl]
  dsimp only
  rw [write_same]
  intro h
  cases h

end Equistore
