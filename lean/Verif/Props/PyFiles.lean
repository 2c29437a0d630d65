import Verif.Spec.PyFiles
import Verif.Props.Files
import Verif.Props.NumpyIo

/-!
# Names of files in Python

C80.
-/

namespace Equistore
open Spec
variable {A : Type} [ArrayLike A]

/-- **C80**, full statement: what was saved with a given path is loaded with the same path, whichever of the library and numpy are used, and no other
file than the one which was announced is changed. This is false. -/
def C80_full_statement : Prop :=
  ∀ (A : Type) [ArrayLike A] (m : PyMachine) (view : A → NpArray) (wrap : NpArray → A) (hash hash1 hash2 : HashOrder) (disk : Disk)
    (path : String) (t : TensorMap A) (saveNumpy loadNumpy : Bool) (files files' : Files), LawfulMachine m → NumpyArrays view wrap →
    Portable m view t → disk.left = none → pySaveFile m view hash disk path t saveNumpy files = (files', .ok ()) →
    (∃ t', pyLoadFile m wrap hash1 hash2 path loadNumpy files' = .ok t' ∧ SameLoaded view t t') ∧
    ∀ other, ¬ FileName path other → files' other = files other

/-! ### Names -/

theorem endsWithNpz_iff {path : String} : endsWithNpz path = true ↔ ".npz".toList <:+ path.toList := by
  unfold endsWithNpz
  rw [List.isSuffixOf_iff_suffix]

theorem fileName_savedPath (path : String) : FileName path (savedPath path) := by
  unfold savedPath FileName
  by_cases h : endsWithNpz path = true
  · rw [if_pos h]
    exact .inl ⟨endsWithNpz_iff.1 h, rfl⟩
  · rw [if_neg h]
    exact .inr ⟨fun h' => h (endsWithNpz_iff.2 h'), String.toList_append⟩

theorem fileName_iff {path name : String} : FileName path name ↔ name = savedPath path := by
  constructor
  · intro h
    rcases h with ⟨h1, h2⟩ | ⟨h1, h2⟩ <;> rcases fileName_savedPath path with ⟨h3, h4⟩ | ⟨h3, h4⟩
    · rw [h2, h4]
    · exact absurd h1 h3
    · exact absurd h3 h1
    · exact String.toList_injective (h2.trans h4.symm)
  · rintro rfl
    exact fileName_savedPath path

theorem endsWithNpz_savedPath (path : String) : endsWithNpz (savedPath path) = true := by
  rw [endsWithNpz_iff]
  rcases fileName_savedPath path with ⟨h1, h2⟩ | ⟨h1, h2⟩
  · rw [h2]; exact h1
  · rw [h2]; exact List.suffix_append _ _

theorem savedPath_savedPath (path : String) : savedPath (savedPath path) = savedPath path := by
  have h := endsWithNpz_savedPath path
  generalize savedPath path = saved at h
  unfold savedPath
  rw [if_pos h]

theorem nul_savedPath {path : String} : '\x00' ∈ (savedPath path).toList ↔ '\x00' ∈ path.toList := by
  rcases fileName_savedPath path with ⟨h1, h2⟩ | ⟨h1, h2⟩
  · rw [h2]
  · rw [h2, List.mem_append]
    constructor
    · rintro (h | h)
      · exact h
      · exact absurd h (by decide)
    · exact .inl

theorem canOpen_iff {path : String} : canOpen path = true ↔ '\x00' ∉ path.toList := by
  unfold canOpen
  simp

theorem pathMemory_str {path : String} (h : '\x00' ∉ path.toList) : cstrStr (pathMemory path) = some path := cstrStr_cstring h

theorem utf8Bytes_append (s t : String) : utf8Bytes (s ++ t) = utf8Bytes s ++ utf8Bytes t := by
  rw [utf8Bytes_eq, utf8Bytes_eq, utf8Bytes_eq, String.toList_append, List.flatMap_append]

theorem pathMemory_nul {path before : String} {after : List Char} (hp : path.toList = before.toList ++ '\x00' :: after)
    (hb : '\x00' ∉ before.toList) : cstrStr (pathMemory path) = some before := by
  have : pathMemory path = utf8Bytes before ++ 0 :: ((after.flatMap String.utf8EncodeChar) ++ [0]) := by
    unfold pathMemory cstring
    rw [utf8Bytes_eq, utf8Bytes_eq, hp, List.flatMap_append, List.flatMap_cons]
    simp [show String.utf8EncodeChar '\x00' = [0] by decide]
  rw [this]
  exact cstrStr_append hb _

/-! ### What is written -/

theorem npSavezEntries_eq {np : Numpy} {arrays : List (String × NpArray)} {entries : Archive}
    (h : npSavezEntries np arrays = (entries, .ok ())) :
    (arrays.mapM fun (x : String × NpArray) => do
      let bytes ← npWrite np x.2
      return (x.1 ++ ".npy", bytes) : Except PyExc Archive) = .ok entries := by
  induction arrays generalizing entries with
  | nil =>
    cases h
    rfl
  | cons x arrays ih =>
    obtain ⟨key, array⟩ := x
    unfold npSavezEntries at h
    cases hw : npWrite np array with
    | error e => rw [hw] at h; cases h
    | ok bytes =>
      rw [hw] at h
      rcases hr : npSavezEntries np arrays with ⟨es, r⟩
      simp only [hr, Prod.mk.injEq] at h
      obtain ⟨rfl, rfl⟩ := h
      rw [List.mapM_cons, ih hr]
      simp only [hw]
      rfl

/-- What `save` does with the parameter `use_numpy=True`. -/
theorem pySaveFile_numpy {m : PyMachine} {view : A → NpArray} {hash : HashOrder} {disk : Disk} {path : String} {t : TensorMap A}
    {files files' : Files} (h : pySaveFile m view hash disk path t true files = (files', .ok ())) :
    '\x00' ∉ path.toList ∧ ∃ archive, pySave view m.native m.np t = .ok archive ∧ files' = files.write (savedPath path) (.archive archive) := by
  unfold pySaveFile at h
  simp only [if_true] at h
  cases ha : tensorAssignments view m.native t with
  | error e => rw [ha] at h; cases h
  | ok assignments =>
    rw [ha] at h
    unfold npSavez at h
    simp only [savedPath_savedPath] at h
    cases ho : canOpen (savedPath path) with
    | false => rw [ho] at h; cases h
    | true =>
      rw [ho, if_pos rfl] at h
      cases hc : disk.canCreate with
      | false => rw [hc] at h; cases h
      | true =>
        rw [hc, if_pos rfl] at h
        rcases hr : npSavezEntries m.np (assignments.foldl (fun dict (key, value) => dictSet key value dict) []) with ⟨es, r⟩
        simp only [hr, Prod.mk.injEq] at h
        obtain ⟨rfl, rfl⟩ := h
        refine ⟨fun hn => (canOpen_iff.1 ho) (nul_savedPath.2 hn), es, ?_, rfl⟩
        unfold pySave
        rw [ha]
        exact npSavezEntries_eq hr

/-- What `save` does with the parameter `use_numpy=False`. -/
theorem pySaveFile_library {m : PyMachine} {view : A → NpArray} {hash : HashOrder} {disk : Disk} {path name : String} {t : TensorMap A}
    {files files' : Files} (hd : disk.left = none) (hp : cstrStr (pathMemory (savedPath path)) = some name)
    (h : pySaveFile m view hash disk path t false files = (files', .ok ())) :
    ∃ archive, save m.build m.py m.native hash t = .ok archive ∧ files' = files.write name (.archive archive) := by
  unfold pySaveFile at h
  simp only [Bool.false_eq_true, if_false, Prod.mk.injEq] at h
  obtain ⟨rfl, h2⟩ := h
  cases hc : disk.canCreate with
  | false =>
    have := (saveFiles_none (build := m.build) (py := m.py) (native := m.native) (hash := hash) (disk := disk)
      (memory := some (pathMemory (savedPath path))) (t := some t) (files := files) (.inr (.inr (.inr hc)))).2
    cases hr : (eqsTensormapSaveFile m.build m.py m.native hash disk (some (pathMemory (savedPath path))) (some t) files).2 with
    | ok u => exact absurd hr this
    | err e => rw [hr] at h2; cases h2
    | panic e => rw [hr] at h2; cases h2
  | true =>
    rw [saveFiles_ok hp hc] at h2 ⊢
    rcases hr : saveTo m.build m.py m.native hash t ⟨[], none, disk.left⟩ with ⟨w, r⟩
    rw [hr] at h2
    dsimp only at h2 ⊢
    cases r with
    | err e => cases h2
    | panic e => cases h2
    | ok u =>
      obtain ⟨hl, hw⟩ := saveTo_result hr
      rcases hw with hw | ⟨hw, -⟩
      · refine ⟨w.entries, save_of_written hw, ?_⟩
        have : disk.closed (Res.ok u == Res.ok ()) w = .archive w.entries := by
          unfold Disk.closed
          rw [hl hd]
          simp
        rw [this]
      · exact absurd rfl hw

/-- The file which is written, and what is in it. -/
theorem pySaveFile_ok {m : PyMachine} {view : A → NpArray} {hash : HashOrder} {disk : Disk} {path : String} {t : TensorMap A} {useNumpy : Bool}
    {files files' : Files} (hd : disk.left = none) (hp : '\x00' ∉ path.toList)
    (h : pySaveFile m view hash disk path t useNumpy files = (files', .ok ())) :
    ∃ archive, (if useNumpy then pySave view m.native m.np t = .ok archive else save m.build m.py m.native hash t = .ok archive) ∧
      files' = files.write (savedPath path) (.archive archive) := by
  cases useNumpy with
  | true =>
    obtain ⟨-, archive, h1, h2⟩ := pySaveFile_numpy h
    exact ⟨archive, by simpa using h1, h2⟩
  | false =>
    obtain ⟨archive, h1, h2⟩ := pySaveFile_library hd (pathMemory_str fun hn => hp (nul_savedPath.1 hn)) h
    exact ⟨archive, by simpa using h1, h2⟩

/-- What `load` reads. -/
theorem pyLoadFile_archive {m : PyMachine} {wrap : NpArray → A} {hash hash' : HashOrder} {path : String} {useNumpy : Bool} {files : Files}
    {archive : Archive} (hp : '\x00' ∉ path.toList) (hf : files path = some (.archive archive)) :
    pyLoadFile m wrap hash hash' path useNumpy files =
      if useNumpy then (pyLoad wrap m.native m.np hash archive).map .inr
      else (pyCheck (load m.build m.py hash hash' archive)).map .inl := by
  unfold pyLoadFile
  cases useNumpy with
  | true =>
    simp only [if_true]
    have : npLoad path files = .ok archive := by
      unfold npLoad
      rw [if_pos (canOpen_iff.2 hp), hf]
    rw [this]
    show (pyLoad wrap m.native m.np hash archive).bind _ = _
    cases pyLoad wrap m.native m.np hash archive <;> rfl
  | false =>
    simp only [Bool.false_eq_true, if_false]
    rw [loadFiles (pathMemory_str hp), hf]
    show (pyCheck (load m.build m.py hash hash' archive)).bind _ = _
    cases pyCheck (load m.build m.py hash hash' archive) <;> rfl

theorem pyLoadFile_congr {m : PyMachine} {wrap : NpArray → A} {hash hash' : HashOrder} {path : String} {useNumpy : Bool}
    {files files' : Files} (hp : '\x00' ∉ path.toList) (hf : files' path = files path) :
    pyLoadFile m wrap hash hash' path useNumpy files' = pyLoadFile m wrap hash hash' path useNumpy files := by
  unfold pyLoadFile npLoad
  rw [loadFiles (pathMemory_str hp), loadFiles (pathMemory_str hp), hf]

/-- A weaker relation between arrays. -/
theorem sameTensors_imp {B : Type} {P : A → Prop} {R R' : A → B → Prop} {t : TensorMap A} {t' : TensorMap B} (h : SameTensors R t t')
    (hp : AllArrays t P) (hi : ∀ a a', P a → R a a' → R' a a') : SameTensors R' t t' := by
  refine ⟨h.keys, ?_⟩
  have hb := h.blocks
  unfold AllArrays at hp
  generalize t.blocks = l at hb hp
  generalize t'.blocks = l' at hb
  induction hb with
  | nil => exact .nil
  | @cons b b' l l' h1 _ ih =>
    refine .cons ⟨⟨h1.values.samples, h1.values.components, h1.values.properties, hi _ _ (hp b List.mem_cons_self).1 h1.values.data⟩, ?_, h1.list⟩
      (ih fun b hb => hp b (List.mem_cons_of_mem _ hb))
    intro p
    have hg := h1.gradients p
    have hq := (hp b List.mem_cons_self).2 p
    generalize b.gradient p = x at hg hq ⊢
    generalize b'.gradient p = y at hg ⊢
    cases hg with
    | none => exact .none
    | some hg => exact .some ⟨hg.samples, hg.components, hg.properties, hi _ _ (hq _ rfl) hg.data⟩

theorem basicValid_wf {b : BasicBlock A} (h : BasicValid b) {l : Labels} (hl : l ∈ b.samples :: b.components ++ [b.properties]) : l.WF := by
  have hw := h.wf
  rw [List.cons_append, List.mem_cons, List.mem_append, List.mem_singleton] at hl
  rcases hl with rfl | hl | rfl
  · exact hw.samples
  · exact hw.components l hl
  · exact hw.properties

/-- What was saved by either of the library and numpy is loaded by both. -/
theorem loaded_of_saved {m : PyMachine} {view : A → NpArray} {wrap : NpArray → A} {hash hash1 hash2 : HashOrder} {t : TensorMap A}
    {saveNumpy loadNumpy : Bool} {archive : Archive} (hm : LawfulMachine m) (ha : NumpyArrays view wrap) (ht : Portable m view t)
    (h : if saveNumpy then pySave view m.native m.np t = .ok archive else save m.build m.py m.native hash t = .ok archive) :
    ∃ t', (if loadNumpy then (pyLoad wrap m.native m.np hash1 archive).map .inr
      else (pyCheck (load m.build m.py hash1 hash2 archive)).map .inl) = .ok t' ∧ SameLoaded view t t' := by
  have hkw : t.keys.WF := ht.valid.keys.wf_of_count ht.valid.count
  have hread : AllArrays t fun a => (∃ dims elements, Readable a dims elements) ∧ ∀ dims elements, Readable a dims elements →
      ShortHeaderBy m.py m.np (arrayOfData m.native dims elements) ∧ CompleteArray m.np (view a) ∧ ShortHeader m.np (view a) ∧
      ∃ order, view a = arrayOfData order dims elements := fun b hb =>
    ⟨⟨(ht.storable.values b hb).data, (ht.arrays b hb).1⟩,
      fun p g hg => ⟨(ht.storable.gradients b hb p g hg).data, (ht.arrays b hb).2 p g hg⟩⟩
  cases saveNumpy <;> cases loadNumpy <;> simp only [Bool.false_eq_true, if_true, if_false] at h ⊢
  · obtain ⟨t', h1, h2⟩ := load_save (build := m.build) hm.py ht.valid ht.storable ht.noNul h hash1 hash2
    exact ⟨.inl t', by rw [h1]; rfl, h2⟩
  · obtain ⟨origin, ho⟩ := ha.wrap_origin
    obtain ⟨t', h1, h2⟩ := C65_to_numpy_partial wrap origin ha.wrap_shape ho m.np m.py m.build m.native hash hash1 t archive hm.np hm.py
      hm.numpyReads ht.valid ht.storable ht.noNul (fun l hl rows hr => (ht.labels l hl rows hr).2)
      (fun b hb => ⟨fun dims elements hr => ((ht.arrays b hb).1 dims elements hr).1,
        fun p g hg dims elements hr => ((ht.arrays b hb).2 p g hg dims elements hr).1⟩) h
    refine ⟨.inr t', by rw [h1]; rfl, sameTensors_imp h2 hread ?_⟩
    rintro a a' - ⟨dims, elements, hr, rfl⟩
    exact ⟨m.native, dims, elements, hr, ha.wrap_view _⟩
  · obtain ⟨t', h1, h2⟩ := C65_from_numpy_partial view m.np m.py m.build m.native hash1 hash2 t archive hm.libraryReads ht.valid ht.storable
      ht.noNul ht.blocks (fun b hb => ⟨fun dims elements hr => ((hread b hb).1.2 dims elements hr).2.2.2,
        fun p g hg dims elements hr => (((hread b hb).2 p g hg).2 dims elements hr).2.2.2⟩) h
    exact ⟨.inl t', by rw [h1]; rfl, h2⟩
  · have hone : ∀ a, ((∃ dims elements, Readable a dims elements) ∧ ∀ dims elements, Readable a dims elements →
      ShortHeaderBy m.py m.np (arrayOfData m.native dims elements) ∧ CompleteArray m.np (view a) ∧ ShortHeader m.np (view a) ∧
      ∃ order, view a = arrayOfData order dims elements) → CompleteArray m.np (view a) ∧ ShortHeader m.np (view a) := by
      rintro a ⟨⟨dims, elements, hr⟩, hall⟩
      exact ⟨(hall dims elements hr).2.1, (hall dims elements hr).2.2.1⟩
    have hlabels : ∀ l : Labels, (l = t.keys ∨ ∃ b ∈ t.blocks, l ∈ b.values.samples :: b.values.components ++ [b.values.properties] ∨
        ∃ p g, b.gradient p = some g ∧ l ∈ g.samples :: g.components) → l.WF ∧ l.InMemory := by
      rintro l (rfl | ⟨b, hb, hl | ⟨p, g, hg, hl⟩⟩)
      · exact ⟨hkw, ht.storable.keys⟩
      · exact ⟨basicValid_wf (ht.valid.blocks b hb).values hl, (ht.storable.values b hb).labels l hl⟩
      · have hgv := ((ht.valid.blocks b hb).gradients p g (lookup_mem hg)).basic
        have hl' : l ∈ g.samples :: g.components ++ [g.properties] := List.mem_append_left _ hl
        exact ⟨basicValid_wf hgv hl', (ht.storable.gradients b hb p g hg).labels l hl'⟩
    obtain ⟨t', h1, h2⟩ := C64_roundtrip_partial view wrap m.np m.native hash1 t archive hm.np ha ht.valid ht.noNul ht.blocks
      (fun l hl rows hr => by
        obtain ⟨hw, hi⟩ := hlabels l hl
        have hr' := hr
        rw [hw.iter_eq, Res.ok.injEq] at hr'
        subst hr'
        exact ⟨(inMemory_iff hw).1 hi, (ht.labels l hl _ hr).1⟩)
      (fun b hb => ⟨hone _ (hread b hb).1, fun p g hg => hone _ ((hread b hb).2 p g hg)⟩) h
    refine ⟨.inr t', by rw [h1]; rfl, sameTensors_imp h2 hread ?_⟩
    rintro a a' ⟨⟨dims, elements, hr⟩, hall⟩ he
    obtain ⟨-, -, -, order, ho⟩ := hall dims elements hr
    exact ⟨order, dims, elements, hr, he.trans ho⟩

/-! ### C80 -/

/-- **C80**, partial: what was saved with a path ending with `.npz` is loaded with the same path, whichever of the library and numpy are used to save
and load. Missing: other paths, and paths with a NUL. -/
theorem C80_loaded_partial (m : PyMachine) (view : A → NpArray) (wrap : NpArray → A) (hash hash1 hash2 : HashOrder) (disk : Disk)
    (path : String) (t : TensorMap A) (saveNumpy loadNumpy : Bool) (files files' : Files) (hm : LawfulMachine m)
    (ha : NumpyArrays view wrap) (ht : Portable m view t) (hd : disk.left = none) (hpath : ".npz".toList <:+ path.toList)
    (hnul : '\x00' ∉ path.toList) (h : pySaveFile m view hash disk path t saveNumpy files = (files', .ok ())) :
    ∃ t', pyLoadFile m wrap hash1 hash2 path loadNumpy files' = .ok t' ∧ SameLoaded view t t' := by
  obtain ⟨archive, h1, rfl⟩ := pySaveFile_ok hd hnul h
  have hs : savedPath path = path := (fileName_iff.1 (.inl ⟨hpath, rfl⟩)).symm
  rw [hs, pyLoadFile_archive hnul write_same]
  exact loaded_of_saved hm ha ht h1

/-- **C80.** What was saved with any path, without a NUL, is loaded with the path given by the warning. -/
theorem C80_announced (m : PyMachine) (view : A → NpArray) (wrap : NpArray → A) (hash hash1 hash2 : HashOrder) (disk : Disk)
    (path name : String) (t : TensorMap A) (saveNumpy loadNumpy : Bool) (files files' : Files) (hm : LawfulMachine m)
    (ha : NumpyArrays view wrap) (ht : Portable m view t) (hd : disk.left = none) (hname : FileName path name)
    (hnul : '\x00' ∉ path.toList) (h : pySaveFile m view hash disk path t saveNumpy files = (files', .ok ())) :
    ∃ t', pyLoadFile m wrap hash1 hash2 name loadNumpy files' = .ok t' ∧ SameLoaded view t t' := by
  obtain ⟨archive, h1, rfl⟩ := pySaveFile_ok hd hnul h
  rw [fileName_iff] at hname
  subst hname
  rw [pyLoadFile_archive (fun hn => hnul (nul_savedPath.1 hn)) write_same]
  exact loaded_of_saved hm ha ht h1

/-- **C80**, partial: whether it succeeds or not, `save` does not change any other file than the one in the warning, if the path has no NUL. Missing:
paths with a NUL. -/
theorem C80_other_files_partial (m : PyMachine) (view : A → NpArray) (hash : HashOrder) (disk : Disk) (path : String) (t : TensorMap A)
    (useNumpy : Bool) (files : Files) (hnul : '\x00' ∉ path.toList) (other : String) (ho : ¬ FileName path other) :
    (pySaveFile m view hash disk path t useNumpy files).1 other = files other := by
  rw [fileName_iff] at ho
  unfold pySaveFile
  cases useNumpy with
  | true =>
    simp only [if_true]
    split
    · unfold npSavez
      simp only [savedPath_savedPath]
      split
      · split
        · exact write_other ho
        · rfl
      · rfl
    · rfl
  | false =>
    simp only [Bool.false_eq_true, if_false]
    refine saveFiles_other ?_
    rintro memory ⟨⟩ hs
    rw [pathMemory_str fun hn => hnul (nul_savedPath.1 hn), Option.some.injEq] at hs
    exact ho hs.symm

/-- **C80.** With a path which does not end with `.npz`, saving has no influence on what is loaded with the same path: this is an error if there
is no such file, or whatever is in this other file. -/
theorem C80_not_loaded (m : PyMachine) (view : A → NpArray) (wrap : NpArray → A) (hash hash1 hash2 : HashOrder) (disk : Disk)
    (path : String) (t : TensorMap A) (saveNumpy loadNumpy : Bool) (files : Files) (hpath : ¬ ".npz".toList <:+ path.toList)
    (hnul : '\x00' ∉ path.toList) :
    pyLoadFile m wrap hash1 hash2 path loadNumpy (pySaveFile m view hash disk path t saveNumpy files).1 =
      pyLoadFile m wrap hash1 hash2 path loadNumpy files := by
  refine pyLoadFile_congr hnul (C80_other_files_partial m view hash disk path t saveNumpy files hnul path ?_)
  rintro (⟨h, -⟩ | ⟨-, h⟩)
  · exact hpath h
  · have := congrArg List.length h
    simp at this

/-- **C80.** With a path containing a NUL, the library saves to and loads from the file with the name before the NUL, whatever comes after it. -/
theorem C80_nul_library (m : PyMachine) (view : A → NpArray) (wrap : NpArray → A) (hash hash1 hash2 : HashOrder) (disk : Disk)
    (path before : String) (after : List Char) (hpath : path.toList = before.toList ++ '\x00' :: after) (hb : '\x00' ∉ before.toList)
    (t : TensorMap A) (files files' : Files) (hm : LawfulMachine m) (ha : NumpyArrays view wrap) (ht : Portable m view t)
    (hd : disk.left = none) (h : pySaveFile m view hash disk path t false files = (files', .ok ())) :
    (∃ archive, files' = files.write before (.archive archive)) ∧
    (∃ t', pyLoadFile m wrap hash1 hash2 path false files' = .ok t' ∧ SameLoaded view t t') ∧
    (∃ t', pyLoadFile m wrap hash1 hash2 before false files' = .ok t' ∧ SameLoaded view t t') := by
  have hs : ∃ after', (savedPath path).toList = before.toList ++ '\x00' :: after' := by
    rcases fileName_savedPath path with ⟨-, h2⟩ | ⟨-, h2⟩
    · exact ⟨after, by rw [h2, hpath]⟩
    · exact ⟨after ++ ".npz".toList, by rw [h2, hpath, List.append_assoc]; rfl⟩
  obtain ⟨after', hs⟩ := hs
  obtain ⟨archive, h1, rfl⟩ := pySaveFile_library hd (pathMemory_nul hs hb) h
  obtain ⟨t', h2, h3⟩ := loaded_of_saved (saveNumpy := false) (loadNumpy := false) (hash1 := hash1) (hash2 := hash2) hm ha ht
    (by simpa using h1)
  simp only [Bool.false_eq_true, if_false] at h2
  refine ⟨⟨archive, rfl⟩, ⟨t', ?_, h3⟩, ⟨t', ?_, h3⟩⟩
  · unfold pyLoadFile
    simp only [Bool.false_eq_true, if_false]
    rw [loadFiles (pathMemory_nul hpath hb), write_same, ← h2]
    cases pyCheck (load m.build m.py hash1 hash2 archive) <;> rfl
  · rw [pyLoadFile_archive hb write_same]
    simpa using h2

/-- **C80.** With a path containing a NUL, `save` and `load` with numpy raise an exception, and nothing is saved. -/
theorem C80_nul_numpy (m : PyMachine) (view : A → NpArray) (wrap : NpArray → A) (hash hash1 hash2 : HashOrder) (disk : Disk)
    (path : String) (hnul : '\x00' ∈ path.toList) (t : TensorMap A) (files : Files) :
    (∃ e, pySaveFile m view hash disk path t true files = (files, .error e)) ∧
    pyLoadFile m wrap hash1 hash2 path true files = .error .valueError := by
  have hc : canOpen (savedPath path) = false := by
    rw [Bool.eq_false_iff]
    exact fun h => canOpen_iff.1 h (nul_savedPath.2 hnul)
  have hc' : canOpen path = false := by
    rw [Bool.eq_false_iff]
    exact fun h => canOpen_iff.1 h hnul
  constructor
  · unfold pySaveFile
    simp only [if_true]
    split
    · unfold npSavez
      simp only [savedPath_savedPath, hc, Bool.false_eq_true, if_false]
      exact ⟨_, rfl⟩
    · exact ⟨_, rfl⟩
  · unfold pyLoadFile npLoad
    simp only [if_true, hc', Bool.false_eq_true, if_false]
    rfl

/-! ### Examples -/

namespace Example

/-- A computer. -/
def machine : PyMachine := { build := ⟨true⟩, py := PyLiteral.fragment, np := np, native := .little }

theorem machine_lawful : LawfulMachine machine := ⟨lawful_fragment, np_lawful, fragment_npText, npText_fragment⟩

theorem npTensor_portable : Portable machine (id : NpArray → NpArray) npTensor := by
  refine ⟨npTensor_valid, npTensor_storable, npTensor_noNul, by decide +kernel,
    fun l hl rows hr => ⟨(npTensor_labels l hl rows hr).2, (npTensor_labels l hl rows hr).2⟩, ?_⟩
  have hd : ∀ a : NdArray, CompleteArray np (toNp a) ∧ ShortHeader np (toNp a) → ∀ dims elements, Readable (toNp a) dims elements →
      ShortHeaderBy PyLiteral.fragment np (arrayOfData .little dims elements) ∧ CompleteArray np (toNp a) ∧ ShortHeader np (toNp a) ∧
      ∃ order, toNp a = arrayOfData order dims elements := by
    intro a ⟨hc, hs⟩ dims elements ⟨h1, h2, _, _⟩
    cases h1
    have : Res.ok a.elements = Res.ok elements := by
      rw [← h2]
      exact congrArg Res.ok (decode_dataBody .little a.elements).symm
    cases this
    exact ⟨hs, hc, hs, .little, rfl⟩
  intro b hb
  have hall := npTensor_arrays b hb
  obtain ⟨b, hb', rfl⟩ := List.mem_map.1 hb
  refine ⟨hd _ hall.1, fun p g hg => ?_⟩
  have := hall.2 p g hg
  rw [mapBlock_gradient, Option.map_eq_some_iff] at hg
  obtain ⟨x, hx, rfl⟩ := hg
  exact hd _ this

/-- Save a tensor map in Python. -/
def pySaved (path : String) (useNumpy : Bool) (files : Files) : Files × Except PyExc Unit :=
  pySaveFile machine id .insertion working path npTensor useNumpy files

theorem pySaved_ok (path : String) (h : path ∈ ["a.npz", "a", "a\x00b.npz"]) : exceptOk (pySaved path false noFiles).2 = true := by
  simp only [List.mem_cons, List.not_mem_nil, or_false] at h
  rcases h with rfl | rfl | rfl <;> decide +kernel

theorem pySaved_numpy (path : String) (h : path ∈ ["a.npz", "a"]) : exceptOk (pySaved path true noFiles).2 = true := by
  simp only [List.mem_cons, List.not_mem_nil, or_false] at h
  rcases h with rfl | rfl <;> decide +kernel

theorem pair_ok {r : Files × Except PyExc Unit} (h : exceptOk r.2 = true) : r = (r.1, .ok ()) := by
  obtain ⟨files', r⟩ := r
  cases r with
  | ok u => rfl
  | error e => cases h

end Example

open Example in
/-- **C80**, counterexample: what was saved with the path `a` can not be loaded with this path. -/
theorem C80_counterexample : ¬ C80_full_statement := by
  intro hfull
  obtain ⟨⟨t', h, -⟩, -⟩ := hfull NpArray machine id id .insertion .insertion .insertion working "a" npTensor false false noFiles _ machine_lawful
    np_arrays npTensor_portable rfl (pair_ok (pySaved_ok "a" (by simp)))
  have hn := C80_not_loaded machine id (id : NpArray → NpArray) .insertion .insertion .insertion working "a" npTensor false false noFiles (by decide)
    (by decide)
  have he : pyLoadFile machine (id : NpArray → NpArray) .insertion .insertion "a" false noFiles = .error .equistoreError := by
    unfold pyLoadFile
    rw [loadFiles (pathMemory_str (by decide))]
    rfl
  rw [he] at hn
  exact absurd (hn.symm.trans h) (by simp)

open Example in
/-- **C80**, counterexample: saving with the path `a\0b.npz` replaces the file `a`. -/
theorem C80_counterexample_nul : ¬ C80_full_statement := by
  intro hfull
  have hok := pair_ok (pySaved_ok "a\x00b.npz" (by simp))
  obtain ⟨-, h⟩ := hfull NpArray machine id id .insertion .insertion .insertion working "a\x00b.npz" npTensor false false noFiles _ machine_lawful
    np_arrays npTensor_portable rfl hok
  obtain ⟨⟨archive, h1⟩, -⟩ := C80_nul_library machine id id .insertion .insertion .insertion working "a\x00b.npz" "a" "b.npz".toList (by decide)
    (by decide) npTensor noFiles _ machine_lawful np_arrays npTensor_portable rfl hok
  have h2 := h "a" (by rw [fileName_iff]; decide +kernel)
  rw [h1, write_same] at h2
  cases h2

open Example in
/-- Non-vacuity of C80: tensor maps saved with paths with and without the extension, and with a NUL, by the library and with numpy. -/
example : ∃ m : PyMachine, LawfulMachine m ∧ Portable m (id : NpArray → NpArray) npTensor ∧ NumpyArrays (A := NpArray) id id ∧
    ∀ path ∈ ["a.npz", "a"], ∀ useNumpy, ∃ files', pySaved path useNumpy noFiles = (files', .ok ()) :=
  ⟨machine, machine_lawful, npTensor_portable, np_arrays, fun path hp useNumpy => by
    cases useNumpy
    · exact ⟨_, pair_ok (pySaved_ok path (by revert hp; simp; tauto))⟩
    · exact ⟨_, pair_ok (pySaved_numpy path hp)⟩⟩

end Equistore
