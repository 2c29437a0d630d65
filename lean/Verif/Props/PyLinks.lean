import Verif.Model.PyLinks
import Verif.Props.PyFiles

/-!
# C80 with several names for one file
-/

namespace Equistore

open Spec
variable {A : Type} [ArrayLike A]

private theorem openedPath_eq {path name : String} (hn : FileName path name) (hnul : '\x00' ∉ path.toList) : openedPath path = name := by
  rw [fileName_iff] at hn
  subst hn
  unfold openedPath
  rw [pathMemory_str fun h => hnul (nul_savedPath.1 h)]
  rfl

/-- **C80**, partial: what was saved is loaded with the name in the warning, and with all other paths which lead to the same file, which
do not have to end with `.npz`, whichever of the library and numpy are used to save and load. Missing: paths with a NUL. -/
theorem C80_links_partial (m : PyMachine) (view : A → NpArray) (wrap : NpArray → A) (hash1 hash2 : HashOrder) (resolve : Resolve)
    (call : SaveCall A) (name other : String) (loadNumpy : Bool) (real real' : Files) (hm : LawfulMachine m)
    (ha : NumpyArrays view wrap) (ht : Portable m view call.tensor) (hd : call.disk.left = none) (hname : FileName call.path name)
    (hnul : '\x00' ∉ call.path.toList) (hother : resolve other = resolve name) (hnul' : '\x00' ∉ other.toList)
    (h : pySaveLinked m view resolve call real = (real', .ok ())) :
    ∃ t', pyLoadLinked m wrap hash1 hash2 resolve other loadNumpy real' = .ok t' ∧ SameLoaded view call.tensor t' := by
  unfold pySaveLinked at h
  rw [openedPath_eq hname hnul] at h
  generalize hs : pySaveFile m view call.hash call.disk call.path call.tensor call.useNumpy (seenFiles resolve real) = saved at h
  obtain ⟨seen, result⟩ := saved
  simp only [Prod.mk.injEq] at h
  obtain ⟨rfl, rfl⟩ := h
  obtain ⟨archive, h1, rfl⟩ := pySaveFile_ok hd hnul hs
  rw [fileName_iff] at hname
  subst hname
  unfold pyLoadLinked
  rw [pyLoadFile_archive (archive := archive) hnul']
  · exact loaded_of_saved hm ha ht h1
  · exact (if_pos hother).trans write_same

/-- **C80**, partial: whether it succeeds or not, `save` does not change what is seen with paths which lead to other files: the functions
which write the file only write this one. Missing: paths with a NUL. -/
theorem C80_links_other_partial (m : PyMachine) (view : A → NpArray) (resolve : Resolve) (call : SaveCall A) (name other : String)
    (real : Files) (hname : FileName call.path name) (hnul : '\x00' ∉ call.path.toList) (hother : resolve other ≠ resolve name) :
    (pySaveFile m view call.hash call.disk call.path call.tensor call.useNumpy (seenFiles resolve real)).1 other =
      seenFiles resolve real other ∧
    seenFiles resolve (pySaveLinked m view resolve call real).1 other = seenFiles resolve real other := by
  constructor
  · refine C80_other_files_partial m view call.hash call.disk call.path call.tensor call.useNumpy _ hnul other fun ho => ?_
    rw [fileName_iff] at ho hname
    exact hother (by rw [ho, hname])
  · unfold pySaveLinked
    rw [openedPath_eq hname hnul]
    exact if_neg hother

/-- **C80**, partial: what was saved can still be loaded with all paths which lead to this file after any number of other calls of `save`
for other files, which can also fail. Missing: paths with a NUL. -/
theorem C80_links_history_partial (m : PyMachine) (view : A → NpArray) (wrap : NpArray → A) (hash1 hash2 : HashOrder) (resolve : Resolve)
    (call : SaveCall A) (name other : String) (loadNumpy : Bool) (real real' : Files) (calls : List (SaveCall A)) (hm : LawfulMachine m)
    (ha : NumpyArrays view wrap) (ht : Portable m view call.tensor) (hd : call.disk.left = none) (hname : FileName call.path name)
    (hnul : '\x00' ∉ call.path.toList) (hother : resolve other = resolve name) (hnul' : '\x00' ∉ other.toList)
    (h : pySaveLinked m view resolve call real = (real', .ok ()))
    (hcalls : ∀ c ∈ calls, '\x00' ∉ c.path.toList ∧ ∀ n, FileName c.path n → resolve n ≠ resolve name) :
    ∃ t', pyLoadLinked m wrap hash1 hash2 resolve other loadNumpy (pySaveAll m view resolve calls real') = .ok t' ∧
      SameLoaded view call.tensor t' := by
  obtain ⟨t', h1, h2⟩ := C80_links_partial m view wrap hash1 hash2 resolve call name other loadNumpy real real' hm ha ht hd hname hnul
    hother hnul' h
  refine ⟨t', ?_, h2⟩
  rw [← h1]
  unfold pyLoadLinked
  refine pyLoadFile_congr hnul' ?_
  clear h h1
  induction calls generalizing real' with
  | nil => rfl
  | cons c calls ih =>
    obtain ⟨hc1, hc2⟩ := hcalls c List.mem_cons_self
    have := ih (pySaveLinked m view resolve c real').1 fun c hc => hcalls c (List.mem_cons_of_mem _ hc)
    exact this.trans (C80_links_other_partial m view resolve c _ other real' (fileName_savedPath c.path) hc1
      (hother ▸ (hc2 _ (fileName_savedPath c.path)).symm)).2

/-! ### Examples -/

/-- `link` and `./a.npz` lead to `a.npz`. -/
def exampleResolve : Resolve := fun path => if path = "link" ∨ path = "./a.npz" then "a.npz" else path

open Example in
/-- Non-vacuity of `C80_links_partial` and `C80_links_history_partial`: a tensor map is saved with the path `./a.npz`, then with another one,
and loaded with the path `link`. -/
example : ∃ real', pySaveLinked machine (id : NpArray → NpArray) exampleResolve ⟨.insertion, working, "./a.npz", npTensor, false⟩ noFiles =
      (real', .ok ()) ∧ real' "a.npz" ≠ none ∧
    ∃ t', pyLoadLinked machine (id : NpArray → NpArray) .insertion .insertion exampleResolve "link" true
      (pySaveAll machine id exampleResolve [⟨.insertion, working, "b", npTensor, true⟩] real') = .ok t' ∧ SameLoaded id npTensor t' := by
  have hok : ∃ real', pySaveLinked machine (id : NpArray → NpArray) exampleResolve ⟨.insertion, working, "./a.npz", npTensor, false⟩ noFiles =
      (real', .ok ()) :=
    ⟨_, pair_ok (by decide +kernel)⟩
  obtain ⟨real', h⟩ := hok
  have hn : FileName "./a.npz" "./a.npz" := .inl ⟨by decide, rfl⟩
  refine ⟨real', h, ?_, C80_links_history_partial machine id id .insertion .insertion exampleResolve
    ⟨.insertion, working, "./a.npz", npTensor, false⟩ "./a.npz" "link" true noFiles real' [⟨.insertion, working, "b", npTensor, true⟩]
    machine_lawful np_arrays npTensor_portable rfl hn (by decide) rfl (by decide) h ?_⟩
  · obtain ⟨t', h1, -⟩ := C80_links_partial machine id id .insertion .insertion exampleResolve
      ⟨.insertion, working, "./a.npz", npTensor, false⟩ "./a.npz" "link" true noFiles real' machine_lawful np_arrays npTensor_portable rfl hn
      (by decide) rfl (by decide) h
    intro hnone
    unfold pyLoadLinked pyLoadFile npLoad at h1
    have h2 : seenFiles exampleResolve real' "link" = none := hnone
    rw [h2] at h1
    cases h1
  · simp only [List.mem_cons, List.not_mem_nil, or_false, forall_eq]
    refine ⟨by decide, fun n hn => ?_⟩
    rw [fileName_iff.1 hn]
    decide

end Equistore
