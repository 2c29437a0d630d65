import Verif.Lemmas.Loaded
import Verif.Lemmas.MovedFits
import Verif.Props.Archive

/-! # What is loaded is what the entries of the file say -/

namespace Equistore
open Spec

theorem sameContent_same {t t' : TensorMap NdArray} (h : SameContent t t') : SameTensor t t' := by
  obtain ⟨h2, h3⟩ := h
  refine ⟨h2.symm, h3.imp ?_⟩
  intro b b' hb
  refine ⟨sameBasic_eq hb.values, fun p => ?_, hb.list.symm⟩
  have := hb.gradients p
  cases h1 : b.gradient p <;> cases h2 : b'.gradient p <;> rw [h1, h2] at this
  · cases this
  · cases this
  · cases this with
    | some h => rw [sameBasic_eq h]

theorem Spec.SameTensor.trans' {A : Type} [ArrayLike A] {t t' t'' : TensorMap A} (h : SameTensor t t') (h' : SameTensor t' t'') :
    SameTensor t t'' := by
  refine ⟨h.keys.trans h'.keys, ?_⟩
  have trans : ∀ {l l' l'' : List (TensorBlock A)}, List.Forall₂ SameBlock l l' → List.Forall₂ SameBlock l' l'' →
      List.Forall₂ SameBlock l l'' := by
    intro l l' l'' h1
    induction h1 generalizing l'' with
    | nil => intro h2; cases h2; exact .nil
    | cons hab _ ih =>
      intro h2
      cases h2 with
      | cons hbc h2 =>
        exact .cons ⟨hab.values.trans hbc.values, fun p => (hab.gradients p).trans (hbc.gradients p), hab.list.trans hbc.list⟩ (ih h2)
  exact trans h.blocks h'.blocks

/-! ### C110 -/

/-- **C110.** Whatever the file, what is loaded is a valid tensor map of which the file has all parts, each in the entry
with the name of this part. The loaded blocks have all gradients for which the first block has an entry, and no other. -/
theorem C110_entries (build : Build) (py : PyLiteral) (hash hash' : HashOrder) (archive : Archive) (t : TensorMap NdArray)
    (h : load build py hash hash' archive = .ok t) : TensorValid t ∧ FileSays build py archive t := by
  obtain ⟨h1, h2, h3⟩ := load_says h
  exact ⟨(load_ok h).1, h1, h2, h3, load_named h⟩

/-- **C110**, the converse: a file which says that it is a valid tensor map is loaded as this tensor map, whatever other
entries it has, whatever the order of its entries and whatever the order of hash maps. -/
theorem C110_loads (build : Build) (py : PyLiteral) (hash hash' : HashOrder) (archive : Archive) (t : TensorMap NdArray)
    (hv : TensorValid t) (h : FileSays build py archive t) :
    ∃ t', load build py hash hash' archive = .ok t' ∧ SameTensor t t' := by
  obtain ⟨t', h1, h2⟩ := load_of_says hv h.noNul h.parts h.gradients h.named hash hash'
  exact ⟨t', h1, sameContent_same h2⟩

/-- **C110**, a file says at most one valid tensor map, up to the order in which gradients are listed. -/
theorem C110_one_tensor (build : Build) (py : PyLiteral) (archive : Archive) (t t' : TensorMap NdArray)
    (hv : TensorValid t) (hv' : TensorValid t') (h : FileSays build py archive t) (h' : FileSays build py archive t') :
    SameTensor t t' := by
  obtain ⟨t1, h1, hs⟩ := C110_loads build py .insertion .insertion archive t hv h
  obtain ⟨t2, h2, hs'⟩ := C110_loads build py .insertion .insertion archive t' hv' h'
  rw [h1] at h2
  cases h2
  exact hs.trans' (SameTensor.symm' hs')

/-- **C110**, when the entries of the parts of what was loaded, and the list of gradients, are the same in another file,
the same tensor map is loaded from it. -/
theorem C110_same_entries (build : Build) (py : PyLiteral) (hash hash' hash1 hash1' : HashOrder) (archive archive' : Archive)
    (t : TensorMap NdArray) (h : load build py hash hash' archive = .ok t)
    (hp : ∀ part s, Part.stored t part = some s → archive'.byName part.name = archive.byName part.name)
    (hg : ∀ parameter, HasEntry archive' (Part.gradient 0 parameter .data).name ↔
      HasEntry archive (Part.gradient 0 parameter .data).name)
    (hn : ¬ HasEntry archive' "blocks/0/gradients/data.npy") :
    ∃ t', load build py hash1 hash1' archive' = .ok t' ∧ SameTensor t t' := by
  obtain ⟨hv, hs⟩ := C110_entries build py hash hash' archive t h
  refine C110_loads build py hash1 hash1' archive' t hv ⟨fun part s hs' => ?_, fun b hb q => ?_, hs.noNul, hn⟩
  · have := hs.parts part s hs'
    cases s with
    | labels l => unfold Says at this ⊢; rw [hp part _ hs']; exact this
    | data a => unfold Says at this ⊢; rw [hp part _ hs']; exact this
  · rw [hg q]
    exact hs.gradients b hb q

namespace Example

/-- The saved file, with its entries in another order and entries which are not of a tensor map. -/
def shuffled : Archive := ("notes.txt", [1, 2, 3]) :: saved.reverse ++ [("blocks/7/values/data.npy", [])]

theorem saved_loads : isOk (load ⟨true⟩ PyLiteral.fragment .insertion .insertion saved) = true := by decide +kernel

theorem shuffled_loads : isOk (load ⟨true⟩ PyLiteral.fragment .reversed .insertion shuffled) = true := by decide +kernel

end Example

-- the hypotheses of `C110_entries` and of `C110_loads` hold for the saved example and for the shuffled file
example : ∃ t, load ⟨true⟩ PyLiteral.fragment .reversed .insertion Example.shuffled = .ok t ∧ TensorValid t ∧
    FileSays ⟨true⟩ PyLiteral.fragment Example.shuffled t := by
  obtain ⟨t, h⟩ := Example.isOk_iff Example.shuffled_loads
  exact ⟨t, h, C110_entries _ _ _ _ _ _ h⟩

-- the hypotheses of `C110_one_tensor` hold for what the two builds of the hash maps load
example : ∃ t t', TensorValid t ∧ TensorValid t' ∧ FileSays ⟨true⟩ PyLiteral.fragment Example.shuffled t ∧
    FileSays ⟨true⟩ PyLiteral.fragment Example.shuffled t' := by
  obtain ⟨t, h⟩ := Example.isOk_iff Example.shuffled_loads
  obtain ⟨hv, hs⟩ := C110_entries _ _ _ _ _ _ h
  obtain ⟨t', h', -⟩ := C110_loads ⟨true⟩ PyLiteral.fragment .insertion .reversed _ t hv hs
  obtain ⟨hv', hs'⟩ := C110_entries _ _ _ _ _ _ h'
  exact ⟨t, t', hv, hv', hs, hs'⟩

-- the hypotheses of `C110_same_entries` hold for the saved example, and the same file with another entry
example : ∃ t, load ⟨true⟩ PyLiteral.fragment .insertion .insertion Example.saved = .ok t ∧
    (∀ part s, Part.stored t part = some s →
      Archive.byName (Example.saved ++ [("notes.txt", [1])]) part.name = Archive.byName Example.saved part.name) ∧
    (∀ parameter, HasEntry (Example.saved ++ [("notes.txt", [1])]) (Part.gradient 0 parameter .data).name ↔
      HasEntry Example.saved (Part.gradient 0 parameter .data).name) ∧
    ¬ HasEntry (Example.saved ++ [("notes.txt", [1])]) "blocks/0/gradients/data.npy" := by
  obtain ⟨t, h⟩ := Example.isOk_iff Example.saved_loads
  obtain ⟨-, hs⟩ := C110_entries _ _ _ _ _ _ h
  refine ⟨t, h, fun part s hp => ?_, fun q => ?_, ?_⟩
  · have := hs.parts part s hp
    have : ∃ bytes, Archive.byName Example.saved part.name = .ok bytes := by
      cases s <;> exact ⟨this.choose, this.choose_spec.1⟩
    obtain ⟨bytes, hb⟩ := this
    unfold Archive.byName
    rw [List.reverse_append, List.reverse_singleton, List.singleton_append, List.lookup_cons]
    have hne : part.name ≠ "notes.txt" := by
      intro he
      rw [he] at hb
      have hn : Example.isOk (Archive.byName Example.saved "notes.txt") = false := by decide +kernel
      rw [hb] at hn
      cases hn
    rw [beq_false_of_ne hne]
  · unfold HasEntry
    rw [List.map_append, List.mem_append]
    refine or_iff_left fun h => ?_
    simp only [List.map_cons, List.map_nil, List.mem_singleton] at h
    rw [← String.toList_inj, gradientData_name] at h
    have := congrArg List.head? h
    rw [List.head?_append_of_ne_nil _ (by decide)] at this
    exact absurd this (by decide)
  · unfold HasEntry
    decide +kernel

end Equistore
