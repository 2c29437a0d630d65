import Verif.Lemmas.Load

/-! What has to be in an archive which is loaded. -/

namespace Equistore
open Spec
variable {build : Build} {py : PyLiteral} {archive : Archive}

/-- Labels can be read at the given path. -/
def ReadsLabels (build : Build) (py : PyLiteral) (archive : Archive) (part : Part) : Prop :=
  ∃ file l, archive.byName part.name = .ok file ∧ readNpyLabels build py file = .ok l

/-- The parts of a block or gradient can be read. -/
structure Reads (build : Build) (py : PyLiteral) (archive : Archive) (part : What → Part) : Prop where
  data : ∃ file d n, archive.byName (part .data).name = .ok file ∧ readData build py file = .ok d ∧
    usizeSub build d.shape.length 2 = .ok n ∧
    ∀ c < n, ReadsLabels build py archive (part (.component c))
  samples : ReadsLabels build py archive (part .samples)

theorem loadComponents_requires {path : Nat → String} {part : Nat → Part} (hp : ∀ i, path i = (part i).name) {n i : Nat}
    {components : List Labels} (h : loadComponents build py archive path n i = .ok components) :
    ∀ c < n, ReadsLabels build py archive (part (i + c)) := by
  induction n generalizing i components with
  | zero => intro c hc; omega
  | succ n ih =>
    unfold loadComponents at h
    simp only [Res.bind_eq_ok, Res.pure_eq, Res.ok.injEq] at h
    obtain ⟨file, hf, l, hl, others, ho, -⟩ := h
    intro c hc
    rcases Nat.eq_zero_or_pos c with rfl | hpos
    · exact ⟨file, l, by rw [Nat.add_zero, ← hp]; exact hf, hl⟩
    · have := ih ho (c - 1) (by omega)
      rwa [show i + 1 + (c - 1) = i + c by omega] at this

theorem loadGradients_requires {i : Nat} {parameters : List String} {block b : TensorBlock NdArray}
    (h : loadGradients build py archive i parameters block = .ok b) :
    ∀ p ∈ parameters, Reads build py archive (Part.gradient i p) := by
  induction parameters generalizing block with
  | nil => intro p hp; simp at hp
  | cons q parameters ih =>
    unfold loadGradients at h
    rw [show gradientPath i q "data" = (Part.gradient i q .data).name from gradientPath_eq i q .data,
      show gradientPath i q "samples" = (Part.gradient i q .samples).name from gradientPath_eq i q .samples] at h
    simp only [Res.bind_eq_ok] at h
    obtain ⟨file, hf, data, hd, file', hf', samples, hs, n, hn, components, hc, h⟩ := h
    intro p hp
    rcases List.mem_cons.1 hp with rfl | hp
    · refine ⟨⟨file, data, n, hf, hd, hn, fun c hc' => ?_⟩, ⟨file', samples, hf', hs⟩⟩
      have := loadComponents_requires (part := fun c => Part.gradient i p (.component c)) (componentsPath_gradient i p) hc c hc'
      rwa [Nat.zero_add] at this
    · split at h
      · exact ih h p hp
      · cases h
      · cases h

theorem loadBlock_requires {parameters : List String} {i : Nat} {b : TensorBlock NdArray}
    (h : loadBlock build py archive parameters i = .ok b) :
    Reads build py archive (Part.values i) ∧ ReadsLabels build py archive (Part.values i .properties) ∧
    ∀ p ∈ parameters, Reads build py archive (Part.gradient i p) := by
  unfold loadBlock at h
  rw [show valuesPath i "data" = (Part.values i .data).name from valuesPath_eq i .data,
    show valuesPath i "samples" = (Part.values i .samples).name from valuesPath_eq i .samples,
    show valuesPath i "properties" = (Part.values i .properties).name from valuesPath_eq i .properties] at h
  simp only [Res.bind_eq_ok] at h
  obtain ⟨f1, hf1, data, hd, f2, hf2, samples, hs, n, hn, components, hc, f3, hf3, properties, hp, block, hb, h⟩ := h
  refine ⟨⟨⟨f1, data, n, hf1, hd, hn, fun c hc' => ?_⟩, ⟨f2, samples, hf2, hs⟩⟩, ⟨f3, properties, hf3, hp⟩,
    loadGradients_requires h⟩
  have := loadComponents_requires (part := fun c => Part.values i (.component c)) (componentsPath_values i) hc c hc'
  rwa [Nat.zero_add] at this

/-- Everything which is read to load an archive. -/
theorem load_requires {hash hash' : HashOrder} {t : TensorMap NdArray}
    (h : load build py hash hash' archive = .ok t) :
    ∃ file keys parameters count, archive.byName Part.keys.name = .ok file ∧ readNpyLabels build py file = .ok keys ∧
      gradientParameters build (archive.fileNames hash) = .ok parameters ∧ keys.count = .ok count ∧
      ∀ i < count, Reads build py archive (Part.values i) ∧ ReadsLabels build py archive (Part.values i .properties) ∧
        ∀ p ∈ parameters, Reads build py archive (Part.gradient i p) := by
  unfold load at h
  simp only [Res.bind_eq_ok] at h
  obtain ⟨f, hf, keys, hk, parameters, hp, count, hc, blocks, hb, h⟩ := h
  refine ⟨f, keys, parameters, count, hf, hk, hp, hc, fun i hi => ?_⟩
  obtain ⟨b, -, hb⟩ := forall₂_mem_left (mapM_eq_ok.1 hb) (List.mem_range.2 hi)
  exact loadBlock_requires hb

end Equistore
