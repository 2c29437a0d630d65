import Verif.Spec.PyMove
import Verif.Props.PyLabels
import Verif.Props.Components
import Verif.Props.MovedProperties

/-!
# Moving keys and components from Python (C83)
-/

namespace Equistore
open Spec

/-- **C83**, in full: `keys_to_samples`, `keys_to_properties` and `components_to_properties` called in Python with some
names do what the library does with these names.

This is false of the code: an empty name is replaced by another one, and names end at the first NUL. -/
def C83_full_statement : Prop :=
  ∀ (A : Type) (_ : ArrayLike A) (build : Build) (hash : HashOrder) (names : List String) (arg : NamesArg)
    (sort : Bool) (t : TensorMap A), names ≠ [] → GivesNames names arg → TensorValid t →
    CallsWith t names [] (fun m => t.keysToSamples build hash m sort) (pyKeysToSamples build hash arg sort t) ∧
    CallsWith t names [] (fun m => t.keysToProperties build hash m sort) (pyKeysToProperties build hash arg sort t) ∧
    (let r := pyComponentsToProperties hash arg t
     r.1 = (t.componentsToProperties hash names).1 ∧
      RaisesFor (t.componentsToProperties hash names).2 r.2)

section
variable {A : Type} [ArrayLike A]

theorem labels_calls {v : PyLabels} (h : Obtained PlainNames TakesEntries v) (hn : v.names ≠ []) (t : TensorMap A)
    (library : Labels → Act (TensorMap A) Unit) :
    ∃ entries, v.entries = some entries ∧
      CallsWith t v.names entries (fun m => library m t)
        (if v.readable then
          some (pyMethod (do let m ← Act.lift (Labels.ofC v.toC); library m) t)
        else none) := by
  obtain ⟨⟨rows, hr⟩, h1, h2⟩ := PyLabels.obtained_canonical h
  have hb := ofC_eq_build (hr.describes h2) hn
  have hpos : 0 < v.names.length := List.length_pos_iff.2 hn
  refine ⟨rows, hr.entries, ?_⟩
  rw [if_pos hr.readable]
  refine ⟨_, _, rfl, ?_, ?_⟩
  · intro m hm hmn hme
    have hw := hm.wf (hmn ▸ hn)
    have : Labels.build v.names rows = .ok m := by
      rw [Labels.build_eq_ok hpos]
      have he := entriesOf_eq hw
      rw [hme] at he
      have hw' : m.Holds m.names m.rows := hw
      rw [hmn, ← he] at hw'
      exact hw'
    rw [hb, this]
    refine ⟨rfl, ?_⟩
    show RaisesFor (library m t).2 (pyCheck (library m t).2)
    cases (library m t).2 <;> simp [RaisesFor, pyCheck]
  · intro hno
    rw [hb]
    cases hl : Labels.build v.names rows with
    | ok m =>
      have hh := (Labels.build_eq_ok hpos).1 hl
      have hm : m.FromBuilder := ⟨_, _, hl⟩
      have hmn : m.names = v.names := hh.names_eq
      have hw := hm.wf (hmn ▸ hn)
      refine absurd ?_ (hno m hm hmn)
      simp [entriesOf, hh.iter_eq]
    | err e => exact ⟨rfl, _, rfl⟩
    | panic e => exact ⟨rfl, _, rfl⟩

theorem new_noEntries {names : List String} (hn : names ≠ []) (hp : PlainNames names) :
    PyLabels.new names (.array true [0, names.length] []) none =
      if names.Nodup then .ok (PyLabels.ofMemory names [] 0 none) else .error .valueError := by
  have he : "" ∉ names := fun h => (hp "" h).1 rfl
  have hpos : names.length ≠ 0 := fun h => hn (List.length_eq_zero_iff.1 h)
  unfold PyLabels.new
  by_cases hnd : names.Nodup <;>
    simp [hpos, fieldNames_eq he, hnd, chunksExact, countDistinct]

theorem mapM_assert (names : List String) : assertStrings (names.map some) = .ok names := by
  induction names with
  | nil => rfl
  | cons n names ih =>
    unfold assertStrings at ih ⊢
    rw [List.map_cons, List.mapM_cons, ih]
    rfl

theorem normalize_names {names : List String} {arg : NamesArg} (h : GivesNames names arg) :
    normalizeKeysToMove arg = PyLabels.new names (.array true [0, names.length] []) none := by
  cases arg with
  | str name => rw [show names = [name] from h]; rfl
  | list elements =>
    rw [show elements = names.map some from h, normalizeKeysToMove, mapM_assert]
    rfl
  | tuple _ => exact h.elim
  | labels _ => exact h.elim
  | none => exact h.elim

theorem names_call {names : List String} (hn : names ≠ []) (hp : PlainNames names) {arg : NamesArg}
    (ha : GivesNames names arg) (t : TensorMap A) (library : Labels → Act (TensorMap A) Unit) :
    CallsWith t names [] (fun m => library m t)
      (match normalizeKeysToMove arg with
      | .error e => some (t, .error e)
      | .ok v => if v.readable then
          some (pyMethod (do let m ← Act.lift (Labels.ofC v.toC); library m) t)
        else none) := by
  rw [normalize_names ha, new_noEntries hn hp]
  by_cases hnd : names.Nodup
  · rw [if_pos hnd]
    have hv : Obtained PlainNames TakesEntries (PyLabels.ofMemory names [] 0 none) :=
      .new hp (values := .array true [0, names.length] []) (by simp [ValuesArg.Complete])
        (by rw [new_noEntries hn hp, if_pos hnd])
    have hnames : (PyLabels.ofMemory names [] 0 none).names = names := PyLabels.names_ofMemory names [] 0 none
    obtain ⟨entries, h1, h2⟩ := labels_calls hv (by rw [hnames]; exact hn) t library
    rw [show entries = [] by simpa [PyLabels.entries, PyLabels.ofMemory] using h1.symm, hnames] at h2
    exact h2
  · rw [if_neg hnd]
    refine ⟨_, _, rfl, ?_, fun _ => ⟨rfl, _, rfl⟩⟩
    intro m hm hmn _
    have hw := hm.wf (hmn ▸ hn)
    exact absurd (hmn ▸ (Labels.Holds.names_ok hw).2) hnd

/-- **C83**, the part which holds, for names which are not empty and contain no NUL, given as a string or a list.
What is missing from the full statement: other names. -/
theorem C83_names_partial (build : Build) (hash : HashOrder) (names : List String) (arg : NamesArg) (sort : Bool)
    (t : TensorMap A) (hn : names ≠ []) (hp : PlainNames names) (ha : GivesNames names arg) :
    CallsWith t names [] (fun m => t.keysToSamples build hash m sort) (pyKeysToSamples build hash arg sort t) ∧
    CallsWith t names [] (fun m => t.keysToProperties build hash m sort) (pyKeysToProperties build hash arg sort t) ∧
    (let r := pyComponentsToProperties hash arg t
     r.1 = (t.componentsToProperties hash names).1 ∧
      RaisesFor (t.componentsToProperties hash names).2 r.2) := by
  refine ⟨names_call hn hp ha t fun m => TensorMap.keysToSamples build hash m sort,
    names_call hn hp ha t fun m => TensorMap.keysToProperties build hash m sort, ?_⟩
  have hc : listOrStrToArrayCChar arg = .ok (names.map cstring) := by
    cases arg with
    | str name => rw [show names = [name] from ha]; rfl
    | list elements =>
      rw [show elements = names.map some from ha, listOrStrToArrayCChar, mapM_assert]
      rfl
    | tuple _ => exact ha.elim
    | labels _ => exact ha.elim
    | none => exact ha.elim
  have hd : (names.map cstring).mapM (fun name => Res.expect (cstrStr name) "invalid utf8") = .ok names := by
    refine mapM_eq_ok.2 ?_
    rw [List.forall₂_map_left_iff, List.forall₂_same]
    intro n hm
    rw [cstrStr_cstring (hp n hm).2]; rfl
  have : pyComponentsToProperties hash arg t =
      ((t.componentsToProperties hash names).1, pyCheck (t.componentsToProperties hash names).2) := by
    rw [pyComponentsToProperties, hc]
    show pyMethod _ t = _
    unfold componentsToPropertiesC
    rw [hd]
    rfl
  rw [this]
  refine ⟨rfl, ?_⟩
  show RaisesFor (t.componentsToProperties hash names).2 (pyCheck (t.componentsToProperties hash names).2)
  cases (t.componentsToProperties hash names).2 <;> simp [RaisesFor, pyCheck]

/-- **C83.** `keys_to_samples` and `keys_to_properties` with labels do what the library does with labels with the same
names and entries. -/
theorem C83_labels_partial (build : Build) (hash : HashOrder) (v : PyLabels) (sort : Bool) (t : TensorMap A)
    (h : Obtained PlainNames TakesEntries v) (hn : v.names ≠ []) :
    ∃ entries, v.entries = some entries ∧
      CallsWith t v.names entries (fun m => t.keysToSamples build hash m sort)
        (pyKeysToSamples build hash (.labels v) sort t) ∧
      CallsWith t v.names entries (fun m => t.keysToProperties build hash m sort)
        (pyKeysToProperties build hash (.labels v) sort t) := by
  obtain ⟨entries, h1, h2⟩ := labels_calls h hn t fun m => TensorMap.keysToSamples build hash m sort
  obtain ⟨entries', h1', h3⟩ := labels_calls h hn t fun m => TensorMap.keysToProperties build hash m sort
  rw [h1, Option.some.injEq] at h1'
  subst h1'
  exact ⟨entries, h1, h2, h3⟩

/-- **C83.** Anything else is an exception and the tensor map does not change: tuples, lists with something else than
strings, `None`; `components_to_properties` also accepts tuples. -/
theorem C83_other (build : Build) (hash : HashOrder) (sort : Bool) (t : TensorMap A) (elements : List (Option String)) :
    (∀ arg, arg = .tuple elements ∨ arg = .none ∨ (none ∈ elements ∧ arg = .list elements) →
      pyKeysToSamples build hash arg sort t = some (t, .error .assertionError) ∧
      pyKeysToProperties build hash arg sort t = some (t, .error .assertionError)) ∧
    (none ∈ elements → ∀ arg, arg = .tuple elements ∨ arg = .list elements →
      pyComponentsToProperties hash arg t = (t, .error .assertionError)) ∧
    pyComponentsToProperties hash .none t = (t, .error .typeError) ∧
    pyComponentsToProperties hash (.tuple elements) t = pyComponentsToProperties hash (.list elements) t := by
  have hnone : ∀ elements : List (Option String), none ∈ elements →
      assertStrings elements = .error .assertionError := by
    intro elements h
    induction elements with
    | nil => cases h
    | cons e elements ih =>
      unfold assertStrings at ih ⊢
      cases e with
      | none => rfl
      | some s =>
        rcases List.mem_cons.1 h with h | h
        · cases h
        · rw [List.mapM_cons, ih h]; rfl
  refine ⟨?_, ?_, rfl, rfl⟩
  · rintro arg (rfl | rfl | ⟨h, rfl⟩)
    · exact ⟨rfl, rfl⟩
    · exact ⟨rfl, rfl⟩
    · have : normalizeKeysToMove (.list elements) = .error .assertionError := by
        rw [normalizeKeysToMove, hnone _ h]; rfl
      rw [pyKeysToSamples, pyKeysToProperties, this]
      exact ⟨rfl, rfl⟩
  · rintro h arg (rfl | rfl) <;>
      simp only [pyComponentsToProperties, listOrStrToArrayCChar, hnone _ h] <;> rfl

/-- **C83.** Moving an empty list of keys is an exception and does not change the tensor map; moving an empty list of
components does nothing. -/
theorem C83_no_names (build : Build) (hash : HashOrder) (sort : Bool) (t : TensorMap A) :
    (∃ e, pyKeysToSamples build hash (.list []) sort t = some (t, .error e)) ∧
    (∃ e, pyKeysToProperties build hash (.list []) sort t = some (t, .error e)) ∧
    pyComponentsToProperties hash (.list []) t = (t, .ok ()) := by
  refine ⟨⟨_, rfl⟩, ?_, rfl⟩
  have h1 : pyKeysToProperties build hash (.list []) sort t =
      some (pyMethod (TensorMap.keysToProperties build hash ⟨[], [], []⟩ sort) t) := rfl
  have h2 : ∀ r, t.keysToPropertiesResult build hash ⟨[], [], []⟩ sort ≠ .ok r := by
    intro r h
    unfold TensorMap.keysToPropertiesResult at h
    obtain ⟨_, _, h⟩ := Res.bind_eq_ok.1 h
    obtain ⟨_, h, _⟩ := Res.bind_eq_ok.1 h
    cases h
  rw [h1, pyMethod, keysToProperties_eq]
  cases h : t.keysToPropertiesResult build hash ⟨[], [], []⟩ sort with
  | ok r => exact absurd h (h2 r)
  | err e => exact ⟨_, rfl⟩
  | panic m => exact ⟨_, rfl⟩

/-- **C83**, a defect: labels without entries, which the other methods accept as the names to move, are accepted by
`components_to_properties`, and nothing is moved. -/
theorem C83_labels_ignored (hash : HashOrder) (v : PyLabels) (h : v.count = 0) (t : TensorMap A) :
    pyComponentsToProperties hash (.labels v) t = (t, .ok ()) := by
  simp only [pyComponentsToProperties, listOrStrToArrayCChar, h, if_true]
  rfl

end

/-- **C83**, the defect: `keys_to_samples("k\0")` moves the key `k`. -/
theorem C83_counterexample : ¬ C83_full_statement := by
  intro h
  obtain ⟨⟨t', r, h1, h2, h3⟩, -, -⟩ := h NumpyArray inferInstance ⟨true⟩ .insertion ["k\x00"] (.str "k\x00") true
    Example.tensorNumpy (by simp) rfl Example.tensorNumpy_valid
  have hno : ∀ m : Labels, m.FromBuilder → m.names = ["k\x00"] → entriesOf m ≠ [] := by
    intro m hm hmn
    have hw := hm.wf (by rw [hmn]; simp)
    have := (Labels.Holds.names_ok hw).1 "k\x00" (by rw [hmn]; simp)
    exact absurd this (by decide +kernel)
  obtain ⟨-, e, he⟩ := h3 hno
  have : (pyKeysToSamples ⟨true⟩ .insertion (.str "k\x00") true Example.tensorNumpy).map (fun x => decide (x.2 = .ok ())) =
      some true := by decide +kernel
  rw [h1, he] at this
  cases this

namespace Example

/-- A key with the name numpy gives to the first field when there is none. -/
def keyF0 : TensorMap NumpyArray :=
  (⟨Labels.mk' ["f0"] [[0], [1]], [gradBlock, gradBlock]⟩ : TensorMap NdArray).mapData toNumpy

theorem keyF0_valid : TensorValid keyF0 :=
  (TensorValid.map_iff implements_numpy).1 (TensorMap.valid_of_rebuilds (by decide +kernel))

end Example

/-- **C83**, another defect: `keys_to_samples("")` moves the key `f0`. -/
theorem C83_counterexample_empty : ¬ C83_full_statement := by
  intro h
  obtain ⟨⟨t', r, h1, h2, h3⟩, -, -⟩ := h NumpyArray inferInstance ⟨true⟩ .insertion [""] (.str "") true
    Example.keyF0 (by simp) rfl Example.keyF0_valid
  have hno : ∀ m : Labels, m.FromBuilder → m.names = [""] → entriesOf m ≠ [] := by
    intro m hm hmn
    have hw := hm.wf (by rw [hmn]; simp)
    have := (Labels.Holds.names_ok hw).1 "" (by rw [hmn]; simp)
    exact absurd this (by decide +kernel)
  obtain ⟨-, e, he⟩ := h3 hno
  have : (pyKeysToSamples ⟨true⟩ .insertion (.str "") true Example.keyF0).map (fun x => decide (x.2 = .ok ())) =
      some true := by decide +kernel
  rw [h1, he] at this
  cases this

/-- **C83**, the same for components: `components_to_properties("c\0")` moves `c`. -/
example : (pyComponentsToProperties .insertion (.str "c\x00") Example.tensorNumpy).1.blocks.map
      (fun b => b.values.properties.names) ≠
    (Example.tensorNumpy.componentsToProperties .insertion ["c\x00"]).1.blocks.map
      (fun b => b.values.properties.names) := by decide +kernel

/-- Non-vacuity of `C83_names_partial`: moving `["l"]` and `"l"`. -/
example : PlainNames ["l"] ∧ GivesNames ["l"] (.str "l") ∧ GivesNames ["l"] (.list [some "l"]) ∧
    (pyKeysToSamples ⟨true⟩ .insertion (.str "l") true Example.tensorNumpy).map
      (fun x => x.1.blocks.map fun b => b.values.samples.names) = some [["s", "l"], ["s", "l"]] ∧
    (pyKeysToProperties ⟨true⟩ .insertion (.list [some "l"]) true Example.tensorNumpy).map
      (fun x => x.1.blocks.map fun b => b.values.properties.names) = some [["l", "p"], ["l", "p"]] ∧
    (pyComponentsToProperties .insertion (.str "c") Example.tensorNumpy).1.blocks.map
      (fun b => b.values.properties.names) = [["c", "p"], ["c", "p"], ["c", "p"]] := by
  refine ⟨?_, rfl, rfl, ?_, ?_, ?_⟩
  · unfold PlainNames; decide +kernel
  all_goals decide +kernel

/-- Non-vacuity of `C83_labels_partial`: moving labels with entries to the properties. -/
example : Obtained PlainNames TakesEntries (PyLabels.ofMemory ["l"] [2, 7] 2 none) ∧
    (pyKeysToProperties ⟨true⟩ .insertion (.labels (PyLabels.ofMemory ["l"] [2, 7] 2 none)) true
      Example.tensorNumpy).map (fun x => x.1.blocks.map fun b => entriesOf b.values.properties) =
      some [[[2, 0], [2, 1], [2, 5], [7, 0], [7, 1], [7, 5]], [[2, 0], [2, 1], [2, 5], [7, 0], [7, 1], [7, 5]]] := by
  refine ⟨.new (names := ["l"]) (values := matrix 1 [[2], [7]]) (by unfold PlainNames; decide +kernel)
    (by simp [ValuesArg.Complete, matrix]) (by decide +kernel), by decide +kernel⟩

end Equistore
