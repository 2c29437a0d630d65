import Verif.Lemmas.NumpyCompat
import Verif.Props.Archive

/-!
# Saving and loading with numpy
-/

namespace Equistore
open Spec

/-! ### Examples -/

namespace Example

/-- A formatter and parser of headers, as used by numpy: the newline at the end is ignored. -/
def npText : PyLiteral where
  format := PyLiteral.fragment.format
  parse text := PyLiteral.fragment.parse (if text.getLast? = some '\n' then text.dropLast else text)

/-- Sizes of labels, and of some types of floating point numbers. -/
def npItemsize : PyValue → Option Nat
  | .list fields => some (4 * fields.length)
  | .string s =>
    if s = "<f8".toList ∨ s = ">f8".toList then some 8
    else if s = "<f4".toList then some 4
    else none
  | _ => none

/-- A numpy with the usual limit on headers. -/
def np : Numpy := { text := npText, itemsize := npItemsize, maxHeader := some 10000 }

theorem plain_of_ascii : ∀ {v : PyValue}, AsciiValue v → Plain v := by
  intro v h
  induction h with
  | string _ => exact .string _
  | integer i => exact .integer i
  | boolean b => exact .boolean b
  | none => exact .none
  | tuple _ ih => exact .tuple ih
  | list _ ih => exact .list ih
  | dict _ _ ih1 ih2 => exact .dict ih1 ih2

theorem fragment_npText : ReadBy PyLiteral.fragment npText ['\n'] := by
  intro v hv
  obtain ⟨bytes, h1, h2, h3⟩ := lawful_fragment.roundtrip v (plain_of_ascii hv)
  refine ⟨bytes, h1, h2, fun n => ?_⟩
  simp only [npText, List.getLast?_append, List.getLast?_singleton, Option.or_some, Option.some.injEq, Option.getD,
    if_true, List.dropLast_concat]
  exact h3 n

theorem npText_fragment : ReadBy npText PyLiteral.fragment [] := by
  intro v hv
  obtain ⟨bytes, h1, h2, h3⟩ := lawful_fragment.roundtrip v (plain_of_ascii hv)
  refine ⟨bytes, h1, h2, fun n => ?_⟩
  rw [List.append_nil]
  exact h3 n

theorem np_lawful : LawfulNumpy np := by
  refine ⟨fragment_npText, ?_, ?_⟩
  · intro e names _ _ _
    simp [np, npItemsize, labelsDescr]
  · intro e
    cases e <;> rfl

/-- Arrays of numpy, with only what is needed to save and load them. -/
scoped instance : ArrayLike NpArray where
  origin _ := .ok 7
  data a := .ok ((decodeAll (if a.descr matches .string ['>', 'f', '8'] then .big else .little) 8 a.memory).map (BitVec.ofNat 64))
  shape a := .ok a.shape
  reshape a _ := (a, .err (NdArray.failed "reshape"))
  swapAxes a _ _ := (a, .err (NdArray.failed "swap_axes"))
  create a _ := .ok a
  moveSamplesFrom a _ _ _ _ := (a, .err (NdArray.failed "move_samples_from"))

theorem np_arrays : NumpyArrays (A := NpArray) id id :=
  ⟨fun a dims h => by cases h; rfl, fun _ => rfl, ⟨7, fun _ => rfl⟩, fun _ => rfl⟩

/-- Replace all arrays. -/
def mapBasic {A B : Type} (f : A → B) (b : BasicBlock A) : BasicBlock B :=
  { data := f b.data, samples := b.samples, components := b.components, properties := b.properties }

/-- Replace all arrays. -/
def mapBlock {A B : Type} (f : A → B) (b : TensorBlock A) : TensorBlock B :=
  { values := mapBasic f b.values, gradients := b.gradients.map fun g => (g.1, mapBasic f g.2), gradientParameters := b.gradientParameters }

/-- Replace all arrays. -/
def mapTensor {A B : Type} (f : A → B) (t : TensorMap A) : TensorMap B :=
  { keys := t.keys, blocks := t.blocks.map (mapBlock f) }

theorem mapBlock_gradient {A B : Type} (f : A → B) (b : TensorBlock A) (p : String) :
    (mapBlock f b).gradient p = (b.gradient p).map (mapBasic f) := by
  obtain ⟨v, gs, l⟩ := b
  simp only [mapBlock, TensorBlock.gradient]
  induction gs with
  | nil => rfl
  | cons g gs ih =>
    obtain ⟨q, g⟩ := g
    rw [List.map_cons, List.lookup_cons, List.lookup_cons]
    cases p == q
    · exact ih
    · rfl

theorem mapTensor_valid {A B : Type} [ArrayLike A] [ArrayLike B] {f : A → B} {o : Nat}
    (hs : ∀ a dims, ArrayLike.shape a = .ok dims → ArrayLike.shape (f a) = .ok dims) (ho : ∀ a, ArrayLike.origin (f a) = .ok o)
    {t : TensorMap A} (h : TensorValid t) : TensorValid (mapTensor f t) := by
  have hb : ∀ {b : BasicBlock A}, BasicValid b → BasicValid (mapBasic f b) := by
    intro b hb
    obtain ⟨dims, h1, h2⟩ := hb.shape
    exact ⟨⟨dims, hs _ _ h1, h2⟩, hb.components, hb.labels⟩
  refine ⟨h.keys, by
    show t.keys.count = .ok (t.blocks.map _).length
    rw [List.length_map]
    exact h.count, ?_, ?_⟩
  · intro b' hb'
    obtain ⟨b, hm, rfl⟩ := List.mem_map.1 hb'
    have hv := h.blocks b hm
    have hn : (mapBlock f b).gradients.map Prod.fst = b.gradients.map Prod.fst := by
      simp only [mapBlock, List.map_map]
      rfl
    refine ⟨hb hv.values, ?_, by rw [hn]; exact hv.names, by rw [hn]; exact hv.reserved, by rw [hn]; exact hv.list⟩
    intro name g' hg'
    obtain ⟨⟨p, g⟩, hg, he⟩ := List.mem_map.1 hg'
    cases he
    have hgv := hv.gradients p g hg
    exact ⟨hb hgv.basic, hgv.properties, hgv.components, hgv.samples, o, ho _, ho _⟩
  · intro a' ha' b' hb'
    obtain ⟨a, ha, rfl⟩ := List.mem_map.1 ha'
    obtain ⟨b, hb, rfl⟩ := List.mem_map.1 hb'
    have hc := h.consistent a ha b hb
    refine ⟨hc.values, hc.properties, ?_, ?_⟩
    · intro p
      rw [mapBlock_gradient, mapBlock_gradient, Option.isSome_map, Option.isSome_map]
      exact hc.parameters p
    · intro p g g' hg hg'
      rw [mapBlock_gradient, Option.map_eq_some_iff] at hg hg'
      obtain ⟨x, hx, rfl⟩ := hg
      obtain ⟨y, hy, rfl⟩ := hg'
      exact hc.gradients p x y hx hy

/-- The same array in numpy. -/
def toNp (a : NdArray) : NpArray := arrayOfData .little a.shape a.elements

/-- An array in Fortran order. -/
def toFortran (a : NdArray) : NpArray := { toNp a with fortran := true }

/-- The example with arrays of numpy. -/
def npTensor : TensorMap NpArray := mapTensor toNp tensor

/-- The example with arrays of numpy in Fortran order. -/
def fortranTensor : TensorMap NpArray := mapTensor toFortran tensor

theorem npTensor_valid : TensorValid npTensor :=
  mapTensor_valid (f := toNp) (o := 7) (fun _ _ h => h) (fun _ => rfl) tensor_valid
theorem fortranTensor_valid : TensorValid fortranTensor :=
  mapTensor_valid (f := toFortran) (o := 7) (fun _ _ h => h) (fun _ => rfl) tensor_valid

/-- Whether an outcome is a success. -/
def exceptOk {α : Type} : Except PyExc α → Bool
  | .ok _ => true
  | _ => false

theorem exceptOk_iff {α : Type} {r : Except PyExc α} (h : exceptOk r = true) : ∃ a, r = .ok a := by
  cases r with
  | ok a => exact ⟨a, rfl⟩
  | error e => simp [exceptOk] at h

theorem npTensor_noNul : NoNul npTensor := by
  intro b hb p g hg
  obtain ⟨b, hb', rfl⟩ := List.mem_map.1 hb
  rw [mapBlock_gradient, Option.map_eq_some_iff] at hg
  obtain ⟨x, hx, rfl⟩ := hg
  exact tensor_noNul b hb' p x hx

/-- Labels of a tensor map, as a list. -/
def labelsList {A : Type} (t : TensorMap A) : List Labels :=
  t.keys :: t.blocks.flatMap fun b => b.values.samples :: b.values.components ++ [b.values.properties] ++
    b.gradients.flatMap fun g => g.2.samples :: g.2.components

theorem allLabels_of {A : Type} {t : TensorMap A} {P : List String → List (List LabelValue) → Prop}
    (h : ∀ l ∈ labelsList t, ∀ rows, l.iter = .ok rows → P l.names rows) : AllLabels t P := by
  intro l hl
  refine h l ?_
  unfold labelsList
  rw [List.mem_cons, List.mem_flatMap]
  rcases hl with rfl | ⟨b, hb, hl | ⟨p, g, hg, hl⟩⟩
  · exact .inl rfl
  · exact .inr ⟨b, hb, List.mem_append_left _ hl⟩
  · exact .inr ⟨b, hb, List.mem_append_right _ (List.mem_flatMap.2 ⟨(p, g), lookup_mem hg, hl⟩)⟩

/-- Arrays of a tensor map, as a list. -/
def arraysList {A : Type} (t : TensorMap A) : List A :=
  t.blocks.flatMap fun b => b.values.data :: b.gradients.map fun g => g.2.data

theorem allArrays_of {A : Type} {t : TensorMap A} {P : A → Prop} (h : ∀ a ∈ arraysList t, P a) : AllArrays t P := by
  intro b hb
  refine ⟨h _ (List.mem_flatMap.2 ⟨b, hb, List.mem_cons_self⟩), fun p g hg => h _ (List.mem_flatMap.2 ⟨b, hb, ?_⟩)⟩
  exact List.mem_cons_of_mem _ (List.mem_map.2 ⟨(p, g), lookup_mem hg, rfl⟩)

/-- Decides `ShortHeaderBy` for a limit of 10000. -/
def short (a : NpArray) : Bool :=
  match PyLiteral.fragment.format (npHeaderOf a).toPyValue with
  | some text => text.length + 65 ≤ 10000
  | none => true

theorem short_iff {a : NpArray} (h : short a = true) : ShortHeaderBy PyLiteral.fragment np a := by
  intro limit text h1 h2
  cases h1
  unfold short at h
  rw [h2] at h
  simpa using h

end Example

/-! ### C64 -/

variable {A B : Type} [ArrayLike A] [ArrayLike B]

/-- **C64**, without restrictions: a tensor map saved with numpy is loaded with numpy with the same keys, labels and arrays, also on
another machine. -/
def C64_full_statement : Prop :=
  ∀ (A : Type) [ArrayLike A] (view : A → NpArray) (wrap : NpArray → A) (np : Numpy) (writer reader : Endian) (hash : HashOrder)
    (t : TensorMap A) (archive : Archive), LawfulNumpy np → NumpyArrays view wrap → TensorValid t → NoNul t →
    t.blocks.length ≤ 18446744073709551616 → AllLabels t (fun _ rows => 4 * rows.flatten.length ≤ isizeMax) →
    AllArrays t (fun a => CompleteArray np (view a)) → pySave view writer np t = .ok archive →
    ∃ t', pyLoad wrap reader np hash archive = .ok t' ∧ SameTensors (fun a a' => view a' = view a) t t'

theorem inMemory_iff {l : Labels} (h : l.WF) : l.InMemory ↔ 4 * l.rows.flatten.length ≤ isizeMax := by
  unfold Labels.InMemory
  rw [h.values_eq]

/-- **C64.** A tensor map saved with numpy is loaded with numpy, on a machine with the same byte order, with the same keys, labels and arrays
(type, shape, order of elements and bytes), if no header is longer than what numpy accepts. Gradients can be in another
order. -/
theorem C64_roundtrip_partial (view : A → NpArray) (wrap : NpArray → A) (np : Numpy) (native : Endian) (hash : HashOrder)
    (t : TensorMap A) (archive : Archive) (hnp : LawfulNumpy np) (ha : NumpyArrays view wrap) (hv : TensorValid t) (hz : NoNul t)
    (hs : t.blocks.length ≤ 18446744073709551616)
    (hl : AllLabels t fun names rows => 4 * rows.flatten.length ≤ isizeMax ∧ ShortHeader np (arrayOfLabels native names rows))
    (hd : AllArrays t fun a => CompleteArray np (view a) ∧ ShortHeader np (view a))
    (h : pySave view native np t = .ok archive) :
    ∃ t', pyLoad wrap native np hash archive = .ok t' ∧ SameTensors (fun a a' => view a' = view a) t t' := by
  have hkw : t.keys.WF := hv.keys.wf_of_count hv.count
  have hlabels : ∀ l : Labels, l.WF → (l = t.keys ∨ ∃ b ∈ t.blocks, l ∈ b.values.samples :: b.values.components ++ [b.values.properties] ∨
      ∃ p g, b.gradient p = some g ∧ l ∈ g.samples :: g.components) → l.InMemory ∧ ShortHeader np (labelsArray native l) := by
    intro l hw hm
    have := hl l hm l.rows hw.iter_eq
    exact ⟨(inMemory_iff hw).2 this.1, this.2⟩
  obtain ⟨origin, ho⟩ := ha.wrap_origin
  have hk := hlabels t.keys hkw (.inl rfl)
  refine pyLoad_of ha.wrap_shape ho hv hz
    (labelsAt_pySave hnp hv hs h (mem_tensorArrays.2 (.inl rfl)) hkw hk.1 hk.2) (pySave_parameters hv hs h) ?_ hash
  intro i b hb
  have hm := List.mem_of_getElem? hb
  have hbv := hv.blocks b hm
  constructor
  · have hw := hbv.values.wf
    refine pyContains_of_arrays hnp ha hv hs h hbv.values ?_ ?_ ?_ (hd b hm).1
    · exact fun w a hw _ => mem_tensorArrays.2 (.inr ⟨b, i, hb, .inl ⟨w, a, hw, rfl⟩⟩)
    · intro l hl'
      refine hlabels l ?_ (.inr ⟨b, hm, .inl (List.mem_append_left _ hl')⟩)
      rcases List.mem_cons.1 hl' with rfl | hc
      · exact hw.samples
      · exact hw.components l hc
    · intro _
      exact hlabels _ hw.properties (.inr ⟨b, hm, .inl (by simp)⟩)
  · intro p g hg
    have hg' := (gradient_eq_some hbv.names).1 hg
    have hgv := (hbv.gradients p g hg').basic
    have hw := hgv.wf
    refine pyContains_of_arrays hnp ha hv hs h hgv ?_ ?_ (by simp) ((hd b hm).2 p g hg)
    · exact fun w a hw hp => mem_tensorArrays.2 (.inr ⟨b, i, hb, .inr ⟨p, g, w, a, hg', hw, by
        rintro rfl; exact absurd (hp rfl) (by simp), rfl⟩⟩)
    · intro l hl'
      refine hlabels l ?_ (.inr ⟨b, hm, .inr ⟨p, g, hg, hl'⟩⟩)
      rcases List.mem_cons.1 hl' with rfl | hc
      · exact hw.samples
      · exact hw.components l hc

/-- **C64.** Saving a tensor map with numpy works if the text of all headers is shorter than 4 GiB. -/
theorem C64_saved (view : A → NpArray) (np : Numpy) (native : Endian) (t : TensorMap A) (hnp : LawfulNumpy np)
    (hv : TensorValid t) (hs : t.blocks.length ≤ 18446744073709551616)
    (hl : AllLabels t fun names rows =>
      ∀ text, np.text.format (npHeaderOf (arrayOfLabels native names rows)).toPyValue = some text → text.length + 76 < 4294967296)
    (hd : AllArrays t fun a => AsciiValue (view a).descr ∧
      ∀ text, np.text.format (npHeaderOf (view a)).toPyValue = some text → text.length + 76 < 4294967296) :
    ∃ archive, pySave view native np t = .ok archive := by
  have hkw : t.keys.WF := hv.keys.wf_of_count hv.count
  have hwrite : ∀ a : NpArray, AsciiValue a.descr → (∀ text, np.text.format (npHeaderOf a).toPyValue = some text →
      text.length + 76 < 4294967296) → ∃ bytes, npWrite np a = .ok bytes := by
    intro a h1 h2
    obtain ⟨text, h3, -, -⟩ := hnp.roundtrip _ (toPyValue_ascii (h := npHeaderOf a) h1)
    have h4 := h2 text h3
    obtain ⟨bytes, h5⟩ : ∃ bytes, (npHeaderOf a).toBytes ⟨false⟩ np.text = .ok bytes := by
      rw [toBytes_eq h3]
      split
      · exact ⟨_, rfl⟩
      · refine ⟨_, if_pos ?_⟩
        unfold paddedLength
        omega
    refine ⟨bytes ++ a.memory, ?_⟩
    unfold npWrite
    rw [show NpyHeader.toBytes ⟨false⟩ np.text { typeDescriptor := a.descr, fortranOrder := a.fortran, shape := a.shape } =
      .ok bytes from h5]
  have hlabels : ∀ l : Labels, l.WF → (l = t.keys ∨ ∃ b ∈ t.blocks, l ∈ b.values.samples :: b.values.components ++ [b.values.properties] ∨
      ∃ p g, b.gradient p = some g ∧ l ∈ g.samples :: g.components) → ∃ bytes, npWrite np (labelsArray native l) = .ok bytes := by
    intro l hw hm
    exact hwrite _ (labelsDescr_ascii native (wf_identifiers hw)) (hl l hm l.rows hw.iter_eq)
  have hall : ∀ x ∈ tensorArrays view native t, ∃ bytes, npWrite np x.2 = .ok bytes := by
    rintro ⟨part, a⟩ hx
    rcases mem_tensorArrays.1 hx with he | ⟨b, i, hb, ⟨w, r, hw, he⟩ | ⟨p, g, w, r, hg, hw, hne, he⟩⟩
    · cases he
      exact hlabels _ hkw (.inl rfl)
    · cases he
      have hm := List.mem_of_getElem? hb
      have hwf := (hv.blocks b hm).values.wf
      cases hw with
      | data => exact hwrite _ (hd b hm).1.1 (hd b hm).1.2
      | samples => exact hlabels _ hwf.samples (.inr ⟨b, hm, .inl (by simp)⟩)
      | component hc =>
        have := List.mem_of_getElem? hc
        exact hlabels _ (hwf.components _ this) (.inr ⟨b, hm, .inl (by simp [this])⟩)
      | properties => exact hlabels _ hwf.properties (.inr ⟨b, hm, .inl (by simp)⟩)
    · cases he
      have hm := List.mem_of_getElem? hb
      have hwf := ((hv.blocks b hm).gradients p g hg).basic.wf
      have hg' := (gradient_eq_some (hv.blocks b hm).names).2 hg
      cases hw with
      | data => exact hwrite _ ((hd b hm).2 p g hg').1 ((hd b hm).2 p g hg').2
      | samples => exact hlabels _ hwf.samples (.inr ⟨b, hm, .inr ⟨p, g, hg', by simp⟩⟩)
      | component hc =>
        have := List.mem_of_getElem? hc
        exact hlabels _ (hwf.components _ this) (.inr ⟨b, hm, .inr ⟨p, g, hg', by simp [this]⟩⟩)
      | properties => exact absurd rfl hne
  exact pySave_ok hv hs hall

/-- **C64.** A tensor map with a header which is longer than what numpy accepts, for the keys, is saved, but `load` then raises a
`ValueError`. -/
theorem C64_too_long (view : A → NpArray) (wrap : NpArray → A) (np : Numpy) (writer reader : Endian) (hash : HashOrder)
    (t : TensorMap A) (archive : Archive) (hv : TensorValid t) (hs : t.blocks.length ≤ 18446744073709551616)
    (rows : List (List LabelValue)) (hrows : t.keys.iter = .ok rows) (limit : Nat) (hm : np.maxHeader = some limit) (text : Bytes)
    (ht : np.text.format (npHeaderOf (arrayOfLabels writer t.keys.names rows)).toPyValue = some text) (hlt : limit < text.length)
    (h : pySave view writer np t = .ok archive) : pyLoad wrap reader np hash archive = .error .valueError := by
  have hkw : t.keys.WF := hv.keys.wf_of_count hv.count
  have hr : rows = t.keys.rows := by
    rw [hkw.iter_eq, Res.ok.injEq] at hrows
    exact hrows.symm
  subst hr
  obtain ⟨bytes, h1, h2⟩ := pySave_byName hv hs h (part := .keys) (mem_tensorArrays.2 (.inl rfl))
  have h3 := npRead_long (a := labelsArray writer t.keys) hm ht hlt h1
  have h4 : npGet np archive "keys" = .error .valueError := by
    unfold npGet
    have : (archive.map Prod.fst).contains "keys" = false := by
      rw [← Bool.not_eq_true, List.contains_iff_mem]
      intro hmem
      rw [pySave_names hv hs h, List.mem_map] at hmem
      obtain ⟨part', -, hp⟩ := hmem
      exact Part.key_ne_name .keys part' hp.symm
    simp only [this, Bool.false_eq_true, if_false]
    rw [show "keys" ++ ".npy" = Part.keys.name from rfl, h2]
    simp only [h3]
  unfold pyLoad
  rw [h4]
  rfl

namespace Example

/-- Decides whether labels are small enough. -/
def smallLabels (l : Labels) : Bool :=
  match l.iter with
  | .ok rows => decide (4 * rows.flatten.length ≤ isizeMax) && short (arrayOfLabels .little l.names rows)
  | _ => true

theorem npTensor_labels : AllLabels npTensor fun names rows =>
    4 * rows.flatten.length ≤ isizeMax ∧ ShortHeader np (arrayOfLabels .little names rows) := by
  refine allLabels_of ?_
  have : ∀ l ∈ labelsList npTensor, smallLabels l = true := by decide +kernel
  intro l hl rows hr
  have := this l hl
  unfold smallLabels at this
  rw [hr] at this
  simp only [Bool.and_eq_true, decide_eq_true_eq] at this
  exact ⟨this.1, short_iff this.2⟩

theorem npTensor_arrays : AllArrays npTensor fun a => CompleteArray np (id a) ∧ ShortHeader np (id a) := by
  refine allArrays_of fun a ha => ?_
  have h1 : ∀ x ∈ arraysList npTensor, short x = true ∧ x.memory.length = shapeSize x.shape * x.itemsize ∧
      ∀ n ∈ x.shape, n < usizeSize := by decide +kernel
  have h2 : ∀ x ∈ arraysList npTensor, ∃ y, x = toNp y := by
    intro x hx
    obtain ⟨b, hb, hx⟩ := List.mem_flatMap.1 hx
    obtain ⟨b, hb', rfl⟩ := List.mem_map.1 hb
    rcases List.mem_cons.1 hx with rfl | hx
    · exact ⟨_, rfl⟩
    · obtain ⟨g, hg, rfl⟩ := List.mem_map.1 hx
      obtain ⟨g, hg', rfl⟩ := List.mem_map.1 hg
      exact ⟨_, rfl⟩
  obtain ⟨h3, h4, h5⟩ := h1 a ha
  obtain ⟨y, rfl⟩ := h2 a ha
  exact ⟨⟨f8_ascii .little, rfl, h4, h5⟩, short_iff h3⟩

theorem npTensor_saved : exceptOk (pySave id .little np npTensor) = true := by decide +kernel

end Example

open Example in
/-- Non-vacuity of `C64_roundtrip_partial`. -/
example : ∃ archive t', pySave id .little np npTensor = .ok archive ∧ pyLoad id .little np .reversed archive = .ok t' ∧
    SameTensors (fun a a' => a' = a) npTensor t' := by
  obtain ⟨archive, h⟩ := exceptOk_iff npTensor_saved
  obtain ⟨t', h1, h2⟩ := C64_roundtrip_partial id id np .little .reversed npTensor archive np_lawful np_arrays npTensor_valid
    npTensor_noNul (by decide +kernel) npTensor_labels npTensor_arrays h
  exact ⟨archive, t', h, h1, h2⟩

open Example in
/-- **C64**, counterexample: what was saved on a machine with another byte order is loaded with other values in the
labels, without an error. -/
theorem C64_counterexample_byte_order : ¬ C64_full_statement := by
  intro hfull
  obtain ⟨archive, h⟩ : ∃ archive, pySave id .big np npTensor = .ok archive := exceptOk_iff (by decide +kernel)
  obtain ⟨t', h1, h2⟩ := hfull NpArray id id np .big .little .insertion npTensor archive np_lawful np_arrays npTensor_valid
    npTensor_noNul (by decide +kernel) (fun l hl rows hr => (npTensor_labels l hl rows hr).1)
    (fun b hb => ⟨(npTensor_arrays b hb).1.1, fun p g hg => ((npTensor_arrays b hb).2 p g hg).1⟩) h
  have h3 : ((pySave id .big np npTensor).bind fun archive => (pyLoad id .little np .insertion archive).map fun t => t.keys.values) =
      .ok [0, 16777216, 0, 33554432, 50331648, 16777216] := by decide +kernel
  rw [h] at h3
  change (pyLoad id .little np .insertion archive).map (fun t => t.keys.values) = _ at h3
  rw [h1] at h3
  change Except.ok t'.keys.values = _ at h3
  rw [h2.keys] at h3
  revert h3
  decide +kernel

namespace Example

/-- A name with 10000 characters. -/
def longName : String := String.ofList (List.replicate 10000 'a')

/-- A tensor map without blocks, with a long name in its keys. -/
def longTensor : TensorMap NpArray := { keys := Labels.mk' [longName] [], blocks := [] }

theorem longName_identifier : Identifier longName := by
  refine ⟨'a', List.replicate 9999 'a', ?_, .inl (by decide), ?_⟩
  · unfold longName
    rw [String.toList_ofList]
    rfl
  · intro c hc
    rw [List.eq_of_mem_replicate hc]
    exact .inl (.inl (by decide))

theorem longKeys_holds : longTensor.keys.Holds [longName] [] := by
  refine Labels.mk'_holds ⟨?_, by simp⟩ (by simp) (by simp) (by simp)
  intro name hn
  rw [List.mem_singleton] at hn
  subst hn
  exact (isValidLabelName_iff _).2 longName_identifier

theorem longTensor_valid : TensorValid longTensor := by
  refine ⟨Labels.WF.fromBuilder longKeys_holds, longKeys_holds.count_eq, ?_, ?_⟩
  · intro b hb; simp [longTensor] at hb
  · intro b hb; simp [longTensor] at hb

open PyFragment in
theorem header_length {name : String} (h : Identifier name) :
    ∃ text, PyLiteral.fragment.format (npHeaderOf (arrayOfLabels .little [name] [])).toPyValue = some text ∧
      text.length = name.toList.length + 63 := by
  have h1 : format (.string name.toList) = some ('\'' :: name.toList ++ ['\'']) := by
    rw [format, parse_quoted (identifier_plain h)]
  have h2 : format (.string Endian.little.i4.toList) = some ['\'', '<', 'i', '4', '\''] := by decide +kernel
  have h3 : format (.string "descr".toList) = some "'descr'".toList := by decide +kernel
  have h4 : formatEntries [(.string "fortran_order".toList, .boolean false), (.string "shape".toList, .tuple [.integer 0])] =
      some "'fortran_order': False, 'shape': (0,)".toList := by decide +kernel
  have h5 : format (.list [.tuple [.string name.toList, .string Endian.little.i4.toList]]) =
      some ('[' :: ('(' :: (('\'' :: name.toList ++ ['\'']) ++ ',' :: ' ' :: ['\'', '<', 'i', '4', '\'']) ++ [')']) ++ [']']) := by
    rw [format, formatSeq, format, formatSeq, h1]
    · simp only [Option.bind_eq_bind, Option.bind_some, formatSeq, h2]
      rfl
    · simp
  refine ⟨?text, ?_, ?_⟩
  · exact ('{' :: ("'descr'".toList ++ ':' :: ' ' :: ('[' :: ('(' :: (('\'' :: name.toList ++ ['\'']) ++
      ',' :: ' ' :: ['\'', '<', 'i', '4', '\'']) ++ [')']) ++ [']']) ++ ',' :: ' ' ::
        "'fortran_order': False, 'shape': (0,)".toList) ++ ['}']).map fun c => UInt8.ofNat c.toNat
  · show (format (.dict [(.string "descr".toList, .list [.tuple [.string name.toList, .string Endian.little.i4.toList]]),
      (.string "fortran_order".toList, .boolean false), (.string "shape".toList, .tuple [.integer 0])])).map _ = _
    rw [format, formatEntries, h3, h5, h4]
    · rfl
    · simp
  · rw [List.length_map]
    simp only [List.length_cons, List.length_append, List.length_nil, List.cons_append]
    have e1 : "'descr'".toList.length = 7 := by decide
    have e2 : "'fortran_order': False, 'shape': (0,)".toList.length = 37 := by decide
    omega

end Example

open Example in
/-- **C64**, counterexample: a tensor map with a name of 10000 characters is saved and can not be loaded, because of the limit on the
length of headers in `np.load`. -/
theorem C64_counterexample_long : ¬ C64_full_statement := by
  intro hfull
  have hrows : longTensor.keys.iter = .ok [] := longKeys_holds.iter_eq
  have hlen : longName.toList.length = 10000 := by
    unfold longName
    rw [String.toList_ofList, List.length_replicate]
  obtain ⟨text, h1, h2⟩ := header_length longName_identifier
  have hall : AllLabels longTensor fun names rows => names = [longName] ∧ rows = [] := by
    intro l hl rows hr
    rcases hl with rfl | ⟨b, hb, -⟩
    · rw [hrows, Res.ok.injEq] at hr
      exact ⟨rfl, hr.symm⟩
    · simp [longTensor] at hb
  have harrays : ∀ P : NpArray → Prop, AllArrays longTensor P := fun P b hb => by simp [longTensor] at hb
  obtain ⟨archive, h⟩ := C64_saved id np .little longTensor np_lawful longTensor_valid (by simp [longTensor])
    (fun l hl rows hr => by
      obtain ⟨e1, rfl⟩ := hall l hl rows hr
      rw [e1]
      intro text' h3
      rw [show np.text.format = PyLiteral.fragment.format from rfl, h1, Option.some.injEq] at h3
      subst h3
      omega) (harrays _)
  obtain ⟨t', h3, -⟩ := hfull NpArray id id np .little .little .insertion longTensor archive np_lawful np_arrays longTensor_valid
    (fun b hb => by simp [longTensor] at hb) (by simp [longTensor])
    (fun l hl rows hr => by
      obtain ⟨-, rfl⟩ := hall l hl rows hr
      simp) (harrays _) h
  rw [C64_too_long id id np .little .little .insertion longTensor archive longTensor_valid (by simp [longTensor]) [] hrows 10000 rfl
    text h1 (by omega) h] at h3
  cases h3

/-! ### C65 -/

/-- **C65**, without restrictions: what is saved with numpy is loaded by the library with the same content. -/
def C65_from_numpy_full_statement : Prop :=
  ∀ (A : Type) [ArrayLike A] (view : A → NpArray) (np : Numpy) (py : PyLiteral) (build : Build) (writer : Endian)
    (hash1 hash2 : HashOrder) (t : TensorMap A) (archive : Archive), LawfulNumpy np → LawfulPy py → ReadBy np.text py [] →
    TensorValid t → Storable t → NoNul t → t.blocks.length ≤ 18446744073709551616 →
    AllArrays t (fun a => CompleteArray np (view a)) → pySave view writer np t = .ok archive →
    ∃ t', load build py hash1 hash2 archive = .ok t' ∧ SameContent t t'

/-- **C65**, without restrictions: what is saved by the library is loaded with numpy with the same content, also on another machine. -/
def C65_to_numpy_full_statement : Prop :=
  ∀ (A B : Type) [ArrayLike A] [ArrayLike B] (wrap : NpArray → B) (origin : Nat) (np : Numpy) (py : PyLiteral) (build : Build)
    (writer reader : Endian) (hash hash' : HashOrder) (t : TensorMap A) (archive : Archive),
    (∀ x, ArrayLike.shape (wrap x) = .ok x.shape) → (∀ x, ArrayLike.origin (wrap x) = .ok origin) →
    LawfulNumpy np → LawfulPy py → ReadBy py np.text ['\n'] →
    TensorValid t → Storable t → NoNul t → save build py writer hash t = .ok archive →
    ∃ t', pyLoad wrap reader np hash' archive = .ok t' ∧
      SameTensors (fun a a' => ∃ dims elements, Readable a dims elements ∧ a' = wrap (arrayOfData writer dims elements)) t t'

/-- **C65.** What is saved with numpy is loaded by the library with the same keys, labels, shapes and elements, whatever the byte orders, if all
arrays contain 64-bit floating point numbers in C order. -/
theorem C65_from_numpy_partial (view : A → NpArray) (np : Numpy) (py : PyLiteral) (build : Build) (writer : Endian)
    (hash1 hash2 : HashOrder) (t : TensorMap A) (archive : Archive) (hw : ReadBy np.text py []) (hv : TensorValid t)
    (hst : Storable t) (hz : NoNul t) (hs : t.blocks.length ≤ 18446744073709551616)
    (hd : AllArrays t fun a => ∀ dims elements, Readable a dims elements → ∃ order, view a = arrayOfData order dims elements)
    (h : pySave view writer np t = .ok archive) :
    ∃ t', load build py hash1 hash2 archive = .ok t' ∧ SameContent t t' := by
  have hkw : t.keys.WF := hv.keys.wf_of_count hv.count
  obtain ⟨kb, hk1, hk2⟩ := pySave_byName hv hs h (part := .keys) (mem_tensorArrays.2 (.inl rfl))
  obtain ⟨ps, hp1, hp2⟩ := pySave_libraryParameters hv hs h build hash1
  refine load_of hv hst hz hk2 (readNpyLabels_npWrite hw hkw hst.keys hk1) hp1 hp2 ?_ hash2
  intro i b hb
  have hm := List.mem_of_getElem? hb
  have hbv := hv.blocks b hm
  constructor
  · refine contains_of_arrays hw hv hs h hbv.values (hst.values b hm) ?_ (hd b hm).1
    exact fun w a hw _ => mem_tensorArrays.2 (.inr ⟨b, i, hb, .inl ⟨w, a, hw, rfl⟩⟩)
  · intro p g hg
    have hg' := (gradient_eq_some hbv.names).1 hg
    refine contains_of_arrays hw hv hs h (hbv.gradients p g hg').basic (hst.gradients b hm p g hg) ?_ ((hd b hm).2 p g hg)
    exact fun w a hw hp => mem_tensorArrays.2 (.inr ⟨b, i, hb, .inr ⟨p, g, w, a, hg', hw, by
      rintro rfl; exact absurd (hp rfl) (by simp), rfl⟩⟩)

/-- **C65.** The library does not load what was saved with numpy if the values of a block, or any of its gradients, are in Fortran order, or
are not 64-bit floating point numbers. -/
theorem C65_refused (view : A → NpArray) (np : Numpy) (py : PyLiteral) (build : Build) (writer : Endian)
    (hash1 hash2 : HashOrder) (t : TensorMap A) (archive : Archive) (hw : ReadBy np.text py []) (hv : TensorValid t)
    (hi : t.keys.InMemory) (hs : t.blocks.length ≤ 18446744073709551616) (hd : AllArrays t fun a => CompleteArray np (view a))
    (h : pySave view writer np t = .ok archive) (t' : TensorMap NdArray) (hl : load build py hash1 hash2 archive = .ok t') :
    AllArrays t fun a => (view a).fortran = false ∧ ∃ order : Endian, (view a).descr = .string order.f8.toList := by
  have hkw : t.keys.WF := hv.keys.wf_of_count hv.count
  intro b hm
  obtain ⟨i, hb⟩ := List.mem_iff_getElem?.1 hm
  have hbv := hv.blocks b hm
  obtain ⟨kb, hk1, hk2⟩ := pySave_byName hv hs h (part := .keys) (mem_tensorArrays.2 (.inl rfl))
  obtain ⟨db, hd1, hd2⟩ := pySave_byName hv hs h (part := .values i .data)
    (mem_tensorArrays.2 (.inr ⟨b, i, hb, .inl ⟨.data, _, .data, rfl⟩⟩))
  obtain ⟨ps, hp1, hp2⟩ := pySave_libraryParameters hv hs h build hash1
  have hk3 : readNpyLabels build py kb = .ok t.keys := readNpyLabels_npWrite hw hkw hi hk1
  unfold load at hl
  rw [show "keys.npy" = Part.keys.name from rfl, hk2] at hl
  simp only [Res.ok_bind, hk3, hv.count, hp1] at hl
  obtain ⟨blocks, hl, -⟩ := Res.bind_eq_ok.1 hl
  have hlt : i < t.blocks.length := by
    by_contra hc
    rw [List.getElem?_eq_none (by omega)] at hb
    cases hb
  obtain ⟨b', -, hb'⟩ := forall₂_mem_left (mapM_eq_ok.1 hl) (List.mem_range.2 hlt)
  unfold loadBlock at hb'
  rw [show valuesPath i "data" = (Part.values i .data).name from rfl, hd2] at hb'
  simp only [Res.ok_bind] at hb'
  obtain ⟨x, hx, hb'⟩ := Res.bind_eq_ok.1 hb'
  have hc := (hd b hm).1
  refine ⟨readData_refused hw hc.descr hc.shape hd1 hx, fun p g hg => ?_⟩
  have hg' := (gradient_eq_some hbv.names).1 hg
  have hp : p ∈ ps := by
    rw [(hp2.trans (firstParameters_perm hv hm)).mem_iff]
    exact List.mem_map.2 ⟨_, hg', rfl⟩
  simp only [Res.bind_eq_ok] at hb'
  obtain ⟨-, -, -, -, -, -, -, -, -, -, -, -, block, -, hb'⟩ := hb'
  obtain ⟨file, y, hf1, hf2⟩ := loadGradients_reads hb' hp
  obtain ⟨gb, hg1, hg2⟩ := pySave_byName hv hs h (part := .gradient i p .data)
    (mem_tensorArrays.2 (.inr ⟨b, i, hb, .inr ⟨p, g, .data, _, hg', .data, by simp, rfl⟩⟩))
  rw [show gradientPath i p "data" = (Part.gradient i p .data).name from rfl, hg2, Res.ok.injEq] at hf1
  subst hf1
  have hc := (hd b hm).2 p g hg
  exact readData_refused hw hc.descr hc.shape hg1 hf2

/-- **C65.** Whatever was saved with numpy, there is never a tensor map with wrong data: if the library loads the file, then it gives the
same keys, labels, shapes and elements. All that is assumed of the arrays is that what they contain is described by their numpy arrays if these
are made of 64-bit floating point numbers in C order. -/
theorem C65_never_wrong (view : A → NpArray) (np : Numpy) (py : PyLiteral) (build : Build) (writer : Endian)
    (hash1 hash2 : HashOrder) (t : TensorMap A) (archive : Archive) (hw : ReadBy np.text py []) (hv : TensorValid t)
    (hst : Storable t) (hz : NoNul t) (hs : t.blocks.length ≤ 18446744073709551616)
    (hd : AllArrays t fun a => CompleteArray np (view a) ∧ ∀ dims elements, Readable a dims elements → ∀ order : Endian,
      (view a).fortran = false → (view a).descr = .string order.f8.toList → view a = arrayOfData order dims elements)
    (h : pySave view writer np t = .ok archive) (t' : TensorMap NdArray) (hl : load build py hash1 hash2 archive = .ok t') :
    SameContent t t' := by
  have key := C65_refused view np py build writer hash1 hash2 t archive hw hv hst.keys hs
    (fun b hb => ⟨(hd b hb).1.1, fun p g hg => ((hd b hb).2 p g hg).1⟩) h t' hl
  obtain ⟨t'', h1, h2⟩ := C65_from_numpy_partial view np py build writer hash1 hash2 t archive hw hv hst hz hs (fun b hb => by
    obtain ⟨k1, k2⟩ := key b hb
    refine ⟨fun dims elements hr => ?_, fun p g hg dims elements hr => ?_⟩
    · obtain ⟨hf, order, ho⟩ := k1
      exact ⟨order, (hd b hb).1.2 dims elements hr order hf ho⟩
    · obtain ⟨hf, order, ho⟩ := k2 p g hg
      exact ⟨order, ((hd b hb).2 p g hg).2 dims elements hr order hf ho⟩) h
  rw [hl, Res.ok.injEq] at h1
  subst h1
  exact h2

/-- **C65.** What is saved by the library is loaded with numpy on a machine with the same byte order, with the same keys, labels, shapes and
elements, if no header is longer than what numpy accepts. -/
theorem C65_to_numpy_partial (wrap : NpArray → B) (origin : Nat) (hw1 : ∀ x, ArrayLike.shape (wrap x) = .ok x.shape)
    (hw2 : ∀ x, ArrayLike.origin (wrap x) = .ok origin) (np : Numpy) (py : PyLiteral) (build : Build) (native : Endian)
    (hash hash' : HashOrder) (t : TensorMap A) (archive : Archive) (hnp : LawfulNumpy np) (hpy : LawfulPy py)
    (hw : ReadBy py np.text ['\n']) (hv : TensorValid t) (hst : Storable t) (hz : NoNul t)
    (hl : AllLabels t fun names rows => ShortHeaderBy py np (arrayOfLabels native names rows))
    (hd : AllArrays t fun a => ∀ dims elements, Readable a dims elements → ShortHeaderBy py np (arrayOfData native dims elements))
    (h : save build py native hash t = .ok archive) :
    ∃ t', pyLoad wrap native np hash' archive = .ok t' ∧
      SameTensors (fun a a' => ∃ dims elements, Readable a dims elements ∧ a' = wrap (arrayOfData native dims elements)) t t' := by
  have hkw : t.keys.WF := hv.keys.wf_of_count hv.count
  have hlabels : ∀ l : Labels, l.WF → (l = t.keys ∨ ∃ b ∈ t.blocks, l ∈ b.values.samples :: b.values.components ++ [b.values.properties] ∨
      ∃ p g, b.gradient p = some g ∧ l ∈ g.samples :: g.components) → ShortHeaderBy py np (labelsArray native l) :=
    fun l hw hm => hl l hm l.rows hw.iter_eq
  refine pyLoad_of hw1 hw2 hv hz ⟨_, npGet_save hv h (mem_tensorItems.2 (.inl rfl)) fun _ hb =>
    npRead_writeNpyLabels hnp hpy hw hkw hst.keys (hlabels _ hkw (.inl rfl)) hb, labelsFromNpz_eq native hkw⟩
    (save_pyParameters h) ?_ hash'
  intro i b hb
  have hm := List.mem_of_getElem? hb
  have hbv := hv.blocks b hm
  constructor
  · have hwf := hbv.values.wf
    refine pyContains_of_items hnp hpy hw hv h hbv.values (hst.values b hm) ?_ ?_ ?_ (hd b hm).1
    · exact fun w r hw _ => mem_tensorItems.2 (.inr ⟨b, i, hb, .inl ⟨w, r, hw, rfl⟩⟩)
    · intro l hl'
      refine hlabels l ?_ (.inr ⟨b, hm, .inl (List.mem_append_left _ hl')⟩)
      rcases List.mem_cons.1 hl' with rfl | hc
      · exact hwf.samples
      · exact hwf.components l hc
    · exact fun _ => hlabels _ hwf.properties (.inr ⟨b, hm, .inl (by simp)⟩)
  · intro p g hg
    have hg' := (gradient_eq_some hbv.names).1 hg
    have hgv := (hbv.gradients p g hg').basic
    have hwf := hgv.wf
    refine pyContains_of_items hnp hpy hw hv h hgv (hst.gradients b hm p g hg) ?_ ?_ (by simp) ((hd b hm).2 p g hg)
    · exact fun w r hw hp => mem_tensorItems.2 (.inr ⟨b, i, hb, .inr ⟨p, g, w, r, hg', hw, by
        rintro rfl; exact absurd (hp rfl) (by simp), rfl⟩⟩)
    · intro l hl'
      refine hlabels l ?_ (.inr ⟨b, hm, .inr ⟨p, g, hg, hl'⟩⟩)
      rcases List.mem_cons.1 hl' with rfl | hc
      · exact hwf.samples
      · exact hwf.components l hc

namespace Example

theorem mapTensor_storable {A B : Type} [ArrayLike A] [ArrayLike B] {f : A → B}
    (hr : ∀ a dims elements, Readable a dims elements → Readable (f a) dims elements)
    {t : TensorMap A} (h : Storable t) : Storable (mapTensor f t) := by
  have hb : ∀ {b : BasicBlock A}, BasicStorable b → BasicStorable (mapBasic f b) := by
    intro b hb
    obtain ⟨dims, elements, h1⟩ := hb.data
    exact ⟨hb.labels, dims, elements, hr _ _ _ h1⟩
  refine ⟨h.keys, ?_, ?_⟩
  · intro b' hb'
    obtain ⟨b, hm, rfl⟩ := List.mem_map.1 hb'
    exact hb (h.values b hm)
  · intro b' hb' p g' hg'
    obtain ⟨b, hm, rfl⟩ := List.mem_map.1 hb'
    rw [mapBlock_gradient, Option.map_eq_some_iff] at hg'
    obtain ⟨g, hg, rfl⟩ := hg'
    exact hb (h.gradients b hm p g hg)

theorem toNp_readable (a : NdArray) (dims : List Nat) (elements : List Elt) (h : Readable a dims elements) :
    Readable (toNp a) dims elements := by
  obtain ⟨h1, h2, h3, h4⟩ := h
  cases h1
  cases h2
  exact ⟨rfl, congrArg Res.ok (decode_dataBody .little a.elements), h3, h4⟩

theorem npTensor_storable : Storable npTensor := mapTensor_storable (f := toNp) toNp_readable tensor_storable
theorem fortranTensor_storable : Storable fortranTensor :=
  mapTensor_storable (f := toFortran) (fun a dims elements h => by
    obtain ⟨h1, h2, h3, h4⟩ := toNp_readable a dims elements h
    exact ⟨h1, h2, h3, h4⟩) tensor_storable

theorem fortranTensor_noNul : NoNul fortranTensor := by
  intro b hb p g hg
  obtain ⟨b, hb', rfl⟩ := List.mem_map.1 hb
  rw [mapBlock_gradient, Option.map_eq_some_iff] at hg
  obtain ⟨x, hx, rfl⟩ := hg
  exact tensor_noNul b hb' p x hx

theorem fortranTensor_arrays : AllArrays fortranTensor fun a => CompleteArray np (id a) := by
  intro b hb
  obtain ⟨b, hb', rfl⟩ := List.mem_map.1 hb
  have := npTensor_arrays (mapBlock toNp b) (List.mem_map_of_mem hb')
  have hc : ∀ a, CompleteArray np (toNp a) → CompleteArray np (toFortran a) := fun a h => ⟨h.descr, h.itemsize, h.memory, h.shape⟩
  refine ⟨hc _ this.1.1, fun p g hg => ?_⟩
  rw [mapBlock_gradient, Option.map_eq_some_iff] at hg
  obtain ⟨x, hx, rfl⟩ := hg
  refine hc _ (this.2 p (mapBasic toNp x) ?_).1
  rw [mapBlock_gradient, hx]
  rfl

theorem npTensor_data : AllArrays npTensor fun a => ∀ dims elements, Readable a dims elements →
    ∃ order, id a = arrayOfData order dims elements := by
  have hd : ∀ a dims elements, Readable (toNp a) dims elements → ∃ order, toNp a = arrayOfData order dims elements := by
    intro a dims elements ⟨h1, h2, _, _⟩
    cases h1
    have : Res.ok a.elements = Res.ok elements := by
      rw [← h2]
      exact congrArg Res.ok (decode_dataBody .little a.elements).symm
    cases this
    exact ⟨.little, rfl⟩
  intro b hb
  obtain ⟨b, hb', rfl⟩ := List.mem_map.1 hb
  refine ⟨hd _, fun p g hg => ?_⟩
  rw [mapBlock_gradient, Option.map_eq_some_iff] at hg
  obtain ⟨x, hx, rfl⟩ := hg
  exact hd _

end Example

open Example in
/-- Non-vacuity of `C65_from_numpy_partial`. -/
example : ∃ archive t', pySave id .little np npTensor = .ok archive ∧
    load ⟨true⟩ PyLiteral.fragment .reversed .insertion archive = .ok t' ∧ SameContent npTensor t' := by
  obtain ⟨archive, h⟩ := exceptOk_iff npTensor_saved
  obtain ⟨t', h1, h2⟩ := C65_from_numpy_partial id np PyLiteral.fragment ⟨true⟩ .little .reversed .insertion npTensor archive
    npText_fragment npTensor_valid npTensor_storable npTensor_noNul (by decide +kernel) npTensor_data h
  exact ⟨archive, t', h, h1, h2⟩

open Example in
/-- Non-vacuity of `C65_never_wrong`: its hypotheses, for a tensor map with gradients which is loaded. -/
example : ∃ archive t', pySave id .little np npTensor = .ok archive ∧
    load ⟨true⟩ PyLiteral.fragment .reversed .insertion archive = .ok t' ∧
    AllArrays npTensor fun a => CompleteArray np (id a) ∧ ∀ dims elements, Readable a dims elements → ∀ order : Endian,
      a.fortran = false → a.descr = .string order.f8.toList → a = arrayOfData order dims elements := by
  obtain ⟨archive, h⟩ := exceptOk_iff npTensor_saved
  obtain ⟨t', h1, -⟩ := C65_from_numpy_partial id np PyLiteral.fragment ⟨true⟩ .little .reversed .insertion npTensor archive
    npText_fragment npTensor_valid npTensor_storable npTensor_noNul (by decide +kernel) npTensor_data h
  have key : ∀ a : NpArray, (∀ dims elements, Readable a dims elements → ∃ order, id a = arrayOfData order dims elements) →
      ∀ dims elements, Readable a dims elements → ∀ order : Endian,
      a.fortran = false → a.descr = .string order.f8.toList → a = arrayOfData order dims elements := by
    intro a ha dims elements hr order _ ho
    obtain ⟨order', e⟩ := ha dims elements hr
    have e' : order' = order := by
      rw [show a = arrayOfData order' dims elements from e] at ho
      cases order <;> cases order' <;> first | rfl | (exfalso; revert ho; simp [arrayOfData, Endian.f8])
    rw [← e']
    exact e
  exact ⟨archive, t', h, h1, fun b hb => ⟨⟨(npTensor_arrays b hb).1.1, key _ (npTensor_data b hb).1⟩, fun p g hg =>
    ⟨((npTensor_arrays b hb).2 p g hg).1, key _ ((npTensor_data b hb).2 p g hg)⟩⟩⟩

open Example in
/-- Non-vacuity of `C65_to_numpy_partial`. -/
example : ∃ archive t', save ⟨true⟩ PyLiteral.fragment .little .reversed tensor = .ok archive ∧
    pyLoad (A := NpArray) id .little np .insertion archive = .ok t' ∧
    SameTensors (fun a a' => ∃ dims elements, Readable a dims elements ∧ a' = arrayOfData .little dims elements) tensor t' := by
  obtain ⟨archive, h⟩ := isOk_iff tensor_saved
  obtain ⟨t', h1, h2⟩ := C65_to_numpy_partial (B := NpArray) id 7 (fun _ => rfl) (fun _ => rfl) np PyLiteral.fragment ⟨true⟩ .little .reversed
    .insertion tensor archive np_lawful lawful_fragment fragment_npText tensor_valid tensor_storable tensor_noNul
    (by
      refine allLabels_of fun l hl rows hr => ?_
      have : ∀ l ∈ labelsList tensor, smallLabels l = true := by decide +kernel
      have := this l hl
      unfold smallLabels at this
      rw [hr] at this
      simp only [Bool.and_eq_true, decide_eq_true_eq] at this
      exact short_iff this.2)
    (by
      refine allArrays_of fun a ha dims elements hr => ?_
      have : ∀ a ∈ arraysList tensor, short (toNp a) = true := by decide +kernel
      have := this a ha
      obtain ⟨h1, h2, _, _⟩ := hr
      cases h1
      cases h2
      exact short_iff this) h
  exact ⟨archive, t', h, h1, h2⟩

open Example in
/-- **C65**, counterexample: what is saved with numpy can not always be loaded by the library, for example arrays in Fortran order. -/
theorem C65_counterexample_fortran : ¬ C65_from_numpy_full_statement := by
  intro hfull
  obtain ⟨archive, h⟩ : ∃ archive, pySave id .little np fortranTensor = .ok archive := exceptOk_iff (by decide +kernel)
  obtain ⟨t', h1, -⟩ := hfull NpArray id np PyLiteral.fragment ⟨true⟩ .little .insertion .insertion fortranTensor archive np_lawful
    lawful_fragment npText_fragment fortranTensor_valid fortranTensor_storable fortranTensor_noNul (by decide +kernel)
    fortranTensor_arrays h
  have h2 := C65_refused id np PyLiteral.fragment ⟨true⟩ .little .insertion .insertion fortranTensor archive npText_fragment
    fortranTensor_valid fortranTensor_storable.keys (by decide +kernel) fortranTensor_arrays h t' h1
  have h3 : ∃ b, b ∈ tensor.blocks := ⟨_, List.getElem_mem (l := tensor.blocks) (n := 0) (by decide +kernel)⟩
  obtain ⟨b, hb⟩ := h3
  have := (h2 (mapBlock toFortran b) (List.mem_map_of_mem hb)).1.1
  cases this

open Example in
/-- **C65**, counterexample: what is saved by the library on a machine with another byte order is loaded with numpy with other values in
the labels, without an error. -/
theorem C65_counterexample_byte_order : ¬ C65_to_numpy_full_statement := by
  intro hfull
  obtain ⟨archive, h⟩ : ∃ archive, save ⟨false⟩ PyLiteral.fragment .big .insertion tensor = .ok archive := isOk_iff (by decide +kernel)
  obtain ⟨t', h1, h2⟩ := hfull NdArray NpArray id 7 np PyLiteral.fragment ⟨false⟩ .big .little .insertion .insertion tensor archive
    (fun _ => rfl) (fun _ => rfl) np_lawful lawful_fragment fragment_npText tensor_valid tensor_storable tensor_noNul h
  have h3 : (match save ⟨false⟩ PyLiteral.fragment .big .insertion tensor with
      | .ok archive => (pyLoad (A := NpArray) id .little np .insertion archive).map fun t : TensorMap NpArray => t.keys.values
      | _ => .ok []) = .ok [0, 16777216, 0, 33554432, 50331648, 16777216] := by decide +kernel
  rw [h] at h3
  simp only [h1] at h3
  change Except.ok t'.keys.values = _ at h3
  rw [h2.keys] at h3
  revert h3
  decide +kernel

end Equistore
