import Verif.Spec.CSlices
import Verif.Props.CLabels

/-!
# Empty lists can be given to the C API as NULL (C103)

False: `from_raw_parts` needs a pointer which is not `NULL` also for slices without elements.
-/

namespace Equistore

open Spec

theorem fromRawParts_append {α : Type} (list rest : List α) :
    fromRawParts (some (list ++ rest)) list.length = some list := by
  simp [fromRawParts]

theorem GivesList.nonnull {α : Type} {pointer : CPtr α} {list : List α} (h : GivesList false pointer list) :
    fromRawParts pointer list.length = some list ∧ pointer ≠ none := by
  rcases h with ⟨h, -⟩ | ⟨rest, rfl⟩
  · cases h
  · exact ⟨fromRawParts_append list rest, by simp⟩

namespace CAct
variable {α β : Type}

/-- Sequencing of two things which are defined. -/
theorem bind_defined {x : CAct Unit α} {f : α → CAct Unit β} {r : Res α} {g : α → Res β} (h : x () = some ((), r))
    (hf : ∀ a, r = .ok a → f a () = some ((), g a)) : (x >>= f) () = some ((), r >>= g) := by
  rw [bind_apply, h]
  cases r with
  | ok a => exact hf a rfl
  | err e => rfl
  | panic m => rfl

theorem lift_bind (r : Res α) (f : α → CAct Unit β) (g : α → Res β) (hf : ∀ a, r = .ok a → f a () = some ((), g a)) :
    (CAct.lift r >>= f) () = some ((), r >>= g) := bind_defined rfl hf

theorem require_bind {x : Option α} {a : α} (h : x = some a) (f : α → CAct Unit β) :
    (CAct.require x >>= f) () = f a () := by
  rw [h]; rfl

end CAct

theorem importName_ok {memory : Bytes} (h : 0 ∈ memory) : importName memory () = some ((), decodeName memory) := by
  unfold importName
  rw [CAct.require_bind (a := memory) (by simp [h])]
  rfl

theorem importNames_ok {n : Nat} {memory : List Bytes} (hn : n ≤ memory.length) (h : ∀ m ∈ memory.take n, 0 ∈ m) :
    importNames n memory () = some ((), (memory.take n).mapM decodeName) := by
  induction n generalizing memory with
  | zero => rfl
  | succ n ih =>
    cases memory with
    | nil => simp at hn
    | cons m memory =>
      simp only [List.take_succ_cons, List.mem_cons, forall_eq_or_imp, List.length_cons] at h hn
      rw [importNames, List.take_succ_cons, List.mapM_cons]
      refine CAct.bind_defined (importName_ok h.1) fun name _ => ?_
      exact CAct.bind_defined (ih (by omega) h.2) fun names _ => rfl

/-- The conversion up to the slice. -/
theorem ofPointers_eq {c : CLabels} (hn : ∀ memory, c.names = some memory →
      c.size ≤ memory.length ∧ ∀ name ∈ memory.take c.size, 0 ∈ name)
    (hv : ∀ values, c.values = some values → c.count * c.size ≤ values.length)
    (hnull : c.values = none → 0 < c.count) :
    Labels.ofPointers c () = some ((), Labels.ofC c) := by
  unfold Labels.ofPointers Labels.ofC
  refine CAct.lift_bind _ _ _ fun memory hm => ?_
  refine CAct.lift_bind _ _ _ fun _ hg => ?_
  have hm : c.names = some memory := by
    cases h : c.names <;> simp [h, Res.okOr] at hm
    rw [hm]
  obtain ⟨h1, h2⟩ := hn memory hm
  refine CAct.bind_defined (importNames_ok h1 h2) fun names _ => ?_
  refine CAct.lift_bind _ _ _ fun builder _ => ?_
  cases hv' : c.values with
  | none =>
    have hpos := hnull hv'
    simp [Res.guardErr, hv', hpos] at hg
  | some values =>
    have hlen := hv values hv'
    rw [CAct.require_bind (a := values.take (c.count * c.size)) (by simp [fromRawParts, hlen])]
    simp only [Option.getD_some]
    by_cases he : (values.take (c.count * c.size)).isEmpty = true
    · rw [if_pos he, if_pos he]
      rfl
    · rw [if_neg he, if_neg he]
      exact CAct.lift_bind _ _ _ fun _ _ => rfl

theorem Documented.ofPointers {c : CLabels} (h : Documented false c) :
    Labels.ofPointers c () = some ((), Labels.ofC c) :=
  ofPointers_eq h.1 h.2.2 fun hv => by simpa using h.2.1 hv

theorem importAll_ok {list : List CLabels} (h : ∀ c ∈ list, Documented false c) :
    importAll list () = some ((), list.mapM Labels.ofC) := by
  induction list with
  | nil => rfl
  | cons c list ih =>
    simp only [List.mem_cons, forall_eq_or_imp] at h
    rw [importAll, List.mapM_cons]
    refine CAct.bind_defined (Documented.ofPointers h.1) fun _ _ => ?_
    exact CAct.bind_defined (ih h.2) fun _ _ => rfl

/-- **C103**, what users expect: pointers to lists without elements can be `NULL`. -/
def C103_full_statement : Prop := ListsWork true

/-- All functions work with pointers which are not `NULL` (the ones to the values of labels can be `NULL` if there should
be values: this is reported). -/
theorem C103_partial : ListsWork false where
  labels c h := Documented.ofPointers h
  block A _ array samples components list properties hs hc hl hp := by
    unfold blockOfPointers blockOfC
    refine CAct.bind_defined (Documented.ofPointers hs) fun _ _ => ?_
    rw [CAct.require_bind (GivesList.nonnull hc).1]
    refine CAct.bind_defined (importAll_ok hl) fun _ _ => ?_
    exact CAct.bind_defined (Documented.ofPointers hp) fun _ _ => rfl
  gradient name samples components list hname hs hc hl := by
    unfold gradientOfPointers
    show (CAct.require (if name.contains 0 then some name else none) >>= _) () = _
    rw [CAct.require_bind (a := name) (by simp [hname])]
    refine CAct.lift_bind _ _ _ fun _ _ => ?_
    refine CAct.bind_defined (Documented.ofPointers hs) fun _ _ => ?_
    rw [CAct.require_bind (GivesList.nonnull hc).1]
    exact CAct.bind_defined (importAll_ok hl) fun _ _ => rfl
  tensormap keys blocks list hk hb := by
    unfold tensormapOfPointers
    refine CAct.bind_defined (Documented.ofPointers hk) fun _ _ => ?_
    rw [CAct.require_bind (GivesList.nonnull hb).1]
    rfl
  position labels values list hv := by
    unfold positionOfPointers labelsPosition
    refine CAct.lift_bind _ _ _ fun _ _ => ?_
    rw [CAct.require_bind (GivesList.nonnull hv).1, List.take_length]
    exact CAct.lift_bind _ _ _ fun _ _ => rfl
  names names list hv := by
    unfold variablesOfPointers
    rcases hv with ⟨h, -⟩ | ⟨rest, rfl⟩
    · cases h
    · show (CAct.require (fromRawParts (some (list ++ rest)) list.length) >>= _) () = _
      rw [CAct.require_bind (fromRawParts_append list rest)]
      rfl
  indexes indexes list hv := by
    unfold indexesOfPointers
    rcases hv with ⟨h, -⟩ | ⟨rest, rfl⟩
    · cases h
    · show CAct.require (fromRawParts (some (list ++ rest)) list.length) () = _
      rw [fromRawParts_append]
      rfl
  data shape data list hd hl := by
    unfold dataOfPointers
    rw [← hl, (GivesList.nonnull hd).1]
    rfl
  shape shape list hs := by
    unfold shapeOfPointers
    rw [(GivesList.nonnull hs).1]
    rfl

/-- **C103** for labels: a structure with `NULL` values and no entries is read without undefined behaviour only if
something else was wrong with it before. -/
theorem C103_labels (c : CLabels) (memory : List Bytes) (hm : c.names = some memory) (hs : c.size ≤ memory.length)
    (h0 : ∀ name ∈ memory.take c.size, 0 ∈ name) (hv : c.values = none) (hc : c.count = 0) :
    Labels.ofPointers c () = match (memory.take c.size).mapM decodeName >>= LabelsBuilder.new with
      | .ok _ => none
      | .err e => some ((), .err e)
      | .panic m => some ((), .panic m) := by
  unfold Labels.ofPointers
  rw [hm, hv, hc]
  show (importNames c.size memory >>= _) () = _
  rw [CAct.bind_apply, importNames_ok hs h0]
  cases (memory.take c.size).mapM decodeName with
  | err e => rfl
  | panic m => rfl
  | ok names =>
    show (CAct.lift (LabelsBuilder.new names) >>= _) () = _
    rw [CAct.bind_apply]
    rw [show (Res.ok names >>= LabelsBuilder.new) = LabelsBuilder.new names from rfl,
      show CAct.lift (LabelsBuilder.new names) () = some ((), LabelsBuilder.new names) from rfl]
    cases LabelsBuilder.new names <;> rfl

/-- The names of labels which can be imported. -/
theorem ofC_names {c : CLabels} {l : Labels} {memory : List Bytes} (h : Labels.ofC c = .ok l) (hm : c.names = some memory) :
    ∃ b, ((memory.take c.size).mapM decodeName >>= LabelsBuilder.new) = .ok b := by
  unfold Labels.ofC at h
  rw [hm] at h
  simp only [Res.okOr] at h
  cases hg : (Res.guardErr (!(c.values.isNone && c.count > 0))
    (.invalidParameter "labels.values is NULL but labels.count is >0 in eqs_labels_t")) with
  | err e => rw [hg] at h; cases h
  | panic m => rw [hg] at h; cases h
  | ok u =>
    rw [hg] at h
    cases hn : (memory.take c.size).mapM decodeName with
    | err e => simp [hn] at h
    | panic m => simp [hn] at h
    | ok names =>
      cases hb : LabelsBuilder.new names with
      | err e => simp [hn, hb] at h
      | panic m => simp [hn, hb] at h
      | ok b => exact ⟨b, hb⟩

theorem Spec.Describes.documented {c : CLabels} {names : List String} {entries : List (List LabelValue)}
    (h : Describes c names entries) : Documented true c ∧ (c.values ≠ none → Documented false c) := by
  have h1 : ∀ memory, c.names = some memory → c.size ≤ memory.length ∧ ∀ name ∈ memory.take c.size, 0 ∈ name := by
    intro m hm
    obtain ⟨memory, rest, hm', hf⟩ := h.names
    rw [hm] at hm'
    cases hm'
    have hlen := hf.length_eq
    rw [h.size, ← hlen]
    refine ⟨by simp, fun name hn => ?_⟩
    rw [List.take_left] at hn
    obtain ⟨i, hi⟩ := List.getElem?_of_mem hn
    obtain ⟨hi1, hi2⟩ := List.getElem?_eq_some_iff.1 hi
    have := hf.get (i := i) hi1 (by omega)
    obtain ⟨-, r, hr⟩ := this
    simp only [List.get_eq_getElem, hi2] at hr
    rw [hr]
    simp
  have h2 : ∀ values, c.values = some values → c.count * c.size ≤ values.length := by
    intro values hv
    rcases h.values with ⟨h3, -⟩ | ⟨rest, h3⟩
    · rw [hv] at h3; cases h3
    · rw [hv] at h3
      cases h3
      have : entries.flatten.length = c.count * c.size := by
        rw [h.count, h.size, List.length_flatten, List.map_congr_left (g := fun _ => names.length) h.rows]
        simp
      rw [List.length_append]
      omega
  exact ⟨⟨h1, fun _ => .inr rfl, h2⟩, fun hne => ⟨h1, fun h => absurd h hne, h2⟩⟩

/-- **C103** for labels of the library: labels with entries can be given back to it, with the same labels as the result, but
for labels without entries the library gives `NULL` as pointer to the values, and giving this structure back is undefined
behaviour. -/
theorem C103_round_trip (l : Labels) (hl : l.FromBuilder) (hn : l.names ≠ []) :
    ∃ c entries, l.toC = .ok c ∧ l.iter = .ok entries ∧
      (entries ≠ [] → Labels.ofPointers c () = some ((), .ok l)) ∧
      (entries = [] → Labels.ofPointers c () = none) := by
  obtain ⟨c, entries, h1, h2, h3, h4, h5⟩ := C04_export_import l hl hn
  refine ⟨c, entries, h1, h2, fun he => ?_, fun he => ?_⟩
  · rw [← h5]
    exact Documented.ofPointers (h3.documented.2 fun h => he (h4.1 h))
  · obtain ⟨memory, rest, hm, -⟩ := h3.names
    obtain ⟨g1, g2⟩ := h3.documented.1.1 _ hm
    rw [C103_labels c _ hm g1 g2 (h4.2 he) (by rw [h3.count, he]; rfl)]
    obtain ⟨b, hb⟩ := ofC_names h5 hm
    rw [hb]

/-- **C103** for components: `NULL` is undefined behaviour unless there is something wrong with the samples. -/
theorem C103_components {A : Type} [ArrayLike A] (array : A) (samples properties : CLabels)
    (hs : Documented false samples) (count : Nat) :
    blockOfPointers array samples none count properties () = match Labels.ofC samples with
      | .ok _ => none
      | .err e => some ((), .err e)
      | .panic m => some ((), .panic m) := by
  unfold blockOfPointers
  rw [CAct.bind_apply, Documented.ofPointers hs]
  cases Labels.ofC samples <;> rfl

/-- **C103** for the other lists: `NULL` is undefined behaviour, whatever the count is, as soon as the slice is made. -/
theorem C103_undefined (count : Nat) (shape : List Nat) (keys labels : CLabels) (hk : Documented false keys) (l : Labels)
    (hkeys : Labels.ofC keys = .ok l) (hl : labels.labelsPtr = some l) :
    tensormapOfPointers keys none count () = none ∧ positionOfPointers labels none count () = none ∧
    dataOfPointers shape none () = none ∧ shapeOfPointers none count () = none := by
  refine ⟨?_, ?_, rfl, rfl⟩
  · unfold tensormapOfPointers
    rw [CAct.bind_apply, Documented.ofPointers hk, hkeys]
    rfl
  · unfold positionOfPointers
    rw [hl]
    rfl

/-- **C103** for names and indexes: `NULL` is an error which is reported, also for lists without elements. The name of a
gradient is checked before everything else. -/
theorem C103_reported (count : Nat) (samples : CLabels) (components : CPtr CLabels) :
    (∃ e, variablesOfPointers none count () = some ((), .err (.invalidParameter e))) ∧
    (∃ e, indexesOfPointers none count () = some ((), .err (.invalidParameter e))) ∧
    ∃ e, gradientOfPointers none samples components count () = some ((), .err (.invalidParameter e)) :=
  ⟨⟨_, rfl⟩, ⟨_, rfl⟩, ⟨_, rfl⟩⟩

/-! ### Examples -/

namespace NullExample

/-- Labels with one name and no entries, as given by the library. -/
def labels : CLabels := { labelsPtr := none, names := some [cstring "sample"], values := none, size := 1, count := 0 }

/-- The same labels, with a pointer which is not `NULL`. -/
def same : CLabels := { labels with values := some [] }

/-- Labels with two entries. -/
def two : CLabels := { labels with values := some [0, 1], count := 2 }

theorem labels_documented : Documented true labels := by
  refine ⟨fun memory h => ?_, fun _ => .inr rfl, fun values h => by cases h⟩
  cases h
  exact ⟨by decide, by decide +kernel⟩

theorem two_documented : Documented false two := by
  refine ⟨fun memory h => ?_, (fun h => by cases h), fun values h => ?_⟩
  · cases h
    exact ⟨by decide, by decide +kernel⟩
  · cases h
    decide

theorem same_documented : Documented false same := by
  refine ⟨fun memory h => ?_, (fun h => by cases h), fun values h => ?_⟩
  · cases h
    exact ⟨by decide, by decide +kernel⟩
  · cases h
    decide

example : (Labels.ofPointers labels ()).isNone = true := by decide +kernel
example : ((Labels.ofPointers same ()).map (·.2)) = some (.ok ⟨["sample"], [], []⟩) := by decide +kernel
example : ((Labels.ofPointers two ()).map (·.2)) = some (Labels.ofC two) := by
  rw [C103_partial.labels two two_documented]; rfl

example : ∃ l, Labels.ofC two = .ok l := ⟨⟨["sample"], [0, 1], [([0], 0), ([1], 1)]⟩, by decide +kernel⟩

-- no components: a pointer which is not NULL works, also if nothing can be read there
example : GivesList false (some [] : CPtr CLabels) [] := .inr ⟨[], rfl⟩
example : GivesList true (none : CPtr CLabels) [] := .inl ⟨rfl, rfl, rfl⟩
example : (match blockOfPointers (⟨[2, 2], [1, 2, 3, 4]⟩ : NdArray) two (some []) 0 two () with
    | some (_, .ok b) => b.values.samples.count == .ok 2
    | _ => false) = true := by decide +kernel

end NullExample

/-- **C103** is false. -/
theorem C103_counterexample : ¬ C103_full_statement := by
  intro h
  have := h.labels NullExample.labels NullExample.labels_documented
  have hn : (Labels.ofPointers NullExample.labels ()).isNone = true := by decide +kernel
  rw [this] at hn
  cases hn

/-- **C103** is also false for blocks without components, with labels which have entries. -/
theorem C103_counterexample_components :
    blockOfPointers (⟨[2, 2], [1, 2, 3, 4]⟩ : NdArray) NullExample.two none 0 NullExample.two () = none := by
  rw [C103_components _ _ _ NullExample.two_documented]
  rfl

end Equistore
