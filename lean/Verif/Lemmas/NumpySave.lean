import Verif.Lemmas.NumpyLoad

/-!
# Archives saved with numpy
-/

namespace Equistore
open Spec

/-! ### Names of gradients -/

theorem parameter_eq_some {part : Part} {p : String} (h : Part.parameter part = some p) : part = .gradient 0 p .data := by
  unfold Part.parameter at h
  split at h
  · simp only [Option.some.injEq] at h; rw [h]
  · simp at h

theorem Part.key_toList (part : Part) : part.name.toList = (Part.key part).toList ++ ".npy".toList := by
  rw [← Part.key_npy, String.toList_append]

theorem gradientKey_toList (p : String) :
    (Part.key (.gradient 0 p .data)).toList = "blocks/0/gradients/".toList ++ (p.toList ++ "/data".toList) := by
  have := gradient_name 0 p .data
  rw [Part.key_toList, digits_zero] at this
  have e : "blocks/".toList ++ (['0'] ++ '/' :: ("gradients/".toList ++ (p.toList ++ '/' :: (What.data.text.toList ++ ".npy".toList)))) =
      ("blocks/0/gradients/".toList ++ (p.toList ++ "/data".toList)) ++ ".npy".toList := by
    simp only [List.append_assoc]
    rfl
  rw [e] at this
  exact List.append_cancel_right this

theorem Part.key_matches (part : Part) :
    ("blocks/0/gradients/".toList.isPrefixOf (Part.key part).toList &&
      "/data".toList.isSuffixOf (Part.key part).toList) = (Part.parameter part).isSome := by
  rw [Bool.eq_iff_iff]
  constructor
  · intro h
    rw [Bool.and_eq_true, List.isPrefixOf_iff_prefix, List.isSuffixOf_iff_suffix] at h
    rw [← Part.matches_iff, Bool.and_eq_true, List.isPrefixOf_iff_prefix, List.isSuffixOf_iff_suffix, Part.key_toList]
    obtain ⟨h1, t, h2⟩ := h
    refine ⟨h1.trans ⟨_, rfl⟩, t, ?_⟩
    rw [← h2, List.append_assoc]
    rfl
  · intro h
    obtain ⟨p, hp⟩ := Option.isSome_iff_exists.1 h
    rw [parameter_eq_some hp, gradientKey_toList, Bool.and_eq_true, List.isPrefixOf_iff_prefix, List.isSuffixOf_iff_suffix]
    exact ⟨⟨_, rfl⟩, "blocks/0/gradients/".toList ++ p.toList, by rw [List.append_assoc]⟩

theorem npFiles_parts {archive : Archive} {parts : List Part} (h : archive.map Prod.fst = parts.map Part.name) :
    npFiles archive = parts.map Part.key := by
  have e : npFiles archive = (archive.map Prod.fst).map fun name =>
      if ".npy".toList.isSuffixOf name.toList then String.ofList (name.toList.take (name.toList.length - 4)) else name := by
    unfold npFiles
    rw [List.map_map]
    rfl
  rw [e, h, List.map_map]
  apply List.map_congr_left
  intro part _
  show (if ".npy".toList.isSuffixOf part.name.toList then
    String.ofList (part.name.toList.take (part.name.toList.length - 4)) else part.name) = _
  rw [Part.key_toList, if_pos (List.isSuffixOf_iff_suffix.2 ⟨_, rfl⟩), List.length_append,
    show (Part.key part).toList.length + ".npy".toList.length - 4 = (Part.key part).toList.length from by
      rw [show ".npy".toList.length = 4 from rfl]; omega, List.take_left' rfl, String.ofList_toList]

theorem pyGradientParameters_parts {archive : Archive} {parts : List Part} (h : archive.map Prod.fst = parts.map Part.name) :
    pyGradientParameters archive = parts.filterMap Part.parameter := by
  unfold pyGradientParameters
  rw [npFiles_parts h]
  clear h
  induction parts with
  | nil => rfl
  | cons part parts ih =>
    rw [List.map_cons, List.filter_cons, Part.key_matches]
    cases hp : Part.parameter part with
    | none =>
      simp only [Option.isSome_none, Bool.false_eq_true, if_false]
      rw [ih, List.filterMap_cons_none hp]
    | some p =>
      simp only [Option.isSome_some, if_true]
      rw [List.map_cons, ih, List.filterMap_cons_some hp, parameter_eq_some hp, gradientKey_toList]
      congr 1
      have hl : ("blocks/0/gradients/".toList ++ (p.toList ++ "/data".toList)).length - 5 =
          ("blocks/0/gradients/".toList ++ p.toList).length := by
        rw [← List.append_assoc, List.length_append, show "/data".toList.length = 5 from rfl]
        omega
      rw [hl, ← List.append_assoc, List.take_left' rfl, List.drop_left' (by rfl), String.ofList_toList]

/-! ### The entries written -/

section
variable {A : Type} [ArrayLike A] (view : A → NpArray) (native : Endian)

/-- The array for some labels. -/
def labelsArray (l : Labels) : NpArray := arrayOfLabels native l.names l.rows

/-- Components to write. -/
def componentArrays (part : Nat → Part) (components : List Labels) (i : Nat) : List (Part × NpArray) :=
  (components.zipIdx i).map fun c => (part c.2, labelsArray native c.1)

/-- What to write for a gradient. -/
def gradientArrays (i : Nat) (gradient : String × BasicBlock A) : List (Part × NpArray) :=
  [(.gradient i gradient.1 .data, view gradient.2.data), (.gradient i gradient.1 .samples, labelsArray native gradient.2.samples)] ++
  componentArrays native (fun c => .gradient i gradient.1 (.component c)) gradient.2.components 0

/-- What to write for a block. -/
def blockArrays (block : TensorBlock A × Nat) : List (Part × NpArray) :=
  [(.values block.2 .data, view block.1.values.data), (.values block.2 .samples, labelsArray native block.1.values.samples)] ++
  componentArrays native (fun c => .values block.2 (.component c)) block.1.values.components 0 ++
  [(.values block.2 .properties, labelsArray native block.1.values.properties)] ++
  block.1.gradients.flatMap (gradientArrays view native block.2)

/-- What to write for a tensor map. -/
def tensorArrays (t : TensorMap A) : List (Part × NpArray) :=
  (.keys, labelsArray native t.keys) :: (t.blocks.zipIdx).flatMap (blockArrays view native)

end

variable {A : Type} [ArrayLike A] {view : A → NpArray} {native : Endian}

/-- The parts are the same as when saving with the library. -/
theorem tensorArrays_fst (t : TensorMap A) (build : Build) (py : PyLiteral) :
    (tensorArrays view native t).map Prod.fst = (tensorItems build py native .insertion t).map Prod.fst := by
  have hcomp : ∀ (part : Nat → Part) components i, (componentArrays native part components i).map Prod.fst =
      (componentItems build py native part components i).map Prod.fst := by
    intro part components i
    unfold componentArrays componentItems
    rw [List.map_map, List.map_map]
    rfl
  have hgrad : ∀ i (g : String × BasicBlock A), (gradientArrays view native i g).map Prod.fst =
      (gradientItems build py native i g).map Prod.fst := by
    intro i g
    unfold gradientArrays gradientItems
    rw [List.map_append, List.map_append, hcomp]
    rfl
  have hblock : ∀ b : TensorBlock A × Nat, (blockArrays view native b).map Prod.fst =
      (blockItems build py native .insertion b).map Prod.fst := by
    intro b
    unfold blockArrays blockItems
    simp only [List.map_append, hcomp, List.map_flatMap, hgrad]
    rfl
  unfold tensorArrays tensorItems
  rw [List.map_cons, List.map_cons, List.map_flatMap, List.map_flatMap]
  simp only [hblock]

theorem tensorArrays_nodup {t : TensorMap A} (ht : ∀ b ∈ t.blocks, b.GradientsNodup) :
    ((tensorArrays view native t).map Prod.fst).Nodup := by
  rw [tensorArrays_fst t ⟨false⟩ ⟨fun _ => none, fun _ => none⟩]
  exact tensorItems_nodup ht

/-- The array written for a part of the values or of a gradient. -/
inductive WhatArray (view : A → NpArray) (native : Endian) (b : BasicBlock A) : What → NpArray → Prop
  | data : WhatArray view native b .data (view b.data)
  | samples : WhatArray view native b .samples (labelsArray native b.samples)
  | component {i c} : b.components[i]? = some c → WhatArray view native b (.component i) (labelsArray native c)
  | properties : WhatArray view native b .properties (labelsArray native b.properties)

theorem mem_componentArrays {part : Nat → Part} {components : List Labels} {x : Part × NpArray} :
    x ∈ componentArrays native part components 0 ↔
      ∃ i c, components[i]? = some c ∧ x = (part i, labelsArray native c) := by
  unfold componentArrays
  simp only [List.mem_map, Prod.exists, List.mem_zipIdx_iff_getElem?]
  constructor
  · rintro ⟨c, i, h, rfl⟩; exact ⟨i, c, h, rfl⟩
  · rintro ⟨i, c, h, rfl⟩; exact ⟨c, i, h, rfl⟩

theorem mem_gradientArrays {i : Nat} {g : String × BasicBlock A} {x : Part × NpArray} :
    x ∈ gradientArrays view native i g ↔
      ∃ w r, WhatArray view native g.2 w r ∧ w ≠ .properties ∧ x = (.gradient i g.1 w, r) := by
  unfold gradientArrays
  simp only [List.mem_append, List.mem_cons, List.not_mem_nil, or_false, mem_componentArrays]
  constructor
  · rintro ((rfl | rfl) | ⟨k, c, hc, rfl⟩)
    · exact ⟨_, _, .data, by simp, rfl⟩
    · exact ⟨_, _, .samples, by simp, rfl⟩
    · exact ⟨_, _, .component hc, by simp, rfl⟩
  · rintro ⟨w, r, hw, hne, rfl⟩
    cases hw with
    | data => exact .inl (.inl rfl)
    | samples => exact .inl (.inr rfl)
    | component hc => exact .inr ⟨_, _, hc, rfl⟩
    | properties => exact absurd rfl hne

theorem mem_blockArrays {b : TensorBlock A} {i : Nat} {x : Part × NpArray} :
    x ∈ blockArrays view native (b, i) ↔
      (∃ w r, WhatArray view native b.values w r ∧ x = (.values i w, r)) ∨
      (∃ p g w r, (p, g) ∈ b.gradients ∧ WhatArray view native g w r ∧ w ≠ .properties ∧
        x = (.gradient i p w, r)) := by
  unfold blockArrays
  simp only [List.mem_append, List.mem_cons, List.not_mem_nil, or_false, mem_componentArrays, List.mem_flatMap,
    mem_gradientArrays, Prod.exists]
  constructor
  · rintro ((((rfl | rfl) | ⟨k, c, hc, rfl⟩) | rfl) | ⟨p, g, hg, w, r, hw, hne, rfl⟩)
    · exact .inl ⟨_, _, .data, rfl⟩
    · exact .inl ⟨_, _, .samples, rfl⟩
    · exact .inl ⟨_, _, .component hc, rfl⟩
    · exact .inl ⟨_, _, .properties, rfl⟩
    · exact .inr ⟨p, g, w, r, hg, hw, hne, rfl⟩
  · rintro (⟨w, r, hw, rfl⟩ | ⟨p, g, w, r, hg, hw, hne, rfl⟩)
    · cases hw with
      | data => exact .inl (.inl (.inl (.inl rfl)))
      | samples => exact .inl (.inl (.inl (.inr rfl)))
      | component hc => exact .inl (.inl (.inr ⟨_, _, hc, rfl⟩))
      | properties => exact .inl (.inr rfl)
    · exact .inr ⟨p, g, hg, w, r, hw, hne, rfl⟩

theorem mem_tensorArrays {t : TensorMap A} {x : Part × NpArray} :
    x ∈ tensorArrays view native t ↔
      x = (.keys, labelsArray native t.keys) ∨
      ∃ b i, t.blocks[i]? = some b ∧
        ((∃ w r, WhatArray view native b.values w r ∧ x = (.values i w, r)) ∨
         (∃ p g w r, (p, g) ∈ b.gradients ∧ WhatArray view native g w r ∧ w ≠ .properties ∧
          x = (.gradient i p w, r))) := by
  unfold tensorArrays
  simp only [List.mem_cons, List.mem_flatMap, Prod.exists, List.mem_zipIdx_iff_getElem?, mem_blockArrays]

/-! ### Assignments -/

/-- Keys and values of parts. -/
def keyed (parts : List (Part × NpArray)) : List (String × NpArray) := parts.map fun x => (Part.key x.1, x.2)

theorem keyed_append (a b : List (Part × NpArray)) : keyed (a ++ b) = keyed a ++ keyed b := List.map_append

theorem except_mapM_ok {α β ε : Type} {f : α → Except ε β} {g : α → β} {l : List α} (h : ∀ x ∈ l, f x = .ok (g x)) :
    l.mapM f = .ok (l.map g) := by
  induction l with
  | nil => rfl
  | cons a l ih =>
    rw [except_mapM_cons, h a (by simp), ih fun x hx => h x (by simp [hx])]
    rfl

theorem componentAssignments_eq {pre : String} {part : Nat → Part} (hp : ∀ i : Nat, s!"{pre}/components/{i}" = Part.key (part i))
    {components : List Labels} (h : ∀ c ∈ components, c.WF) :
    componentAssignments native pre components = .ok (keyed (componentArrays native part components 0)) := by
  unfold componentAssignments
  rw [except_mapM_ok (g := fun x : Labels × Nat => (Part.key (part x.2), labelsArray native x.1))]
  · unfold keyed componentArrays
    rw [List.map_map]
    rfl
  · rintro ⟨c, i⟩ hm
    have := h c (List.mem_of_getElem? (List.mem_zipIdx_iff_getElem?.1 hm))
    simp only [npLibraryLabels_eq native this]
    rw [← hp]
    rfl

theorem gradientAssignments_eq {b : TensorBlock A} (hv : BlockValid b) {i : Nat} {p : String} {g : BasicBlock A}
    (hg : b.gradient p = some g) :
    gradientAssignments view native b i p = .ok (keyed (gradientArrays view native i (p, g))) := by
  have hwf := (hv.gradients p g ((gradient_eq_some hv.names).1 hg)).basic.wf
  unfold gradientAssignments
  rw [hg]
  simp only [npLibraryLabels_eq native hwf.samples, componentAssignments_eq (gradientComponentKey_eq i p) hwf.components]
  unfold gradientArrays
  rw [keyed_append]
  simp only [bind, Except.bind, pure, Except.pure, gradientKey_data, gradientKey_samples]
  rfl

theorem blockAssignments_eq {b : TensorBlock A} (hv : BlockValid b) (i : Nat) :
    blockAssignments view native b i = .ok (keyed (blockArrays view native (b, i))) := by
  have hwf := hv.values.wf
  have hgrad : b.gradientParameters.mapM (gradientAssignments view native b i) =
      .ok (b.gradients.map fun g => keyed (gradientArrays view native i g)) := by
    rw [hv.list]
    have hall : ∀ g ∈ b.gradients, gradientAssignments view native b i g.1 = .ok (keyed (gradientArrays view native i g)) :=
      fun g hg => gradientAssignments_eq hv ((gradient_eq_some hv.names).2 hg)
    generalize b.gradients = gs at hall
    induction gs with
    | nil => rfl
    | cons g gs ih =>
      rw [List.map_cons, except_mapM_cons, hall g (by simp), ih fun x hx => hall x (by simp [hx])]
      rfl
  unfold blockAssignments
  simp only [npLibraryLabels_eq native hwf.samples, npLibraryLabels_eq native hwf.properties,
    componentAssignments_eq (valuesComponentKey_eq i) hwf.components, hgrad]
  unfold blockArrays
  rw [keyed_append, keyed_append, keyed_append]
  simp only [bind, Except.bind, pure, Except.pure, valuesKey_data, valuesKey_samples, valuesKey_properties]
  congr 1
  congr 1
  unfold keyed
  rw [List.map_flatMap, List.flatMap_def]

theorem tensorAssignments_eq {t : TensorMap A} (hv : TensorValid t) (hs : t.blocks.length ≤ 18446744073709551616) :
    tensorAssignments view native t = .ok (keyed (tensorArrays view native t)) := by
  have hkw : t.keys.WF := hv.keys.wf_of_count hv.count
  obtain ⟨-, items, h1, h2, h3⟩ := C63_iteration t hv hs
  unfold tensorAssignments
  simp only [npLibraryLabels_eq native hkw, h1, bind, Except.bind]
  have hsnd : items.map Prod.snd = List.range t.blocks.length := by
    rw [← h2]
    refine List.ext_getElem (by simp) fun i ha hb => ?_
    have hi : i < items.length := by simpa using ha
    obtain ⟨key, -, hk⟩ := (h3 i items[i]).1 (List.getElem?_eq_getElem hi)
    simp [hk]
  have hzip : items.zipIdx.mapM (fun x =>
      match t.blocks[x.1.2]? with
      | some block => blockAssignments view native block x.2
      | none => .error .equistoreError) = .ok (t.blocks.zipIdx.map fun b => keyed (blockArrays view native b)) := by
    have hgo : ∀ (its : List (List (String × LabelValue) × Nat)) (bs : List (TensorBlock A)) (start : Nat),
        its.map Prod.snd = List.range' start bs.length → bs = t.blocks.drop start →
        (its.zipIdx start).mapM (fun x =>
          match t.blocks[x.1.2]? with
          | some block => blockAssignments view native block x.2
          | none => .error .equistoreError) =
          .ok ((bs.zipIdx start).map fun b => keyed (blockArrays view native b)) := by
      intro its
      induction its with
      | nil =>
        intro bs start hm hd
        cases bs with
        | nil => rfl
        | cons b bs => simp [List.range'_succ] at hm
      | cons it its ih =>
        intro bs start hm hd
        cases bs with
        | nil => simp at hm
        | cons b bs =>
          rw [List.map_cons, List.length_cons, List.range'_succ, List.cons.injEq] at hm
          have hb : t.blocks[start]? = some b := by
            have := congrArg List.head? hd
            rw [List.head?_drop] at this
            exact this.symm
          have hd' : bs = t.blocks.drop (start + 1) := by
            have := congrArg List.tail hd
            rw [List.tail_drop] at this
            exact this
          rw [List.zipIdx_cons, List.zipIdx_cons, except_mapM_cons, ih bs (start + 1) hm.2 hd']
          obtain ⟨key, block⟩ := it
          simp only at hm
          simp only [hm.1, hb, blockAssignments_eq (hv.blocks b (List.mem_of_getElem? hb)) start]
          rfl
    exact hgo items t.blocks 0 (by rw [hsnd, List.range_eq_range']) (by simp)
  erw [hzip]
  simp only [pure, Except.pure]
  unfold tensorArrays keyed
  rw [List.map_cons, List.map_flatMap, List.flatMap_def]
  rfl

/-! ### The dictionary -/

theorem dictSet_fresh {α : Type} {key : String} {value : α} {dict : List (String × α)} (h : key ∉ dict.map Prod.fst) :
    dictSet key value dict = dict ++ [(key, value)] := by
  induction dict with
  | nil => rfl
  | cons kv dict ih =>
    obtain ⟨k, v⟩ := kv
    simp only [List.map_cons, List.mem_cons, not_or] at h
    rw [dictSet, if_neg (fun he => h.1 he.symm), ih h.2]
    rfl

theorem foldl_dictSet {α : Type} {assignments dict : List (String × α)} (h : ((dict ++ assignments).map Prod.fst).Nodup) :
    assignments.foldl (fun dict (kv : String × α) => dictSet kv.1 kv.2 dict) dict = dict ++ assignments := by
  induction assignments generalizing dict with
  | nil => simp
  | cons kv assignments ih =>
    have hf : kv.1 ∉ dict.map Prod.fst := by
      rw [List.map_append, List.nodup_append] at h
      intro hm
      exact h.2.2 _ hm _ (by simp) rfl
    rw [List.foldl_cons, dictSet_fresh hf, ih]
    · rw [List.append_assoc]
      rfl
    · rw [List.append_assoc]
      exact h

theorem except_mapM_eq_ok {α β ε : Type} {f : α → Except ε β} {l : List α} {l' : List β} (h : l.mapM f = .ok l') :
    List.Forall₂ (fun a b => f a = .ok b) l l' := by
  induction l generalizing l' with
  | nil => cases h; exact .nil
  | cons a l ih =>
    rw [except_mapM_cons] at h
    cases ha : f a with
    | error e => rw [ha] at h; cases h
    | ok b =>
      cases hl : l.mapM f with
      | error e => rw [ha, hl] at h; cases h
      | ok bs =>
        rw [ha, hl] at h
        cases h
        exact .cons ha (ih hl)

theorem pySave_eq {np : Numpy} {t : TensorMap A} (hv : TensorValid t) (hs : t.blocks.length ≤ 18446744073709551616) :
    pySave view native np t = (keyed (tensorArrays view native t)).mapM fun kv =>
      (npWrite np kv.2).bind fun bytes => .ok (kv.1 ++ ".npy", bytes) := by
  have hn : ∀ b ∈ t.blocks, b.GradientsNodup := fun b hb => (hv.blocks b hb).names
  unfold pySave
  rw [tensorAssignments_eq hv hs]
  change (List.mapM _ ((keyed (tensorArrays view native t)).foldl
    (fun dict (kv : String × NpArray) => dictSet kv.1 kv.2 dict) [])) = _
  rw [foldl_dictSet]
  · rfl
  · rw [List.nil_append]
    unfold keyed
    rw [List.map_map]
    have := (tensorArrays_nodup (view := view) (native := native) hn).map (f := Part.key) fun a b he => Part.key_injective he
    rw [List.map_map] at this
    exact this

/-- All entries written. -/
theorem pySave_entries {np : Numpy} {t : TensorMap A} (hv : TensorValid t) (hs : t.blocks.length ≤ 18446744073709551616)
    {archive : Archive} (h : pySave view native np t = .ok archive) :
    List.Forall₂ (fun (item : Part × NpArray) entry => ∃ bytes, npWrite np item.2 = .ok bytes ∧ entry = (item.1.name, bytes))
      (tensorArrays view native t) archive := by
  rw [pySave_eq hv hs] at h
  have := except_mapM_eq_ok h
  unfold keyed at this
  rw [List.forall₂_map_left_iff] at this
  refine this.imp ?_
  rintro ⟨part, a⟩ entry he
  cases hw : npWrite np a with
  | error e =>
    simp only [hw] at he
    cases he
  | ok bytes =>
    simp only [hw] at he
    cases he
    refine ⟨bytes, rfl, ?_⟩
    rw [← Part.key_npy]

theorem except_mapM_exists {α β ε : Type} {f : α → Except ε β} {l : List α} (h : ∀ x ∈ l, ∃ y, f x = .ok y) :
    ∃ l', l.mapM f = .ok l' := by
  induction l with
  | nil => exact ⟨[], rfl⟩
  | cons a l ih =>
    obtain ⟨b, hb⟩ := h a (by simp)
    obtain ⟨bs, hbs⟩ := ih fun x hx => h x (by simp [hx])
    exact ⟨b :: bs, by rw [except_mapM_cons, hb, hbs]; rfl⟩

theorem pySave_ok {np : Numpy} {t : TensorMap A} (hv : TensorValid t) (hs : t.blocks.length ≤ 18446744073709551616)
    (h : ∀ x ∈ tensorArrays view native t, ∃ bytes, npWrite np x.2 = .ok bytes) :
    ∃ archive, pySave view native np t = .ok archive := by
  rw [pySave_eq hv hs]
  refine except_mapM_exists ?_
  intro x hx
  obtain ⟨y, hy, rfl⟩ := List.mem_map.1 hx
  obtain ⟨bytes, hb⟩ := h y hy
  exact ⟨_, by rw [hb]; rfl⟩

theorem pySave_names {np : Numpy} {t : TensorMap A} (hv : TensorValid t) (hs : t.blocks.length ≤ 18446744073709551616)
    {archive : Archive} (h : pySave view native np t = .ok archive) :
    archive.map Prod.fst = ((tensorArrays view native t).map Prod.fst).map Part.name := by
  have := pySave_entries hv hs h
  generalize tensorArrays view native t = items at this
  clear h
  induction this with
  | nil => rfl
  | cons h1 _ ih =>
    obtain ⟨bytes, -, rfl⟩ := h1
    rw [List.map_cons, List.map_cons, List.map_cons, ih]

/-- All parts can be found in a saved archive. -/
theorem pySave_byName {np : Numpy} {t : TensorMap A} (hv : TensorValid t) (hs : t.blocks.length ≤ 18446744073709551616)
    {archive : Archive} (h : pySave view native np t = .ok archive) {part : Part} {a : NpArray}
    (hm : (part, a) ∈ tensorArrays view native t) :
    ∃ bytes, npWrite np a = .ok bytes ∧ archive.byName part.name = .ok bytes := by
  have hn : ∀ b ∈ t.blocks, b.GradientsNodup := fun b hb => (hv.blocks b hb).names
  obtain ⟨entry, he, bytes, h1, rfl⟩ := forall₂_mem_left (pySave_entries hv hs h) hm
  refine ⟨bytes, h1, byName_of_mem ?_ he⟩
  rw [pySave_names hv hs h]
  exact (tensorArrays_nodup hn).map fun a b he => Part.name_injective he

theorem pySave_parameters {np : Numpy} {t : TensorMap A} (hv : TensorValid t) (hs : t.blocks.length ≤ 18446744073709551616)
    {archive : Archive} (h : pySave view native np t = .ok archive) :
    (pyGradientParameters archive).Perm (firstParameters t) := by
  rw [pyGradientParameters_parts (pySave_names hv hs h), tensorArrays_fst t ⟨false⟩ ⟨fun _ => none, fun _ => none⟩]
  exact tensorItems_parameter t

theorem pySave_libraryParameters {np : Numpy} {t : TensorMap A} (hv : TensorValid t) (hs : t.blocks.length ≤ 18446744073709551616)
    {archive : Archive} (h : pySave view native np t = .ok archive) (build : Build) (hash : HashOrder) :
    ∃ parameters, gradientParameters build (archive.fileNames hash) = .ok parameters ∧ parameters.Perm (firstParameters t) := by
  have hn : ∀ b ∈ t.blocks, b.GradientsNodup := fun b hb => (hv.blocks b hb).names
  have hnames := pySave_names hv hs h
  have hnodup : (archive.map Prod.fst).Nodup := by
    rw [hnames]
    exact (tensorArrays_nodup hn).map fun a b he => Part.name_injective he
  have h1 := fileNames_perm hnodup hash
  rw [hnames, tensorArrays_fst t ⟨false⟩ ⟨fun _ => none, fun _ => none⟩] at h1
  obtain ⟨parts, h2, h3⟩ := perm_map_exists h1
  rw [h3, gradientParameters_eq]
  exact ⟨_, rfl, (h2.filterMap _).trans (tensorItems_parameter t)⟩

end Equistore
