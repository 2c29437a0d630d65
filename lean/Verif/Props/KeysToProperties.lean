import Verif.Props.KeysToSamples
import Mathlib.Data.List.Pairwise

/-!
# Properties of `keys_to_properties` (C16, C19, C21, C22, C23, C24, C25, C26, C27)

`pairs` and `pairs'` are the pairs (key, block) given by iterating over the tensor map
before and after the call.
-/

namespace Equistore
open Spec

section
variable {A : Type} [ArrayLike A]
variable (build : Build) (hash : HashOrder) (keysToMove : Labels) (sort : Bool)
  (t t' : TensorMap A)

/-! ### C16 -/

/-- **C16**, for `keys_to_properties`. -/
theorem C16_keys_to_properties_keys (ht : TensorValid t) (hm : keysToMove.FromBuilder)
    (h : t.keysToProperties build hash keysToMove sort = (t', .ok ())) :
    t'.keys.names = remainingNames t.keys.names keysToMove.names ∧
    FirstAppearances ((entriesOf t.keys).map (remainingKey t.keys.names keysToMove.names))
      (entriesOf t'.keys) ∧
    t'.keys.count = .ok t'.blocks.length := by
  obtain ⟨hw, hk⟩ := (keysToProperties_ok_iff ht hm).1 h
  refine ⟨hk.keys.names_eq, ?_, ?_⟩
  · rw [entriesOf_eq ht.keys_wf, entriesOf_eq hk.keys.wf]
    exact hk.first_appearances ht (mergeBlocksAlongProperties_nil _ _ _ _ _)
  · rw [hk.keys.wf.count_eq, hk.blocks.length_eq]

/-- **C16**, for `keys_to_properties`: a name which is not in the keys is an error. -/
theorem C16_keys_to_properties_missing
    (hmiss : ∃ n ∈ keysToMove.names, n ∉ t.keys.names) :
    ∃ message, t.keysToProperties build hash keysToMove sort =
      (t, .err (.invalidParameter message)) := by
  obtain ⟨n, hn, hn'⟩ := hmiss
  obtain ⟨m, h1⟩ := removeVariablesFromKeys_missing (keys := t.keys) (moved := keysToMove.names)
    (fun hc => hn' (hc n hn))
  refine ⟨m, ?_⟩
  rw [keysToProperties_eq]
  unfold TensorMap.keysToPropertiesResult
  rw [h1]
  rfl

/-! ### C19 -/

/-- **C19**, for `keys_to_properties`: the sample names do not change, the samples are the
union of the samples of the merged blocks, strictly increasing if sorting was requested, in
order of first appearance otherwise. -/
theorem C19_keys_to_properties_samples (ht : TensorValid t) (hm : keysToMove.FromBuilder)
    (h : t.keysToProperties build hash keysToMove sort = (t', .ok ()))
    (pairs pairs' : List (List LabelValue × TensorBlock A))
    (hp : t.iter = .ok pairs) (hp' : t'.iter = .ok pairs')
    (key' : List LabelValue) (b' : TensorBlock A) (hb' : (key', b') ∈ pairs') :
    let all := (group t.keys.names keysToMove.names pairs key').flatMap fun kb =>
      entriesOf kb.2.values.samples
    (∀ kb ∈ group t.keys.names keysToMove.names pairs key',
      b'.values.samples.names = kb.2.values.samples.names) ∧
    (∀ r, r ∈ entriesOf b'.values.samples ↔ r ∈ all) ∧
    (sort = true → (entriesOf b'.values.samples).Pairwise (· < ·)) ∧
    (sort = false → FirstAppearances all (entriesOf b'.values.samples)) := by
  intro all
  obtain ⟨hw, hk⟩ := (keysToProperties_ok_iff ht hm).1 h
  rw [ht.iter_eq, Res.ok.injEq] at hp
  rw [hk.iter_eq, Res.ok.injEq] at hp'
  subst hp hp'
  have hg := group_ok ht (Labels.Holds.names_ok hw).2 hk.names key'
  obtain ⟨f, _, _, hM, _⟩ := mergeBlocksAlongProperties_merged hg (userKeys_ok hw) (hk.merged hb')
  refine ⟨?_, ?_⟩
  · intro kb hkb
    rw [hM.samples.names_eq]
    exact (hg.consistent _ hM.first_mem _ (List.mem_map_of_mem hkb)).values.1
  · have := merged_samples sort (addKey := false) (rows := entriesOf b'.values.samples)
      (l := (group t.keys.names keysToMove.names (t.keys.rows.zip t.blocks) key').map
        (toMerge t.keys.names keysToMove.names))
      (fun kb hkb => (BasicValid.wf (hg.valid kb hkb).values).samples)
      (entriesOf_holds hM.samples)
    rw [List.flatMap_map] at this
    have hext : ∀ key : List LabelValue, extendSample false key = id := fun key => by
      funext s; simp [extendSample]
    simp only [hext, List.map_id] at this
    exact this

/-! ### C21, C22 -/

/-- **C21**, for `keys_to_properties`: for any array backend (any of its functions can fail
at any point), whenever the call does not succeed the tensor map is unchanged. -/
theorem C21_keys_to_properties_atomic (r : Res Unit)
    (h : t.keysToProperties build hash keysToMove sort = (t', r)) (hr : r ≠ .ok ()) : t' = t := by
  rw [keysToProperties_eq] at h
  split at h
  · simp only [Prod.mk.injEq] at h; exact absurd h.2.symm hr
  · simp only [Prod.mk.injEq] at h; exact h.1.symm
  · simp only [Prod.mk.injEq] at h; exact h.1.symm

/-- **C22**, for `keys_to_properties`: a successful call only merged blocks with equal
components and, if the user gives the entries, equal properties. -/
theorem C22_keys_to_properties_compatible (ht : TensorValid t) (hm : keysToMove.FromBuilder)
    (h : t.keysToProperties build hash keysToMove sort = (t', .ok ()))
    (pairs : List (List LabelValue × TensorBlock A)) (hp : t.iter = .ok pairs)
    (a c : List LabelValue × TensorBlock A) (ha : a ∈ pairs) (hc : c ∈ pairs)
    (hsame : remainingKey t.keys.names keysToMove.names a.1 =
      remainingKey t.keys.names keysToMove.names c.1) :
    a.2.values.components = c.2.values.components ∧
    (entriesOf keysToMove ≠ [] → a.2.values.properties = c.2.values.properties) := by
  obtain ⟨hw, hk⟩ := (keysToProperties_ok_iff ht hm).1 h
  rw [ht.iter_eq, Res.ok.injEq] at hp
  subst hp
  have hfa := hk.first_appearances ht (mergeBlocksAlongProperties_nil _ _ _ _ _)
  have hkey : remainingKey t.keys.names keysToMove.names a.1 ∈ t'.keys.rows := by
    rw [hfa.same]
    exact List.mem_map_of_mem (List.of_mem_zip (a := a.1) (b := a.2) ha).1
  obtain ⟨b', hb'⟩ := zip_mem_of hk.blocks.length_eq hkey
  obtain ⟨first, _, _, _, hs⟩ := mergeBlocksAlongProperties_ok (hk.merged hb')
  have h1 := hs.compatible _ (List.mem_map_of_mem (f := toMerge t.keys.names keysToMove.names)
    (mem_group (key := a.1) (b := a.2).2 ⟨ha, rfl⟩))
  have h2 := hs.compatible _ (List.mem_map_of_mem (f := toMerge t.keys.names keysToMove.names)
    (mem_group (key := c.1) (b := c.2).2 ⟨hc, hsame.symm⟩))
  refine ⟨h1.1.trans h2.1.symm, fun hne => ?_⟩
  rw [entriesOf_eq hw] at hne
  have hu : (userKeys keysToMove).isSome = true := by
    unfold userKeys; rw [if_neg hne]; rfl
  exact (h1.2 hu).trans (h2.2 hu).symm

/-! ### C25 -/

/-- **C25.** The new property names are the moved names followed by the old property names.
Without user-provided entries, the new properties are, block after block, the moved key
followed by each property of the block; with user-provided entries, each of the entries
followed by each property (the same for all merged blocks by C22). -/
theorem C25_property_labels (ht : TensorValid t) (hm : keysToMove.FromBuilder)
    (h : t.keysToProperties build hash keysToMove sort = (t', .ok ()))
    (pairs pairs' : List (List LabelValue × TensorBlock A))
    (hp : t.iter = .ok pairs) (hp' : t'.iter = .ok pairs')
    (key' : List LabelValue) (b' : TensorBlock A) (hb' : (key', b') ∈ pairs') :
    (∀ kb ∈ group t.keys.names keysToMove.names pairs key',
      b'.values.properties.names = keysToMove.names ++ kb.2.values.properties.names) ∧
    (entriesOf keysToMove = [] → entriesOf b'.values.properties =
      (group t.keys.names keysToMove.names pairs key').flatMap fun kb =>
        (entriesOf kb.2.values.properties).map
          (movedKey t.keys.names keysToMove.names kb.1 ++ ·)) ∧
    (entriesOf keysToMove ≠ [] → ∀ kb ∈ group t.keys.names keysToMove.names pairs key',
      entriesOf b'.values.properties = (entriesOf keysToMove).flatMap fun entry =>
        (entriesOf kb.2.values.properties).map (entry ++ ·)) := by
  obtain ⟨hw, hk⟩ := (keysToProperties_ok_iff ht hm).1 h
  rw [ht.iter_eq, Res.ok.injEq] at hp
  rw [hk.iter_eq, Res.ok.injEq] at hp'
  subst hp hp'
  have hg := group_ok ht (Labels.Holds.names_ok hw).2 hk.names key'
  obtain ⟨f, _, _, hM, hs, hP⟩ := mergeBlocksAlongProperties_merged hg (userKeys_ok hw) (hk.merged hb')
  rw [entriesOf_holds hP, entriesOf_eq hw]
  refine ⟨?_, ?_, ?_⟩
  · intro kb hkb
    rw [hP.names_eq, (hg.consistent _ hM.first_mem _ (List.mem_map_of_mem hkb)).properties]
    rfl
  · intro he
    unfold userKeys
    rw [if_pos he]
    simp only [newPropertyRows]
    rw [List.flatMap_map, List.flatMap_def, List.flatMap_def]
    congr 1
    apply List.map_congr_left
    intro kb hkb
    have := (BasicValid.wf (hg.valid _ (List.mem_map_of_mem hkb)).values).properties
    rw [entriesOf_eq (l := kb.2.values.properties) this]
    rfl
  · intro he kb hkb
    have hu : userKeys keysToMove = some keysToMove := by
      unfold userKeys; rw [if_neg he]
    have hpe := (hs.compatible _ (List.mem_map_of_mem hkb)).2 (by rw [hu]; rfl)
    have := (BasicValid.wf (hg.valid _ (List.mem_map_of_mem hkb)).values).properties
    rw [entriesOf_eq (l := kb.2.values.properties) this, hu]
    simp only [newPropertyRows]
    rw [← hpe]
    rfl

end

/-! ### C23, C24, C26 -/

variable (build : Build) (hash : HashOrder) (keysToMove : Labels) (sort : Bool)
  (t t' : TensorMap NdArray)

/-- There is at most one value under given labels in a block with valid labels. -/
theorem hasValue_unique {b : BasicBlock NdArray} (hb : BasicValid b) {s : List LabelValue}
    {cs : List (List LabelValue)} {p : List LabelValue} {x y : Elt}
    (h : HasValue b s cs p x) (h' : HasValue b s cs p y) : x = y := by
  have hw := BasicValid.wf hb
  obtain ⟨i, k, j, h1, h2, h3, h4, rfl⟩ := h
  obtain ⟨i', k', j', h1', h2', h3', h4', rfl⟩ := h'
  have entry_unique : ∀ {l : Labels} {i j : Nat} {e : List LabelValue}, l.WF → EntryAt l i e →
      EntryAt l j e → i = j := by
    intro l i j e hl hi hj
    rw [entryAt_iff hl] at hi hj
    obtain ⟨hi', hi⟩ := List.getElem?_eq_some_iff.1 hi
    obtain ⟨hj', hj⟩ := List.getElem?_eq_some_iff.1 hj
    exact (List.Nodup.getElem_inj_iff (Labels.Holds.nodup hl)).1 (hi.trans hj.symm)
  have e1 := entry_unique hw.samples h1 h1'
  have e2 := entry_unique hw.properties h4 h4'
  have e3 : k = k' := CompAt.unique hw.components ⟨h2, h3⟩ ⟨h2', h3'⟩
  rw [e1, e2, e3]

/-- **C24**, everything there is in the result: an entry of the result is either a value of
one of the merged blocks which is listed by the user (all are without user-provided entries),
with the values of the moved key in front of the property, or a zero, when no such
block has this sample and this property. The moved values are in the order of the keys. -/
theorem C24_keys_to_properties_values (ht : TensorValid t) (hm : keysToMove.FromBuilder)
    (h : t.keysToProperties build hash keysToMove sort = (t', .ok ()))
    (pairs pairs' : List (List LabelValue × TensorBlock NdArray))
    (hp : t.iter = .ok pairs) (hp' : t'.iter = .ok pairs')
    (key' : List LabelValue) (b' : TensorBlock NdArray) (hb' : (key', b') ∈ pairs')
    (s : List LabelValue) (cs : List (List LabelValue)) (p' : List LabelValue) (x : Elt) :
    let listed := fun key => entriesOf keysToMove = [] ∨
      movedKey t.keys.names keysToMove.names key ∈ entriesOf keysToMove
    HasValue b'.values s cs p' x ↔
      ((∃ key b, (key, b) ∈ pairs ∧ remainingKey t.keys.names keysToMove.names key = key' ∧
        listed key ∧ ∃ p, p' = movedKey t.keys.names keysToMove.names key ++ p ∧
          HasValue b.values s cs p x) ∨
      (x = 0 ∧ s ∈ entriesOf b'.values.samples ∧ HasEntries b'.values.components cs ∧
        p' ∈ entriesOf b'.values.properties ∧
        ∀ key b, (key, b) ∈ pairs → remainingKey t.keys.names keysToMove.names key = key' →
          listed key → s ∈ entriesOf b.values.samples → ∀ p ∈ entriesOf b.values.properties,
            p' ≠ movedKey t.keys.names keysToMove.names key ++ p)) := by
  intro listed
  obtain ⟨hw, hk⟩ := (keysToProperties_ok_iff ht hm).1 h
  rw [ht.iter_eq, Res.ok.injEq] at hp
  rw [hk.iter_eq, Res.ok.injEq] at hp'
  subst hp hp'
  have hg := group_ok ht (Labels.Holds.names_ok hw).2 hk.names key'
  obtain ⟨_, _, _, hM, _⟩ := mergeBlocksAlongProperties_merged hg (userKeys_ok hw) (hk.merged hb')
  have hbw := BasicValid.wf hM.valid.values
  have hl : ∀ key, listed key ↔ Listed (userKeys keysToMove) (movedKey t.keys.names keysToMove.names key) := by
    intro key; rw [listed_userKeys, ← entriesOf_eq hw]
  rw [(mergeBlocksAlongProperties_values hg (userKeys_ok hw) (hk.merged hb')).2,
    entriesOf_eq hbw.samples, entriesOf_eq hbw.properties]
  refine or_congr ?_ ?_
  · simp only [hl]
    exact exists_toMerge (P := fun k b => Listed (userKeys keysToMove) k ∧
      ∃ p, p' = k ++ p ∧ HasValue b.values s cs p x)
  · refine and_congr_right fun _ => and_congr_right fun _ => and_congr_right fun _ =>
      and_congr_right fun _ => ?_
    constructor
    · intro h key b h1 h2 h3 h4 p h5
      have hmem := List.mem_map_of_mem (f := toMerge t.keys.names keysToMove.names)
        (mem_group.2 ⟨h1, h2⟩)
      have hv : BlockWF b.values := BasicValid.wf (hg.valid _ hmem).values
      rw [entriesOf_eq hv.samples] at h4
      rw [entriesOf_eq hv.properties] at h5
      exact h _ hmem ((hl key).1 h3) h4 p h5
    · intro h kb hkb h3 h4 p h5
      obtain ⟨⟨key, b⟩, h1, rfl⟩ := List.mem_map.1 hkb
      have hv : BlockWF b.values := BasicValid.wf (hg.valid _ hkb).values
      obtain ⟨h1, h2⟩ := mem_group.1 h1
      exact h key b h1 h2 ((hl key).2 h3) (by rw [entriesOf_eq hv.samples]; exact h4) p
        (by rw [entriesOf_eq hv.properties]; exact h5)

/-- **C24.** The entry for a property of one of the merged blocks and a sample which this
block does not have is zero. -/
theorem C24_keys_to_properties_zeros (ht : TensorValid t) (hm : keysToMove.FromBuilder)
    (h : t.keysToProperties build hash keysToMove sort = (t', .ok ()))
    (pairs pairs' : List (List LabelValue × TensorBlock NdArray))
    (hp : t.iter = .ok pairs) (hp' : t'.iter = .ok pairs')
    (key' : List LabelValue) (b' : TensorBlock NdArray) (hb' : (key', b') ∈ pairs')
    (s : List LabelValue) (cs : List (List LabelValue)) (p : List LabelValue) (x : Elt)
    (key : List LabelValue) (b : TensorBlock NdArray) (hkb : (key, b) ∈ pairs)
    (hs : s ∉ entriesOf b.values.samples)
    (hx : HasValue b'.values s cs (movedKey t.keys.names keysToMove.names key ++ p) x)
    (hkey : remainingKey t.keys.names keysToMove.names key = key') : x = 0 := by
  have hC := (C24_keys_to_properties_values build hash keysToMove sort t t' ht hm h pairs pairs' hp hp'
    key' b' hb' s cs (movedKey t.keys.names keysToMove.names key ++ p) x).1 hx
  rcases hC with ⟨key₂, b₂, h1, h2, _, p₂, h3, h4⟩ | ⟨h1, _⟩
  · exfalso
    obtain ⟨hw, hk⟩ := (keysToProperties_ok_iff ht hm).1 h
    rw [ht.iter_eq, Res.ok.injEq] at hp
    subst hp
    have hlen := Labels.Holds.row_length ht.keys_wf
    have hl : ∀ kb ∈ t.keys.rows.zip t.blocks,
        (movedKey t.keys.names keysToMove.names kb.1).length =
          (t.keys.names.filter fun n => keysToMove.names.contains n).length := by
      intro kb hkb
      exact restrict_length (hlen _ (List.of_mem_zip (a := kb.1) (b := kb.2) hkb).1)
    have e := (List.append_inj h3 ((hl _ hkb).trans (hl _ h1).symm)).1
    have hg := group_ok ht (Labels.Holds.names_ok hw).2 hk.names key'
    have m1 := List.mem_map_of_mem (f := toMerge t.keys.names keysToMove.names)
        (mem_group.2 ⟨hkb, hkey⟩)
    have m2 := List.mem_map_of_mem (f := toMerge t.keys.names keysToMove.names)
        (mem_group.2 ⟨h1, h2⟩)
    have hbb : (key, b) = (key₂, b₂) := by
      have hkk : key = key₂ := by
        have hk1 := (List.of_mem_zip hkb).1
        have hk2 := (List.of_mem_zip h1).1
        refine restrict_inj (keep := fun n => keysToMove.names.contains n) (hlen _ hk1) (hlen _ hk2) e ?_
        rw [← h2] at hkey
        unfold remainingKey at hkey
        split at hkey
        · rename_i he
          rw [restrict_nil_of_filter_nil (hlen _ hk1) he, restrict_nil_of_filter_nil (hlen _ hk2) he]
        · exact hkey
      by_contra hne
      haveI : Std.Symm fun a b : List LabelValue × TensorBlock NdArray => a.1 ≠ b.1 :=
        ⟨fun _ _ h => h.symm⟩
      exact List.Pairwise.forall (pairwise_zip_keys ht) hkb h1 hne hkk
    cases hbb
    obtain ⟨i, _, _, h5, _⟩ := h4
    have hv : b.values.samples.WF := (BasicValid.wf (hg.valid _ m2).values).samples
    rw [entryAt_iff hv] at h5
    rw [entriesOf_eq hv] at hs
    exact hs (List.mem_of_getElem? h5)
  · exact h1

/-- **C23**, what is moved: each value of a block is found, and nothing else, in the block
with the remaining key, with the moved values in front of the property. The moved values
are those of the moved names, in the order of the keys. -/
theorem C23_keys_to_properties_values (ht : TensorValid t) (hm : keysToMove.FromBuilder)
    (h : t.keysToProperties build hash keysToMove sort = (t', .ok ()))
    (pairs pairs' : List (List LabelValue × TensorBlock NdArray))
    (hp : t.iter = .ok pairs) (hp' : t'.iter = .ok pairs')
    (key : List LabelValue) (b : TensorBlock NdArray) (hb : (key, b) ∈ pairs)
    (hl : entriesOf keysToMove = [] ∨
      movedKey t.keys.names keysToMove.names key ∈ entriesOf keysToMove)
    (s : List LabelValue) (cs : List (List LabelValue)) (p : List LabelValue) (x : Elt)
    (hx : HasValue b.values s cs p x) :
    ∃ b', (remainingKey t.keys.names keysToMove.names key, b') ∈ pairs' ∧
      ∀ y, HasValue b'.values s cs (movedKey t.keys.names keysToMove.names key ++ p) y ↔ y = x := by
  obtain ⟨hw, hk⟩ := (keysToProperties_ok_iff ht hm).1 h
  have hp₁ := hp
  have hp₁' := hp'
  rw [ht.iter_eq, Res.ok.injEq] at hp₁
  rw [hk.iter_eq, Res.ok.injEq] at hp₁'
  subst hp₁ hp₁'
  have hfa := hk.first_appearances ht (mergeBlocksAlongProperties_nil _ _ _ _ _)
  have hkey : remainingKey t.keys.names keysToMove.names key ∈ t'.keys.rows := by
    rw [hfa.same]
    exact List.mem_map_of_mem (List.of_mem_zip hb).1
  obtain ⟨b', hb'⟩ := zip_mem_of hk.blocks.length_eq hkey
  refine ⟨b', hb', fun y => ?_⟩
  have hval : HasValue b'.values s cs (movedKey t.keys.names keysToMove.names key ++ p) x :=
    (C24_keys_to_properties_values build hash keysToMove sort t t' ht hm h _ _ hp hp'
      _ b' hb' s cs _ x).2 (Or.inl ⟨key, b, hb, rfl, hl, p, rfl, hx⟩)
  constructor
  · intro hy
    have hv := (keysToProperties_valid ht hm h).blocks b' (List.of_mem_zip hb').2
    exact hasValue_unique hv.values hy hval
  · rintro rfl; exact hval

/-- **C23.** If the names are moved in the order they have in the keys, every value is found
under its labels, each moved name carrying the value it had in the key.

Partial: without `hord` the code puts the values in the order of the keys under names in the
order of the request, see `C23_order_counterexample`. -/
theorem C23_keys_to_properties_labels_partial (ht : TensorValid t) (hm : keysToMove.FromBuilder)
    (hord : keysToMove.names.Sublist t.keys.names)
    (h : t.keysToProperties build hash keysToMove sort = (t', .ok ()))
    (pairs pairs' : List (List LabelValue × TensorBlock NdArray))
    (hp : t.iter = .ok pairs) (hp' : t'.iter = .ok pairs')
    (key : List LabelValue) (b : TensorBlock NdArray) (hb : (key, b) ∈ pairs)
    (hl : entriesOf keysToMove = [] ∨
      valuesFor t.keys.names key keysToMove.names ∈ entriesOf keysToMove)
    (s : List LabelValue) (cs : List (List LabelValue)) (p : List LabelValue) (x : Elt)
    (hx : HasValue b.values s cs p x) :
    ∃ b', (remainingKey t.keys.names keysToMove.names key, b') ∈ pairs' ∧
      b'.values.properties.names = keysToMove.names ++ b.values.properties.names ∧
      ∀ y, HasValue b'.values s cs (valuesFor t.keys.names key keysToMove.names ++ p) y ↔ y = x := by
  have hk := ht.keys_wf
  have hkey : movedKey t.keys.names keysToMove.names key = valuesFor t.keys.names key keysToMove.names := by
    rw [ht.iter_eq, Res.ok.injEq] at hp
    subst hp
    exact movedKey_eq_valuesFor (Labels.Holds.names_ok hk).2 hord
      (Labels.Holds.row_length hk key (List.of_mem_zip hb).1)
  rw [← hkey] at hl ⊢
  obtain ⟨b', h1, h2⟩ := C23_keys_to_properties_values build hash keysToMove sort t t' ht hm h pairs pairs'
    hp hp' key b hb hl s cs p x hx
  exact ⟨b', h1, (C25_property_labels build hash keysToMove sort t t' ht hm h pairs pairs' hp hp' _ b' h1).1
    _ (mem_group.2 ⟨hb, rfl⟩), h2⟩

/-- The property without its restriction. -/
def C23_full_statement : Prop :=
  ∀ (build : Build) (hash : HashOrder) (keysToMove : Labels) (sort : Bool)
    (t t' : TensorMap NdArray), TensorValid t → keysToMove.FromBuilder →
    t.keysToProperties build hash keysToMove sort = (t', .ok ()) →
    ∀ (pairs pairs' : List (List LabelValue × TensorBlock NdArray)),
    t.iter = .ok pairs → t'.iter = .ok pairs' →
    ∀ (key : List LabelValue) (b : TensorBlock NdArray), (key, b) ∈ pairs →
    (entriesOf keysToMove = [] ∨
      valuesFor t.keys.names key keysToMove.names ∈ entriesOf keysToMove) →
    ∀ (s : List LabelValue) (cs : List (List LabelValue)) (p : List LabelValue) (x : Elt),
    HasValue b.values s cs p x →
    ∃ b', (remainingKey t.keys.names keysToMove.names key, b') ∈ pairs' ∧
      b'.values.properties.names = keysToMove.names ++ b.values.properties.names ∧
      ∀ y, HasValue b'.values s cs (valuesFor t.keys.names key keysToMove.names ++ p) y ↔ y = x

/-- **C26.** With user-provided entries: the properties starting with an entry for which
there is no block are zero. -/
theorem C26_listed_without_block (ht : TensorValid t) (hm : keysToMove.FromBuilder)
    (h : t.keysToProperties build hash keysToMove sort = (t', .ok ()))
    (pairs pairs' : List (List LabelValue × TensorBlock NdArray))
    (hp : t.iter = .ok pairs) (hp' : t'.iter = .ok pairs')
    (key' : List LabelValue) (b' : TensorBlock NdArray) (hb' : (key', b') ∈ pairs')
    (entry : List LabelValue) (he : entry ∈ entriesOf keysToMove)
    (hno : ∀ key b, (key, b) ∈ pairs → remainingKey t.keys.names keysToMove.names key = key' →
      movedKey t.keys.names keysToMove.names key ≠ entry)
    (s : List LabelValue) (cs : List (List LabelValue)) (p : List LabelValue) (x : Elt)
    (hx : HasValue b'.values s cs (entry ++ p) x) : x = 0 := by
  rcases (C24_keys_to_properties_values build hash keysToMove sort t t' ht hm h pairs pairs' hp hp'
    key' b' hb' s cs (entry ++ p) x).1 hx with ⟨key, b, h1, h2, _, q, h3, _⟩ | ⟨h1, _⟩
  · exfalso
    refine hno key b h1 h2 ?_
    obtain ⟨hw, hk⟩ := (keysToProperties_ok_iff ht hm).1 h
    rw [ht.iter_eq, Res.ok.injEq] at hp
    subst hp
    rw [entriesOf_eq hw] at he
    refine (List.append_inj h3 ?_).1.symm
    rw [Labels.Holds.row_length hw _ he]
    have := (group_ok ht (Labels.Holds.names_ok hw).2 hk.names key').width _
      (List.mem_map_of_mem (mem_group.2 ⟨h1, h2⟩))
    exact this.symm
  · exact h1

/-- **C26.** With user-provided entries: a block which is not listed contributes no
property and no value. -/
theorem C26_not_listed (ht : TensorValid t) (hm : keysToMove.FromBuilder)
    (h : t.keysToProperties build hash keysToMove sort = (t', .ok ()))
    (pairs pairs' : List (List LabelValue × TensorBlock NdArray))
    (hp : t.iter = .ok pairs) (hp' : t'.iter = .ok pairs')
    (hne : entriesOf keysToMove ≠ [])
    (key' : List LabelValue) (b' : TensorBlock NdArray) (hb' : (key', b') ∈ pairs')
    (key : List LabelValue) (b : TensorBlock NdArray) (hb : (key, b) ∈ pairs)
    (hl : movedKey t.keys.names keysToMove.names key ∉ entriesOf keysToMove)
    (s : List LabelValue) (cs : List (List LabelValue)) (p : List LabelValue) (x : Elt) :
    ¬ HasValue b'.values s cs (movedKey t.keys.names keysToMove.names key ++ p) x := by
  intro hx
  obtain ⟨hw, hk⟩ := (keysToProperties_ok_iff ht hm).1 h
  have hP := fun kb => (C25_property_labels build hash keysToMove sort t t' ht hm h pairs pairs' hp hp'
    key' b' hb').2.2 hne kb
  have hv := keysToProperties_valid ht hm h
  have hp₁ := hp
  have hp₁' := hp'
  rw [ht.iter_eq, Res.ok.injEq] at hp₁
  rw [hk.iter_eq, Res.ok.injEq] at hp₁'
  subst hp₁ hp₁'
  obtain ⟨f, hf⟩ : ∃ kb, kb ∈ group t.keys.names keysToMove.names (t.keys.rows.zip t.blocks) key' := by
    obtain ⟨f, _, _, hM, _⟩ := mergeBlocksAlongProperties_merged
      (group_ok ht (Labels.Holds.names_ok hw).2 hk.names key') (userKeys_ok hw) (hk.merged hb')
    obtain ⟨kb, hkb, _⟩ := List.mem_map.1 hM.first_mem
    exact ⟨kb, hkb⟩
  have hP := hP f hf
  obtain ⟨_, _, j, _, _, _, h4, _⟩ := hx
  have hbw := BasicValid.wf (hv.blocks b' (List.of_mem_zip hb').2).values
  rw [entryAt_iff hbw.properties] at h4
  have hmem := List.mem_of_getElem? h4
  rw [← entriesOf_eq hbw.properties, hP] at hmem
  obtain ⟨entry, he, hmem⟩ := List.mem_flatMap.1 hmem
  obtain ⟨q, _, hq⟩ := List.mem_map.1 hmem
  have : entry = movedKey t.keys.names keysToMove.names key := by
    refine (List.append_inj hq ?_).1
    rw [entriesOf_eq hw] at he
    rw [Labels.Holds.row_length hw _ he]
    exact ((group_ok ht (Labels.Holds.names_ok hw).2 hk.names
      (remainingKey t.keys.names keysToMove.names key)).width _
      (List.mem_map_of_mem (mem_group.2 ⟨hb, rfl⟩))).symm
  rw [this] at he
  exact hl he

/-- **C26.** With user-provided entries: a block which is listed keeps its values. -/
theorem C26_listed (ht : TensorValid t) (hm : keysToMove.FromBuilder)
    (h : t.keysToProperties build hash keysToMove sort = (t', .ok ()))
    (pairs pairs' : List (List LabelValue × TensorBlock NdArray))
    (hp : t.iter = .ok pairs) (hp' : t'.iter = .ok pairs')
    (key : List LabelValue) (b : TensorBlock NdArray) (hb : (key, b) ∈ pairs)
    (hl : movedKey t.keys.names keysToMove.names key ∈ entriesOf keysToMove)
    (s : List LabelValue) (cs : List (List LabelValue)) (p : List LabelValue) (x : Elt)
    (hx : HasValue b.values s cs p x) :
    ∃ b', (remainingKey t.keys.names keysToMove.names key, b') ∈ pairs' ∧
      ∀ y, HasValue b'.values s cs (movedKey t.keys.names keysToMove.names key ++ p) y ↔ y = x :=
  C23_keys_to_properties_values build hash keysToMove sort t t' ht hm h pairs pairs' hp hp' key b hb
    (Or.inr hl) s cs p x hx

/-- **C26.** With user-provided entries, when the names are given in the order they have in
the keys: a block whose values for these names are listed keeps its values under these
labels.

Partial: without `hord` the entries of the user are compared with the values of the key
in another order, see `C26_order_counterexample`. -/
theorem C26_listed_labels_partial (ht : TensorValid t) (hm : keysToMove.FromBuilder)
    (hord : keysToMove.names.Sublist t.keys.names)
    (h : t.keysToProperties build hash keysToMove sort = (t', .ok ()))
    (pairs pairs' : List (List LabelValue × TensorBlock NdArray))
    (hp : t.iter = .ok pairs) (hp' : t'.iter = .ok pairs')
    (key : List LabelValue) (b : TensorBlock NdArray) (hb : (key, b) ∈ pairs)
    (hl : valuesFor t.keys.names key keysToMove.names ∈ entriesOf keysToMove)
    (s : List LabelValue) (cs : List (List LabelValue)) (p : List LabelValue) (x : Elt)
    (hx : HasValue b.values s cs p x) :
    ∃ b', (remainingKey t.keys.names keysToMove.names key, b') ∈ pairs' ∧
      b'.values.properties.names = keysToMove.names ++ b.values.properties.names ∧
      ∀ y, HasValue b'.values s cs (valuesFor t.keys.names key keysToMove.names ++ p) y ↔ y = x :=
  C23_keys_to_properties_labels_partial build hash keysToMove sort t t' ht hm hord h pairs pairs' hp hp'
    key b hb (Or.inr hl) s cs p x hx

/-- The property without its restriction. -/
def C26_full_statement : Prop :=
  ∀ (build : Build) (hash : HashOrder) (keysToMove : Labels) (sort : Bool)
    (t t' : TensorMap NdArray), TensorValid t → keysToMove.FromBuilder →
    t.keysToProperties build hash keysToMove sort = (t', .ok ()) →
    ∀ (pairs pairs' : List (List LabelValue × TensorBlock NdArray)),
    t.iter = .ok pairs → t'.iter = .ok pairs' →
    ∀ (key : List LabelValue) (b : TensorBlock NdArray), (key, b) ∈ pairs →
    valuesFor t.keys.names key keysToMove.names ∈ entriesOf keysToMove →
    ∀ (s : List LabelValue) (cs : List (List LabelValue)) (p : List LabelValue) (x : Elt),
    HasValue b.values s cs p x →
    ∃ b', (remainingKey t.keys.names keysToMove.names key, b') ∈ pairs' ∧
      b'.values.properties.names = keysToMove.names ++ b.values.properties.names ∧
      ∀ y, HasValue b'.values s cs (valuesFor t.keys.names key keysToMove.names ++ p) y ↔ y = x

/-! ### C27 -/

/-- **C27**, gradient samples. Gradients are kept for the same parameters; their samples are
strictly increasing, and are exactly the old ones, with the first value (the index of a
sample) replaced by the index of this sample in the merged samples. All the gradients have
the properties of the block. -/
theorem C27_keys_to_properties_gradient_samples {A : Type} [ArrayLike A] (t t' : TensorMap A)
    (ht : TensorValid t) (hm : keysToMove.FromBuilder)
    (h : t.keysToProperties build hash keysToMove sort = (t', .ok ()))
    (pairs pairs' : List (List LabelValue × TensorBlock A))
    (hp : t.iter = .ok pairs) (hp' : t'.iter = .ok pairs')
    (key' : List LabelValue) (b' : TensorBlock A) (hb' : (key', b') ∈ pairs') (q : String) :
    (∀ key b, (key, b) ∈ pairs → remainingKey t.keys.names keysToMove.names key = key' →
      (b'.gradient q).isSome = (b.gradient q).isSome) ∧
    ∀ g', b'.gradient q = some g' →
      g'.properties = b'.values.properties ∧
      (entriesOf g'.samples).Pairwise (· < ·) ∧
      ∀ r', r' ∈ entriesOf g'.samples ↔
        ∃ key b, (key, b) ∈ pairs ∧ remainingKey t.keys.names keysToMove.names key = key' ∧
          ∃ g, b.gradient q = some g ∧ ∃ r ∈ entriesOf g.samples,
            SampleRenumbered b.values.samples b'.values.samples id r r' := by
  obtain ⟨hw, hk⟩ := (keysToProperties_ok_iff ht hm).1 h
  rw [ht.iter_eq, Res.ok.injEq] at hp
  rw [hk.iter_eq, Res.ok.injEq] at hp'
  subst hp hp'
  have hg := group_ok ht (Labels.Holds.names_ok hw).2 hk.names key'
  obtain ⟨f, _, _, hM, _⟩ := mergeBlocksAlongProperties_merged hg (userKeys_ok hw) (hk.merged hb')
  refine ⟨?_, ?_⟩
  · intro key b h1 h2
    rw [hM.gradient_isSome]
    exact (hg.consistent _ hM.first_mem _ (List.mem_map_of_mem (mem_group.2 ⟨h1, h2⟩))).parameters q
  · intro g' hg'
    obtain ⟨fg, _, hl⟩ := hM.gradient_labels hg hg'
    rw [entriesOf_eq hl.samples]
    refine ⟨hl.properties, hl.sorted, ?_⟩
    intro r'
    rw [hl.rows r']
    rw [exists_toMerge (P := fun k b => ∃ g, b.gradient q = some g ∧ ∃ r ∈ g.samples.rows,
      SampleRenumbered b.values.samples b'.values.samples (extendSample false k) r r')]
    have hext : ∀ key : List LabelValue, extendSample false key = id := fun key => by
      funext s; simp [extendSample]
    simp only [hext]
    constructor
    · rintro ⟨key, b, h1, h2, g, h3, r, h4, h5⟩
      have hgv := (hg.valid _ (List.mem_map_of_mem (mem_group.2 ⟨h1, h2⟩))).gradient_valid h3
      exact ⟨key, b, h1, h2, g, h3, r, by rw [entriesOf_eq hgv.wf.samples]; exact h4, h5⟩
    · rintro ⟨key, b, h1, h2, g, h3, r, h4, h5⟩
      have hgv := (hg.valid _ (List.mem_map_of_mem (mem_group.2 ⟨h1, h2⟩))).gradient_valid h3
      exact ⟨key, b, h1, h2, g, h3, r, by rw [← entriesOf_eq hgv.wf.samples]; exact h4, h5⟩

/-- **C27.** The gradient values of a block of the result are those of the merged blocks
(which are listed, if the user gives entries), under the renumbered gradient samples and
with the moved values in front of the property; all other entries are zero.

Partial: in release builds (`build.debug = false`) this needs the merged blocks to have the
same gradient components; the code only checks it with a `debug_assert`. See
`C27_release_counterexample`. -/
theorem C27_keys_to_properties_gradients_partial (ht : TensorValid t) (hm : keysToMove.FromBuilder)
    (h : t.keysToProperties build hash keysToMove sort = (t', .ok ()))
    (pairs pairs' : List (List LabelValue × TensorBlock NdArray))
    (hp : t.iter = .ok pairs) (hp' : t'.iter = .ok pairs')
    (key' : List LabelValue) (b' : TensorBlock NdArray) (hb' : (key', b') ∈ pairs')
    (q : String) (g' : BasicBlock NdArray) (hg' : b'.gradient q = some g')
    (hcomp : build.debug = true ∨
      SameGradientComponents (group t.keys.names keysToMove.names pairs key') q)
    (r' : List LabelValue) (cs : List (List LabelValue)) (p' : List LabelValue) (x : Elt) :
    let listed := fun key => entriesOf keysToMove = [] ∨
      movedKey t.keys.names keysToMove.names key ∈ entriesOf keysToMove
    HasValue g' r' cs p' x ↔
      ((∃ key b, (key, b) ∈ pairs ∧ remainingKey t.keys.names keysToMove.names key = key' ∧
        listed key ∧ ∃ g, b.gradient q = some g ∧ ∃ r p,
          SampleRenumbered b.values.samples b'.values.samples id r r' ∧
          p' = movedKey t.keys.names keysToMove.names key ++ p ∧ HasValue g r cs p x) ∨
      (x = 0 ∧ r' ∈ entriesOf g'.samples ∧ HasEntries g'.components cs ∧
        p' ∈ entriesOf b'.values.properties ∧
        ∀ key b, (key, b) ∈ pairs → remainingKey t.keys.names keysToMove.names key = key' →
          listed key → ∀ g, b.gradient q = some g → ∀ r ∈ entriesOf g.samples,
            ∀ p ∈ entriesOf g.properties,
            SampleRenumbered b.values.samples b'.values.samples id r r' →
            p' ≠ movedKey t.keys.names keysToMove.names key ++ p)) := by
  intro listed
  obtain ⟨hw, hk⟩ := (keysToProperties_ok_iff ht hm).1 h
  rw [ht.iter_eq, Res.ok.injEq] at hp
  rw [hk.iter_eq, Res.ok.injEq] at hp'
  subst hp hp'
  have hg := group_ok ht (Labels.Holds.names_ok hw).2 hk.names key'
  have hcomp' : build.debug = true ∨ ∀ a ∈ (group t.keys.names keysToMove.names
      (t.keys.rows.zip t.blocks) key').map (toMerge t.keys.names keysToMove.names),
      ∀ c ∈ (group t.keys.names keysToMove.names
      (t.keys.rows.zip t.blocks) key').map (toMerge t.keys.names keysToMove.names),
      ∀ g g₂, a.2.gradient q = some g → c.2.gradient q = some g₂ → g.components = g₂.components := by
    refine hcomp.imp_right fun hc a ha c hc' g g₂ h1 h2 => ?_
    obtain ⟨a₁, ha₁, rfl⟩ := List.mem_map.1 ha
    obtain ⟨c₁, hc₁, rfl⟩ := List.mem_map.1 hc'
    exact hc a₁ ha₁ c₁ hc₁ g g₂ h1 h2
  obtain ⟨_, _, _, hM, _⟩ := mergeBlocksAlongProperties_merged hg (userKeys_ok hw) (hk.merged hb')
  have hbw := BasicValid.wf hM.valid.values
  have hgw := (hM.valid.gradient_valid hg').wf
  have hl : ∀ key, listed key ↔ Listed (userKeys keysToMove) (movedKey t.keys.names keysToMove.names key) := by
    intro key; rw [listed_userKeys, ← entriesOf_eq hw]
  rw [(mergeBlocksAlongProperties_gradients hg (userKeys_ok hw) (hk.merged hb') hg' hcomp').2,
    entriesOf_eq hgw.samples, entriesOf_eq hbw.properties]
  refine or_congr ?_ ?_
  · simp only [hl]
    exact exists_toMerge (P := fun k b => Listed (userKeys keysToMove) k ∧
      ∃ g, b.gradient q = some g ∧ ∃ r p,
          SampleRenumbered b.values.samples b'.values.samples id r r' ∧
          p' = k ++ p ∧ HasValue g r cs p x)
  · refine and_congr_right fun _ => and_congr_right fun _ => and_congr_right fun _ =>
      and_congr_right fun _ => ?_
    constructor
    · intro h key b h1 h2 h3 g h4 r h5 p h6
      have hmem := List.mem_map_of_mem (f := toMerge t.keys.names keysToMove.names)
        (mem_group.2 ⟨h1, h2⟩)
      have hv := ((hg.valid _ hmem).gradient_valid h4).wf
      rw [entriesOf_eq hv.samples] at h5
      rw [entriesOf_eq hv.properties] at h6
      exact h _ hmem ((hl key).1 h3) g h4 r h5 p h6
    · intro h kb hkb h3 g h4 r h5 p h6
      obtain ⟨⟨key, b⟩, h1, rfl⟩ := List.mem_map.1 hkb
      have hv := ((hg.valid _ hkb).gradient_valid h4).wf
      obtain ⟨h1, h2⟩ := mem_group.1 h1
      exact h key b h1 h2 ((hl key).2 h3) g h4 r (by rw [entriesOf_eq hv.samples]; exact h5) p
        (by rw [entriesOf_eq hv.properties]; exact h6)

/-- The property without its restriction (that all values are found). -/
def C27_full_statement : Prop :=
  ∀ (build : Build) (hash : HashOrder) (keysToMove : Labels) (sort : Bool)
    (t t' : TensorMap NdArray), TensorValid t → keysToMove.FromBuilder →
    t.keysToProperties build hash keysToMove sort = (t', .ok ()) →
    ∀ (pairs pairs' : List (List LabelValue × TensorBlock NdArray)),
    t.iter = .ok pairs → t'.iter = .ok pairs' →
    ∀ (key' : List LabelValue) (b' : TensorBlock NdArray), (key', b') ∈ pairs' →
    ∀ (q : String) (g' : BasicBlock NdArray), b'.gradient q = some g' →
    ∀ (key : List LabelValue) (b : TensorBlock NdArray), (key, b) ∈ pairs →
    remainingKey t.keys.names keysToMove.names key = key' → entriesOf keysToMove = [] →
    ∀ (g : BasicBlock NdArray), b.gradient q = some g →
    ∀ (r r' : List LabelValue) (cs : List (List LabelValue)) (p : List LabelValue) (x : Elt),
    SampleRenumbered b.values.samples b'.values.samples id r r' → HasValue g r cs p x →
    HasValue g' r' cs (movedKey t.keys.names keysToMove.names key ++ p) x

/-! ### Examples and counterexamples -/

namespace Example

/-- Samples `s = 2, 3`. -/
def otherSamples : Labels := Labels.mk' ["s"] [[2], [3]]
/-- Like `gradBlock` with other samples. -/
def otherBlock : TensorBlock NdArray :=
  (TensorBlock.addGradient "g" gradientData gradientSamples [direction, component]
    ⟨⟨data, otherSamples, [component], properties⟩, [], []⟩).1
/-- Two blocks sharing the sample 2. -/
def uneven : TensorMap NdArray := ⟨Labels.mk' ["k", "l"] [[0, 1], [0, 2]], [gradBlock, otherBlock]⟩

/-- Keep `l = 1`, add `l = 9`, drop the others. -/
def selectL : Labels := Labels.mk' ["l"] [[1], [9]]
/-- Select `l = 1, k = 0`, in an order which is not the order of the keys. -/
def selectLK : Labels := Labels.mk' ["l", "k"] [[1, 0]]

def unevenL : TensorMap NdArray := (uneven.keysToProperties ⟨false⟩ .insertion moveL false).1
def unevenSelected : TensorMap NdArray := (uneven.keysToProperties ⟨false⟩ .insertion selectL true).1
def unevenLK : TensorMap NdArray := (uneven.keysToProperties ⟨false⟩ .insertion moveLK true).1
def unevenSelectedLK : TensorMap NdArray := (uneven.keysToProperties ⟨false⟩ .insertion selectLK true).1
def mixedProperties : TensorMap NdArray := (mixed.keysToProperties ⟨false⟩ .insertion moveL true).1

theorem uneven_valid : TensorValid uneven := TensorMap.valid_of_rebuilds (by decide +kernel)
theorem selectL_fromBuilder : selectL.FromBuilder := Labels.rebuilds_fromBuilder (by decide +kernel)
theorem selectLK_fromBuilder : selectLK.FromBuilder := Labels.rebuilds_fromBuilder (by decide +kernel)
theorem unevenL_eq : uneven.keysToProperties ⟨false⟩ .insertion moveL false = (unevenL, .ok ()) :=
  Prod.ext rfl (by decide +kernel)
theorem unevenSelected_eq :
    uneven.keysToProperties ⟨false⟩ .insertion selectL true = (unevenSelected, .ok ()) :=
  Prod.ext rfl (by decide +kernel)
theorem unevenLK_eq : uneven.keysToProperties ⟨false⟩ .insertion moveLK true = (unevenLK, .ok ()) :=
  Prod.ext rfl (by decide +kernel)
theorem unevenSelectedLK_eq :
    uneven.keysToProperties ⟨false⟩ .insertion selectLK true = (unevenSelectedLK, .ok ()) :=
  Prod.ext rfl (by decide +kernel)
theorem mixedProperties_eq :
    mixed.keysToProperties ⟨false⟩ .insertion moveL true = (mixedProperties, .ok ()) :=
  Prod.ext rfl (by decide +kernel)

end Example

/-- Non-vacuity: two blocks with samples `0, 2` and `2, 3` are merged in a block with
samples `0, 2, 3` and 6 properties. The gradient samples `1` of the first block and `0` of the second
both become `1`. The values of the second block for the sample `0` are zero. -/
example : TensorValid Example.uneven ∧ Example.moveL.FromBuilder ∧
    Example.uneven.keysToProperties ⟨false⟩ .insertion Example.moveL false = (Example.unevenL, .ok ()) ∧
    Example.moveL.names.Sublist Example.uneven.keys.names ∧
    entriesOf Example.unevenL.keys = [[0]] ∧
    Example.unevenL.blocks.map (fun b => entriesOf b.values.samples) = [[[0], [2], [3]]] ∧
    Example.unevenL.blocks.map (fun b => (b.values.properties.names, entriesOf b.values.properties)) =
      [(["l", "p"], [[1, 0], [1, 1], [1, 5], [2, 0], [2, 1], [2, 5]])] ∧
    Example.unevenL.blocks.map (fun b => b.values.data.elements.take 6) = [[0, 1, 2, 0, 0, 0]] ∧
    Example.unevenL.blocks.map (fun b => (b.gradient "g").map fun g => entriesOf g.samples) =
      [some [[0, 7], [1, 3], [1, 7], [2, 3]]] := by
  exact ⟨Example.uneven_valid, Example.moveL_fromBuilder, Example.unevenL_eq, by decide +kernel,
    by decide +kernel, by decide +kernel, by decide +kernel, by decide +kernel, by decide +kernel⟩

/-- Non-vacuity: with the entries `1, 9` for `l`, the block `(0, 2)` is dropped, and there are
properties for `l = 9`. -/
example : Example.uneven.keysToProperties ⟨false⟩ .insertion Example.selectL true =
      (Example.unevenSelected, .ok ()) ∧ Example.selectL.FromBuilder ∧
    entriesOf Example.selectL = [[1], [9]] ∧
    Example.unevenSelected.blocks.map (fun b => entriesOf b.values.properties) =
      [[[1, 0], [1, 1], [1, 5], [9, 0], [9, 1], [9, 5]]] ∧
    movedKey Example.uneven.keys.names Example.selectL.names [0, 2] ∉ entriesOf Example.selectL ∧
    movedKey Example.uneven.keys.names Example.selectL.names [0, 1] ∈ entriesOf Example.selectL := by
  exact ⟨Example.unevenSelected_eq, Example.selectL_fromBuilder, by decide +kernel, by decide +kernel,
    by decide +kernel, by decide +kernel⟩

/-- Refuting a value by its property. -/
theorem not_hasValue_property {b : BasicBlock NdArray} {s : List LabelValue}
    {cs : List (List LabelValue)} {p : List LabelValue} {x : Elt} (hw : b.properties.WF)
    (hp : p ∉ b.properties.rows) : ¬ HasValue b s cs p x := by
  rintro ⟨_, _, j, _, _, _, h, _⟩
  rw [entryAt_iff hw] at h
  exact hp (List.mem_of_getElem? h)

/-- **C23**, the defect: moving `["l", "k"]` while the keys are `(k, l)`, properties named
`(l, k, p)` have the value of `k` under `l` and the value of `l` under `k`. -/
theorem C23_order_counterexample : ¬ C23_full_statement := by
  intro hfull
  obtain ⟨b', h1, -, h2⟩ := hfull ⟨false⟩ .insertion Example.moveLK true Example.uneven Example.unevenLK
    Example.uneven_valid Example.moveLK_fromBuilder Example.unevenLK_eq
    (Example.uneven.keys.rows.zip Example.uneven.blocks)
    (Example.unevenLK.keys.rows.zip Example.unevenLK.blocks)
    (by decide +kernel) (by decide +kernel)
    [0, 1] Example.gradBlock (by decide +kernel) (Or.inl (by decide +kernel))
    [0] [[-1]] [0] 0 ⟨0, [0], 0, by unfold EntryAt; decide +kernel,
      .cons (by unfold EntryAt; decide +kernel) .nil, rfl, by unfold EntryAt; decide +kernel,
      by decide +kernel⟩
  have h3 := (h2 0).2 rfl
  have hw := BasicValid.wf ((keysToProperties_valid Example.uneven_valid Example.moveLK_fromBuilder
    Example.unevenLK_eq).blocks b' (List.of_mem_zip h1).2).values
  refine not_hasValue_property hw.properties ?_ h3
  have : ∀ kb ∈ Example.unevenLK.keys.rows.zip Example.unevenLK.blocks,
    valuesFor Example.uneven.keys.names [0, 1] Example.moveLK.names ++ [0] ∉
      kb.2.values.properties.rows := by decide +kernel
  exact this _ h1

/-- **C26**, the defect: selecting `(l, k) = (1, 0)` drops the block with `k = 0` and `l = 1`
(the value found under its labels is a zero, not the one of the block). -/
theorem C26_order_counterexample : ¬ C26_full_statement := by
  intro hfull
  obtain ⟨b', h1, -, h2⟩ := hfull ⟨false⟩ .insertion Example.selectLK true Example.uneven
    Example.unevenSelectedLK
    Example.uneven_valid Example.selectLK_fromBuilder Example.unevenSelectedLK_eq
    (Example.uneven.keys.rows.zip Example.uneven.blocks)
    (Example.unevenSelectedLK.keys.rows.zip Example.unevenSelectedLK.blocks)
    (by decide +kernel) (by decide +kernel)
    [0, 1] Example.gradBlock (by decide +kernel) (by decide +kernel)
    [0] [[-1]] [1] 1 ⟨0, [0], 1, by unfold EntryAt; decide +kernel,
      .cons (by unfold EntryAt; decide +kernel) .nil, rfl, by unfold EntryAt; decide +kernel,
      by decide +kernel⟩
  have hb : ∀ kb ∈ Example.unevenSelectedLK.keys.rows.zip Example.unevenSelectedLK.blocks,
      kb.2 = Example.unevenSelectedLK.blocks.headD Example.block := by decide +kernel
  have hb := hb _ h1
  simp only at hb
  have h0 : HasValue b'.values [0] [[-1]]
      (valuesFor Example.uneven.keys.names [0, 1] Example.selectLK.names ++ [1]) 0 := by
    rw [hb]
    exact ⟨0, [0], 1, by unfold EntryAt; decide +kernel,
      .cons (by unfold EntryAt; decide +kernel) .nil, rfl, by unfold EntryAt; decide +kernel,
      by decide +kernel⟩
  have := (h2 0).1 h0
  revert this
  decide

/-- **C27**, the defect: in a release build, merging blocks whose gradients have different
components succeeds, and the gradients of the second block are not found under their
labels. -/
theorem C27_release_counterexample : ¬ C27_full_statement := by
  intro hfull
  have h := hfull ⟨false⟩ .insertion Example.moveL true Example.mixed Example.mixedProperties
    Example.mixed_valid Example.moveL_fromBuilder Example.mixedProperties_eq
    (Example.mixed.keys.rows.zip Example.mixed.blocks)
    (Example.mixedProperties.keys.rows.zip Example.mixedProperties.blocks)
    (by decide +kernel) (by decide +kernel)
    [0] (Example.mixedProperties.blocks.headD Example.block) (by decide +kernel)
    "g" (((Example.mixedProperties.blocks.headD Example.block).gradient "g").getD
      Example.block.values) (by decide +kernel)
    [0, 2] Example.gradBlock5 (by decide +kernel) (by decide +kernel) (by decide +kernel)
    ((Example.gradBlock5.gradient "g").getD Example.block.values) (by decide +kernel)
    [0, 7] [0, 7] [[5], [-1]] [0] (Example.gradientData.get [0, 0, 0, 0])
    ⟨0, 0, [7], [0], 0, 0, rfl, rfl, by decide, by decide, by unfold EntryAt; decide +kernel,
      by unfold EntryAt; decide +kernel⟩
    ⟨0, [0, 0], 0, by unfold EntryAt; decide +kernel,
      .cons (by unfold EntryAt; decide +kernel) (.cons (by unfold EntryAt; decide +kernel) .nil), rfl,
      by unfold EntryAt; decide +kernel, by decide +kernel⟩
  obtain ⟨i, k, j, -, h2, -⟩ := h
  have hc : (((Example.mixedProperties.blocks.headD Example.block).gradient "g").getD
      Example.block.values).components = [Example.direction, Example.component] := by decide +kernel
  rw [hc] at h2
  cases k with
  | nil => simp at h2
  | cons k₀ k =>
    simp only [List.zip_cons_cons] at h2
    have h3 := (List.forall₂_cons.1 h2).1
    have hd : Example.direction.Holds ["d"] [[0]] :=
      Labels.mk'_holds ⟨by decide +kernel, by decide⟩ (by decide) (by decide) (by decide)
    have h4 : ([5] : List LabelValue) ∈ Example.direction.rows :=
      List.mem_of_getElem? ((entryAt_iff hd.wf).1 h3)
    revert h4
    decide

end Equistore
