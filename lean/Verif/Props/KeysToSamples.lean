import Verif.Lemmas.MergeTensor
import Verif.Props.Tensor

/-!
# Properties of `keys_to_samples` (C16, C17, C18, C19, C20, C21, C22)

`pairs` and `pairs'` are the pairs (key, block) given by iterating over the tensor map
before and after the call.
-/

namespace Equistore
open Spec

section
variable {A : Type} [ArrayLike A]

theorem entriesOf_eq {l : Labels} (h : l.WF) : entriesOf l = l.rows := by
  unfold entriesOf; rw [Labels.Holds.iter_eq h]

theorem entriesOf_holds {l : Labels} {names : List String} {rows : List (List LabelValue)}
    (h : l.Holds names rows) : entriesOf l = rows := by
  unfold entriesOf; rw [h.iter_eq]

/-- Membership in a group, spelled out. -/
theorem mem_group {names moved : List String} {pairs : List (List LabelValue × TensorBlock A)}
    {key' key : List LabelValue} {b : TensorBlock A} : (key, b) ∈ group names moved pairs key' ↔
      ((key, b) ∈ pairs ∧ remainingKey names moved key = key') := by
  simp [group]

/-- The group of blocks merged in one block of the result. -/
theorem exists_toMerge {names moved : List String} {pairs : List (List LabelValue × TensorBlock A)}
    {key' : List LabelValue} {P : List LabelValue → TensorBlock A → Prop} :
    (∃ kb ∈ (group names moved pairs key').map (toMerge names moved), P kb.1 kb.2) ↔
      ∃ key b, (key, b) ∈ pairs ∧ remainingKey names moved key = key' ∧
        P (movedKey names moved key) b := by
  constructor
  · rintro ⟨kb, hkb, h⟩
    obtain ⟨⟨key, b⟩, h1, rfl⟩ := List.mem_map.1 hkb
    rw [mem_group] at h1
    exact ⟨key, b, h1.1, h1.2, h⟩
  · rintro ⟨key, b, h1, h2, h⟩
    exact ⟨_, List.mem_map_of_mem (mem_group.2 ⟨h1, h2⟩), h⟩

/-- When names are moved in the order they have in the keys, the values which are moved
are the values of these names. -/
theorem movedKey_eq_valuesFor {names moved : List String} {key : List LabelValue}
    (hn : names.Nodup) (hs : moved.Sublist names) (hk : key.length = names.length) :
    movedKey names moved key = valuesFor names key moved := by
  unfold movedKey restrict valuesFor
  induction hs generalizing key with
  | slnil => simp
  | @cons l₁ l₂ a h ih =>
    rw [List.nodup_cons] at hn
    cases key with
    | nil => simp at hk
    | cons v key =>
      have ha : a ∉ l₁ := fun hc => hn.1 (h.subset hc)
      simp only [List.length_cons, Nat.add_right_cancel_iff] at hk
      rw [List.zip_cons_cons, List.filter_cons_of_neg (by simpa using ha), ih hn.2 hk]
      apply List.filterMap_congr
      intro n hn'
      rw [List.lookup_cons]
      have : (n == a) = false := by
        rw [beq_eq_false_iff_ne]; rintro rfl; exact ha hn'
      rw [this]
  | @cons_cons l₁ l₂ a h ih =>
    rw [List.nodup_cons] at hn
    cases key with
    | nil => simp at hk
    | cons v key =>
      have ha : a ∉ l₁ := fun hc => hn.1 (h.subset hc)
      simp only [List.length_cons, Nat.add_right_cancel_iff] at hk
      rw [List.zip_cons_cons, List.filter_cons_of_pos (by simp), List.map_cons]
      rw [List.filterMap_cons]
      simp only [List.lookup_cons, beq_self_eq_true]
      congr 1
      have e1 : (l₂.zip key).filter (fun p => (a :: l₁).contains p.1) =
          (l₂.zip key).filter (fun p => l₁.contains p.1) := by
        apply List.filter_congr
        intro p hp
        have hp' : p.1 ∈ l₂ := (List.of_mem_zip (a := p.1) (b := p.2) hp).1
        have : p.1 ≠ a := by rintro h; rw [h] at hp'; exact hn.1 hp'
        simp [this]
      rw [e1, ih hn.2 hk]
      apply List.filterMap_congr
      intro n hn'
      have : (n == a) = false := by
        rw [beq_eq_false_iff_ne]; rintro rfl; exact ha hn'
      rw [this]

variable (build : Build) (hash : HashOrder) (keysToMove : Labels) (sort : Bool)
  (t t' : TensorMap A)

/-! ### C16 -/

/-- **C16**, for `keys_to_samples`: the new names are the old ones without the moved
names, the new keys are the distinct remaining parts of the old keys in order of first
appearance, there is one block per key. When everything is moved the names are `["_"]`
and the only key is `[0]`. -/
theorem C16_keys_to_samples_keys (ht : TensorValid t) (hm : keysToMove.FromBuilder)
    (h : t.keysToSamples build hash keysToMove sort = (t', .ok ())) :
    t'.keys.names = remainingNames t.keys.names keysToMove.names ∧
    FirstAppearances ((entriesOf t.keys).map (remainingKey t.keys.names keysToMove.names))
      (entriesOf t'.keys) ∧
    t'.keys.count = .ok t'.blocks.length := by
  obtain ⟨hw, hr, hk⟩ := (keysToSamples_ok_iff ht hm).1 h
  refine ⟨hk.keys.names_eq, ?_, ?_⟩
  · rw [entriesOf_eq ht.keys_wf, entriesOf_eq hk.keys.wf]
    exact hk.first_appearances ht (mergeBlocksAlongSamples_nil _ _ _ _)
  · rw [hk.keys.wf.count_eq, hk.blocks.length_eq]

/-- **C16**, for `keys_to_samples`: a name which is not in the keys is an error. -/
theorem C16_keys_to_samples_missing (hm : keysToMove.count = .ok 0)
    (hmiss : ∃ n ∈ keysToMove.names, n ∉ t.keys.names) :
    ∃ message, t.keysToSamples build hash keysToMove sort = (t, .err (.invalidParameter message)) := by
  obtain ⟨n, hn, hn'⟩ := hmiss
  obtain ⟨m, h1⟩ := removeVariablesFromKeys_missing (keys := t.keys) (moved := keysToMove.names)
    (fun hc => hn' (hc n hn))
  refine ⟨m, ?_⟩
  rw [keysToSamples_eq]
  unfold TensorMap.keysToSamplesResult
  rw [hm, Res.ok_bind, h1]
  rfl

/-! ### C18, C19 -/

/-- **C18.** The number of samples in a block of the result is the sum of the number of
samples of the merged blocks, and the samples are distinct. -/
theorem C18_sample_count (ht : TensorValid t) (hm : keysToMove.FromBuilder)
    (h : t.keysToSamples build hash keysToMove sort = (t', .ok ()))
    (pairs pairs' : List (List LabelValue × TensorBlock A))
    (hp : t.iter = .ok pairs) (hp' : t'.iter = .ok pairs')
    (key' : List LabelValue) (b' : TensorBlock A) (hb' : (key', b') ∈ pairs') :
    (entriesOf b'.values.samples).Nodup ∧
    b'.values.samples.count = .ok (((group t.keys.names keysToMove.names pairs key').map
      fun kb => (entriesOf kb.2.values.samples).length).sum) := by
  obtain ⟨hw, hr, hk⟩ := (keysToSamples_ok_iff ht hm).1 h
  rw [ht.iter_eq, Res.ok.injEq] at hp
  rw [hk.iter_eq, Res.ok.injEq] at hp'
  subst hp hp'
  have hg := group_ok ht (Labels.Holds.names_ok hw).2 hk.names key'
  obtain ⟨f, _, _, hM, _⟩ := mergeBlocksAlongSamples_merged hg rfl (Labels.Holds.names_pos hw)
    (hk.merged hb')
  refine ⟨by rw [entriesOf_holds hM.samples]; exact mergedRows_nodup _ _ _, ?_⟩
  rw [hM.samples.count_eq, Res.ok.injEq]
  have hlen : ∀ l : List (List LabelValue × TensorBlock A), GroupOk keysToMove.names.length l →
      (mergedRows sort true l).length =
        (l.map fun kb => (entriesOf kb.2.values.samples).length).sum := by
    intro l hl
    have hnd : (allSamples true l).Nodup := by
      unfold allSamples
      rw [List.nodup_flatMap]
      refine ⟨?_, ?_⟩
      · intro kb hkb
        refine List.Nodup.map ?_ (Labels.Holds.nodup (BasicValid.wf (hl.valid kb hkb).values).samples)
        intro a b hab
        exact extends_inj (addKey := true) (key := kb.1) rfl hab
      · refine List.Pairwise.imp_of_mem ?_ hl.distinct
        intro a b ha hb hne x hx hx'
        obtain ⟨r, _, rfl⟩ := List.mem_map.1 hx
        obtain ⟨r', _, h2⟩ := List.mem_map.1 hx'
        exact hne (extends_apart ((hl.width a ha).trans (hl.width b hb).symm) rfl h2.symm)
    have e : (mergedRows sort true l).length = (allSamples true l).length := by
      unfold mergedRows
      rw [indexSet_of_nodup hnd]
      split
      · exact (sortRows_perm _).length_eq
      · rfl
    rw [e]
    unfold allSamples
    rw [List.length_flatMap]
    congr 1
    apply List.map_congr_left
    intro kb hkb
    rw [List.length_map, entriesOf_eq (BasicValid.wf (hl.valid kb hkb).values).samples]
  rw [hlen _ hg, List.map_map]
  rfl

/-- The samples of a merged block. -/
theorem merged_samples {addKey : Bool} {rows : List (List LabelValue)}
    {l : List (List LabelValue × TensorBlock A)} (hl : ∀ kb ∈ l, kb.2.values.samples.WF)
    (hrows : rows = mergedRows sort addKey l) :
    (∀ r, r ∈ rows ↔ r ∈ l.flatMap fun kb =>
      (entriesOf kb.2.values.samples).map (extendSample addKey kb.1)) ∧
    (sort = true → rows.Pairwise (· < ·)) ∧
    (sort = false → FirstAppearances (l.flatMap fun kb =>
      (entriesOf kb.2.values.samples).map (extendSample addKey kb.1)) rows) := by
  have e : (l.flatMap fun kb => (entriesOf kb.2.values.samples).map (extendSample addKey kb.1)) =
      allSamples addKey l := by
    unfold allSamples
    rw [List.flatMap_def, List.flatMap_def]
    congr 1
    apply List.map_congr_left
    intro kb hkb
    rw [entriesOf_eq (hl kb hkb)]
  rw [e, hrows]
  refine ⟨?_, ?_, ?_⟩
  · intro r
    unfold mergedRows
    split
    · rw [(sortRows_perm _).mem_iff, mem_indexSet]
    · exact mem_indexSet
  · rintro rfl
    simp only [mergedRows, if_true]
    exact sortRows_sorted (indexSet_nodup _)
  · rintro rfl
    simp only [mergedRows, Bool.false_eq_true, if_false]
    exact indexSet_spec _

/-- **C19**, for `keys_to_samples`: the sample names are the old ones followed by the
moved names. The samples are all the samples of the merged blocks, each extended with the
moved part of the key of its block. They are strictly increasing if sorting was requested,
in order of first appearance otherwise. -/
theorem C19_keys_to_samples_samples (ht : TensorValid t) (hm : keysToMove.FromBuilder)
    (h : t.keysToSamples build hash keysToMove sort = (t', .ok ()))
    (pairs pairs' : List (List LabelValue × TensorBlock A))
    (hp : t.iter = .ok pairs) (hp' : t'.iter = .ok pairs')
    (key' : List LabelValue) (b' : TensorBlock A) (hb' : (key', b') ∈ pairs') :
    let all := (group t.keys.names keysToMove.names pairs key').flatMap fun kb =>
      (entriesOf kb.2.values.samples).map (· ++ movedKey t.keys.names keysToMove.names kb.1)
    (∀ kb ∈ group t.keys.names keysToMove.names pairs key',
      b'.values.samples.names = kb.2.values.samples.names ++ keysToMove.names) ∧
    (∀ r, r ∈ entriesOf b'.values.samples ↔ r ∈ all) ∧
    (sort = true → (entriesOf b'.values.samples).Pairwise (· < ·)) ∧
    (sort = false → FirstAppearances all (entriesOf b'.values.samples)) := by
  intro all
  obtain ⟨hw, hr, hk⟩ := (keysToSamples_ok_iff ht hm).1 h
  rw [ht.iter_eq, Res.ok.injEq] at hp
  rw [hk.iter_eq, Res.ok.injEq] at hp'
  subst hp hp'
  have hg := group_ok ht (Labels.Holds.names_ok hw).2 hk.names key'
  obtain ⟨f, _, _, hM, _⟩ := mergeBlocksAlongSamples_merged hg rfl (Labels.Holds.names_pos hw)
    (hk.merged hb')
  refine ⟨?_, ?_⟩
  · intro kb hkb
    rw [hM.samples.names_eq]
    have := hg.consistent _ hM.first_mem _ (List.mem_map_of_mem hkb)
    rw [this.values.1]
    rfl
  · have := merged_samples sort (addKey := true) (rows := entriesOf b'.values.samples)
      (l := (group t.keys.names keysToMove.names (t.keys.rows.zip t.blocks) key').map
        (toMerge t.keys.names keysToMove.names))
      (fun kb hkb => (BasicValid.wf (hg.valid kb hkb).values).samples)
      (entriesOf_holds hM.samples)
    rw [List.flatMap_map] at this
    exact this

/-! ### C21, C22 -/

/-- **C21**, for `keys_to_samples`: for any array backend (any of its functions can fail
at any point), whenever the call does not succeed the tensor map is unchanged. -/
theorem C21_keys_to_samples_atomic (r : Res Unit)
    (h : t.keysToSamples build hash keysToMove sort = (t', r)) (hr : r ≠ .ok ()) : t' = t := by
  rw [keysToSamples_eq] at h
  split at h
  · simp only [Prod.mk.injEq] at h; exact absurd h.2.symm hr
  · simp only [Prod.mk.injEq] at h; exact h.1.symm
  · simp only [Prod.mk.injEq] at h; exact h.1.symm

/-- **C22**, for `keys_to_samples`: a successful call only merged blocks with equal
components and equal properties. -/
theorem C22_keys_to_samples_compatible (ht : TensorValid t) (hm : keysToMove.FromBuilder)
    (h : t.keysToSamples build hash keysToMove sort = (t', .ok ()))
    (pairs : List (List LabelValue × TensorBlock A)) (hp : t.iter = .ok pairs)
    (a c : List LabelValue × TensorBlock A) (ha : a ∈ pairs) (hc : c ∈ pairs)
    (hsame : remainingKey t.keys.names keysToMove.names a.1 =
      remainingKey t.keys.names keysToMove.names c.1) :
    a.2.values.components = c.2.values.components ∧
    a.2.values.properties = c.2.values.properties := by
  obtain ⟨hw, hr, hk⟩ := (keysToSamples_ok_iff ht hm).1 h
  rw [ht.iter_eq, Res.ok.injEq] at hp
  subst hp
  have hfa := hk.first_appearances ht (mergeBlocksAlongSamples_nil _ _ _ _)
  have hkey : remainingKey t.keys.names keysToMove.names a.1 ∈ t'.keys.rows := by
    rw [hfa.same]
    exact List.mem_map_of_mem (List.of_mem_zip (a := a.1) (b := a.2) ha).1
  obtain ⟨b', hb'⟩ := zip_mem_of hk.blocks.length_eq hkey
  obtain ⟨first, _, _, _, hs⟩ := mergeBlocksAlongSamples_ok (hk.merged hb')
  have h1 := hs.compatible _ (List.mem_map_of_mem (f := toMerge t.keys.names keysToMove.names)
    (mem_group (key := a.1) (b := a.2).2 ⟨ha, rfl⟩))
  have h2 := hs.compatible _ (List.mem_map_of_mem (f := toMerge t.keys.names keysToMove.names)
    (mem_group (key := c.1) (b := c.2).2 ⟨hc, hsame.symm⟩))
  exact ⟨h1.1.trans h2.1.symm, h1.2.trans h2.2.symm⟩

end

/-! ### C17 -/

variable (build : Build) (hash : HashOrder) (keysToMove : Labels) (sort : Bool)
  (t t' : TensorMap NdArray)

/-- **C17**, what is moved: the values of a block of the result are exactly those of the
blocks with the same remaining key, with the moved values appended to the sample. The moved
values are those of the moved names, *in the order these have in the keys*. -/
theorem C17_keys_to_samples_values (ht : TensorValid t) (hm : keysToMove.FromBuilder)
    (h : t.keysToSamples build hash keysToMove sort = (t', .ok ()))
    (pairs pairs' : List (List LabelValue × TensorBlock NdArray))
    (hp : t.iter = .ok pairs) (hp' : t'.iter = .ok pairs')
    (key' : List LabelValue) (b' : TensorBlock NdArray) (hb' : (key', b') ∈ pairs')
    (s' : List LabelValue) (cs : List (List LabelValue)) (p : List LabelValue) (x : Elt) :
    HasValue b'.values s' cs p x ↔
      ∃ key b, (key, b) ∈ pairs ∧ remainingKey t.keys.names keysToMove.names key = key' ∧
        ∃ s, s' = s ++ movedKey t.keys.names keysToMove.names key ∧ HasValue b.values s cs p x := by
  obtain ⟨hw, hr, hk⟩ := (keysToSamples_ok_iff ht hm).1 h
  rw [ht.iter_eq, Res.ok.injEq] at hp
  rw [hk.iter_eq, Res.ok.injEq] at hp'
  subst hp hp'
  have hg := group_ok ht (Labels.Holds.names_ok hw).2 hk.names key'
  rw [(mergeBlocksAlongSamples_values hg rfl (Labels.Holds.names_pos hw) (hk.merged hb')).2]
  exact exists_toMerge (P := fun k b => ∃ s, s' = s ++ k ∧ HasValue b.values s cs p x)

/-- **C17.** If the names are moved in the order they have in the keys, every value is
found under its labels, each moved name carrying the value it had in the key: the sample
names are the old names followed by the moved names, the sample is the old sample followed by
the values of the moved names.

Partial: without `hord` the code puts the values in the order of the keys under names in the
order of the request, see `C17_order_counterexample`. -/
theorem C17_keys_to_samples_labels_partial (ht : TensorValid t) (hm : keysToMove.FromBuilder)
    (hord : keysToMove.names.Sublist t.keys.names)
    (h : t.keysToSamples build hash keysToMove sort = (t', .ok ()))
    (pairs pairs' : List (List LabelValue × TensorBlock NdArray))
    (hp : t.iter = .ok pairs) (hp' : t'.iter = .ok pairs')
    (key' : List LabelValue) (b' : TensorBlock NdArray) (hb' : (key', b') ∈ pairs')
    (s' : List LabelValue) (cs : List (List LabelValue)) (p : List LabelValue) (x : Elt) :
    HasValue b'.values s' cs p x ↔
      ∃ key b, (key, b) ∈ pairs ∧ remainingKey t.keys.names keysToMove.names key = key' ∧
        ∃ s, s' = s ++ valuesFor t.keys.names key keysToMove.names ∧
          b'.values.samples.names = b.values.samples.names ++ keysToMove.names ∧
          HasValue b.values s cs p x := by
  rw [C17_keys_to_samples_values build hash keysToMove sort t t' ht hm h pairs pairs' hp hp' key' b' hb']
  have hn := (C19_keys_to_samples_samples build hash keysToMove sort t t' ht hm h pairs pairs' hp hp'
    key' b' hb').1
  have hk := ht.keys_wf
  have hkey : ∀ key b, (key, b) ∈ pairs →
      movedKey t.keys.names keysToMove.names key = valuesFor t.keys.names key keysToMove.names := by
    intro key b hkb
    rw [ht.iter_eq, Res.ok.injEq] at hp
    subst hp
    exact movedKey_eq_valuesFor (Labels.Holds.names_ok hk).2 hord
      (Labels.Holds.row_length hk key (List.of_mem_zip hkb).1)
  constructor
  · rintro ⟨key, b, h1, h2, s, h3, h4⟩
    exact ⟨key, b, h1, h2, s, by rw [← hkey key b h1]; exact h3, hn _ (mem_group.2 ⟨h1, h2⟩), h4⟩
  · rintro ⟨key, b, h1, h2, s, h3, _, h4⟩
    exact ⟨key, b, h1, h2, s, by rw [hkey key b h1]; exact h3, h4⟩

/-- The property without its restriction. -/
def C17_full_statement : Prop :=
  ∀ (build : Build) (hash : HashOrder) (keysToMove : Labels) (sort : Bool)
    (t t' : TensorMap NdArray), TensorValid t → keysToMove.FromBuilder →
    t.keysToSamples build hash keysToMove sort = (t', .ok ()) →
    ∀ (pairs pairs' : List (List LabelValue × TensorBlock NdArray)),
    t.iter = .ok pairs → t'.iter = .ok pairs' →
    ∀ (key' : List LabelValue) (b' : TensorBlock NdArray), (key', b') ∈ pairs' →
    ∀ (s' : List LabelValue) (cs : List (List LabelValue)) (p : List LabelValue) (x : Elt),
    HasValue b'.values s' cs p x ↔
      ∃ key b, (key, b) ∈ pairs ∧ remainingKey t.keys.names keysToMove.names key = key' ∧
        ∃ s, s' = s ++ valuesFor t.keys.names key keysToMove.names ∧
          b'.values.samples.names = b.values.samples.names ++ keysToMove.names ∧
          HasValue b.values s cs p x

/-! ### C20 -/

/-- **C20**, gradient samples: gradients are kept for the same parameters; their samples are
strictly increasing, and are exactly the old ones, with the first value (the index of a
sample) replaced by the index in the new samples of the old sample followed by the moved
values. -/
theorem C20_keys_to_samples_gradient_samples {A : Type} [ArrayLike A] (t t' : TensorMap A)
    (ht : TensorValid t) (hm : keysToMove.FromBuilder)
    (h : t.keysToSamples build hash keysToMove sort = (t', .ok ()))
    (pairs pairs' : List (List LabelValue × TensorBlock A))
    (hp : t.iter = .ok pairs) (hp' : t'.iter = .ok pairs')
    (key' : List LabelValue) (b' : TensorBlock A) (hb' : (key', b') ∈ pairs') (q : String) :
    (∀ key b, (key, b) ∈ pairs → remainingKey t.keys.names keysToMove.names key = key' →
      (b'.gradient q).isSome = (b.gradient q).isSome) ∧
    ∀ g', b'.gradient q = some g' →
      (entriesOf g'.samples).Pairwise (· < ·) ∧
      ∀ r', r' ∈ entriesOf g'.samples ↔
        ∃ key b, (key, b) ∈ pairs ∧ remainingKey t.keys.names keysToMove.names key = key' ∧
          ∃ g, b.gradient q = some g ∧ ∃ r ∈ entriesOf g.samples,
            SampleRenumbered b.values.samples b'.values.samples
              (· ++ movedKey t.keys.names keysToMove.names key) r r' := by
  obtain ⟨hw, hr, hk⟩ := (keysToSamples_ok_iff ht hm).1 h
  rw [ht.iter_eq, Res.ok.injEq] at hp
  rw [hk.iter_eq, Res.ok.injEq] at hp'
  subst hp hp'
  have hg := group_ok ht (Labels.Holds.names_ok hw).2 hk.names key'
  obtain ⟨f, _, _, hM, _⟩ := mergeBlocksAlongSamples_merged hg rfl (Labels.Holds.names_pos hw)
    (hk.merged hb')
  refine ⟨?_, ?_⟩
  · intro key b h1 h2
    rw [hM.gradient_isSome]
    exact (hg.consistent _ hM.first_mem _ (List.mem_map_of_mem (mem_group.2 ⟨h1, h2⟩))).parameters q
  · intro g' hg'
    obtain ⟨fg, _, hl⟩ := hM.gradient_labels hg hg'
    rw [entriesOf_eq hl.samples]
    refine ⟨hl.sorted, ?_⟩
    intro r'
    rw [hl.rows r']
    rw [exists_toMerge (P := fun k b => ∃ g, b.gradient q = some g ∧ ∃ r ∈ g.samples.rows,
      SampleRenumbered b.values.samples b'.values.samples (extendSample true k) r r')]
    have hext : ∀ key : List LabelValue, extendSample true key = (· ++ key) := fun key => by
      funext s; simp [extendSample]
    simp only [hext]
    constructor
    · rintro ⟨key, b, h1, h2, g, h3, r, h4, h5⟩
      have hgv := (hg.valid _ (List.mem_map_of_mem (mem_group.2 ⟨h1, h2⟩))).gradient_valid h3
      exact ⟨key, b, h1, h2, g, h3, r, by rw [entriesOf_eq hgv.wf.samples]; exact h4, h5⟩
    · rintro ⟨key, b, h1, h2, g, h3, r, h4, h5⟩
      have hgv := (hg.valid _ (List.mem_map_of_mem (mem_group.2 ⟨h1, h2⟩))).gradient_valid h3
      exact ⟨key, b, h1, h2, g, h3, r, by rw [← entriesOf_eq hgv.wf.samples]; exact h4, h5⟩

/-- **C20.** The gradient values of a block of the result are exactly those of the merged
blocks, under the renumbered gradient samples.

Partial: in release builds (`build.debug = false`) this needs the merged blocks to have the
same gradient components; the code only checks it with a `debug_assert`. See
`C20_release_counterexample`. -/
theorem C20_keys_to_samples_gradients_partial (ht : TensorValid t) (hm : keysToMove.FromBuilder)
    (h : t.keysToSamples build hash keysToMove sort = (t', .ok ()))
    (pairs pairs' : List (List LabelValue × TensorBlock NdArray))
    (hp : t.iter = .ok pairs) (hp' : t'.iter = .ok pairs')
    (key' : List LabelValue) (b' : TensorBlock NdArray) (hb' : (key', b') ∈ pairs')
    (q : String) (g' : BasicBlock NdArray) (hg' : b'.gradient q = some g')
    (hcomp : build.debug = true ∨
      SameGradientComponents (group t.keys.names keysToMove.names pairs key') q)
    (r' : List LabelValue) (cs : List (List LabelValue)) (p : List LabelValue) (x : Elt) :
    HasValue g' r' cs p x ↔
      ∃ key b, (key, b) ∈ pairs ∧ remainingKey t.keys.names keysToMove.names key = key' ∧
        ∃ g, b.gradient q = some g ∧ ∃ r,
          SampleRenumbered b.values.samples b'.values.samples
            (· ++ movedKey t.keys.names keysToMove.names key) r r' ∧
          HasValue g r cs p x := by
  obtain ⟨hw, hr, hk⟩ := (keysToSamples_ok_iff ht hm).1 h
  rw [ht.iter_eq, Res.ok.injEq] at hp
  rw [hk.iter_eq, Res.ok.injEq] at hp'
  subst hp hp'
  have hg := group_ok ht (Labels.Holds.names_ok hw).2 hk.names key'
  have hcomp' : build.debug = true ∨ ∀ a ∈ (group t.keys.names keysToMove.names
      (t.keys.rows.zip t.blocks) key').map (toMerge t.keys.names keysToMove.names),
      ∀ c ∈ (group t.keys.names keysToMove.names
      (t.keys.rows.zip t.blocks) key').map (toMerge t.keys.names keysToMove.names),
      ∀ g g₂, a.2.gradient q = some g → c.2.gradient q = some g₂ → g.components = g₂.components := by
    refine hcomp.imp_right fun hc a ha c hc' g g₂ h1 h2 => ?_
    obtain ⟨a₁, ha₁, rfl⟩ := List.mem_map.1 ha
    obtain ⟨c₁, hc₁, rfl⟩ := List.mem_map.1 hc'
    exact hc a₁ ha₁ c₁ hc₁ g g₂ h1 h2
  rw [(mergeBlocksAlongSamples_gradients hg rfl (Labels.Holds.names_pos hw) (hk.merged hb') hg' hcomp').2]
  exact exists_toMerge (P := fun k b => ∃ g, b.gradient q = some g ∧ ∃ r,
        SampleRenumbered b.values.samples b'.values.samples (· ++ k) r r' ∧
        HasValue g r cs p x)

/-- The property without its restriction. -/
def C20_full_statement : Prop :=
  ∀ (build : Build) (hash : HashOrder) (keysToMove : Labels) (sort : Bool)
    (t t' : TensorMap NdArray), TensorValid t → keysToMove.FromBuilder →
    t.keysToSamples build hash keysToMove sort = (t', .ok ()) →
    ∀ (pairs pairs' : List (List LabelValue × TensorBlock NdArray)),
    t.iter = .ok pairs → t'.iter = .ok pairs' →
    ∀ (key' : List LabelValue) (b' : TensorBlock NdArray), (key', b') ∈ pairs' →
    ∀ (q : String) (g' : BasicBlock NdArray), b'.gradient q = some g' →
    ∀ (r' : List LabelValue) (cs : List (List LabelValue)) (p : List LabelValue) (x : Elt),
    HasValue g' r' cs p x ↔
      ∃ key b, (key, b) ∈ pairs ∧ remainingKey t.keys.names keysToMove.names key = key' ∧
        ∃ g, b.gradient q = some g ∧ ∃ r,
          SampleRenumbered b.values.samples b'.values.samples
            (· ++ movedKey t.keys.names keysToMove.names key) r r' ∧
          HasValue g r cs p x

/-! ### Examples and counterexamples -/

namespace Example

/-- Moving `l`, as requested by the user: labels without entries. -/
def moveL : Labels := Labels.mk' ["l"] []
/-- Moving `l` and `k`, in an order which is not the order of the keys. -/
def moveLK : Labels := Labels.mk' ["l", "k"] []
/-- Moving a name which does not exist. -/
def moveX : Labels := Labels.mk' ["x"] []

/-- The example after moving `l`. -/
def movedL : TensorMap NdArray := (tensor.keysToSamples ⟨false⟩ .insertion moveL true).1
/-- The example after moving `l` and `k`. -/
def movedLK : TensorMap NdArray := (tensor.keysToSamples ⟨false⟩ .insertion moveLK true).1

theorem tensor_valid : TensorValid tensor := TensorMap.valid_of_rebuilds (by decide +kernel)
theorem moveL_fromBuilder : moveL.FromBuilder := Labels.rebuilds_fromBuilder (by decide +kernel)
theorem moveLK_fromBuilder : moveLK.FromBuilder := Labels.rebuilds_fromBuilder (by decide +kernel)
theorem movedL_eq : tensor.keysToSamples ⟨false⟩ .insertion moveL true = (movedL, .ok ()) :=
  Prod.ext rfl (by decide +kernel)
theorem movedLK_eq : tensor.keysToSamples ⟨false⟩ .insertion moveLK true = (movedLK, .ok ()) :=
  Prod.ext rfl (by decide +kernel)

/-- Gradient component `d = 5`. -/
def direction5 : Labels := Labels.mk' ["d"] [[5]]
/-- Like `gradBlock`, the gradient having component `d = 5` instead of `d = 0`. -/
def gradBlock5 : TensorBlock NdArray :=
  (TensorBlock.addGradient "g" gradientData gradientSamples [direction5, component] block).1
/-- Two blocks with different gradient components. -/
def mixed : TensorMap NdArray := ⟨Labels.mk' ["k", "l"] [[0, 1], [0, 2]], [gradBlock, gradBlock5]⟩
/-- These after moving `l`. -/
def mixedMoved : TensorMap NdArray := (mixed.keysToSamples ⟨false⟩ .insertion moveL true).1
theorem mixed_valid : TensorValid mixed := TensorMap.valid_of_rebuilds (by decide +kernel)
theorem mixedMoved_eq : mixed.keysToSamples ⟨false⟩ .insertion moveL true = (mixedMoved, .ok ()) :=
  Prod.ext rfl (by decide +kernel)

end Example

/-- Non-vacuity: moving `l` in the example merges the blocks `(0, 1)` and `(0, 2)` in a
block with 4 samples, and keeps the block `(3, 1)` in a block of its own. `l` is a sublist of
the names, all blocks have the same gradient components. A missing name gives an error. -/
example : TensorValid Example.tensor ∧ Example.moveL.FromBuilder ∧
    Example.tensor.keysToSamples ⟨false⟩ .insertion Example.moveL true = (Example.movedL, .ok ()) ∧
    Example.moveL.names.Sublist Example.tensor.keys.names ∧
    entriesOf Example.movedL.keys = [[0], [3]] ∧
    Example.movedL.blocks.map (fun b => entriesOf b.values.samples) =
      [[[0, 1], [0, 2], [2, 1], [2, 2]], [[0, 1], [2, 1]]] ∧
    Example.movedL.blocks.map (fun b => (b.gradient "g").map fun g => entriesOf g.samples) =
      [some [[0, 7], [1, 7], [2, 3], [3, 3]], some [[0, 7], [1, 3]]] ∧
    SameGradientComponents (Example.tensor.keys.rows.zip Example.tensor.blocks) "g" ∧
    Example.moveX.count = .ok 0 ∧ "x" ∈ Example.moveX.names ∧ "x" ∉ Example.tensor.keys.names := by
  refine ⟨Example.tensor_valid, Example.moveL_fromBuilder, Example.movedL_eq, by decide +kernel,
    by decide +kernel, by decide +kernel, by decide +kernel, ?_, by decide +kernel, by decide +kernel,
    by decide +kernel⟩
  have h : ∀ a ∈ Example.tensor.keys.rows.zip Example.tensor.blocks, a.2 = Example.gradBlock := by
    decide +kernel
  intro a ha b hb g g' h1 h2
  rw [h a ha] at h1
  rw [h b hb, h1] at h2
  rw [Option.some.inj h2]

/-- **C17**, the defect: moving `["l", "k"]` while the keys are `(k, l)` gives samples named
`(s, l, k)` where the value named `l` is the one of `k` and the value named `k` the one of
`l`. -/
theorem C17_order_counterexample : ¬ C17_full_statement := by
  intro hfull
  have h := hfull ⟨false⟩ .insertion Example.moveLK true Example.tensor Example.movedLK
    Example.tensor_valid Example.moveLK_fromBuilder Example.movedLK_eq
    (Example.tensor.keys.rows.zip Example.tensor.blocks)
    (Example.movedLK.keys.rows.zip Example.movedLK.blocks)
    (by decide +kernel) (by decide +kernel)
    [0] (Example.movedLK.blocks.headD Example.block) (by decide +kernel)
    [0, 0, 1] [[-1]] [0] ((Example.movedLK.blocks.headD Example.block).values.data.get [0, 0, 0])
  obtain ⟨key, b, h1, -, s, h2, -, -⟩ := h.1 ⟨0, [0], 0, by unfold EntryAt; decide +kernel,
    .cons (by unfold EntryAt; decide +kernel) .nil, rfl, by unfold EntryAt; decide +kernel, rfl⟩
  have hk : ∀ kb ∈ Example.tensor.keys.rows.zip Example.tensor.blocks,
      valuesFor Example.tensor.keys.names kb.1 Example.moveLK.names ∈
        [([1, 0] : List LabelValue), [2, 0], [1, 3]] := by decide +kernel
  have := hk _ h1
  simp only at this
  generalize valuesFor Example.tensor.keys.names key Example.moveLK.names = v at this h2
  simp only [List.mem_cons, List.not_mem_nil, or_false] at this
  have h3 : ([0] : List LabelValue) ++ [0, 1] = s ++ v := h2
  have h4 := (List.append_inj' h3 (by rcases this with rfl | rfl | rfl <;> rfl)).2
  subst h4
  revert this
  decide

/-- **C20**, the defect: in a release build, merging blocks whose gradients have different
components succeeds, and the gradients of the second block are not found under their
labels. -/
theorem C20_release_counterexample : ¬ C20_full_statement := by
  intro hfull
  have h := hfull ⟨false⟩ .insertion Example.moveL true Example.mixed Example.mixedMoved
    Example.mixed_valid Example.moveL_fromBuilder Example.mixedMoved_eq
    (Example.mixed.keys.rows.zip Example.mixed.blocks)
    (Example.mixedMoved.keys.rows.zip Example.mixedMoved.blocks)
    (by decide +kernel) (by decide +kernel)
    [0] (Example.mixedMoved.blocks.headD Example.block) (by decide +kernel)
    "g" (((Example.mixedMoved.blocks.headD Example.block).gradient "g").getD
      Example.block.values) (by decide +kernel)
    [1, 7] [[5], [-1]] [0] (Example.gradientData.get [0, 0, 0, 0])
  obtain ⟨i, k, j, -, h2, -⟩ := h.2 ⟨[0, 2], Example.gradBlock5, by decide +kernel, by decide +kernel,
    (Example.gradBlock5.gradient "g").getD Example.block.values, by decide +kernel,
    [0, 7], ⟨0, 1, [7], [0], 0, 1, rfl, rfl, by decide, by decide, by unfold EntryAt; decide +kernel,
      by unfold EntryAt; decide +kernel⟩,
    ⟨0, [0, 0], 0, by unfold EntryAt; decide +kernel,
      .cons (by unfold EntryAt; decide +kernel) (.cons (by unfold EntryAt; decide +kernel) .nil), rfl,
      by unfold EntryAt; decide +kernel, by decide +kernel⟩⟩
  have hc : (((Example.mixedMoved.blocks.headD Example.block).gradient "g").getD
      Example.block.values).components = [Example.direction, Example.component] := by decide +kernel
  rw [hc] at h2
  cases k with
  | nil => simp at h2
  | cons k₀ k =>
    simp only [List.zip_cons_cons] at h2
    have h3 := (List.forall₂_cons.1 h2).1
    have hd : Example.direction.Holds ["d"] [[0]] :=
      Labels.mk'_holds ⟨by decide +kernel, by decide⟩ (by decide) (by decide) (by decide)
    have h4 : ([5] : List LabelValue) ∈ Example.direction.rows :=
      List.mem_of_getElem? ((entryAt_iff hd.wf).1 h3)
    revert h4
    decide

end Equistore
