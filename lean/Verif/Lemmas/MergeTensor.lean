import Verif.Lemmas.KeysToSamples
import Verif.Lemmas.KeysToProperties

/-! `keys_to_samples` and `keys_to_properties` on tensor maps. -/

namespace Equistore
open Spec NdArray

section
variable {A : Type} [ArrayLike A]

theorem Spec.TensorValid.keys_wf {t : TensorMap A} (ht : TensorValid t) : t.keys.WF :=
  ht.keys.wf_of_count ht.count

theorem Spec.TensorValid.length_eq {t : TensorMap A} (ht : TensorValid t) :
    t.keys.rows.length = t.blocks.length := by
  have := ht.count; rw [ht.keys_wf.count_eq, Res.ok.injEq] at this; exact this

theorem Spec.TensorValid.iter_eq {t : TensorMap A} (ht : TensorValid t) :
    t.iter = .ok (t.keys.rows.zip t.blocks) := by
  unfold TensorMap.iter
  rw [Labels.Holds.iter_eq ht.keys_wf]
  rfl

theorem moved_filter_length {names moved : List String} (hn : names.Nodup) (hm : moved.Nodup)
    (hs : ∀ n ∈ moved, n ∈ names) : (names.filter fun n => moved.contains n).length = moved.length := by
  apply List.Perm.length_eq
  rw [List.perm_ext_iff_of_nodup (hn.filter _) hm]
  intro a
  simp only [List.mem_filter, List.contains_iff_mem]
  exact ⟨fun h => h.2, fun h => ⟨hs a h, h⟩⟩

theorem pairwise_zip_keys {t : TensorMap A} (ht : TensorValid t) :
    (t.keys.rows.zip t.blocks).Pairwise fun a b => a.1 ≠ b.1 :=
  pairwise_zip_left (Labels.Holds.nodup ht.keys_wf)

/-- The blocks of one group can be merged. -/
theorem group_ok {t : TensorMap A} (ht : TensorValid t) {moved : List String} (hm : moved.Nodup)
    (hs : ∀ n ∈ moved, n ∈ t.keys.names) (key' : List LabelValue) :
    GroupOk moved.length ((group t.keys.names moved (t.keys.rows.zip t.blocks) key').map
      (toMerge t.keys.names moved)) := by
  have hk := ht.keys_wf
  have hmem : ∀ kb ∈ group t.keys.names moved (t.keys.rows.zip t.blocks) key',
      kb.1 ∈ t.keys.rows ∧ kb.2 ∈ t.blocks ∧ remainingKey t.keys.names moved kb.1 = key' := by
    intro kb hkb
    obtain ⟨h1, h2⟩ := List.mem_filter.1 hkb
    rw [decide_eq_true_iff] at h2
    have := List.of_mem_zip (a := kb.1) (b := kb.2) h1
    exact ⟨this.1, this.2, h2⟩
  have hlen := Labels.Holds.row_length hk
  refine ⟨?_, ?_, ?_, ?_⟩
  · intro kb hkb
    obtain ⟨kb, hkb', rfl⟩ := List.mem_map.1 hkb
    exact ht.blocks _ (hmem kb hkb').2.1
  · intro a ha b hb
    obtain ⟨a, ha', rfl⟩ := List.mem_map.1 ha
    obtain ⟨b, hb', rfl⟩ := List.mem_map.1 hb
    exact ht.consistent _ (hmem a ha').2.1 _ (hmem b hb').2.1
  · intro kb hkb
    obtain ⟨kb, hkb', rfl⟩ := List.mem_map.1 hkb
    rw [← moved_filter_length (Labels.Holds.names_ok hk).2 hm hs]
    exact restrict_length (hlen _ (hmem kb hkb').1)
  · rw [List.pairwise_map]
    have : (group t.keys.names moved (t.keys.rows.zip t.blocks) key').Pairwise fun a b => a.1 ≠ b.1 :=
      (pairwise_zip_keys ht).filter _
    refine List.Pairwise.imp_of_mem ?_ this
    intro a b ha hb hne heq
    obtain ⟨ha1, _, ha3⟩ := hmem a ha
    obtain ⟨hb1, _, hb3⟩ := hmem b hb
    apply hne
    refine restrict_inj (keep := fun n => moved.contains n) (hlen _ ha1) (hlen _ hb1) heq ?_
    rw [← hb3] at ha3
    unfold remainingKey at ha3
    split at ha3
    · rename_i he
      rw [restrict_nil_of_filter_nil (hlen _ ha1) he, restrict_nil_of_filter_nil (hlen _ hb1) he]
    · exact ha3

/-- How a tensor map was changed by one of the merging functions. -/
structure KeysMoved (moved : List String) (t t' : TensorMap A)
    (merge : List (List LabelValue × TensorBlock A) → Res (TensorBlock A)) : Prop where
  names : ∀ n ∈ moved, n ∈ t.keys.names
  keys : t'.keys.Holds (remainingNames t.keys.names moved)
        (if t.keys.names.filter (fun n => !moved.contains n) = [] then [[0]]
          else indexSet (t.keys.rows.map (remainingKey t.keys.names moved)))
  blocks : List.Forall₂ (fun key' b => merge ((group t.keys.names moved
        (t.keys.rows.zip t.blocks) key').map (toMerge t.keys.names moved)) = .ok b)
        t'.keys.rows t'.blocks

theorem KeysMoved.merged {moved : List String} {t t' : TensorMap A}
    {merge : List (List LabelValue × TensorBlock A) → Res (TensorBlock A)}
    (h : KeysMoved moved t t' merge) {kb : List LabelValue × TensorBlock A}
    (hkb : kb ∈ t'.keys.rows.zip t'.blocks) :
    merge ((group t.keys.names moved (t.keys.rows.zip t.blocks) kb.1).map
      (toMerge t.keys.names moved)) = .ok kb.2 := forall₂_zip h.blocks kb hkb

theorem KeysMoved.iter_eq {moved : List String} {t t' : TensorMap A}
    {merge : List (List LabelValue × TensorBlock A) → Res (TensorBlock A)}
    (h : KeysMoved moved t t' merge) : t'.iter = .ok (t'.keys.rows.zip t'.blocks) := by
  unfold TensorMap.iter
  rw [Labels.Holds.iter_eq h.keys.wf]
  rfl

/-- The new keys, when merging nothing is not possible. -/
theorem KeysMoved.first_appearances {moved : List String} {t t' : TensorMap A}
    {merge : List (List LabelValue × TensorBlock A) → Res (TensorBlock A)}
    (ht : TensorValid t) (hnil : ∀ b, merge [] ≠ .ok b)
    (h : KeysMoved moved t t' merge) :
    FirstAppearances (t.keys.rows.map (remainingKey t.keys.names moved)) t'.keys.rows := by
  have hb := h.blocks
  rw [h.keys.rows_eq] at hb ⊢
  generalize t'.blocks = bs at hb
  by_cases he : t.keys.names.filter (fun n => !moved.contains n) = []
  · rw [if_pos he] at hb ⊢
    have hall : ∀ key, remainingKey t.keys.names moved key = [0] := by
      intro key; rw [remainingKey, if_pos he]
    have hmem : ([0] : List LabelValue) ∈ t.keys.rows.map (remainingKey t.keys.names moved) := by
      cases hb with
      | cons h1 _ =>
        cases hr : t.keys.rows with
        | nil => rw [hr] at h1; exact absurd h1 (hnil _)
        | cons a l => rw [List.map_cons, hall]; exact List.mem_cons_self
    refine ⟨by simp, ?_, by simp⟩
    intro x
    rw [List.mem_singleton]
    constructor
    · rintro rfl; exact hmem
    · intro hx
      obtain ⟨key, _, rfl⟩ := List.mem_map.1 hx
      exact hall key
  · rw [if_neg he]
    exact indexSet_spec _

theorem Act.getSet_eq {S : Type} {t : S} {r : Res (Labels × List (TensorBlock A))}
    {setKeys : Labels → S → S} {setBlocks : List (TensorBlock A) → S → S} :
    (do
      let (keys, blocks) ← Act.lift r
      let self ← Act.get
      Act.set (setKeys keys self)
      let self ← Act.get
      Act.set (setBlocks blocks self) : Act S Unit) t =
      match r with
      | .ok (keys, blocks) => (setBlocks blocks (setKeys keys t), .ok ())
      | .err e => (t, .err e)
      | .panic m => (t, .panic m) := by
  cases r with
  | ok kb => rfl
  | err e => rfl
  | panic m => rfl

theorem keysToSamples_eq (build : Build) (hash : HashOrder) (keysToMove : Labels) (sort : Bool)
    (t : TensorMap A) : t.keysToSamples build hash keysToMove sort =
      match t.keysToSamplesResult build hash keysToMove sort with
      | .ok (keys, blocks) => (⟨keys, blocks⟩, .ok ())
      | .err e => (t, .err e)
      | .panic m => (t, .panic m) := by
  unfold TensorMap.keysToSamples
  exact Act.getSet_eq (setKeys := fun keys (self : TensorMap A) => { self with keys })
    (setBlocks := fun blocks (self : TensorMap A) => { self with blocks }) (t := t)
    (r := t.keysToSamplesResult build hash keysToMove sort)

theorem keysToProperties_eq (build : Build) (hash : HashOrder) (keysToMove : Labels) (sort : Bool)
    (t : TensorMap A) : t.keysToProperties build hash keysToMove sort =
      match t.keysToPropertiesResult build hash keysToMove sort with
      | .ok (keys, blocks) => (⟨keys, blocks⟩, .ok ())
      | .err e => (t, .err e)
      | .panic m => (t, .panic m) := by
  unfold TensorMap.keysToProperties
  exact Act.getSet_eq (setKeys := fun keys (self : TensorMap A) => { self with keys })
    (setBlocks := fun blocks (self : TensorMap A) => { self with blocks }) (t := t)
    (r := t.keysToPropertiesResult build hash keysToMove sort)

theorem keysToSamples_ok_iff {build : Build} {hash : HashOrder} {keysToMove : Labels} {sort : Bool}
    {t t' : TensorMap A} (ht : TensorValid t) (hm : keysToMove.FromBuilder) :
    t.keysToSamples build hash keysToMove sort = (t', .ok ()) ↔
      (keysToMove.WF ∧ keysToMove.rows = [] ∧
        KeysMoved keysToMove.names t t' (mergeBlocksAlongSamples build hash keysToMove.names sort)) := by
  have hk := ht.keys_wf
  have key : t.keysToSamples build hash keysToMove sort = (t', .ok ()) ↔
      t.keysToSamplesResult build hash keysToMove sort = .ok (t'.keys, t'.blocks) := by
    rw [keysToSamples_eq]
    cases t.keysToSamplesResult build hash keysToMove sort with
    | ok kb =>
      obtain ⟨k, b⟩ := kb
      obtain ⟨k', b'⟩ := t'
      simp
    | err e => simp
    | panic m => simp
  rw [key]
  unfold TensorMap.keysToSamplesResult
  by_cases hn : keysToMove.names = []
  · constructor
    · intro h
      rw [Res.bind_eq_ok] at h
      obtain ⟨n, h, _⟩ := h
      exact absurd hn (Labels.count_ok_ne h)
    · rintro ⟨h, _⟩
      exact absurd hn h.names_ne
  · have hw := hm.wf hn
    rw [hw.count_eq, Res.ok_bind]
    by_cases hrows : keysToMove.rows = []
    swap
    · have hg : (keysToMove.rows.length == 0) = false := by
        simpa using hrows
      rw [hg]
      constructor
      · intro h
        rw [Res.bind_eq_ok] at h
        obtain ⟨_, h, _⟩ := h
        simp at h
      · rintro ⟨_, h, _⟩; exact absurd h hrows
    · rw [hrows]
      by_cases hs : ∀ n ∈ keysToMove.names, n ∈ t.keys.names
      · obtain ⟨newKeys, h1, h2⟩ := removeVariablesFromKeys_spec hk hs
        have hgd : ∀ e, Res.guardErr (([] : List (List LabelValue)).length == 0) e = .ok () := by
          intro e; simp
        rw [hgd, Res.ok_bind, h1, Res.ok_bind]
        simp only [Res.bind_eq_ok, mergeForKeys_iff hk ht.length_eq h2, Res.pure_eq, Res.ok.injEq,
          Prod.mk.injEq]
        constructor
        · rintro ⟨bs, h3, rfl, rfl⟩
          exact ⟨hw, trivial, hs, h2, h3⟩
        · rintro ⟨_, _, h3⟩
          have : newKeys = t'.keys := by
            rw [h2.eq_mk', h3.keys.eq_mk']
          refine ⟨t'.blocks, ?_, this, rfl⟩
          rw [this]
          exact h3.blocks
      · obtain ⟨m, h1⟩ := removeVariablesFromKeys_missing hs
        rw [h1]
        simp only [Res.bind_eq_ok, List.length_nil]
        constructor
        · rintro ⟨_, _, x, hx, _⟩; cases hx
        · rintro ⟨_, _, h⟩; exact absurd h.names hs

/-- The entries given by the user, if any. -/
def userKeys (keysToMove : Labels) : Option Labels :=
  if keysToMove.rows = [] then none else some keysToMove

theorem keysToProperties_ok_iff {build : Build} {hash : HashOrder} {keysToMove : Labels} {sort : Bool}
    {t t' : TensorMap A} (ht : TensorValid t) (hm : keysToMove.FromBuilder) :
    t.keysToProperties build hash keysToMove sort = (t', .ok ()) ↔
      (keysToMove.WF ∧ KeysMoved keysToMove.names t t'
        (mergeBlocksAlongProperties build hash (userKeys keysToMove) keysToMove.names sort)) := by
  have hk := ht.keys_wf
  have key : t.keysToProperties build hash keysToMove sort = (t', .ok ()) ↔
      t.keysToPropertiesResult build hash keysToMove sort = .ok (t'.keys, t'.blocks) := by
    rw [keysToProperties_eq]
    cases t.keysToPropertiesResult build hash keysToMove sort with
    | ok kb =>
      obtain ⟨k, b⟩ := kb
      obtain ⟨k', b'⟩ := t'
      simp
    | err e => simp
    | panic m => simp
  rw [key]
  unfold TensorMap.keysToPropertiesResult
  by_cases hs : ∀ n ∈ keysToMove.names, n ∈ t.keys.names
  · obtain ⟨newKeys, h1, h2⟩ := removeVariablesFromKeys_spec hk hs
    rw [h1, Res.ok_bind]
    by_cases hn : keysToMove.names = []
    · constructor
      · intro h
        simp only [Res.bind_eq_ok] at h
        obtain ⟨n, h, _⟩ := h
        exact absurd hn (Labels.count_ok_ne h)
      · rintro ⟨h, _⟩
        exact absurd hn h.names_ne
    · have hw := hm.wf hn
      have hu : (if keysToMove.rows.length = 0 then none else some keysToMove) = userKeys keysToMove := by
        simp only [userKeys, List.length_eq_zero_iff]
      simp only [hw.count_eq, Res.ok_bind, hu]
      simp only [Res.bind_eq_ok, mergeForKeys_iff hk ht.length_eq h2, Res.pure_eq, Res.ok.injEq,
        Prod.mk.injEq]
      constructor
      · rintro ⟨bs, h3, rfl, rfl⟩
        exact ⟨hw, hs, h2, h3⟩
      · rintro ⟨_, h3⟩
        have : newKeys = t'.keys := by
          rw [h2.eq_mk', h3.keys.eq_mk']
        refine ⟨t'.blocks, ?_, this, rfl⟩
        rw [this]
        exact h3.blocks
  · obtain ⟨m, h1⟩ := removeVariablesFromKeys_missing hs
    rw [h1]
    constructor
    · intro h; cases h
    · rintro ⟨_, h⟩; exact absurd h.names hs

theorem mergeBlocksAlongSamples_nil (build : Build) (hash : HashOrder) (names : List String)
    (sort : Bool) (b : TensorBlock A) : mergeBlocksAlongSamples build hash names sort [] ≠ .ok b := by
  intro h; cases h

theorem mergeBlocksAlongProperties_nil (build : Build) (hash : HashOrder) (user : Option Labels)
    (names : List String) (sort : Bool) (b : TensorBlock A) :
    mergeBlocksAlongProperties build hash user names sort [] ≠ .ok b := by
  intro h; cases h

theorem userKeys_ok {keysToMove : Labels} (h : keysToMove.WF) :
    UserOk keysToMove.names.length (userKeys keysToMove) := by
  intro e he
  unfold userKeys at he
  split at he
  · cases he
  · cases he; exact ⟨h, rfl⟩

theorem listed_userKeys {keysToMove : Labels} {key : List LabelValue} :
    Listed (userKeys keysToMove) key ↔ (keysToMove.rows = [] ∨ key ∈ keysToMove.rows) := by
  unfold Listed userKeys
  split
  · rename_i h; simp [h]
  · rename_i h; simp [h]

/-! ### Validity of the result -/

variable {build : Build} {hash : HashOrder} {sort : Bool}

theorem MergedBlock.consistent {addKey : Bool} {w : Nat}
    {names₁ names₂ : List String} {first₁ first₂ : List LabelValue × TensorBlock A}
    {blocks₁ blocks₂ : List (List LabelValue × TensorBlock A)}
    {mappings₁ mappings₂ : List (List SampleMapping)} {ranges₁ ranges₂ : List (Option (Nat × Nat))}
    {b₁ b₂ : TensorBlock A}
    (g₁ : GroupOk w blocks₁) (g₂ : GroupOk w blocks₂)
    (h₁ : MergedBlock build hash sort addKey names₁ first₁ blocks₁ mappings₁ ranges₁ b₁)
    (h₂ : MergedBlock build hash sort addKey names₂ first₂ blocks₂ mappings₂ ranges₂ b₂)
    (hc : Consistent first₁.2 first₂.2) (hn : names₁ = names₂)
    (hp : b₁.values.properties.names = b₂.values.properties.names) : Consistent b₁ b₂ := by
  refine ⟨⟨?_, ?_⟩, hp, ?_, ?_⟩
  · rw [h₁.samples.names_eq, h₂.samples.names_eq, hn]
  · rw [h₁.components, h₂.components]; exact hc.values.2
  · intro q
    rw [h₁.gradient_isSome, h₂.gradient_isSome]; exact hc.parameters q
  · intro q g g' hg hg'
    obtain ⟨f, hf1, hf2⟩ := h₁.gradient_labels g₁ hg
    obtain ⟨f', hf1', hf2'⟩ := h₂.gradient_labels g₂ hg'
    have := hc.gradients q f f' hf1 hf1'
    refine ⟨?_, ?_⟩
    · rw [hf2.names, hf2'.names]; exact this.1
    · rw [hf2.components, hf2'.components]; exact this.2

theorem KeysMoved.first_in {moved : List String} {t t' : TensorMap A}
    {merge : List (List LabelValue × TensorBlock A) → Res (TensorBlock A)}
    (_ : KeysMoved moved t t' merge) {key' : List LabelValue}
    {first : List LabelValue × TensorBlock A}
    (hf : first ∈ (group t.keys.names moved (t.keys.rows.zip t.blocks) key').map
      (toMerge t.keys.names moved)) : first.2 ∈ t.blocks := by
  obtain ⟨kb, hkb, rfl⟩ := List.mem_map.1 hf
  exact (List.of_mem_zip (a := kb.1) (b := kb.2) (List.mem_filter.1 hkb).1).2

theorem KeysMoved.block_key {moved : List String} {t t' : TensorMap A}
    {merge : List (List LabelValue × TensorBlock A) → Res (TensorBlock A)}
    (h : KeysMoved moved t t' merge) {b : TensorBlock A} (hb : b ∈ t'.blocks) :
    ∃ key', (key', b) ∈ t'.keys.rows.zip t'.blocks := by
  obtain ⟨i, hi, rfl⟩ := List.getElem_of_mem hb
  have hl := h.blocks.length_eq
  refine ⟨t'.keys.rows[i], ?_⟩
  rw [← List.getElem_zip (i := i) (h := by rw [List.length_zip]; omega)]
  exact List.getElem_mem _

theorem keysToSamples_valid {keysToMove : Labels}
    {t t' : TensorMap A} (ht : TensorValid t) (hm : keysToMove.FromBuilder)
    (h : t.keysToSamples build hash keysToMove sort = (t', .ok ())) : TensorValid t' := by
  obtain ⟨hw, hr, hk⟩ := (keysToSamples_ok_iff ht hm).1 h
  have hgo := fun key' => group_ok ht (Labels.Holds.names_ok hw).2 hk.names key'
  have hpos : 0 < keysToMove.names.length := Labels.Holds.names_pos hw
  refine ⟨hk.keys.wf.fromBuilder, ?_, ?_, ?_⟩
  · rw [hk.keys.wf.count_eq, hk.blocks.length_eq]
  · intro b hb
    obtain ⟨key', hkb⟩ := hk.block_key hb
    obtain ⟨_, _, _, hM, _⟩ := mergeBlocksAlongSamples_merged (hgo key') rfl hpos (hk.merged hkb)
    exact hM.valid
  · intro a ha b hb
    obtain ⟨ka, hka⟩ := hk.block_key ha
    obtain ⟨kb, hkb⟩ := hk.block_key hb
    obtain ⟨f1, _, _, hM1, hS1, _⟩ := mergeBlocksAlongSamples_merged (hgo ka) rfl hpos (hk.merged hka)
    obtain ⟨f2, _, _, hM2, hS2, _⟩ := mergeBlocksAlongSamples_merged (hgo kb) rfl hpos (hk.merged hkb)
    have hc := ht.consistent _ (hk.first_in hM1.first_mem) _ (hk.first_in hM2.first_mem)
    refine hM1.consistent (hgo ka) (hgo kb) hM2 hc ?_ ?_
    · rw [hc.values.1]
    · rw [hS1.properties, hS2.properties]; exact hc.properties

theorem keysToProperties_valid {keysToMove : Labels}
    {t t' : TensorMap A} (ht : TensorValid t) (hm : keysToMove.FromBuilder)
    (h : t.keysToProperties build hash keysToMove sort = (t', .ok ())) : TensorValid t' := by
  obtain ⟨hw, hk⟩ := (keysToProperties_ok_iff ht hm).1 h
  have hgo := fun key' => group_ok ht (Labels.Holds.names_ok hw).2 hk.names key'
  have hu := userKeys_ok hw
  refine ⟨hk.keys.wf.fromBuilder, ?_, ?_, ?_⟩
  · rw [hk.keys.wf.count_eq, hk.blocks.length_eq]
  · intro b hb
    obtain ⟨key', hkb⟩ := hk.block_key hb
    obtain ⟨_, _, _, hM, _⟩ := mergeBlocksAlongProperties_merged (hgo key') hu (hk.merged hkb)
    exact hM.valid
  · intro a ha b hb
    obtain ⟨ka, hka⟩ := hk.block_key ha
    obtain ⟨kb, hkb⟩ := hk.block_key hb
    obtain ⟨f1, _, _, hM1, hS1, hP1⟩ := mergeBlocksAlongProperties_merged (hgo ka) hu (hk.merged hka)
    obtain ⟨f2, _, _, hM2, hS2, hP2⟩ := mergeBlocksAlongProperties_merged (hgo kb) hu (hk.merged hkb)
    have hc := ht.consistent _ (hk.first_in hM1.first_mem) _ (hk.first_in hM2.first_mem)
    refine hM1.consistent (hgo ka) (hgo kb) hM2 hc ?_ ?_
    · exact hc.values.1
    · rw [hP1.names_eq, hP2.names_eq, hc.properties]

end

end Equistore
