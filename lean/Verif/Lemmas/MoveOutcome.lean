import Verif.Spec.Outcome
import Verif.Lemmas.MergeOutcome
import Verif.Lemmas.BackendTensor

/-! When `keys_to_samples` and `keys_to_properties` succeed. -/

namespace Equistore
open Spec NdArray

variable {A : Type} [ArrayLike A] {view : A → NdArray}

/-- The rows of the new keys. -/
def newKeyRows (t : TensorMap A) (moved : List String) : List (List LabelValue) :=
  if t.keys.names.filter (fun n => !moved.contains n) = [] then [[0]]
    else indexSet (t.keys.rows.map (remainingKey t.keys.names moved))

/-- The blocks merged for a new key. -/
def mergedFor (t : TensorMap A) (moved : List String) (key' : List LabelValue) :
    List (List LabelValue × TensorBlock A) :=
  (group t.keys.names moved (t.keys.rows.zip t.blocks) key').map (toMerge t.keys.names moved)

theorem keysMoved_exists {t : TensorMap A} (ht : TensorValid t) {moved : List String}
    {merge : List (List LabelValue × TensorBlock A) → Res (TensorBlock A)} :
    (∃ t', KeysMoved moved t t' merge) ↔
      ((∀ n ∈ moved, n ∈ t.keys.names) ∧ ∀ key' ∈ newKeyRows t moved, ∃ b, merge (mergedFor t moved key') = .ok b) := by
  constructor
  · rintro ⟨t', h⟩
    refine ⟨h.names, fun key' hkey => ?_⟩
    have hb := h.blocks
    rw [h.keys.rows_eq] at hb
    obtain ⟨i, hi, rfl⟩ := List.getElem_of_mem hkey
    have hi' : i < t'.blocks.length := by rw [← hb.length_eq]; exact hi
    exact ⟨_, (List.forall₂_iff_get.1 hb).2 i hi hi'⟩
  · rintro ⟨h1, h2⟩
    obtain ⟨newKeys, _, h3⟩ := removeVariablesFromKeys_spec ht.keys_wf h1
    obtain ⟨bs, hbs⟩ : ∃ bs, List.Forall₂ (fun key' b => merge (mergedFor t moved key') = .ok b)
        (newKeyRows t moved) bs := by
      generalize newKeyRows t moved = rows at h2
      induction rows with
      | nil => exact ⟨[], .nil⟩
      | cons k rows ih =>
        obtain ⟨b, hb⟩ := h2 k List.mem_cons_self
        obtain ⟨bs, hbs⟩ := ih fun k hk => h2 k (List.mem_cons_of_mem _ hk)
        exact ⟨b :: bs, .cons hb hbs⟩
    refine ⟨⟨newKeys, bs⟩, h1, h3, ?_⟩
    rw [h3.rows_eq]
    exact hbs

theorem mem_newKeyRows {t : TensorMap A} {moved : List String} {key : List LabelValue}
    (h : key ∈ t.keys.rows) : remainingKey t.keys.names moved key ∈ newKeyRows t moved := by
  unfold newKeyRows
  split
  · rename_i he
    rw [remainingKey, if_pos he]
    exact List.mem_cons_self
  · exact mem_indexSet.2 (List.mem_map_of_mem h)

/-- The first block of each group, and what has to hold for it. -/
theorem forall_groups {t : TensorMap A} (ht : TensorValid t) {moved : List String}
    {p : (List LabelValue × TensorBlock A) → List (List LabelValue × TensorBlock A) → Prop} :
    (∀ key' ∈ newKeyRows t moved, ∃ first, (mergedFor t moved key').head? = some first ∧
      p first (mergedFor t moved key')) ↔
    ((t.blocks ≠ [] ∨ ∃ n ∈ t.keys.names, n ∉ moved) ∧
      ∀ first kb, FirstMergedWith t moved first kb → p (toMerge t.keys.names moved first)
        (mergedFor t moved (remainingKey t.keys.names moved kb.1))) := by
  have hlen := ht.length_eq
  have hnonempty : ∀ kb ∈ t.keys.rows.zip t.blocks,
      ∃ first, (group t.keys.names moved (t.keys.rows.zip t.blocks)
        (remainingKey t.keys.names moved kb.1)).head? = some first := by
    intro kb hkb
    have : kb ∈ group t.keys.names moved (t.keys.rows.zip t.blocks) (remainingKey t.keys.names moved kb.1) :=
      List.mem_filter.2 ⟨hkb, by simp⟩
    cases hl : group t.keys.names moved (t.keys.rows.zip t.blocks) (remainingKey t.keys.names moved kb.1) with
    | nil => rw [hl] at this; cases this
    | cons a l => exact ⟨a, rfl⟩
  constructor
  · intro h
    refine ⟨?_, ?_⟩
    · by_cases he : t.keys.names.filter (fun n => !moved.contains n) = []
      · left
        intro hb
        obtain ⟨first, h1, _⟩ := h [0] (by unfold newKeyRows; rw [if_pos he]; exact List.mem_cons_self)
        unfold mergedFor at h1
        rw [hb] at h1
        simp [group] at h1
      · right
        obtain ⟨n, hn⟩ := List.exists_mem_of_ne_nil _ he
        obtain ⟨h1, h2⟩ := List.mem_filter.1 hn
        exact ⟨n, h1, by simpa using h2⟩
    · rintro first kb ⟨pairs, h1, h2, h3⟩
      rw [ht.iter_eq, Res.ok.injEq] at h1
      subst h1
      obtain ⟨first', h4, h5⟩ := h _ (mem_newKeyRows (moved := moved)
        (List.of_mem_zip (a := kb.1) (b := kb.2) h2).1)
      unfold mergedFor at h4
      rw [List.head?_map, h3, Option.map_some, Option.some.injEq] at h4
      rw [h4]
      exact h5
  · rintro ⟨h1, h2⟩ key' hkey
    obtain ⟨kb, hkb, rfl⟩ : ∃ kb ∈ t.keys.rows.zip t.blocks, remainingKey t.keys.names moved kb.1 = key' := by
      have hex : ∀ key ∈ t.keys.rows, ∃ kb ∈ t.keys.rows.zip t.blocks, kb.1 = key := by
        intro key hk
        obtain ⟨i, hi, rfl⟩ := List.getElem_of_mem hk
        refine ⟨(t.keys.rows[i], t.blocks[i]), ?_, rfl⟩
        rw [← List.getElem_zip (i := i) (h := by rw [List.length_zip]; omega)]
        exact List.getElem_mem _
      unfold newKeyRows at hkey
      split at hkey
      · rename_i he
        have hb : t.blocks ≠ [] := by
          rcases h1 with h1 | ⟨n, hn1, hn2⟩
          · exact h1
          · exfalso
            have : n ∈ t.keys.names.filter (fun n => !moved.contains n) :=
              List.mem_filter.2 ⟨hn1, by simpa using hn2⟩
            rw [he] at this
            cases this
        have hk : t.keys.rows ≠ [] := by
          intro h
          rw [h] at hlen
          exact hb (List.length_eq_zero_iff.1 hlen.symm)
        obtain ⟨key, hk⟩ := List.exists_mem_of_ne_nil _ hk
        obtain ⟨kb, hkb, rfl⟩ := hex key hk
        refine ⟨kb, hkb, ?_⟩
        rw [remainingKey, if_pos he]
        exact (List.mem_singleton.1 hkey).symm
      · obtain ⟨key, hk, rfl⟩ := List.mem_map.1 (mem_indexSet.1 hkey)
        obtain ⟨kb, hkb, rfl⟩ := hex key hk
        exact ⟨kb, hkb, rfl⟩
    obtain ⟨first, hf⟩ := hnonempty kb hkb
    refine ⟨toMerge t.keys.names moved first, ?_, h2 first kb ⟨_, ht.iter_eq, hkb, hf⟩⟩
    unfold mergedFor
    rw [List.head?_map, hf]
    rfl

theorem entriesOf_wf {l : Labels} (h : l.WF) : entriesOf l = l.rows := by
  unfold entriesOf
  rw [Labels.Holds.iter_eq h]

theorem refers_iff_sample {l : Labels} (h : l.WF) {r : List LabelValue} :
    Refers l.rows.length r ↔ RefersToSample l r := by
  constructor
  · rintro ⟨v, rest, i, rfl, h1, h2⟩
    exact ⟨v, rest, i, _, rfl, h1, Labels.Holds.index_eq h h2⟩
  · rintro ⟨v, rest, i, s, rfl, h1, h2⟩
    refine ⟨v, rest, i, rfl, h1, ?_⟩
    by_contra hc
    unfold EntryAt at h2
    rw [Labels.Holds.index_panic h hc] at h2
    cases h2

/-- Every block is merged with some first block. -/
theorem firstMerged_exists {t : TensorMap A} (ht : TensorValid t) (moved : List String) {b : TensorBlock A}
    (hb : b ∈ t.blocks) : ∃ first kb, FirstMergedWith t moved first kb ∧ kb.2 = b := by
  obtain ⟨i, hi, rfl⟩ := List.getElem_of_mem hb
  have hlen := ht.length_eq
  have hkb : (t.keys.rows[i], t.blocks[i]) ∈ t.keys.rows.zip t.blocks := by
    rw [← List.getElem_zip (i := i) (h := by rw [List.length_zip]; omega)]
    exact List.getElem_mem _
  have : (t.keys.rows[i], t.blocks[i]) ∈ group t.keys.names moved (t.keys.rows.zip t.blocks)
      (remainingKey t.keys.names moved t.keys.rows[i]) := List.mem_filter.2 ⟨hkb, by simp⟩
  cases hl : group t.keys.names moved (t.keys.rows.zip t.blocks) (remainingKey t.keys.names moved t.keys.rows[i]) with
  | nil => rw [hl] at this; cases this
  | cons a l => exact ⟨a, _, ⟨_, ht.iter_eq, hkb, by rw [hl]; rfl⟩, rfl⟩

theorem FirstMergedWith.mem {t : TensorMap A} (ht : TensorValid t) {moved : List String}
    {first kb : List LabelValue × TensorBlock A} (h : FirstMergedWith t moved first kb) :
    first.2 ∈ t.blocks ∧ kb.2 ∈ t.blocks := by
  obtain ⟨pairs, h1, h2, h3⟩ := h
  rw [ht.iter_eq, Res.ok.injEq] at h1
  subst h1
  exact ⟨(List.of_mem_zip (a := first.1) (b := first.2) (List.mem_filter.1 (List.mem_of_mem_head? h3)).1).2,
    (List.of_mem_zip (a := kb.1) (b := kb.2) h2).2⟩

/-- The members of the group of a block have the same first block. -/
theorem FirstMergedWith.member {t : TensorMap A} (ht : TensorValid t) {moved : List String}
    {first kb kb' : List LabelValue × TensorBlock A} (h : FirstMergedWith t moved first kb) :
    kb' ∈ mergedFor t moved (remainingKey t.keys.names moved kb.1) ↔
      ∃ kb₀, FirstMergedWith t moved first kb₀ ∧ kb' = toMerge t.keys.names moved kb₀ ∧
        remainingKey t.keys.names moved kb₀.1 = remainingKey t.keys.names moved kb.1 := by
  obtain ⟨pairs, h1, h2, h3⟩ := h
  rw [ht.iter_eq, Res.ok.injEq] at h1
  subst h1
  constructor
  · intro hk
    obtain ⟨kb₀, h4, rfl⟩ := List.mem_map.1 hk
    obtain ⟨h5, h6⟩ := List.mem_filter.1 h4
    rw [decide_eq_true_iff] at h6
    exact ⟨kb₀, ⟨_, ht.iter_eq, h5, by rw [h6]; exact h3⟩, rfl, h6⟩
  · rintro ⟨kb₀, ⟨pairs, h4, h5, _⟩, rfl, h6⟩
    rw [ht.iter_eq, Res.ok.injEq] at h4
    subst h4
    exact List.mem_map.2 ⟨kb₀, List.mem_filter.2 ⟨h5, by simpa using h6⟩, rfl⟩

theorem FirstMergedWith.self_mem {t : TensorMap A} (ht : TensorValid t) {moved : List String}
    {first kb : List LabelValue × TensorBlock A} (h : FirstMergedWith t moved first kb) :
    toMerge t.keys.names moved kb ∈ mergedFor t moved (remainingKey t.keys.names moved kb.1) :=
  (FirstMergedWith.member ht h).2 ⟨kb, h, rfl, rfl⟩

theorem groupAgree {t : TensorMap A} (ht : TensorValid t) {moved : List String}
    (h : GradientComponentsAgree t moved) (key' : List LabelValue) :
    GroupComponentsAgree (mergedFor t moved key') := by
  intro q a ha b hb g g' hg hg'
  obtain ⟨a₀, ha₀, rfl⟩ := List.mem_map.1 ha
  obtain ⟨b₀, hb₀, rfl⟩ := List.mem_map.1 hb
  exact h _ ht.iter_eq key' q a₀ ha₀ b₀ hb₀ g g' hg hg'

theorem merged_small {t : TensorMap A} (ht : TensorValid t) {moved : List String}
    (h : SamplesFit t moved) (sort addKey : Bool) (key' : List LabelValue) :
    (mergedRows sort addKey (mergedFor t moved key')).length ≤ 2147483647 := by
  refine Nat.le_trans (mergedRows_length _ _ _) (Nat.le_trans (Nat.le_of_eq ?_) (h _ ht.iter_eq key'))
  unfold mergedFor
  rw [List.map_map]
  congr 1
  refine List.map_congr_left fun kb hkb => ?_
  have hb := (List.of_mem_zip (a := kb.1) (b := kb.2) (List.mem_filter.1 hkb).1).2
  rw [entriesOf_wf (BasicValid.wf (ht.blocks _ hb).values).samples]
  rfl

/-- The conditions on gradients. -/
theorem gradients_iff {t : TensorMap A} (ht : TensorValid t) {moved : List String} {debug : Bool}
    {listed : List LabelValue → Prop} :
    (∀ first kb, FirstMergedWith t moved first kb → ∀ q g, first.2.gradient q = some g →
      GradientsMergeable debug listed (mergedFor t moved (remainingKey t.keys.names moved kb.1)) q g.components) ↔
    ((debug = true → ∀ first kb, FirstMergedWith t moved first kb → listed (movedKey t.keys.names moved kb.1) →
        GradientComponentsEqual kb.2 first.2) ∧ ∀ b ∈ t.blocks, GradientsUsable b) := by
  have hsome : ∀ first kb, FirstMergedWith t moved first kb → ∀ q g, kb.2.gradient q = some g →
      ∃ g', first.2.gradient q = some g' := by
    intro first kb h q g hg
    obtain ⟨h1, h2⟩ := FirstMergedWith.mem ht h
    have := (ht.consistent _ h2 _ h1).parameters q
    rw [hg] at this
    exact Option.isSome_iff_exists.1 this.symm
  constructor
  · intro h
    refine ⟨?_, ?_⟩
    · intro hd first kb hf hl q g g' hg hg'
      exact (h first kb hf q g' hg').components hd _ (FirstMergedWith.self_mem ht hf) hl g hg
    · intro b hb
      obtain ⟨first, kb, hf, rfl⟩ := firstMerged_exists ht moved hb
      constructor
      · intro q g hg
        obtain ⟨g', hg'⟩ := hsome first kb hf q g hg
        exact (h first kb hf q g' hg').noNul
      · intro q g hg r hr
        obtain ⟨g', hg'⟩ := hsome first kb hf q g hg
        have hv := ht.blocks _ (FirstMergedWith.mem ht hf).2
        rw [entriesOf_wf (hv.gradient_valid hg).wf.samples] at hr
        exact (refers_iff_sample (BasicValid.wf hv.values).samples).1
          ((h first kb hf q g' hg').refers _ (FirstMergedWith.self_mem ht hf) g hg r hr)
  · rintro ⟨h1, h2⟩ first kb hf q g hg
    obtain ⟨hfm, hbm⟩ := FirstMergedWith.mem ht hf
    refine ⟨(h2 _ hfm).names q g hg, ?_, ?_⟩
    · intro kb' hkb' g' hg' r hr
      obtain ⟨kb₀, hf₀, rfl, _⟩ := (FirstMergedWith.member ht hf).1 hkb'
      have hb₀ := (FirstMergedWith.mem ht hf₀).2
      have hv := ht.blocks _ hb₀
      refine (refers_iff_sample (BasicValid.wf hv.values).samples).2 ((h2 _ hb₀).samples q g' hg' r ?_)
      rw [entriesOf_wf (hv.gradient_valid hg').wf.samples]
      exact hr
    · intro hd kb' hkb' hl g' hg'
      obtain ⟨kb₀, hf₀, rfl, _⟩ := (FirstMergedWith.member ht hf).1 hkb'
      exact h1 hd first kb₀ hf₀ hl q g' g hg' hg

theorem keysToSamples_succeeds_iff_moves (h : Implements view) {build : Build} {hash : HashOrder} {keysToMove : Labels}
    {sort : Bool} {t : TensorMap A} (ht : TensorValid t) (hm : keysToMove.FromBuilder)
    (hmoves : keysToMove.WF → (∀ n ∈ keysToMove.names, n ∈ t.keys.names) → ∀ key',
      GroupMoves view build.debug (fun _ => True) (mergedFor t keysToMove.names key'))
    (hfit : SamplesFit t keysToMove.names) :
    (∃ t', t.keysToSamples build hash keysToMove sort = (t', .ok ())) ↔ CanMoveToSamples build t keysToMove := by
  have key : (∃ t', t.keysToSamples build hash keysToMove sort = (t', .ok ())) ↔
      (keysToMove.WF ∧ keysToMove.rows = [] ∧ (∀ n ∈ keysToMove.names, n ∈ t.keys.names) ∧
        ∀ key' ∈ newKeyRows t keysToMove.names, ∃ b,
          mergeBlocksAlongSamples build hash keysToMove.names sort (mergedFor t keysToMove.names key') = .ok b) := by
    simp only [keysToSamples_ok_iff ht hm, exists_and_left, keysMoved_exists ht]
  rw [key]
  have hcount : (keysToMove.WF ∧ keysToMove.rows = []) ↔ keysToMove.count = .ok 0 := by
    constructor
    · rintro ⟨h1, h2⟩; rw [h1.count_eq, h2]; rfl
    · intro h
      have hw := hm.wf (Labels.count_ok_ne h)
      rw [hw.count_eq, Res.ok.injEq] at h
      exact ⟨hw, List.length_eq_zero_iff.1 h⟩
  have hmerge : keysToMove.WF → (∀ n ∈ keysToMove.names, n ∈ t.keys.names) →
      ((∀ key' ∈ newKeyRows t keysToMove.names, ∃ b,
          mergeBlocksAlongSamples build hash keysToMove.names sort (mergedFor t keysToMove.names key') = .ok b) ↔
      ((t.blocks ≠ [] ∨ ∃ n ∈ t.keys.names, n ∉ keysToMove.names) ∧
        ∀ first kb, FirstMergedWith t keysToMove.names first kb →
          SamplesMergeable build.debug keysToMove.names
            (mergedFor t keysToMove.names (remainingKey t.keys.names keysToMove.names kb.1))
            (toMerge t.keys.names keysToMove.names first))) := by
    intro hw hs
    rw [← forall_groups ht (moved := keysToMove.names)
      (p := fun first blocks => SamplesMergeable build.debug keysToMove.names blocks first)]
    refine forall₂_congr fun key' _ => ?_
    exact mergeBlocksAlongSamples_iff h rfl (Labels.Holds.names_ok hw)
      (group_ok ht (Labels.Holds.names_ok hw).2 hs key') (Labels.Holds.names_pos hw)
      (hmoves hw hs key') (merged_small ht hfit _ _ _)
  have hgrad := gradients_iff ht (moved := keysToMove.names) (debug := build.debug) (listed := fun _ => True)
  constructor
  · rintro ⟨h1, h2, h3, h4⟩
    obtain ⟨h5, h6⟩ := (hmerge h1 h3).1 h4
    obtain ⟨h7, h8⟩ := hgrad.1 fun first kb hf q g hg => (h6 first kb hf).gradients q g hg
    refine ⟨hcount.1 ⟨h1, h2⟩, h3, h5, ?_, ?_, ?_, fun hd first kb hf => h7 hd first kb hf trivial, h8⟩
    · intro b hb n hn
      obtain ⟨first, kb, hf, rfl⟩ := firstMerged_exists ht keysToMove.names hb
      obtain ⟨hfm, hbm⟩ := FirstMergedWith.mem ht hf
      rw [(ht.consistent _ hbm _ hfm).values.1]
      exact (h6 first kb hf).fresh n hn
    · intro first kb hf
      exact ((h6 first kb hf).same _ (FirstMergedWith.self_mem ht hf)).1
    · intro first kb hf
      exact ((h6 first kb hf).same _ (FirstMergedWith.self_mem ht hf)).2
  · intro hc
    obtain ⟨h1, h2⟩ := hcount.2 hc.noEntries
    refine ⟨h1, h2, hc.names, (hmerge h1 hc.names).2 ⟨hc.something, ?_⟩⟩
    intro first kb hf
    obtain ⟨hfm, hbm⟩ := FirstMergedWith.mem ht hf
    refine ⟨hc.fresh _ hfm, ?_, ?_⟩
    · intro kb' hkb'
      obtain ⟨kb₀, hf₀, rfl, _⟩ := (FirstMergedWith.member ht hf).1 hkb'
      exact ⟨hc.components first kb₀ hf₀, hc.properties first kb₀ hf₀⟩
    · exact fun q g hg => hgrad.2 ⟨fun hd first kb hf _ => hc.gradients hd first kb hf, hc.usable⟩ first kb hf q g hg

theorem keysToSamples_succeeds_iff_checked (h : Implements view) {build : Build} {hash : HashOrder} {keysToMove : Labels}
    {sort : Bool} {t : TensorMap A} (ht : TensorValid t) (hm : keysToMove.FromBuilder)
    (hcomp : build.debug = true ∨ GradientSizesAgree t keysToMove.names)
    (hfit : SamplesFit t keysToMove.names) :
    (∃ t', t.keysToSamples build hash keysToMove sort = (t', .ok ())) ↔ CanMoveToSamples build t keysToMove :=
  keysToSamples_succeeds_iff_moves h ht hm (fun hw hs key' => groupMoves_of_sizes h
    (group_ok ht (Labels.Holds.names_ok hw).2 hs key')
    (hcomp.imp_right fun hc => groupSizesAgree ht hc key')) hfit

theorem userKeys_isSome {keysToMove : Labels} : (userKeys keysToMove).isSome = true ↔ keysToMove.rows ≠ [] := by
  unfold userKeys
  split <;> simp_all

theorem keysToProperties_succeeds_iff_moves (h : Implements view) {build : Build} {hash : HashOrder} {keysToMove : Labels}
    {sort : Bool} {t : TensorMap A} (ht : TensorValid t) (hm : keysToMove.FromBuilder)
    (hmoves : keysToMove.WF → (∀ n ∈ keysToMove.names, n ∈ t.keys.names) → ∀ key',
      GroupMoves view build.debug (Listed (userKeys keysToMove)) (mergedFor t keysToMove.names key'))
    (hfit : SamplesFit t keysToMove.names) :
    (∃ t', t.keysToProperties build hash keysToMove sort = (t', .ok ())) ↔ CanMoveToProperties build t keysToMove := by
  have key : (∃ t', t.keysToProperties build hash keysToMove sort = (t', .ok ())) ↔
      (keysToMove.WF ∧ (∀ n ∈ keysToMove.names, n ∈ t.keys.names) ∧
        ∀ key' ∈ newKeyRows t keysToMove.names, ∃ b,
          mergeBlocksAlongProperties build hash (userKeys keysToMove) keysToMove.names sort
            (mergedFor t keysToMove.names key') = .ok b) := by
    simp only [keysToProperties_ok_iff ht hm, exists_and_left, keysMoved_exists ht]
  rw [key]
  have hwf : keysToMove.WF ↔ keysToMove.names ≠ [] := ⟨fun h => h.names_ne, fun h => hm.wf h⟩
  have hmerge : keysToMove.WF → (∀ n ∈ keysToMove.names, n ∈ t.keys.names) →
      ((∀ key' ∈ newKeyRows t keysToMove.names, ∃ b,
          mergeBlocksAlongProperties build hash (userKeys keysToMove) keysToMove.names sort
            (mergedFor t keysToMove.names key') = .ok b) ↔
      ((t.blocks ≠ [] ∨ ∃ n ∈ t.keys.names, n ∉ keysToMove.names) ∧
        ∀ first kb, FirstMergedWith t keysToMove.names first kb →
          PropertiesMergeable build.debug (userKeys keysToMove) keysToMove.names
            (mergedFor t keysToMove.names (remainingKey t.keys.names keysToMove.names kb.1))
            (toMerge t.keys.names keysToMove.names first))) := by
    intro hw hs
    rw [← forall_groups ht (moved := keysToMove.names)
      (p := fun first blocks => PropertiesMergeable build.debug (userKeys keysToMove) keysToMove.names blocks first)]
    refine forall₂_congr fun key' _ => ?_
    exact mergeBlocksAlongProperties_iff h (userKeys_ok hw) rfl (Labels.Holds.names_ok hw)
      (group_ok ht (Labels.Holds.names_ok hw).2 hs key')
      (hmoves hw hs key') (merged_small ht hfit _ _ _)
  have hgrad := gradients_iff ht (moved := keysToMove.names) (debug := build.debug)
    (listed := Listed (userKeys keysToMove))
  have hreq : keysToMove.WF → ∀ key, (Requested t.keys.names keysToMove key ↔
      Listed (userKeys keysToMove) (movedKey t.keys.names keysToMove.names key)) := by
    intro hw key
    rw [listed_userKeys]
    unfold Requested
    rw [entriesOf_wf hw]
  constructor
  · rintro ⟨h1, h3, h4⟩
    obtain ⟨h5, h6⟩ := (hmerge h1 h3).1 h4
    obtain ⟨h7, h8⟩ := hgrad.1 fun first kb hf q g hg => (h6 first kb hf).gradients q g hg
    refine ⟨hwf.1 h1, h3, h5, ?_, ?_, ?_, ?_, fun hd first kb hf hr => h7 hd first kb hf ((hreq h1 _).1 hr), h8⟩
    · intro b hb n hn
      obtain ⟨first, kb, hf, rfl⟩ := firstMerged_exists ht keysToMove.names hb
      obtain ⟨hfm, hbm⟩ := FirstMergedWith.mem ht hf
      rw [(ht.consistent _ hbm _ hfm).properties]
      exact (h6 first kb hf).fresh n hn
    · intro b hb
      obtain ⟨first, kb, hf, rfl⟩ := firstMerged_exists ht keysToMove.names hb
      have hpw := (BasicValid.wf (ht.blocks _ hb).values).properties
      have hpos := (h6 first kb hf).nonempty (toMerge t.keys.names keysToMove.names kb) (FirstMergedWith.self_mem ht hf)
      exact ⟨_, Labels.Holds.index_eq hpw hpos⟩
    · intro first kb hf
      exact ((h6 first kb hf).same _ (FirstMergedWith.self_mem ht hf)).1
    · intro he first kb hf
      rw [entriesOf_wf h1] at he
      exact ((h6 first kb hf).same _ (FirstMergedWith.self_mem ht hf)).2 (userKeys_isSome.2 he)
  · intro hc
    have h1 := hwf.2 hc.someName
    refine ⟨h1, hc.names, (hmerge h1 hc.names).2 ⟨hc.something, ?_⟩⟩
    intro first kb hf
    obtain ⟨hfm, hbm⟩ := FirstMergedWith.mem ht hf
    refine ⟨hc.fresh _ hfm, ?_, ?_, ?_⟩
    · intro kb' hkb'
      obtain ⟨kb₀, hf₀, rfl, _⟩ := (FirstMergedWith.member ht hf).1 hkb'
      refine ⟨hc.components first kb₀ hf₀, fun hu => hc.properties ?_ first kb₀ hf₀⟩
      rw [entriesOf_wf h1]
      exact userKeys_isSome.1 hu
    · intro kb' hkb'
      obtain ⟨kb₀, hf₀, rfl, _⟩ := (FirstMergedWith.member ht hf).1 hkb'
      have hb₀ := (FirstMergedWith.mem ht hf₀).2
      have hpw := (BasicValid.wf (ht.blocks _ hb₀).values).properties
      obtain ⟨p, hp⟩ := hc.someProperty _ hb₀
      by_contra hn
      unfold EntryAt at hp
      rw [Labels.Holds.index_panic hpw hn] at hp
      cases hp
    · exact fun q g hg => hgrad.2 ⟨fun hd first kb hf hl => hc.gradients hd first kb hf ((hreq h1 _).2 hl), hc.usable⟩
        first kb hf q g hg

theorem keysToProperties_succeeds_iff_checked (h : Implements view) {build : Build} {hash : HashOrder} {keysToMove : Labels}
    {sort : Bool} {t : TensorMap A} (ht : TensorValid t) (hm : keysToMove.FromBuilder)
    (hcomp : build.debug = true ∨ GradientSizesAgree t keysToMove.names)
    (hfit : SamplesFit t keysToMove.names) :
    (∃ t', t.keysToProperties build hash keysToMove sort = (t', .ok ())) ↔ CanMoveToProperties build t keysToMove :=
  keysToProperties_succeeds_iff_moves h ht hm (fun hw hs key' => groupMoves_of_sizes h
    (group_ok ht (Labels.Holds.names_ok hw).2 hs key')
    (hcomp.imp_right fun hc => groupSizesAgree ht hc key')) hfit

/-- If the components of gradients agree, it does not matter whether they are checked. -/
theorem componentsEqual_of_agree {t : TensorMap A} {moved : List String} (hc : GradientComponentsAgree t moved)
    {first kb : List LabelValue × TensorBlock A} (hf : FirstMergedWith t moved first kb) :
    GradientComponentsEqual kb.2 first.2 := by
  obtain ⟨pairs, h1, h2, h3⟩ := hf
  intro q g g' hg hg'
  exact hc pairs h1 _ q kb (List.mem_filter.2 ⟨h2, by simp⟩) first (List.mem_of_mem_head? h3) g g' hg hg'

theorem keysToSamples_succeeds_iff (h : Implements view) {build : Build} {hash : HashOrder} {keysToMove : Labels}
    {sort : Bool} {t : TensorMap A} (ht : TensorValid t) (hm : keysToMove.FromBuilder)
    (hcomp : build.debug = true ∨ GradientComponentsAgree t keysToMove.names)
    (hfit : SamplesFit t keysToMove.names) :
    (∃ t', t.keysToSamples build hash keysToMove sort = (t', .ok ())) ↔ CanMoveToSamples ⟨true⟩ t keysToMove := by
  rw [keysToSamples_succeeds_iff_checked h ht hm (hcomp.imp_right GradientComponentsAgree.sizes) hfit]
  constructor
  · rintro ⟨h1, h2, h3, h4, h5, h6, h7, h8⟩
    refine ⟨h1, h2, h3, h4, h5, h6, fun _ first kb hf => ?_, h8⟩
    exact hcomp.elim (fun hd => h7 hd first kb hf) fun hc => componentsEqual_of_agree hc hf
  · rintro ⟨h1, h2, h3, h4, h5, h6, h7, h8⟩
    exact ⟨h1, h2, h3, h4, h5, h6, fun _ => h7 rfl, h8⟩

theorem keysToProperties_succeeds_iff (h : Implements view) {build : Build} {hash : HashOrder} {keysToMove : Labels}
    {sort : Bool} {t : TensorMap A} (ht : TensorValid t) (hm : keysToMove.FromBuilder)
    (hcomp : build.debug = true ∨ GradientComponentsAgree t keysToMove.names)
    (hfit : SamplesFit t keysToMove.names) :
    (∃ t', t.keysToProperties build hash keysToMove sort = (t', .ok ())) ↔
      CanMoveToProperties ⟨true⟩ t keysToMove := by
  rw [keysToProperties_succeeds_iff_checked h ht hm (hcomp.imp_right GradientComponentsAgree.sizes) hfit]
  constructor
  · rintro ⟨h1, h2, h3, h4, h5, h6, h7, h8, h9⟩
    refine ⟨h1, h2, h3, h4, h5, h6, h7, fun _ first kb hf hr => ?_, h9⟩
    exact hcomp.elim (fun hd => h8 hd first kb hf hr) fun hc => componentsEqual_of_agree hc hf
  · rintro ⟨h1, h2, h3, h4, h5, h6, h7, h8, h9⟩
    exact ⟨h1, h2, h3, h4, h5, h6, h7, fun _ => h8 rfl, h9⟩

end Equistore
