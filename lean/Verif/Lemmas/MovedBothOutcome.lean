import Verif.Lemmas.MovedBothSame

/-!
# When keys can be moved to samples and other keys to properties
-/

namespace Equistore
open Spec NdArray

/-- What is needed to move keys to samples, then others to properties. -/
structure CanMoveBoth (t : TensorMap NdArray) (S P : List String) : Prop where
  names : ∀ n, n ∈ S ∨ n ∈ P → n ∈ t.keys.names
  something : t.blocks ≠ [] ∨ ∃ n ∈ t.keys.names, n ∉ S ∧ n ∉ P
  freshSamples : ∀ b ∈ t.blocks, ∀ n ∈ S, n ∉ b.values.samples.names
  freshProperties : ∀ b ∈ t.blocks, ∀ n ∈ P, n ∉ b.values.properties.names
  someProperty : ∀ b ∈ t.blocks, ∃ p, EntryAt b.values.properties 0 p
  alike : AllAlikeP t (S ++ P)
  properties : ∀ a ∈ t.keys.rows.zip t.blocks, ∀ b ∈ t.keys.rows.zip t.blocks,
    remainingKey t.keys.names S a.1 = remainingKey t.keys.names S b.1 → a.2.values.properties = b.2.values.properties
  usable : ∀ b ∈ t.blocks, GradientsUsable b

section
variable {t t₁ : TensorMap NdArray} {S P : Labels} {sort₁ : Bool} (ht : TensorValid t)
  (hd : ∀ n ∈ S.names, n ∉ P.names) (hcS : S.count = .ok 0) (hS : S.names ≠ []) (hP : P.names ≠ [])

omit ht in
include hd hP in
theorem filter_samples_ne_nil (hn : ∀ n ∈ P.names, n ∈ t.keys.names) :
    t.keys.names.filter (fun n => !S.names.contains n) ≠ [] := by
  obtain ⟨n, hn2⟩ := List.exists_mem_of_ne_nil _ hP
  refine List.ne_nil_of_mem (a := n) (List.mem_filter.2 ⟨hn n hn2, ?_⟩)
  simp only [Bool.not_eq_true', List.contains_eq_mem, decide_eq_false_iff_not]
  exact fun h1 => hd n h1 hn2

omit ht in
include hd hS in
theorem filter_properties_ne_nil (hn : ∀ n ∈ S.names, n ∈ t.keys.names) :
    t.keys.names.filter (fun n => !P.names.contains n) ≠ [] := by
  obtain ⟨n, hn2⟩ := List.exists_mem_of_ne_nil _ hS
  refine List.ne_nil_of_mem (a := n) (List.mem_filter.2 ⟨hn n hn2, ?_⟩)
  simp only [Bool.not_eq_true', List.contains_eq_mem, decide_eq_false_iff_not]
  exact fun h1 => hd n hn2 h1

omit ht in
include hd hP hcS in
theorem CanMoveBoth.samples (h : CanMoveBoth t S.names P.names) : CanMove t S := by
  have hf := filter_samples_ne_nil hd hP fun n hn => h.names n (.inr hn)
  refine ⟨hcS, fun n hn => h.names n (.inl hn), .inr ?_, h.freshSamples, ?_, h.usable⟩
  · obtain ⟨n, hn2⟩ := List.exists_mem_of_ne_nil _ hP
    exact ⟨n, h.names n (.inr hn2), fun h1 => hd n h1 hn2⟩
  · intro a ha b hb hab
    have := h.alike a ha b hb (by rw [← remainingKey_of hf, hab, remainingKey_of hf])
    exact ⟨this.components, h.properties a ha b hb hab, this.gradients⟩

include ht hd hP in
theorem CanMoveBoth.afterSamples (h : CanMoveBoth t S.names P.names) (h₁ : MovedToSamples S.names sort₁ t t₁) :
    CanMoveP t₁ P := by
  have hf := filter_samples_ne_nil hd hP fun n hn => h.names n (.inr hn)
  have hnames : t₁.keys.names = t.keys.names.filter fun n => !S.names.contains n := by
    rw [h₁.keyNames]; simp only [remainingNames, if_neg hf]
  refine ⟨hP, ?_, ?_, ?_, ?_, ?_, ?_⟩
  · intro n hn2
    rw [hnames]
    refine List.mem_filter.2 ⟨h.names n (.inr hn2), ?_⟩
    simp only [Bool.not_eq_true', List.contains_eq_mem, decide_eq_false_iff_not]
    exact fun h1 => hd n h1 hn2
  · rcases h.something with h3 | ⟨n, h3, h4⟩
    · left
      obtain ⟨b, hb⟩ := List.exists_mem_of_ne_nil _ h3
      obtain ⟨key, hkb⟩ := zip_block ht hb
      obtain ⟨kb₁, h5, _⟩ := h₁.above ht hkb
      exact List.ne_nil_of_mem (List.of_mem_zip (a := kb₁.1) (b := kb₁.2) h5).2
    · right
      exact ⟨n, by rw [hnames]; exact List.mem_filter.2 ⟨h3, by simpa using h4.1⟩, h4.2⟩
  · intro b₁ hb₁ n hn2
    obtain ⟨key₁, hkb₁⟩ := zip_block h₁.valid hb₁
    obtain ⟨hB, kb, hkb, hk⟩ := h₁.below ht hkb₁
    rw [(hB.labels kb ((mem_group (key := kb.1) (b := kb.2)).2 ⟨hkb, hk⟩)).2]
    exact h.freshProperties kb.2 (List.of_mem_zip (a := kb.1) (b := kb.2) hkb).2 n hn2
  · intro b₁ hb₁
    obtain ⟨key₁, hkb₁⟩ := zip_block h₁.valid hb₁
    obtain ⟨hB, kb, hkb, hk⟩ := h₁.below ht hkb₁
    rw [(hB.labels kb ((mem_group (key := kb.1) (b := kb.2)).2 ⟨hkb, hk⟩)).2]
    exact h.someProperty kb.2 (List.of_mem_zip (a := kb.1) (b := kb.2) hkb).2
  · intro a ha b hb hab
    obtain ⟨hBa, ka, hka, hka'⟩ := h₁.below ht ha
    obtain ⟨hBb, kb, hkb, hkb'⟩ := h₁.below ht hb
    have hga := (mem_group (key := ka.1) (b := ka.2)).2 ⟨hka, hka'⟩
    have hgb := (mem_group (key := kb.1) (b := kb.2)).2 ⟨hkb, hkb'⟩
    have hal := h.alike ka hka kb hkb (by
      rw [← remainingKey_of hf, ← remainingKey_of hf, hka', hkb', ← h₁.keyNames, hab])
    refine ⟨?_, ?_⟩
    · rw [(hBa.labels ka hga).1, (hBb.labels kb hgb).1, hal.components]
    · intro q g g' hg hg'
      have e1 := hBa.parameters ka hga q
      rw [hg] at e1
      have e2 := hBb.parameters kb hgb q
      rw [hg'] at e2
      obtain ⟨g₀, hg₀⟩ := Option.isSome_iff_exists.1 e1.symm
      obtain ⟨g₁, hg₁⟩ := Option.isSome_iff_exists.1 e2.symm
      rw [(hBa.gradientLabels ka hga q g₀ g hg₀ hg).2, (hBb.gradientLabels kb hgb q g₁ g' hg₁ hg').2]
      exact hal.gradients q g₀ g₁ hg₀ hg₁
  · intro b₁ hb₁
    obtain ⟨key₁, hkb₁⟩ := zip_block h₁.valid hb₁
    obtain ⟨hB, kb, hkb, hk⟩ := h₁.below ht hkb₁
    constructor
    · intro q g hg
      have e1 := hB.parameters kb ((mem_group (key := kb.1) (b := kb.2)).2 ⟨hkb, hk⟩) q
      rw [hg] at e1
      obtain ⟨g₀, hg₀⟩ := Option.isSome_iff_exists.1 e1.symm
      exact (h.usable kb.2 (List.of_mem_zip (a := kb.1) (b := kb.2) hkb).2).names q g₀ hg₀
    · intro q g hg r hr
      obtain ⟨_, _, _, _, _, _, v, v', rest, s, i, i', _, rfl, _, e1, _, e2⟩ := (hB.gradientSamples q g hg r).1 hr
      exact ⟨v', rest, i', _, rfl, e1, e2⟩

include ht hd hP in
theorem canMoveBoth_ofSamples (hnP : ∀ n ∈ P.names, n ∈ t.keys.names) (h₀ : CanMove t S)
    (h₁ : MovedToSamples S.names sort₁ t t₁) (h : CanMoveP t₁ P) :
    CanMoveBoth t S.names P.names := by
  have hf := filter_samples_ne_nil hd hP hnP
  have hnames : t₁.keys.names = t.keys.names.filter fun n => !S.names.contains n := by
    rw [h₁.keyNames]; simp only [remainingNames, if_neg hf]
  refine ⟨?_, ?_, h₀.fresh, ?_, ?_, ?_, fun a ha b hb hab => (h₀.alike a ha b hb hab).properties, h₀.usable⟩
  · rintro n (hn | hn)
    · exact h₀.names n hn
    · exact hnP n hn
  · rcases h.something with h3 | ⟨n, h3, h4⟩
    · left
      obtain ⟨b, hb⟩ := List.exists_mem_of_ne_nil _ h3
      obtain ⟨key, hkb⟩ := zip_block h₁.valid hb
      obtain ⟨_, kb, h5, _⟩ := h₁.below ht hkb
      exact List.ne_nil_of_mem (List.of_mem_zip (a := kb.1) (b := kb.2) h5).2
    · right
      rw [hnames] at h3
      obtain ⟨h5, h6⟩ := List.mem_filter.1 h3
      exact ⟨n, h5, by simpa using h6, h4⟩
  · intro b hb n hn2
    obtain ⟨key, hkb⟩ := zip_block ht hb
    obtain ⟨kb₁, h5, h6, hB⟩ := h₁.above ht hkb
    have := h.fresh kb₁.2 (List.of_mem_zip (a := kb₁.1) (b := kb₁.2) h5).2 n hn2
    rwa [(hB.labels (key, b) (mem_group.2 ⟨hkb, h6.symm⟩)).2] at this
  · intro b hb
    obtain ⟨key, hkb⟩ := zip_block ht hb
    obtain ⟨kb₁, h5, h6, hB⟩ := h₁.above ht hkb
    have := h.someProperty kb₁.2 (List.of_mem_zip (a := kb₁.1) (b := kb₁.2) h5).2
    rwa [(hB.labels (key, b) (mem_group.2 ⟨hkb, h6.symm⟩)).2] at this
  · intro a ha b hb hab
    obtain ⟨ka, hka, hka', hBa⟩ := h₁.above ht ha
    obtain ⟨kb, hkb, hkb', hBb⟩ := h₁.above ht hb
    have hga := (mem_group (key := a.1) (b := a.2)).2 ⟨ha, hka'.symm⟩
    have hgb := (mem_group (key := b.1) (b := b.2)).2 ⟨hb, hkb'.symm⟩
    have hal := h.alike ka hka kb hkb (by
      rw [hka', hkb', h₁.keyNames, remainingKey_of hf, remainingKey_of hf, hab])
    refine ⟨?_, ?_⟩
    · rw [← (hBa.labels a hga).1, ← (hBb.labels b hgb).1, hal.components]
    · intro q g g' hg hg'
      have e1 := hBa.parameters a hga q
      rw [hg] at e1
      have e2 := hBb.parameters b hgb q
      rw [hg'] at e2
      obtain ⟨g₀, hg₀⟩ := Option.isSome_iff_exists.1 e1
      obtain ⟨g₁, hg₁⟩ := Option.isSome_iff_exists.1 e2
      rw [← (hBa.gradientLabels a hga q g g₀ hg hg₀).2, ← (hBb.gradientLabels b hgb q g' g₁ hg' hg₁).2]
      exact hal.gradients q g₀ g₁ hg₀ hg₁

/-- What the properties of a block merged along properties are made of. -/
def pieces (names P : List String) (pairs : List (List LabelValue × TensorBlock NdArray)) (key' : List LabelValue) :
    List (List LabelValue × List (List LabelValue)) :=
  (group names P pairs key').map fun kb => (movedKey names P kb.1, entriesOf kb.2.values.properties)

omit ht in
theorem Spec.MovedToPropertiesInOrder.pieces_eq {m : List String} (ht : TensorValid t)
    (h₁ : MovedToPropertiesInOrder m sort₁ t t₁) {kb₁ : List LabelValue × TensorBlock NdArray}
    (hkb₁ : kb₁ ∈ t₁.keys.rows.zip t₁.blocks) :
    entriesOf kb₁.2.values.properties =
      (pieces t.keys.names m (t.keys.rows.zip t.blocks) kb₁.1).flatMap fun x => x.2.map (x.1 ++ ·) := by
  rw [h₁.propertyOrder _ _ ht.iter_eq h₁.valid.iter_eq _ hkb₁, pieces, List.flatMap_map]

include ht in
theorem pieces_unique {m : List String} (hsome : ∀ b ∈ t.blocks, ∃ p, EntryAt b.values.properties 0 p)
    {key key' : List LabelValue}
    (h : (pieces t.keys.names m (t.keys.rows.zip t.blocks) key).flatMap (fun x => x.2.map (x.1 ++ ·)) =
      (pieces t.keys.names m (t.keys.rows.zip t.blocks) key').flatMap (fun x => x.2.map (x.1 ++ ·))) :
    pieces t.keys.names m (t.keys.rows.zip t.blocks) key = pieces t.keys.names m (t.keys.rows.zip t.blocks) key' := by
  have hlen : ∀ kb ∈ t.keys.rows.zip t.blocks, kb.1.length = t.keys.names.length := fun kb hkb =>
    Labels.Holds.row_length ht.keys_wf _ (List.of_mem_zip (a := kb.1) (b := kb.2) hkb).1
  have hw : ∀ key, ∀ x ∈ pieces t.keys.names m (t.keys.rows.zip t.blocks) key,
      x.1.length = (t.keys.names.filter fun n => m.contains n).length ∧ x.2 ≠ [] := by
    intro key x hx
    obtain ⟨kb, hkb, rfl⟩ := List.mem_map.1 hx
    have hkb := (mem_group (key := kb.1) (b := kb.2)).1 hkb
    refine ⟨restrict_length (hlen kb hkb.1), ?_⟩
    have hb := (List.of_mem_zip (a := kb.1) (b := kb.2) hkb.1).2
    obtain ⟨p, hp⟩ := (someEntry (BasicValid.wf (ht.blocks _ hb).values).properties).1 (hsome kb.2 hb)
    exact List.ne_nil_of_mem hp
  have hn : ∀ key, ((pieces t.keys.names m (t.keys.rows.zip t.blocks) key).map Prod.fst).Nodup := by
    intro key
    rw [pieces, List.map_map]
    have hnd : ((t.keys.rows.zip t.blocks).map Prod.fst).Nodup := by
      rw [zip_keys ht]; exact Labels.Holds.nodup ht.keys_wf
    have hnd : ((group t.keys.names m (t.keys.rows.zip t.blocks) key).map Prod.fst).Nodup :=
      (List.Sublist.map _ List.filter_sublist).nodup hnd
    rw [List.nodup_iff_pairwise_ne, List.pairwise_map] at hnd ⊢
    refine hnd.imp_of_mem fun {a b} ha hb hab he => hab ?_
    have ha := (mem_group (key := a.1) (b := a.2)).1 ha
    have hb := (mem_group (key := b.1) (b := b.2)).1 hb
    exact key_ext (hlen a ha.1) (hlen b hb.1) (ha.2.trans hb.2.symm) he
  exact segments_unique h (fun x hx => (hw _ x hx).1) (fun x hx => (hw _ x hx).1) (fun x hx => (hw _ x hx).2)
    (fun x hx => (hw _ x hx).2) (hn _) (hn _)

include ht in
/-- The combinations of moved values, from the pieces. -/
theorem pieces_fst {m : List String} (key' : List LabelValue) :
    (pieces t.keys.names m (t.keys.rows.zip t.blocks) key').map Prod.fst =
      ((entriesOf t.keys).filter fun k => remainingKey t.keys.names m k = key').map (movedKey t.keys.names m) := by
  have : entriesOf t.keys = (t.keys.rows.zip t.blocks).map Prod.fst := by rw [entriesOf_eq ht.keys_wf, zip_keys ht]
  rw [pieces, List.map_map, this, List.filter_map, List.map_map]
  rfl

omit ht in
include hd hS in
theorem CanMoveBoth.toProperties (hP : P.names ≠ []) (h : CanMoveBoth t S.names P.names) : CanMoveP t P := by
  have hf := filter_properties_ne_nil hd hS fun n hn => h.names n (.inl hn)
  refine ⟨hP, fun n hn => h.names n (.inr hn), .inr ?_, h.freshProperties, h.someProperty, ?_, h.usable⟩
  · obtain ⟨n, hn2⟩ := List.exists_mem_of_ne_nil _ hS
    exact ⟨n, h.names n (.inl hn2), fun h1 => hd n hn2 h1⟩
  · intro a ha b hb hab
    exact h.alike a ha b hb (by
      rw [remainingKey_swap, ← remainingKey_of hf, hab, remainingKey_of hf, remainingKey_swap])

include ht hd hS hP hcS in
theorem CanMoveBoth.afterProperties (h : CanMoveBoth t S.names P.names) (hcomb : SameCombinations t S.names P.names)
    (h₁ : MovedToPropertiesInOrder P.names sort₁ t t₁) : CanMove t₁ S := by
  have hf := filter_properties_ne_nil hd hS fun n hn => h.names n (.inl hn)
  have hf' := filter_samples_ne_nil hd hP fun n hn => h.names n (.inr hn)
  have hnames : t₁.keys.names = t.keys.names.filter fun n => !P.names.contains n := by
    rw [h₁.keyNames]; simp only [remainingNames, if_neg hf]
  have hlen : ∀ kb ∈ t.keys.rows.zip t.blocks, kb.1.length = t.keys.names.length := fun kb hkb =>
    Labels.Holds.row_length ht.keys_wf _ (List.of_mem_zip (a := kb.1) (b := kb.2) hkb).1
  refine ⟨hcS, ?_, ?_, ?_, ?_, ?_⟩
  · intro n hn2
    rw [hnames]
    refine List.mem_filter.2 ⟨h.names n (.inl hn2), ?_⟩
    simp only [Bool.not_eq_true', List.contains_eq_mem, decide_eq_false_iff_not]
    exact fun h1 => hd n hn2 h1
  · rcases h.something with h3 | ⟨n, h3, h4⟩
    · left
      obtain ⟨b, hb⟩ := List.exists_mem_of_ne_nil _ h3
      obtain ⟨key, hkb⟩ := zip_block ht hb
      obtain ⟨kb₁, h5, _⟩ := h₁.above ht hkb
      exact List.ne_nil_of_mem (List.of_mem_zip (a := kb₁.1) (b := kb₁.2) h5).2
    · right
      exact ⟨n, by rw [hnames]; exact List.mem_filter.2 ⟨h3, by simpa using h4.2⟩, h4.1⟩
  · intro b₁ hb₁ n hn2
    obtain ⟨key₁, hkb₁⟩ := zip_block h₁.valid hb₁
    obtain ⟨hB, kb, hkb, hk⟩ := h₁.below ht hkb₁
    rw [hB.sampleNames kb ((mem_group (key := kb.1) (b := kb.2)).2 ⟨hkb, hk⟩)]
    exact h.freshSamples kb.2 (List.of_mem_zip (a := kb.1) (b := kb.2) hkb).2 n hn2
  · intro a ha b hb hab
    obtain ⟨hBa, ka, hka, hka'⟩ := h₁.below ht ha
    obtain ⟨hBb, kb, hkb, hkb'⟩ := h₁.below ht hb
    have hga := (mem_group (key := ka.1) (b := ka.2)).2 ⟨hka, hka'⟩
    have hgb := (mem_group (key := kb.1) (b := kb.2)).2 ⟨hkb, hkb'⟩
    have hrem : remainingKey t.keys.names (S.names ++ P.names) ka.1 =
        remainingKey t.keys.names (S.names ++ P.names) kb.1 := by
      rw [remainingKey_swap, ← remainingKey_of hf, remainingKey_swap, ← remainingKey_of hf, hka', hkb', ← h₁.keyNames, hab]
    have hal := h.alike ka hka kb hkb hrem
    refine ⟨?_, ?_, ?_⟩
    · rw [hBa.components ka hga, hBb.components kb hgb, hal.components]
    · -- the same combinations, with the same properties
      have hc := hcomb ka.1 (by rw [entriesOf_eq ht.keys_wf]; exact (List.of_mem_zip (a := ka.1) (b := ka.2) hka).1)
        kb.1 (by rw [entriesOf_eq ht.keys_wf]; exact (List.of_mem_zip (a := kb.1) (b := kb.2) hkb).1) hrem
      rw [hka', hkb', ← pieces_fst ht, ← pieces_fst ht] at hc
      have hpieces : pieces t.keys.names P.names (t.keys.rows.zip t.blocks) a.1 =
          pieces t.keys.names P.names (t.keys.rows.zip t.blocks) b.1 := by
        rw [← List.forall₂_eq_eq_eq] at hc ⊢
        rw [List.forall₂_map_left_iff, List.forall₂_map_right_iff] at hc
        refine List.forall₂_iff_get.2 ⟨(List.forall₂_iff_get.1 hc).1, fun i h1 h2 => ?_⟩
        have hi := (List.forall₂_iff_get.1 hc).2 i h1 h2
        have hm1 := List.getElem_mem h1
        have hm2 := List.getElem_mem h2
        simp only [List.get_eq_getElem] at hi ⊢
        generalize (pieces t.keys.names P.names (t.keys.rows.zip t.blocks) a.1)[i] = x at *
        generalize (pieces t.keys.names P.names (t.keys.rows.zip t.blocks) b.1)[i] = y at *
        obtain ⟨u, hu, rfl⟩ := List.mem_map.1 hm1
        obtain ⟨v, hv, rfl⟩ := List.mem_map.1 hm2
        have hu' := (mem_group (key := u.1) (b := u.2)).1 hu
        have hv' := (mem_group (key := v.1) (b := v.2)).1 hv
        refine Prod.ext hi ?_
        have hsame : remainingKey t.keys.names S.names u.1 = remainingKey t.keys.names S.names v.1 := by
          have hl : ∀ kb ∈ t.keys.rows.zip t.blocks, (remainingKey t.keys.names S.names kb.1).length =
              (remainingNames t.keys.names S.names).length := by
            intro kb hkb
            simp only [remainingKey, remainingNames, if_neg hf']
            exact restrict_length (hlen kb hkb)
          refine key_ext (names := remainingNames t.keys.names S.names) (m := P.names) (hl u hu'.1) (hl v hv'.1) ?_ ?_
          · rw [remainingKey_of hf', remainingKey_of hf', remainingKey_swap, ← remainingKey_of hf, hu'.2,
              remainingKey_swap, ← remainingKey_of hf, hv'.2, ← h₁.keyNames, hab]
          · rw [movedKey_of hf' fun n h1 h2 => hd n h2 h1, movedKey_of hf' fun n h1 h2 => hd n h2 h1]
            exact hi
        show entriesOf u.2.values.properties = entriesOf v.2.values.properties
        rw [h.properties u hu'.1 v hv'.1 hsame]
      have hwa := (BasicValid.wf (zip_blocksValid h₁.valid a ha).values).properties
      have hwb := (BasicValid.wf (zip_blocksValid h₁.valid b hb).values).properties
      refine Labels.WF.ext hwa hwb ?_ ?_
      · have hpn : ka.2.values.properties.names = kb.2.values.properties.names :=
          (ht.consistent _ (List.of_mem_zip (a := ka.1) (b := ka.2) hka).2 _
            (List.of_mem_zip (a := kb.1) (b := kb.2) hkb).2).properties
        rw [hBa.propertyNames ka hga, hBb.propertyNames kb hgb, hpn]
      · rw [← entriesOf_eq hwa, ← entriesOf_eq hwb, h₁.pieces_eq ht ha, h₁.pieces_eq ht hb, hpieces]
    · intro q g g' hg hg'
      have e1 := hBa.parameters ka hga q
      rw [hg] at e1
      have e2 := hBb.parameters kb hgb q
      rw [hg'] at e2
      obtain ⟨g₀, hg₀⟩ := Option.isSome_iff_exists.1 e1.symm
      obtain ⟨g₁, hg₁⟩ := Option.isSome_iff_exists.1 e2.symm
      rw [(hBa.gradientLabels ka hga q g₀ g hg₀ hg).2, (hBb.gradientLabels kb hgb q g₁ g' hg₁ hg').2]
      exact hal.gradients q g₀ g₁ hg₀ hg₁
  · intro b₁ hb₁
    obtain ⟨key₁, hkb₁⟩ := zip_block h₁.valid hb₁
    obtain ⟨hB, kb, hkb, hk⟩ := h₁.below ht hkb₁
    constructor
    · intro q g hg
      have e1 := hB.parameters kb ((mem_group (key := kb.1) (b := kb.2)).2 ⟨hkb, hk⟩) q
      rw [hg] at e1
      obtain ⟨g₀, hg₀⟩ := Option.isSome_iff_exists.1 e1.symm
      exact (h.usable kb.2 (List.of_mem_zip (a := kb.1) (b := kb.2) hkb).2).names q g₀ hg₀
    · intro q g hg r hr
      obtain ⟨_, _, _, _, _, _, v, v', rest, s, i, i', _, rfl, _, e1, _, e2⟩ := (hB.gradientSamples q g hg r).1 hr
      exact ⟨v', rest, i', _, rfl, e1, e2⟩

include ht hd hS in
theorem canMoveBoth_ofProperties (hnS : ∀ n ∈ S.names, n ∈ t.keys.names) (h₀ : CanMoveP t P)
    (h₁ : MovedToPropertiesInOrder P.names sort₁ t t₁) (h : CanMove t₁ S) :
    CanMoveBoth t S.names P.names ∧ SameCombinations t S.names P.names := by
  have hP := h₀.someName
  have hf := filter_properties_ne_nil hd hS hnS
  have hf' := filter_samples_ne_nil hd hP h₀.names
  have hnames : t₁.keys.names = t.keys.names.filter fun n => !P.names.contains n := by
    rw [h₁.keyNames]; simp only [remainingNames, if_neg hf]
  have hlen : ∀ kb ∈ t.keys.rows.zip t.blocks, kb.1.length = t.keys.names.length := fun kb hkb =>
    Labels.Holds.row_length ht.keys_wf _ (List.of_mem_zip (a := kb.1) (b := kb.2) hkb).1
  -- blocks merged in the end have the same pieces
  have hpieces : ∀ a ∈ t.keys.rows.zip t.blocks, ∀ b ∈ t.keys.rows.zip t.blocks,
      remainingKey t.keys.names (S.names ++ P.names) a.1 = remainingKey t.keys.names (S.names ++ P.names) b.1 →
      pieces t.keys.names P.names (t.keys.rows.zip t.blocks) (remainingKey t.keys.names P.names a.1) =
        pieces t.keys.names P.names (t.keys.rows.zip t.blocks) (remainingKey t.keys.names P.names b.1) := by
    intro a ha b hb hab
    obtain ⟨ka, hka, hka', hBa⟩ := h₁.above ht ha
    obtain ⟨kb, hkb, hkb', hBb⟩ := h₁.above ht hb
    have hal := h.alike ka hka kb hkb (by
      rw [hka', hkb', h₁.keyNames, remainingKey_of hf, remainingKey_of hf, remainingKey_swap, hab, remainingKey_swap])
    refine pieces_unique ht h₀.someProperty ?_
    rw [← hka', ← hkb', ← h₁.pieces_eq ht hka, ← h₁.pieces_eq ht hkb, hal.properties]
  refine ⟨⟨?_, ?_, ?_, h₀.fresh, h₀.someProperty, ?_, ?_, h₀.usable⟩, ?_⟩
  · rintro n (hn | hn)
    · exact hnS n hn
    · exact h₀.names n hn
  · rcases h.something with h3 | ⟨n, h3, h4⟩
    · left
      obtain ⟨b, hb⟩ := List.exists_mem_of_ne_nil _ h3
      obtain ⟨key, hkb⟩ := zip_block h₁.valid hb
      obtain ⟨_, kb, h5, _⟩ := h₁.below ht hkb
      exact List.ne_nil_of_mem (List.of_mem_zip (a := kb.1) (b := kb.2) h5).2
    · right
      rw [hnames] at h3
      obtain ⟨h5, h6⟩ := List.mem_filter.1 h3
      exact ⟨n, h5, h4, by simpa using h6⟩
  · intro b hb n hn2
    obtain ⟨key, hkb⟩ := zip_block ht hb
    obtain ⟨kb₁, h5, h6, hB⟩ := h₁.above ht hkb
    have := h.fresh kb₁.2 (List.of_mem_zip (a := kb₁.1) (b := kb₁.2) h5).2 n hn2
    rwa [hB.sampleNames (key, b) (mem_group.2 ⟨hkb, h6.symm⟩)] at this
  · intro a ha b hb hab
    obtain ⟨ka, hka, hka', hBa⟩ := h₁.above ht ha
    obtain ⟨kb, hkb, hkb', hBb⟩ := h₁.above ht hb
    have hga := (mem_group (key := a.1) (b := a.2)).2 ⟨ha, hka'.symm⟩
    have hgb := (mem_group (key := b.1) (b := b.2)).2 ⟨hb, hkb'.symm⟩
    have hal := h.alike ka hka kb hkb (by
      rw [hka', hkb', h₁.keyNames, remainingKey_of hf, remainingKey_of hf, remainingKey_swap, hab, remainingKey_swap])
    refine ⟨?_, ?_⟩
    · rw [← hBa.components a hga, ← hBb.components b hgb, hal.components]
    · intro q g g' hg hg'
      have e1 := hBa.parameters a hga q
      rw [hg] at e1
      have e2 := hBb.parameters b hgb q
      rw [hg'] at e2
      obtain ⟨g₀, hg₀⟩ := Option.isSome_iff_exists.1 e1
      obtain ⟨g₁, hg₁⟩ := Option.isSome_iff_exists.1 e2
      rw [← (hBa.gradientLabels a hga q g g₀ hg hg₀).2, ← (hBb.gradientLabels b hgb q g' g₁ hg' hg₁).2]
      exact hal.gradients q g₀ g₁ hg₀ hg₁
  · intro a ha b hb hab
    have hp := hpieces a ha b hb (by rw [← remainingKey_of hf', hab, remainingKey_of hf'])
    have hmem : (movedKey t.keys.names P.names a.1, entriesOf a.2.values.properties) ∈
        pieces t.keys.names P.names (t.keys.rows.zip t.blocks) (remainingKey t.keys.names P.names a.1) :=
      List.mem_map.2 ⟨a, (mem_group (key := a.1) (b := a.2)).2 ⟨ha, rfl⟩, rfl⟩
    rw [hp] at hmem
    obtain ⟨c, hc, hc'⟩ := List.mem_map.1 hmem
    have hc := (mem_group (key := c.1) (b := c.2)).1 hc
    obtain ⟨e1, e2⟩ := Prod.mk.inj hc'
    have hmoved : movedKey t.keys.names P.names a.1 = movedKey t.keys.names P.names b.1 := by
      rw [← movedKey_of hf' fun n h1 h2 => hd n h2 h1, hab, movedKey_of hf' fun n h1 h2 => hd n h2 h1]
    have hcb : c.1 = b.1 := key_ext (hlen c hc.1) (hlen b hb) hc.2 (e1.trans hmoved)
    have hcb : c = b := by
      have hnd : ((t.keys.rows.zip t.blocks).map Prod.fst).Nodup := by
        rw [zip_keys ht]; exact Labels.Holds.nodup ht.keys_wf
      exact List.inj_on_of_nodup_map hnd hc.1 hb hcb
    rw [hcb] at e2
    have ha' := (List.of_mem_zip (a := a.1) (b := a.2) ha).2
    have hb' := (List.of_mem_zip (a := b.1) (b := b.2) hb).2
    have hwa := (BasicValid.wf (ht.blocks _ ha').values).properties
    have hwb := (BasicValid.wf (ht.blocks _ hb').values).properties
    refine Labels.WF.ext hwa hwb (ht.consistent _ ha' _ hb').properties ?_
    rw [← entriesOf_eq hwa, ← entriesOf_eq hwb, e2]
  · intro key hk key' hk' he
    rw [entriesOf_eq ht.keys_wf] at hk hk'
    obtain ⟨b, hb⟩ := zip_mem_of ht.length_eq hk
    obtain ⟨b', hb'⟩ := zip_mem_of ht.length_eq hk'
    have := hpieces (key, b) hb (key', b') hb' he
    rw [← pieces_fst ht, ← pieces_fst ht, this]

end

end Equistore
