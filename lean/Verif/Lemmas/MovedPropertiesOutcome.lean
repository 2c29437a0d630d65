import Verif.Lemmas.MovedPropertiesTwice

/-!
# When moving keys to properties twice succeeds, and moving them for any kind of array
-/

namespace Equistore
open Spec NdArray

theorem entriesOf_of_count {l : Labels} (hm : l.FromBuilder) (h : l.count = .ok 0) : entriesOf l = [] := by
  have hne : l.names ≠ [] := by
    intro he
    simp [Labels.count, Labels.size, Res.assert, he] at h
  have hw := hm.wf hne
  rw [hw.count_eq, Res.ok.injEq] at h
  rw [entriesOf_eq hw]
  exact List.length_eq_zero_iff.1 h

section
variable {A : Type} [ArrayLike A]

/-- Two blocks can be merged along properties. -/
structure AlikeP (a b : TensorBlock A) : Prop where
  components : a.values.components = b.values.components
  gradients : GradientComponentsEqual a b

/-- Blocks which are merged together can be merged. -/
def AllAlikeP (t : TensorMap A) (moved : List String) : Prop :=
  ∀ a ∈ t.keys.rows.zip t.blocks, ∀ b ∈ t.keys.rows.zip t.blocks,
    remainingKey t.keys.names moved a.1 = remainingKey t.keys.names moved b.1 → AlikeP a.2 b.2

/-- The conditions of `CanMoveToProperties` without entries and without reference to the first block. -/
structure CanMoveP (t : TensorMap A) (keysToMove : Labels) : Prop where
  someName : keysToMove.names ≠ []
  names : ∀ n ∈ keysToMove.names, n ∈ t.keys.names
  something : t.blocks ≠ [] ∨ ∃ n ∈ t.keys.names, n ∉ keysToMove.names
  fresh : ∀ b ∈ t.blocks, ∀ n ∈ keysToMove.names, n ∉ b.values.properties.names
  someProperty : ∀ b ∈ t.blocks, ∃ p, EntryAt b.values.properties 0 p
  alike : AllAlikeP t keysToMove.names
  usable : ∀ b ∈ t.blocks, GradientsUsable b

theorem canMoveP_iff {t : TensorMap A} (ht : TensorValid t) {keysToMove : Labels} (hno : entriesOf keysToMove = []) :
    CanMoveToProperties ⟨true⟩ t keysToMove ↔ CanMoveP t keysToMove := by
  have hblock : ∀ kb ∈ t.keys.rows.zip t.blocks, kb.2 ∈ t.blocks := fun kb h =>
    (List.of_mem_zip (a := kb.1) (b := kb.2) h).2
  constructor
  · rintro ⟨h1, h2, h3, h4, hp, h5, -, h7, h8⟩
    refine ⟨h1, h2, h3, h4, hp, ?_, h8⟩
    intro a ha b hb hab
    have hmem : a ∈ group t.keys.names keysToMove.names (t.keys.rows.zip t.blocks)
        (remainingKey t.keys.names keysToMove.names a.1) := List.mem_filter.2 ⟨ha, by simp⟩
    obtain ⟨first, hf⟩ : ∃ first, (group t.keys.names keysToMove.names (t.keys.rows.zip t.blocks)
        (remainingKey t.keys.names keysToMove.names a.1)).head? = some first := by
      cases hl : group t.keys.names keysToMove.names (t.keys.rows.zip t.blocks)
        (remainingKey t.keys.names keysToMove.names a.1) with
      | nil => rw [hl] at hmem; cases hmem
      | cons c l => exact ⟨c, rfl⟩
    have hfa : FirstMergedWith t keysToMove.names first a := ⟨_, ht.iter_eq, ha, hf⟩
    have hfb : FirstMergedWith t keysToMove.names first b := ⟨_, ht.iter_eq, hb, by rw [← hab]; exact hf⟩
    refine ⟨(h5 _ _ hfa).trans (h5 _ _ hfb).symm, ?_⟩
    intro q g g' hg hg'
    have hsome := (ht.consistent _ (hblock a ha) _ (FirstMergedWith.mem ht hfa).1).parameters q
    rw [hg] at hsome
    obtain ⟨gf, hgf⟩ := Option.isSome_iff_exists.1 hsome.symm
    exact (h7 rfl _ _ hfa (.inl hno) q g gf hg hgf).trans (h7 rfl _ _ hfb (.inl hno) q g' gf hg' hgf).symm
  · rintro ⟨h1, h2, h3, h4, hp, h5, h6⟩
    have hal : ∀ first kb, FirstMergedWith t keysToMove.names first kb → AlikeP kb.2 first.2 := by
      rintro first kb ⟨pairs, e1, e2, e3⟩
      rw [ht.iter_eq, Res.ok.injEq] at e1
      subst e1
      have e4 := (mem_group (key := first.1) (b := first.2)).1 (List.mem_of_mem_head? e3)
      exact h5 kb e2 first e4.1 e4.2.symm
    exact ⟨h1, h2, h3, h4, hp, fun f k h => (hal f k h).components, fun he => absurd hno he,
      fun _ f k h _ => (hal f k h).gradients, h6⟩

end

section
variable {A B : Type} [ArrayLike A] [ArrayLike B]

theorem gradientsUsable_map (f : A → B) (b : TensorBlock A) :
    GradientsUsable (b.mapData f) ↔ GradientsUsable b := by
  constructor
  · rintro ⟨h1, h2⟩
    refine ⟨fun q g hg => h1 q (g.mapData f) (by simp [hg]), fun q g hg => h2 q (g.mapData f) (by simp [hg])⟩
  · rintro ⟨h1, h2⟩
    constructor
    · intro q g hg
      rw [TensorBlock.mapData_gradient, Option.map_eq_some_iff] at hg
      obtain ⟨g₀, hg₀, rfl⟩ := hg
      exact h1 q g₀ hg₀
    · intro q g hg
      rw [TensorBlock.mapData_gradient, Option.map_eq_some_iff] at hg
      obtain ⟨g₀, hg₀, rfl⟩ := hg
      exact h2 q g₀ hg₀

theorem canMoveP_map (f : A → B) {t : TensorMap A} {keysToMove : Labels} :
    CanMoveP (t.mapData f) keysToMove ↔ CanMoveP t keysToMove := by
  have hal : ∀ a b : TensorBlock A, AlikeP (a.mapData f) (b.mapData f) ↔ AlikeP a b := by
    intro a b
    constructor
    · rintro ⟨h1, h3⟩
      exact ⟨h1, fun q g g' hg hg' => h3 q (g.mapData f) (g'.mapData f) (by simp [hg]) (by simp [hg'])⟩
    · rintro ⟨h1, h3⟩
      refine ⟨h1, fun q g g' hg hg' => ?_⟩
      rw [TensorBlock.mapData_gradient, Option.map_eq_some_iff] at hg hg'
      obtain ⟨g₀, hg₀, rfl⟩ := hg
      obtain ⟨g₁, hg₁, rfl⟩ := hg'
      exact h3 q g₀ g₁ hg₀ hg₁
  have hall : AllAlikeP (t.mapData f) keysToMove.names ↔ AllAlikeP t keysToMove.names := by
    unfold AllAlikeP
    rw [TensorMap.mapData_keys, TensorMap.mapData_blocks, zip_mapData]
    simp only [List.forall_mem_map, mapPair, hal]
  have hb : (t.mapData f).blocks ≠ [] ↔ t.blocks ≠ [] := by simp
  constructor
  · rintro ⟨h1, h2, h3, h4, hp, h5, h6⟩
    refine ⟨h1, h2, h3.imp_left hb.1, fun b hb => h4 _ (List.mem_map_of_mem hb),
      fun b hb => hp _ (List.mem_map_of_mem hb), hall.1 h5,
      fun b hb => (gradientsUsable_map f b).1 (h6 _ (List.mem_map_of_mem hb))⟩
  · rintro ⟨h1, h2, h3, h4, hp, h5, h6⟩
    refine ⟨h1, h2, h3.imp_left hb.2, ?_, ?_, hall.2 h5, ?_⟩
    · intro b hb
      obtain ⟨b₀, hb₀, rfl⟩ := List.mem_map.1 hb
      exact h4 b₀ hb₀
    · intro b hb
      obtain ⟨b₀, hb₀, rfl⟩ := List.mem_map.1 hb
      exact hp b₀ hb₀
    · intro b hb
      obtain ⟨b₀, hb₀, rfl⟩ := List.mem_map.1 hb
      exact (gradientsUsable_map f b₀).2 (h6 b₀ hb₀)

end

theorem someEntry {l : Labels} (hl : l.WF) : (∃ p, EntryAt l 0 p) ↔ ∃ p, p ∈ entriesOf l := by
  constructor
  · rintro ⟨p, hp⟩
    rw [entryAt_iff hl] at hp
    exact ⟨p, by rw [entriesOf_eq hl]; exact List.mem_of_getElem? hp⟩
  · rintro ⟨p, hp⟩
    rw [entriesOf_eq hl] at hp
    exact ⟨_, (entryAt_iff hl).2 (List.getElem?_eq_getElem (List.length_pos_of_mem hp))⟩

section
variable {t t₁ : TensorMap NdArray} {M M₁ M₂ : Labels} {sort₁ : Bool}

/-- Blocks of the intermediate tensor map, and the blocks they come from. -/
theorem Spec.MovedToProperties.below {m₁ : List String} (ht : TensorValid t) (h : MovedToProperties m₁ sort₁ t t₁)
    {kb₁ : List LabelValue × TensorBlock NdArray} (hkb₁ : kb₁ ∈ t₁.keys.rows.zip t₁.blocks) :
    BlockMovedToProperties t.keys.names m₁ (t.keys.rows.zip t.blocks) kb₁.1 kb₁.2 ∧
    ∃ kb ∈ t.keys.rows.zip t.blocks, remainingKey t.keys.names m₁ kb.1 = kb₁.1 := by
  refine ⟨h.blocks _ _ ht.iter_eq h.valid.iter_eq _ hkb₁, ?_⟩
  have hkey : kb₁.1 ∈ entriesOf t₁.keys := by
    rw [entriesOf_eq h.valid.keys_wf]; exact (List.of_mem_zip (a := kb₁.1) (b := kb₁.2) hkb₁).1
  rw [h.keys.same, List.mem_map] at hkey
  obtain ⟨key, h3, h4⟩ := hkey
  rw [entriesOf_eq ht.keys_wf] at h3
  obtain ⟨b, hb⟩ := zip_mem_of ht.length_eq h3
  exact ⟨(key, b), hb, h4⟩

theorem Spec.MovedToProperties.above {m₁ : List String} (ht : TensorValid t) (h : MovedToProperties m₁ sort₁ t t₁)
    {kb : List LabelValue × TensorBlock NdArray} (hkb : kb ∈ t.keys.rows.zip t.blocks) :
    ∃ kb₁ ∈ t₁.keys.rows.zip t₁.blocks, kb₁.1 = remainingKey t.keys.names m₁ kb.1 ∧
      BlockMovedToProperties t.keys.names m₁ (t.keys.rows.zip t.blocks) kb₁.1 kb₁.2 := by
  have hk₁ : remainingKey t.keys.names m₁ kb.1 ∈ t₁.keys.rows := by
    rw [← entriesOf_eq h.valid.keys_wf, h.keys.same, entriesOf_eq ht.keys_wf]
    exact List.mem_map_of_mem (List.of_mem_zip (a := kb.1) (b := kb.2) hkb).1
  obtain ⟨b₁, hb₁⟩ := zip_mem_of h.valid.length_eq hk₁
  exact ⟨_, hb₁, rfl, h.blocks _ _ ht.iter_eq h.valid.iter_eq _ hb₁⟩

variable (ht : TensorValid t) (hM : M.names = M₂.names ++ M₁.names) (hs : M.names.Sublist t.keys.names)
  (h1 : M₁.names ≠ []) (h2 : M₂.names ≠ [])
include ht hM hs h2

include h1 in
theorem canMoveP_first (h : CanMoveP t M) : CanMoveP t M₁ := by
  have hn := (Labels.Holds.names_ok ht.keys_wf).2
  rw [hM] at hs
  have hd := (List.nodup_append.1 (hs.nodup hn)).2.2
  have hsub : ∀ n ∈ M₁.names, n ∈ M.names := fun n hn => by rw [hM]; exact List.mem_append_right _ hn
  refine ⟨h1, fun n hn => h.names n (hsub n hn), .inr ?_, fun b hb n hn => h.fresh b hb n (hsub n hn),
    h.someProperty, ?_, h.usable⟩
  · obtain ⟨n, hn2⟩ := List.exists_mem_of_ne_nil _ h2
    exact ⟨n, hs.subset (List.mem_append_left _ hn2), fun h1 => hd n hn2 n h1 rfl⟩
  · intro a ha b hb hab
    refine h.alike a ha b hb ?_
    rw [hM, ← remainingKey_back hn hs h2, hab, remainingKey_back hn hs h2]

theorem canMoveP_second (h : CanMoveP t M) (h₁ : MovedToProperties M₁.names sort₁ t t₁) : CanMoveP t₁ M₂ := by
  have hn := (Labels.Holds.names_ok ht.keys_wf).2
  rw [hM] at hs
  have hd := (List.nodup_append.1 (hs.nodup hn)).2.2
  have hf := filter_ne_nil_back hn hs h2
  have hnames : t₁.keys.names = t.keys.names.filter fun n => !M₁.names.contains n := by
    rw [h₁.keyNames]; simp only [remainingNames, if_neg hf]
  have hsub : ∀ n ∈ M₂.names, n ∈ M.names := fun n hn => by rw [hM]; exact List.mem_append_left _ hn
  refine ⟨h2, ?_, ?_, ?_, ?_, ?_, ?_⟩
  · intro n hn2
    rw [hnames]
    refine List.mem_filter.2 ⟨h.names n (hsub n hn2), ?_⟩
    simp only [Bool.not_eq_true', List.contains_eq_mem, decide_eq_false_iff_not]
    exact fun h1 => hd n hn2 n h1 rfl
  · rcases h.something with h3 | ⟨n, h3, h4⟩
    · left
      obtain ⟨b, hb⟩ := List.exists_mem_of_ne_nil _ h3
      obtain ⟨key, hkb⟩ := zip_block ht hb
      obtain ⟨kb₁, h5, _⟩ := h₁.above ht hkb
      exact List.ne_nil_of_mem (List.of_mem_zip (a := kb₁.1) (b := kb₁.2) h5).2
    · right
      rw [hM, List.mem_append, not_or] at h4
      exact ⟨n, by rw [hnames]; exact List.mem_filter.2 ⟨h3, by simpa using h4.2⟩, h4.1⟩
  · intro b₁ hb₁ n hn2
    obtain ⟨key₁, hkb₁⟩ := zip_block h₁.valid hb₁
    obtain ⟨hB, kb, hkb, hk⟩ := h₁.below ht hkb₁
    rw [hB.propertyNames kb ((mem_group (key := kb.1) (b := kb.2)).2 ⟨hkb, hk⟩), List.mem_append, not_or]
    exact ⟨fun h1 => hd n hn2 n h1 rfl,
      h.fresh kb.2 (List.of_mem_zip (a := kb.1) (b := kb.2) hkb).2 n (hsub n hn2)⟩
  · intro b₁ hb₁
    obtain ⟨key₁, hkb₁⟩ := zip_block h₁.valid hb₁
    obtain ⟨hB, kb, hkb, hk⟩ := h₁.below ht hkb₁
    have hb := (List.of_mem_zip (a := kb.1) (b := kb.2) hkb).2
    obtain ⟨p, hp⟩ := (someEntry (BasicValid.wf (ht.blocks _ hb).values).properties).1 (h.someProperty kb.2 hb)
    exact (someEntry (BasicValid.wf (h₁.valid.blocks _ hb₁).values).properties).2
      ⟨_, (hB.properties _).2 ⟨kb, (mem_group (key := kb.1) (b := kb.2)).2 ⟨hkb, hk⟩, p, hp, rfl⟩⟩
  · intro a ha b hb hab
    obtain ⟨hBa, ka, hka, hka'⟩ := h₁.below ht ha
    obtain ⟨hBb, kb, hkb, hkb'⟩ := h₁.below ht hb
    have hga := (mem_group (key := ka.1) (b := ka.2)).2 ⟨hka, hka'⟩
    have hgb := (mem_group (key := kb.1) (b := kb.2)).2 ⟨hkb, hkb'⟩
    have hal := h.alike ka hka kb hkb (by
      rw [hM, ← remainingKey_back hn hs h2, ← remainingKey_back hn hs h2, hka', hkb', ← h₁.keyNames, hab])
    refine ⟨?_, ?_⟩
    · rw [hBa.components ka hga, hBb.components kb hgb, hal.components]
    · intro q g g' hg hg'
      have e1 := hBa.parameters ka hga q
      rw [hg] at e1
      have e2 := hBb.parameters kb hgb q
      rw [hg'] at e2
      obtain ⟨g₀, hg₀⟩ := Option.isSome_iff_exists.1 e1.symm
      obtain ⟨g₁, hg₁⟩ := Option.isSome_iff_exists.1 e2.symm
      rw [(hBa.gradientLabels ka hga q g₀ g hg₀ hg).2, (hBb.gradientLabels kb hgb q g₁ g' hg₁ hg').2]
      exact hal.gradients q g₀ g₁ hg₀ hg₁
  · intro b₁ hb₁
    obtain ⟨key₁, hkb₁⟩ := zip_block h₁.valid hb₁
    obtain ⟨hB, kb, hkb, hk⟩ := h₁.below ht hkb₁
    constructor
    · intro q g hg
      have e1 := hB.parameters kb ((mem_group (key := kb.1) (b := kb.2)).2 ⟨hkb, hk⟩) q
      rw [hg] at e1
      obtain ⟨g₀, hg₀⟩ := Option.isSome_iff_exists.1 e1.symm
      exact (h.usable kb.2 (List.of_mem_zip (a := kb.1) (b := kb.2) hkb).2).names q g₀ hg₀
    · intro q g hg r hr
      obtain ⟨_, _, _, _, _, _, v, v', rest, s, i, i', _, rfl, _, e1, _, e2⟩ := (hB.gradientSamples q g hg r).1 hr
      exact ⟨v', rest, i', _, rfl, e1, e2⟩

theorem canMoveP_both (h₀ : CanMoveP t M₁) (h₁ : MovedToProperties M₁.names sort₁ t t₁) (h : CanMoveP t₁ M₂) :
    CanMoveP t M := by
  have hn := (Labels.Holds.names_ok ht.keys_wf).2
  have hs' := hs
  rw [hM] at hs
  have hf := filter_ne_nil_back hn hs h2
  have hnames : t₁.keys.names = t.keys.names.filter fun n => !M₁.names.contains n := by
    rw [h₁.keyNames]; simp only [remainingNames, if_neg hf]
  refine ⟨?_, fun n hn => hs'.subset hn, ?_, ?_, h₀.someProperty, ?_, h₀.usable⟩
  · rw [hM]; simp [h2]
  · rcases h.something with h3 | ⟨n, h3, h4⟩
    · left
      obtain ⟨b, hb⟩ := List.exists_mem_of_ne_nil _ h3
      obtain ⟨key, hkb⟩ := zip_block h₁.valid hb
      obtain ⟨_, kb, h5, _⟩ := h₁.below ht hkb
      exact List.ne_nil_of_mem (List.of_mem_zip (a := kb.1) (b := kb.2) h5).2
    · right
      rw [hnames] at h3
      obtain ⟨h5, h6⟩ := List.mem_filter.1 h3
      refine ⟨n, h5, ?_⟩
      rw [hM, List.mem_append, not_or]
      exact ⟨h4, by simpa using h6⟩
  · intro b hb n hn2
    rw [hM, List.mem_append] at hn2
    rcases hn2 with hn2 | hn2
    · obtain ⟨key, hkb⟩ := zip_block ht hb
      obtain ⟨kb₁, h5, h6, hB⟩ := h₁.above ht hkb
      have := h.fresh kb₁.2 (List.of_mem_zip (a := kb₁.1) (b := kb₁.2) h5).2 n hn2
      rw [hB.propertyNames (key, b) (mem_group.2 ⟨hkb, h6.symm⟩), List.mem_append, not_or] at this
      exact this.2
    · exact h₀.fresh b hb n hn2
  · intro a ha b hb hab
    obtain ⟨ka, hka, hka', hBa⟩ := h₁.above ht ha
    obtain ⟨kb, hkb, hkb', hBb⟩ := h₁.above ht hb
    have hga := (mem_group (key := a.1) (b := a.2)).2 ⟨ha, hka'.symm⟩
    have hgb := (mem_group (key := b.1) (b := b.2)).2 ⟨hb, hkb'.symm⟩
    have hal := h.alike ka hka kb hkb (by
      rw [hM] at hab
      rw [hka', hkb', h₁.keyNames, remainingKey_back hn hs h2, remainingKey_back hn hs h2, hab])
    refine ⟨?_, ?_⟩
    · rw [← hBa.components a hga, ← hBb.components b hgb, hal.components]
    · intro q g g' hg hg'
      have e1 := hBa.parameters a hga q
      rw [hg] at e1
      have e2 := hBb.parameters b hgb q
      rw [hg'] at e2
      obtain ⟨g₀, hg₀⟩ := Option.isSome_iff_exists.1 e1
      obtain ⟨g₁, hg₁⟩ := Option.isSome_iff_exists.1 e2
      rw [← (hBa.gradientLabels a hga q g g₀ hg hg₀).2, ← (hBb.gradientLabels b hgb q g' g₁ hg' hg₁).2]
      exact hal.gradients q g₀ g₁ hg₀ hg₁

omit hM hs h2 in
/-- The components of gradients still agree after the first step. -/
theorem componentsAgree_back {m₁ m₂ m : List String}
    (hr : ∀ key, remainingKey (remainingNames t.keys.names m₁) m₂ (remainingKey t.keys.names m₁ key) =
      remainingKey t.keys.names m key)
    (h₁ : MovedToProperties m₁ sort₁ t t₁) (h : GradientComponentsAgree t m) :
    GradientComponentsAgree t₁ m₂ := by
  intro pairs hp key₂ q a ha b hb g g' hg hg'
  rw [h₁.valid.iter_eq, Res.ok.injEq] at hp
  subst hp
  have ea := (mem_group (key := a.1) (b := a.2)).1 ha
  have eb := (mem_group (key := b.1) (b := b.2)).1 hb
  obtain ⟨hBa, ka, hka, hka'⟩ := h₁.below ht ea.1
  obtain ⟨hBb, kb, hkb, hkb'⟩ := h₁.below ht eb.1
  have hga := (mem_group (key := ka.1) (b := ka.2)).2 ⟨hka, hka'⟩
  have hgb := (mem_group (key := kb.1) (b := kb.2)).2 ⟨hkb, hkb'⟩
  have e1 := hBa.parameters ka hga q
  rw [hg] at e1
  have e2 := hBb.parameters kb hgb q
  rw [hg'] at e2
  obtain ⟨g₀, hg₀⟩ := Option.isSome_iff_exists.1 e1.symm
  obtain ⟨g₁, hg₁⟩ := Option.isSome_iff_exists.1 e2.symm
  rw [(hBa.gradientLabels ka hga q g₀ g hg₀ hg).2, (hBb.gradientLabels kb hgb q g₁ g' hg₁ hg').2]
  refine h _ ht.iter_eq key₂ q ka ((mem_group (key := ka.1) (b := ka.2)).2 ⟨hka, ?_⟩) kb
    ((mem_group (key := kb.1) (b := kb.2)).2 ⟨hkb, ?_⟩) g₀ g₁ hg₀ hg₁
  · rw [← hr, hka', ← h₁.keyNames, ea.2]
  · rw [← hr, hkb', ← h₁.keyNames, eb.2]

end

section
variable {A : Type} [ArrayLike A] {build : Build} {hash : HashOrder} {sort : Bool} {t t₁ : TensorMap A} {M₁ : Labels}
  {m₁ m₂ m : List String}

theorem sum_map_le {α : Type} {l : List α} {f g : α → Nat} (h : ∀ a ∈ l, f a ≤ g a) : (l.map f).sum ≤ (l.map g).sum := by
  induction l with
  | nil => simp
  | cons a l ih =>
    have h1 := h a List.mem_cons_self
    have h2 := ih fun a ha => h a (List.mem_cons_of_mem _ ha)
    simp only [List.map_cons, List.sum_cons]
    omega

theorem samplesFit_back_second (ht : TensorValid t) (hm : M₁.FromBuilder)
    (hr : ∀ key, remainingKey (remainingNames t.keys.names M₁.names) m₂ (remainingKey t.keys.names M₁.names key) =
      remainingKey t.keys.names m key)
    (h : t.keysToProperties build hash M₁ sort = (t₁, .ok ())) (hf : SamplesFit t m) :
    SamplesFit t₁ m₂ := by
  have hv := keysToProperties_valid ht hm h
  have hk := C16_keys_to_properties_keys build hash M₁ sort t t₁ ht hm h
  intro pairs hp key₂
  have h19 := C19_keys_to_properties_samples build hash M₁ sort t t₁ ht hm h _ pairs ht.iter_eq hp
  rw [hv.iter_eq, Res.ok.injEq] at hp
  subst hp
  have hcount : ∀ kb ∈ t₁.keys.rows.zip t₁.blocks, (entriesOf kb.2.values.samples).length ≤
      ((group t.keys.names M₁.names (t.keys.rows.zip t.blocks) kb.1).map
        fun kb => (entriesOf kb.2.values.samples).length).sum := by
    intro kb hkb
    have hw := (BasicValid.wf (hv.blocks _ (List.of_mem_zip (a := kb.1) (b := kb.2) hkb).2).values).samples
    have hnd : (entriesOf kb.2.values.samples).Nodup := by rw [entriesOf_eq hw]; exact Labels.Holds.nodup hw
    have := (hnd.subperm fun r hr => ((h19 kb.1 kb.2 hkb).2.1 r).1 hr).length_le
    rwa [List.length_flatMap] at this
  have e1 : ((group t₁.keys.names m₂ (t₁.keys.rows.zip t₁.blocks) key₂).map
      (fun kb => (entriesOf kb.2.values.samples).length)).sum ≤
      (((group t₁.keys.names m₂ (t₁.keys.rows.zip t₁.blocks) key₂).map Prod.fst).map fun k =>
        (((t.keys.rows.zip t.blocks).filter fun kb => decide (remainingKey t.keys.names M₁.names kb.1 = k)).map
          fun kb => (entriesOf kb.2.values.samples).length).sum).sum := by
    rw [List.map_map]
    exact sum_map_le fun kb hkb => hcount kb (List.mem_filter.1 hkb).1
  have hnd : ((group t₁.keys.names m₂ (t₁.keys.rows.zip t₁.blocks) key₂).map Prod.fst).Nodup := by
    have h1 : ((t₁.keys.rows.zip t₁.blocks).map Prod.fst).Nodup := by
      rw [List.map_fst_zip (by have := hv.length_eq; omega)]
      exact Labels.Holds.nodup hv.keys_wf
    exact (List.Sublist.map _ List.filter_sublist).nodup h1
  rw [sum_groups hnd] at e1
  refine Nat.le_trans e1 (Nat.le_trans (sum_le_of_sublist (List.Sublist.map _ ?_)) (hf _ ht.iter_eq key₂))
  refine List.monotone_filter_right _ fun kb hkb => ?_
  rw [decide_eq_true_iff]
  obtain ⟨kb₁, h3, h4⟩ := List.mem_map.1 (by simpa only [decide_eq_true_eq] using hkb)
  have h5 := ((mem_group (key := kb₁.1) (b := kb₁.2)).1 h3).2
  rw [← hr, ← h4, ← hk.1, h5]

end

/-- The description does not depend on the order in which gradients are listed. -/
theorem Spec.MovedToProperties.congr {m : List String} {sort : Bool} {t u u' : TensorMap NdArray}
    (h : MovedToProperties m sort t u) (hs : SameTensor u' u) (hv : TensorValid u') : MovedToProperties m sort t u' := by
  have hmem : ∀ kb' ∈ u'.keys.rows.zip u'.blocks, ∃ b, (kb'.1, b) ∈ u.keys.rows.zip u.blocks ∧ SameBlock kb'.2 b := by
    have hb := hs.blocks
    rw [hs.keys]
    generalize u.keys.rows = ks
    generalize u'.blocks = l' at hb
    generalize u.blocks = l at hb
    intro kb' hkb'
    induction hb generalizing ks with
    | nil => simp at hkb'
    | @cons b' b l' l h1 _ ih =>
      cases ks with
      | nil => simp at hkb'
      | cons k ks =>
        rw [List.zip_cons_cons, List.mem_cons] at hkb'
        rcases hkb' with rfl | hkb'
        · exact ⟨b, by simp, h1⟩
        · obtain ⟨b, h2, h3⟩ := ih ks hkb'
          exact ⟨b, by rw [List.zip_cons_cons]; exact List.mem_cons_of_mem _ h2, h3⟩
  refine ⟨hv, by rw [hs.keys]; exact h.keyNames, by rw [hs.keys]; exact h.keys, ?_, ?_⟩
  · intro pairs pairs' hp hp' kb' hkb'
    rw [hv.iter_eq, Res.ok.injEq] at hp'
    subst hp'
    obtain ⟨b, h1, h2⟩ := hmem kb' hkb'
    have hB := h.blocks pairs _ hp h.valid.iter_eq _ h1
    obtain ⟨c1, c2, c3, c4, c5, c6, c7, c8, c9, c10, c11, c12, c13, c14⟩ := hB
    simp only [← h2.values, ← h2.gradients] at c1 c2 c3 c4 c5 c6 c7 c8 c9 c10 c11 c12 c13 c14
    exact ⟨c1, c2, c3, c4, c5, c6, c7, c8, c9, c10, c11, c12, c13, c14⟩
  · intro hsort b' hb'
    obtain ⟨key, hk⟩ := zip_block hv hb'
    obtain ⟨b, h1, h2⟩ := hmem _ hk
    rw [h2.values]
    exact h.sorted hsort b (List.of_mem_zip h1).2

section
variable {A : Type} [ArrayLike A] {view : A → NdArray}

/-- `keys_to_properties` without entries for any kind of array, described by what is visible. -/
theorem keysToProperties_view (h : Implements view) {build : Build} {hash : HashOrder} {M : Labels} {sort : Bool}
    {t t' : TensorMap A} (ht : TensorValid t) (hm : M.FromBuilder) (hcount : M.count = .ok 0)
    (hcomp : build.debug = true ∨ GradientComponentsAgree t M.names)
    (hk : t.keysToProperties build hash M sort = (t', .ok ())) :
    MovedToProperties M.names sort (t.mapData view) (t'.mapData view) := by
  have hv := keysToProperties_valid ht hm hk
  have htv := (TensorValid.map_iff h).2 ht
  obtain ⟨h1, h2⟩ := C29_any_order build hash .insertion (.keysToProperties M sort) hm t t ht ht (SameTensor.refl' t)
  have hok : (Op.run build hash t (.keysToProperties M sort)).2 = .ok () := by
    show (t.keysToProperties build hash M sort).2 = _
    rw [hk]
  have hok' := h1.1 hok
  have hs := h2 hok
  have hmap := Op.run_map h (build := build) orderByName_insertion (op := .keysToProperties M sort) hm ht (hcomp.imp_right GradientComponentsAgree.sizes)
  rw [hok'] at hmap
  have hcomp' : build.debug = true ∨ GradientComponentsAgree (t.mapData view) M.names := by
    exact hcomp.imp_right fun hc => componentsAgree_mapData ht htv hc
  have hmoved := keysToProperties_moved htv hm hcount hmap hcomp'
  refine hmoved.congr ?_ ((TensorValid.map_iff h).2 hv)
  have := SameTensor.mapData view hs
  have he : (Op.run build hash t (.keysToProperties M sort)).1 = t' := by
    show (t.keysToProperties build hash M sort).1 = _
    rw [hk]
  rw [he] at this
  exact this

end

end Equistore
