import Verif.Lemmas.MovedTwice
import Verif.Lemmas.MoveOutcome
import Verif.Lemmas.BackendLabels

/-!
# When moving keys twice succeeds
-/

namespace Equistore
open Spec NdArray

section
variable {A : Type} [ArrayLike A]

/-- Two blocks can be merged along samples. -/
structure Alike (a b : TensorBlock A) : Prop where
  components : a.values.components = b.values.components
  properties : a.values.properties = b.values.properties
  gradients : GradientComponentsEqual a b

/-- Blocks which are merged together can be merged. -/
def AllAlike (t : TensorMap A) (moved : List String) : Prop :=
  ∀ a ∈ t.keys.rows.zip t.blocks, ∀ b ∈ t.keys.rows.zip t.blocks,
    remainingKey t.keys.names moved a.1 = remainingKey t.keys.names moved b.1 → Alike a.2 b.2

/-- The conditions of `CanMoveToSamples`, without reference to the first block. -/
structure CanMove (t : TensorMap A) (keysToMove : Labels) : Prop where
  noEntries : keysToMove.count = .ok 0
  names : ∀ n ∈ keysToMove.names, n ∈ t.keys.names
  something : t.blocks ≠ [] ∨ ∃ n ∈ t.keys.names, n ∉ keysToMove.names
  fresh : ∀ b ∈ t.blocks, ∀ n ∈ keysToMove.names, n ∉ b.values.samples.names
  alike : AllAlike t keysToMove.names
  usable : ∀ b ∈ t.blocks, GradientsUsable b

theorem canMove_iff {t : TensorMap A} (ht : TensorValid t) {keysToMove : Labels} :
    CanMoveToSamples ⟨true⟩ t keysToMove ↔ CanMove t keysToMove := by
  have hblock : ∀ kb ∈ t.keys.rows.zip t.blocks, kb.2 ∈ t.blocks := fun kb h =>
    (List.of_mem_zip (a := kb.1) (b := kb.2) h).2
  constructor
  · rintro ⟨h1, h2, h3, h4, h5, h6, h7, h8⟩
    refine ⟨h1, h2, h3, h4, ?_, h8⟩
    intro a ha b hb hab
    have hmem : a ∈ group t.keys.names keysToMove.names (t.keys.rows.zip t.blocks)
        (remainingKey t.keys.names keysToMove.names a.1) := List.mem_filter.2 ⟨ha, by simp⟩
    obtain ⟨first, hf⟩ : ∃ first, (group t.keys.names keysToMove.names (t.keys.rows.zip t.blocks)
        (remainingKey t.keys.names keysToMove.names a.1)).head? = some first := by
      cases hl : group t.keys.names keysToMove.names (t.keys.rows.zip t.blocks)
        (remainingKey t.keys.names keysToMove.names a.1) with
      | nil => rw [hl] at hmem; cases hmem
      | cons c l => exact ⟨c, rfl⟩
    have hfa : FirstMergedWith t keysToMove.names first a := ⟨_, ht.iter_eq, ha, hf⟩
    have hfb : FirstMergedWith t keysToMove.names first b := ⟨_, ht.iter_eq, hb, by rw [← hab]; exact hf⟩
    refine ⟨(h5 _ _ hfa).trans (h5 _ _ hfb).symm, (h6 _ _ hfa).trans (h6 _ _ hfb).symm, ?_⟩
    intro q g g' hg hg'
    have hsome := (ht.consistent _ (hblock a ha) _ (FirstMergedWith.mem ht hfa).1).parameters q
    rw [hg] at hsome
    obtain ⟨gf, hgf⟩ := Option.isSome_iff_exists.1 hsome.symm
    exact (h7 rfl _ _ hfa q g gf hg hgf).trans (h7 rfl _ _ hfb q g' gf hg' hgf).symm
  · rintro ⟨h1, h2, h3, h4, h5, h6⟩
    have hal : ∀ first kb, FirstMergedWith t keysToMove.names first kb → Alike kb.2 first.2 := by
      rintro first kb ⟨pairs, e1, e2, e3⟩
      rw [ht.iter_eq, Res.ok.injEq] at e1
      subst e1
      have e4 := (mem_group (key := first.1) (b := first.2)).1 (List.mem_of_mem_head? e3)
      exact h5 kb e2 first e4.1 e4.2.symm
    exact ⟨h1, h2, h3, h4, fun f k h => (hal f k h).components, fun f k h => (hal f k h).properties,
      fun _ f k h => (hal f k h).gradients, h6⟩

/-- The components of gradients agree for the first step. -/
theorem componentsAgree_first {t : TensorMap A} {m₁ m₂ m : List String}
    (hr : ∀ key, remainingKey (remainingNames t.keys.names m₁) m₂ (remainingKey t.keys.names m₁ key) =
      remainingKey t.keys.names m key)
    (hg : GradientComponentsAgree t m) : GradientComponentsAgree t m₁ := by
  intro pairs hp key' q a ha b hb
  refine hg pairs hp (remainingKey (remainingNames t.keys.names m₁) m₂ key') q a ?_ b ?_
  · have := (mem_group (key := a.1) (b := a.2)).1 ha
    exact (mem_group (key := a.1) (b := a.2)).2 ⟨this.1, by rw [← hr, this.2]⟩
  · have := (mem_group (key := b.1) (b := b.2)).1 hb
    exact (mem_group (key := b.1) (b := b.2)).2 ⟨this.1, by rw [← hr, this.2]⟩

end

section
variable {A B : Type} [ArrayLike A] [ArrayLike B]

theorem canMove_map (f : A → B) {t : TensorMap A} {keysToMove : Labels} :
    CanMove (t.mapData f) keysToMove ↔ CanMove t keysToMove := by
  have hus : ∀ b : TensorBlock A, GradientsUsable (b.mapData f) ↔ GradientsUsable b := by
    intro b
    constructor
    · rintro ⟨h1, h2⟩
      refine ⟨fun q g hg => h1 q (g.mapData f) (by simp [hg]), fun q g hg => h2 q (g.mapData f) (by simp [hg])⟩
    · rintro ⟨h1, h2⟩
      constructor
      · intro q g hg
        rw [TensorBlock.mapData_gradient, Option.map_eq_some_iff] at hg
        obtain ⟨g₀, hg₀, rfl⟩ := hg
        exact h1 q g₀ hg₀
      · intro q g hg
        rw [TensorBlock.mapData_gradient, Option.map_eq_some_iff] at hg
        obtain ⟨g₀, hg₀, rfl⟩ := hg
        exact h2 q g₀ hg₀
  have hal : ∀ a b : TensorBlock A, Alike (a.mapData f) (b.mapData f) ↔ Alike a b := by
    intro a b
    constructor
    · rintro ⟨h1, h2, h3⟩
      exact ⟨h1, h2, fun q g g' hg hg' => h3 q (g.mapData f) (g'.mapData f) (by simp [hg]) (by simp [hg'])⟩
    · rintro ⟨h1, h2, h3⟩
      refine ⟨h1, h2, fun q g g' hg hg' => ?_⟩
      rw [TensorBlock.mapData_gradient, Option.map_eq_some_iff] at hg hg'
      obtain ⟨g₀, hg₀, rfl⟩ := hg
      obtain ⟨g₁, hg₁, rfl⟩ := hg'
      exact h3 q g₀ g₁ hg₀ hg₁
  have hall : AllAlike (t.mapData f) keysToMove.names ↔ AllAlike t keysToMove.names := by
    unfold AllAlike
    rw [TensorMap.mapData_keys, TensorMap.mapData_blocks, zip_mapData]
    simp only [List.forall_mem_map, mapPair, hal]
  have hb : (t.mapData f).blocks ≠ [] ↔ t.blocks ≠ [] := by simp
  constructor
  · rintro ⟨h1, h2, h3, h4, h5, h6⟩
    refine ⟨h1, h2, h3.imp_left hb.1, fun b hb => h4 _ (List.mem_map_of_mem hb), hall.1 h5,
      fun b hb => (hus b).1 (h6 _ (List.mem_map_of_mem hb))⟩
  · rintro ⟨h1, h2, h3, h4, h5, h6⟩
    refine ⟨h1, h2, h3.imp_left hb.2, ?_, hall.2 h5, ?_⟩
    · intro b hb
      obtain ⟨b₀, hb₀, rfl⟩ := List.mem_map.1 hb
      exact h4 b₀ hb₀
    · intro b hb
      obtain ⟨b₀, hb₀, rfl⟩ := List.mem_map.1 hb
      exact (hus b₀).2 (h6 b₀ hb₀)

end

section
variable {t t₁ : TensorMap NdArray} {M M₁ M₂ : Labels} {sort₁ : Bool}

/-- Blocks of the intermediate tensor map, and the blocks they come from. -/
theorem Spec.MovedToSamples.below {m₁ : List String} (ht : TensorValid t) (h : MovedToSamples m₁ sort₁ t t₁)
    {kb₁ : List LabelValue × TensorBlock NdArray} (hkb₁ : kb₁ ∈ t₁.keys.rows.zip t₁.blocks) :
    BlockMoved t.keys.names m₁ (t.keys.rows.zip t.blocks) kb₁.1 kb₁.2 ∧
    ∃ kb ∈ t.keys.rows.zip t.blocks, remainingKey t.keys.names m₁ kb.1 = kb₁.1 := by
  refine ⟨h.blocks _ _ ht.iter_eq h.valid.iter_eq _ hkb₁, ?_⟩
  have hkey : kb₁.1 ∈ entriesOf t₁.keys := by
    rw [entriesOf_eq h.valid.keys_wf]; exact (List.of_mem_zip (a := kb₁.1) (b := kb₁.2) hkb₁).1
  rw [h.keys.same, List.mem_map] at hkey
  obtain ⟨key, h3, h4⟩ := hkey
  rw [entriesOf_eq ht.keys_wf] at h3
  obtain ⟨b, hb⟩ := zip_mem_of ht.length_eq h3
  exact ⟨(key, b), hb, h4⟩

theorem Spec.MovedToSamples.above {m₁ : List String} (ht : TensorValid t) (h : MovedToSamples m₁ sort₁ t t₁)
    {kb : List LabelValue × TensorBlock NdArray} (hkb : kb ∈ t.keys.rows.zip t.blocks) :
    ∃ kb₁ ∈ t₁.keys.rows.zip t₁.blocks, kb₁.1 = remainingKey t.keys.names m₁ kb.1 ∧
      BlockMoved t.keys.names m₁ (t.keys.rows.zip t.blocks) kb₁.1 kb₁.2 := by
  have hk₁ : remainingKey t.keys.names m₁ kb.1 ∈ t₁.keys.rows := by
    rw [← entriesOf_eq h.valid.keys_wf, h.keys.same, entriesOf_eq ht.keys_wf]
    exact List.mem_map_of_mem (List.of_mem_zip (a := kb.1) (b := kb.2) hkb).1
  obtain ⟨b₁, hb₁⟩ := zip_mem_of h.valid.length_eq hk₁
  exact ⟨_, hb₁, rfl, h.blocks _ _ ht.iter_eq h.valid.iter_eq _ hb₁⟩

theorem zip_block {t : TensorMap NdArray} (ht : TensorValid t) {b : TensorBlock NdArray} (hb : b ∈ t.blocks) :
    ∃ key, (key, b) ∈ t.keys.rows.zip t.blocks := by
  obtain ⟨i, hi, rfl⟩ := List.getElem_of_mem hb
  have hlen := ht.length_eq
  refine ⟨t.keys.rows[i], ?_⟩
  rw [← List.getElem_zip (i := i) (h := by rw [List.length_zip]; omega)]
  exact List.getElem_mem _

variable (ht : TensorValid t) (hM : M.names = M₁.names ++ M₂.names) (hs : M.names.Sublist t.keys.names)
  (h2 : M₂.names ≠ []) (hc₁ : M₁.count = .ok 0) (hc₂ : M₂.count = .ok 0) (hc : M.count = .ok 0)
include ht hM hs h2

include hc₁ in
theorem canMove_first (h : CanMove t M) : CanMove t M₁ := by
  have hn := (Labels.Holds.names_ok ht.keys_wf).2
  rw [hM] at hs
  have hd := (List.nodup_append.1 (hs.nodup hn)).2.2
  have hsub : ∀ n ∈ M₁.names, n ∈ M.names := fun n hn => by rw [hM]; exact List.mem_append_left _ hn
  refine ⟨hc₁, fun n hn => h.names n (hsub n hn), .inr ?_, fun b hb n hn => h.fresh b hb n (hsub n hn), ?_, h.usable⟩
  · obtain ⟨n, hn2⟩ := List.exists_mem_of_ne_nil _ h2
    exact ⟨n, hs.subset (List.mem_append_right _ hn2), fun h1 => hd n h1 n hn2 rfl⟩
  · intro a ha b hb hab
    refine h.alike a ha b hb ?_
    rw [hM, ← remainingKey_twice hn hs h2, hab, remainingKey_twice hn hs h2]

include hc₂ in
theorem canMove_second (h : CanMove t M) (h₁ : MovedToSamples M₁.names sort₁ t t₁) : CanMove t₁ M₂ := by
  have hn := (Labels.Holds.names_ok ht.keys_wf).2
  rw [hM] at hs
  have hd := (List.nodup_append.1 (hs.nodup hn)).2.2
  have hf := filter_ne_nil hn hs h2
  have hnames : t₁.keys.names = t.keys.names.filter fun n => !M₁.names.contains n := by
    rw [h₁.keyNames]; simp only [remainingNames, if_neg hf]
  have hsub : ∀ n ∈ M₂.names, n ∈ M.names := fun n hn => by rw [hM]; exact List.mem_append_right _ hn
  refine ⟨hc₂, ?_, ?_, ?_, ?_, ?_⟩
  · intro n hn2
    rw [hnames]
    refine List.mem_filter.2 ⟨h.names n (hsub n hn2), ?_⟩
    simp only [Bool.not_eq_true', List.contains_eq_mem, decide_eq_false_iff_not]
    exact fun h1 => hd n h1 n hn2 rfl
  · rcases h.something with h3 | ⟨n, h3, h4⟩
    · left
      obtain ⟨b, hb⟩ := List.exists_mem_of_ne_nil _ h3
      obtain ⟨key, hkb⟩ := zip_block ht hb
      obtain ⟨kb₁, h5, _⟩ := h₁.above ht hkb
      exact List.ne_nil_of_mem (List.of_mem_zip (a := kb₁.1) (b := kb₁.2) h5).2
    · right
      rw [hM, List.mem_append, not_or] at h4
      exact ⟨n, by rw [hnames]; exact List.mem_filter.2 ⟨h3, by simpa using h4.1⟩, h4.2⟩
  · intro b₁ hb₁ n hn2
    obtain ⟨key₁, hkb₁⟩ := zip_block h₁.valid hb₁
    obtain ⟨hB, kb, hkb, hk⟩ := h₁.below ht hkb₁
    rw [hB.sampleNames kb ((mem_group (key := kb.1) (b := kb.2)).2 ⟨hkb, hk⟩), List.mem_append, not_or]
    exact ⟨h.fresh kb.2 (List.of_mem_zip (a := kb.1) (b := kb.2) hkb).2 n (hsub n hn2),
      fun h1 => hd n h1 n hn2 rfl⟩
  · intro a ha b hb hab
    obtain ⟨hBa, ka, hka, hka'⟩ := h₁.below ht ha
    obtain ⟨hBb, kb, hkb, hkb'⟩ := h₁.below ht hb
    have hga := (mem_group (key := ka.1) (b := ka.2)).2 ⟨hka, hka'⟩
    have hgb := (mem_group (key := kb.1) (b := kb.2)).2 ⟨hkb, hkb'⟩
    have hal := h.alike ka hka kb hkb (by
      rw [hM, ← remainingKey_twice hn hs h2, ← remainingKey_twice hn hs h2, hka', hkb', ← h₁.keyNames, hab])
    refine ⟨?_, ?_, ?_⟩
    · rw [(hBa.labels ka hga).1, (hBb.labels kb hgb).1, hal.components]
    · rw [(hBa.labels ka hga).2, (hBb.labels kb hgb).2, hal.properties]
    · intro q g g' hg hg'
      have e1 := hBa.parameters ka hga q
      rw [hg] at e1
      have e2 := hBb.parameters kb hgb q
      rw [hg'] at e2
      obtain ⟨g₀, hg₀⟩ := Option.isSome_iff_exists.1 e1.symm
      obtain ⟨g₁, hg₁⟩ := Option.isSome_iff_exists.1 e2.symm
      rw [(hBa.gradientLabels ka hga q g₀ g hg₀ hg).2, (hBb.gradientLabels kb hgb q g₁ g' hg₁ hg').2]
      exact hal.gradients q g₀ g₁ hg₀ hg₁
  · intro b₁ hb₁
    obtain ⟨key₁, hkb₁⟩ := zip_block h₁.valid hb₁
    obtain ⟨hB, kb, hkb, hk⟩ := h₁.below ht hkb₁
    constructor
    · intro q g hg
      have e1 := hB.parameters kb ((mem_group (key := kb.1) (b := kb.2)).2 ⟨hkb, hk⟩) q
      rw [hg] at e1
      obtain ⟨g₀, hg₀⟩ := Option.isSome_iff_exists.1 e1.symm
      exact (h.usable kb.2 (List.of_mem_zip (a := kb.1) (b := kb.2) hkb).2).names q g₀ hg₀
    · intro q g hg r hr
      obtain ⟨_, _, _, _, _, _, v, v', rest, s, i, i', _, rfl, _, e1, _, e2⟩ := (hB.gradientSamples q g hg r).1 hr
      exact ⟨v', rest, i', _, rfl, e1, e2⟩

include hc in
theorem canMove_both (h₀ : CanMove t M₁) (h₁ : MovedToSamples M₁.names sort₁ t t₁) (h : CanMove t₁ M₂) :
    CanMove t M := by
  have hn := (Labels.Holds.names_ok ht.keys_wf).2
  have hs' := hs
  rw [hM] at hs
  have hf := filter_ne_nil hn hs h2
  have hnames : t₁.keys.names = t.keys.names.filter fun n => !M₁.names.contains n := by
    rw [h₁.keyNames]; simp only [remainingNames, if_neg hf]
  refine ⟨hc, fun n hn => hs'.subset hn, ?_, ?_, ?_, h₀.usable⟩
  · rcases h.something with h3 | ⟨n, h3, h4⟩
    · left
      obtain ⟨b, hb⟩ := List.exists_mem_of_ne_nil _ h3
      obtain ⟨key, hkb⟩ := zip_block h₁.valid hb
      obtain ⟨_, kb, h5, _⟩ := h₁.below ht hkb
      exact List.ne_nil_of_mem (List.of_mem_zip (a := kb.1) (b := kb.2) h5).2
    · right
      rw [hnames] at h3
      obtain ⟨h5, h6⟩ := List.mem_filter.1 h3
      refine ⟨n, h5, ?_⟩
      rw [hM, List.mem_append, not_or]
      exact ⟨by simpa using h6, h4⟩
  · intro b hb n hn2
    rw [hM, List.mem_append] at hn2
    rcases hn2 with hn2 | hn2
    · exact h₀.fresh b hb n hn2
    · obtain ⟨key, hkb⟩ := zip_block ht hb
      obtain ⟨kb₁, h5, h6, hB⟩ := h₁.above ht hkb
      have := h.fresh kb₁.2 (List.of_mem_zip (a := kb₁.1) (b := kb₁.2) h5).2 n hn2
      rw [hB.sampleNames (key, b) (mem_group.2 ⟨hkb, h6.symm⟩), List.mem_append, not_or] at this
      exact this.1
  · intro a ha b hb hab
    obtain ⟨ka, hka, hka', hBa⟩ := h₁.above ht ha
    obtain ⟨kb, hkb, hkb', hBb⟩ := h₁.above ht hb
    have hga := (mem_group (key := a.1) (b := a.2)).2 ⟨ha, hka'.symm⟩
    have hgb := (mem_group (key := b.1) (b := b.2)).2 ⟨hb, hkb'.symm⟩
    have hal := h.alike ka hka kb hkb (by
      rw [hM] at hab
      rw [hka', hkb', h₁.keyNames, remainingKey_twice hn hs h2, remainingKey_twice hn hs h2, hab])
    refine ⟨?_, ?_, ?_⟩
    · rw [← (hBa.labels a hga).1, ← (hBb.labels b hgb).1, hal.components]
    · rw [← (hBa.labels a hga).2, ← (hBb.labels b hgb).2, hal.properties]
    · intro q g g' hg hg'
      have e1 := hBa.parameters a hga q
      rw [hg] at e1
      have e2 := hBb.parameters b hgb q
      rw [hg'] at e2
      obtain ⟨g₀, hg₀⟩ := Option.isSome_iff_exists.1 e1
      obtain ⟨g₁, hg₁⟩ := Option.isSome_iff_exists.1 e2
      rw [← (hBa.gradientLabels a hga q g g₀ hg hg₀).2, ← (hBb.gradientLabels b hgb q g' g₁ hg' hg₁).2]
      exact hal.gradients q g₀ g₁ hg₀ hg₁

omit hM hs h2 in
/-- The components of gradients still agree after the first step. -/
theorem componentsAgree_second {m₁ m₂ m : List String}
    (hr : ∀ key, remainingKey (remainingNames t.keys.names m₁) m₂ (remainingKey t.keys.names m₁ key) =
      remainingKey t.keys.names m key)
    (h₁ : MovedToSamples m₁ sort₁ t t₁) (h : GradientComponentsAgree t m) :
    GradientComponentsAgree t₁ m₂ := by
  intro pairs hp key₂ q a ha b hb g g' hg hg'
  rw [h₁.valid.iter_eq, Res.ok.injEq] at hp
  subst hp
  have ea := (mem_group (key := a.1) (b := a.2)).1 ha
  have eb := (mem_group (key := b.1) (b := b.2)).1 hb
  obtain ⟨hBa, ka, hka, hka'⟩ := h₁.below ht ea.1
  obtain ⟨hBb, kb, hkb, hkb'⟩ := h₁.below ht eb.1
  have hga := (mem_group (key := ka.1) (b := ka.2)).2 ⟨hka, hka'⟩
  have hgb := (mem_group (key := kb.1) (b := kb.2)).2 ⟨hkb, hkb'⟩
  have e1 := hBa.parameters ka hga q
  rw [hg] at e1
  have e2 := hBb.parameters kb hgb q
  rw [hg'] at e2
  obtain ⟨g₀, hg₀⟩ := Option.isSome_iff_exists.1 e1.symm
  obtain ⟨g₁, hg₁⟩ := Option.isSome_iff_exists.1 e2.symm
  rw [(hBa.gradientLabels ka hga q g₀ g hg₀ hg).2, (hBb.gradientLabels kb hgb q g₁ g' hg₁ hg').2]
  refine h _ ht.iter_eq key₂ q ka ((mem_group (key := ka.1) (b := ka.2)).2 ⟨hka, ?_⟩) kb
    ((mem_group (key := kb.1) (b := kb.2)).2 ⟨hkb, ?_⟩) g₀ g₁ hg₀ hg₁
  · rw [← hr, hka', ← h₁.keyNames, ea.2]
  · rw [← hr, hkb', ← h₁.keyNames, eb.2]

end

end Equistore
