import Verif.Lemmas.Components
import Verif.Spec.History

/-! Statements about all the arrays in a tensor map after an operation. -/

namespace Equistore
open Spec

variable {A : Type} [ArrayLike A]

/-- All the arrays in a block have the given property. -/
def TensorBlock.AllData (Q : A → Prop) (b : TensorBlock A) : Prop :=
  Q b.values.data ∧ ∀ p ∈ b.gradients, Q p.2.data

/-- All the arrays in a tensor map have the given property. -/
def TensorMap.AllData (Q : A → Prop) (t : TensorMap A) : Prop := ∀ b ∈ t.blocks, b.AllData Q

/-- New arrays have a property, and keep it when moving samples to them. -/
structure FreshData (Q : A → Prop) : Prop where
  create : ∀ (a : A) shape b, ArrayLike.create a shape = .ok b → Q b
  move : ∀ (output input : A) samples start stop output' r, Q output →
    ArrayLike.moveSamplesFrom output input samples start stop = (output', r) → Q output'

section
variable {Q : A → Prop}

theorem FreshData.moveSamples (h : FreshData Q) {output input output' : A} {samples : List SampleMapping}
    {start stop : Nat} (ho : Q output) (he : moveSamples output input samples start stop = .ok output') :
    Q output' := by
  unfold Equistore.moveSamples at he
  split at he
  · rename_i h1
    cases he
    exact h.move _ _ _ _ _ _ _ ho h1
  · cases he
  · cases he

theorem FreshData.moveAllSamples (h : FreshData Q) {stop : Nat} {l : List (A × List SampleMapping)}
    {output output' : A} (ho : Q output) (he : moveAllSamples stop output l = .ok output') : Q output' := by
  induction l generalizing output with
  | nil => cases he; exact ho
  | cons x l ih =>
    rw [Equistore.moveAllSamples, Res.bind_eq_ok] at he
    obtain ⟨o, h1, h2⟩ := he
    exact ih (h.moveSamples ho h1) h2

theorem FreshData.moveAllGradients (h : FreshData Q) {build : Build} {parameter : String} {newSamples : Labels}
    {newComponents : List Labels} {stop : Nat}
    {l : List ((List LabelValue × TensorBlock A) × List SampleMapping)} {output output' : A} (ho : Q output)
    (he : moveAllGradients build parameter newSamples newComponents stop output l = .ok output') : Q output' := by
  induction l generalizing output with
  | nil => cases he; exact ho
  | cons x l ih =>
    simp only [Equistore.moveAllGradients, Res.bind_eq_ok] at he
    obtain ⟨_, _, _, _, _, _, o, h1, h2⟩ := he
    exact ih (h.moveSamples ho h1) h2

theorem addGradientExpect_all {b b' : TensorBlock A} {parameter : String} {data : A} {samples : Labels}
    {components : List Labels} (hb : b.AllData Q) (hd : Q data)
    (he : addGradientExpect b parameter data samples components = .ok b') : b'.AllData Q := by
  unfold addGradientExpect at he
  split at he
  · rename_i b'' h1
    cases he
    unfold TensorBlock.addGradient at h1
    rw [Act.get_bind, Act.lift_bind] at h1
    split at h1
    · rw [Act.set_bind, Act.lift_bind] at h1
      split at h1
      · rw [Act.get_bind] at h1
        cases h1
        refine ⟨hb.1, fun p hp => ?_⟩
        rcases List.mem_append.1 hp with hp | hp
        · exact hb.2 p hp
        · rw [List.mem_singleton] at hp
          subst hp
          exact hd
      · cases h1
      · cases h1
    · cases h1
    · cases h1
  · cases he
  · cases he

theorem FreshData.mergeGradientsAlongSamples (h : FreshData Q) {build : Build} {first : TensorBlock A}
    {blocks : List (List LabelValue × TensorBlock A)} {mappings : List (List SampleMapping)} {stop : Nat}
    {gradients : List (String × BasicBlock A)} {b b' : TensorBlock A} (hb : b.AllData Q)
    (he : mergeGradientsAlongSamples build first blocks mappings stop b gradients = .ok b') : b'.AllData Q := by
  induction gradients generalizing b with
  | nil => cases he; exact hb
  | cons g gradients ih =>
    simp only [Equistore.mergeGradientsAlongSamples, Res.bind_eq_ok] at he
    obtain ⟨_, _, _, _, _, _, _, _, _, h1, _, h2, _, h3, h4⟩ := he
    exact ih (addGradientExpect_all hb (h.moveAllGradients (h.create _ _ _ h1) h2) h3) h4

theorem TensorBlock.new_data {data : A} {samples : Labels} {components : List Labels} {properties : Labels}
    {b : TensorBlock A} (h : TensorBlock.new data samples components properties = .ok b) :
    b.values.data = data ∧ b.gradients = [] := by
  simp only [TensorBlock.new, Res.bind_eq_ok, BasicBlock.new, Res.pure_eq, Res.ok.injEq] at h
  obtain ⟨values, ⟨_, _, _, _, rfl⟩, rfl⟩ := h
  exact ⟨rfl, rfl⟩

theorem FreshData.mergeBlocksAlongSamples (h : FreshData Q) {build : Build} {hash : HashOrder}
    {names : List String} {sort : Bool} {blocks : List (List LabelValue × TensorBlock A)} {b : TensorBlock A}
    (he : mergeBlocksAlongSamples build hash names sort blocks = .ok b) : b.AllData Q := by
  simp only [Equistore.mergeBlocksAlongSamples, Res.bind_eq_ok] at he
  obtain ⟨_, _, _, _, _, _, _, _, _, _, _, _, _, h1, _, _, _, h2, _, h3, h4⟩ := he
  rw [Res.expectOk_eq_ok] at h3
  obtain ⟨e1, e2⟩ := TensorBlock.new_data h3
  refine h.mergeGradientsAlongSamples ⟨?_, ?_⟩ h4
  · rw [e1]; exact h.moveAllSamples (h.create _ _ _ h1) h2
  · rw [e2]; simp

theorem mergeForKeys_all {t : TensorMap A} {newKeys : Labels} {positions : List Nat}
    {merge : List (List LabelValue × TensorBlock A) → Res (TensorBlock A)} {blocks : List (TensorBlock A)}
    (hm : ∀ l b, merge l = .ok b → b.AllData Q) (he : mergeForKeys t newKeys positions merge = .ok blocks) :
    ∀ b ∈ blocks, b.AllData Q := by
  unfold mergeForKeys at he
  rw [Res.bind_eq_ok] at he
  obtain ⟨_, _, he⟩ := he
  split at he
  · simp only [Res.bind_eq_ok] at he
    obtain ⟨_, _, b, h1, h2⟩ := he
    cases h2
    intro b' hb'
    rw [List.mem_singleton] at hb'
    subst hb'
    exact hm _ _ h1
  · rw [Res.bind_eq_ok] at he
    obtain ⟨_, _, h1⟩ := he
    rw [mapM_eq_ok] at h1
    intro b hb
    have hex : ∀ {α β : Type} {R : α → β → Prop} {l : List α} {l' : List β}, List.Forall₂ R l l' →
        ∀ b ∈ l', ∃ a, R a b := by
      intro α β R l l' h
      induction h with
      | nil => simp
      | @cons x y l l' hxy _ ih =>
        intro b hb
        rcases List.mem_cons.1 hb with rfl | hb
        · exact ⟨x, hxy⟩
        · exact ih b hb
    obtain ⟨entry, h2⟩ := hex h1 b hb
    simp only [Res.bind_eq_ok] at h2
    obtain ⟨_, _, _, _, _, _, h3⟩ := h2
    exact hm _ _ h3

theorem FreshData.keysToSamples (h : FreshData Q) {build : Build} {hash : HashOrder} {k : Labels} {sort : Bool}
    {t t' : TensorMap A} (he : t.keysToSamples build hash k sort = (t', .ok ())) : t'.AllData Q := by
  unfold TensorMap.keysToSamples at he
  rw [Act.get_bind, Act.lift_bind] at he
  split at he
  · rename_i h1
    simp only [TensorMap.keysToSamplesResult, Res.bind_eq_ok] at h1
    obtain ⟨_, _, _, _, _, _, blocks, h2, h3⟩ := h1
    cases h3
    cases he
    exact mergeForKeys_all (fun l b hb => h.mergeBlocksAlongSamples hb) h2
  · cases he
  · cases he

theorem FreshData.moveAllProperties (h : FreshData Q)
    {l : List ((A × List SampleMapping) × Option (Nat × Nat))} {output output' : A} (ho : Q output)
    (he : moveAllProperties output l = .ok output') : Q output' := by
  induction l generalizing output with
  | nil => cases he; exact ho
  | cons x l ih =>
    obtain ⟨⟨input, mapping⟩, range⟩ := x
    cases range with
    | none => exact ih ho he
    | some r =>
      obtain ⟨start, stop⟩ := r
      simp only [Equistore.moveAllProperties, Res.bind_eq_ok] at he
      obtain ⟨o, h1, h2⟩ := he
      exact ih (h.moveSamples ho h1) h2

theorem FreshData.moveAllGradientProperties (h : FreshData Q) {build : Build} {parameter : String}
    {newSamples : Labels} {newComponents : List Labels}
    {l : List (((List LabelValue × TensorBlock A) × List SampleMapping) × Option (Nat × Nat))}
    {output output' : A} (ho : Q output)
    (he : moveAllGradientProperties build parameter newSamples newComponents output l = .ok output') :
    Q output' := by
  induction l generalizing output with
  | nil => cases he; exact ho
  | cons x l ih =>
    obtain ⟨⟨⟨key, b⟩, mapping⟩, range⟩ := x
    cases range with
    | none => exact ih ho he
    | some r =>
      obtain ⟨start, stop⟩ := r
      simp only [Equistore.moveAllGradientProperties, Res.bind_eq_ok] at he
      obtain ⟨_, _, _, _, _, _, o, h1, h2⟩ := he
      exact ih (h.moveSamples ho h1) h2

theorem FreshData.mergeGradientsAlongProperties (h : FreshData Q) {build : Build} {first : TensorBlock A}
    {blocks : List (List LabelValue × TensorBlock A)} {mappings : List (List SampleMapping)}
    {ranges : List (Option (Nat × Nat))} {count : Nat}
    {gradients : List (String × BasicBlock A)} {b b' : TensorBlock A} (hb : b.AllData Q)
    (he : mergeGradientsAlongProperties build first blocks mappings ranges count b gradients = .ok b') :
    b'.AllData Q := by
  induction gradients generalizing b with
  | nil => cases he; exact hb
  | cons g gradients ih =>
    simp only [Equistore.mergeGradientsAlongProperties, Res.bind_eq_ok] at he
    obtain ⟨_, _, _, _, _, _, _, _, _, h1, _, h2, _, h3, h4⟩ := he
    exact ih (addGradientExpect_all hb (h.moveAllGradientProperties (h.create _ _ _ h1) h2) h3) h4

theorem FreshData.mergeBlocksAlongProperties (h : FreshData Q) {build : Build} {hash : HashOrder}
    {k : Option Labels} {names : List String} {sort : Bool} {blocks : List (List LabelValue × TensorBlock A)}
    {b : TensorBlock A} (he : mergeBlocksAlongProperties build hash k names sort blocks = .ok b) :
    b.AllData Q := by
  simp only [Equistore.mergeBlocksAlongProperties, Res.bind_eq_ok] at he
  obtain ⟨_, _, _, _, _, _, _, _, _, _, _, _, _, _, _, _, _, _, _, h1, _, _, _, h2, _, h3, h4⟩ := he
  rw [Res.expectOk_eq_ok] at h3
  obtain ⟨e1, e2⟩ := TensorBlock.new_data h3
  refine h.mergeGradientsAlongProperties ⟨?_, ?_⟩ h4
  · rw [e1]; exact h.moveAllProperties (h.create _ _ _ h1) h2
  · rw [e2]; simp

theorem FreshData.keysToProperties (h : FreshData Q) {build : Build} {hash : HashOrder} {k : Labels}
    {sort : Bool} {t t' : TensorMap A} (he : t.keysToProperties build hash k sort = (t', .ok ())) :
    t'.AllData Q := by
  unfold TensorMap.keysToProperties at he
  rw [Act.get_bind, Act.lift_bind] at he
  split at he
  · rename_i h1
    simp only [TensorMap.keysToPropertiesResult, Res.bind_eq_ok] at h1
    obtain ⟨_, _, _, _, blocks, h2, h3⟩ := h1
    cases h3
    cases he
    exact mergeForKeys_all (fun l b hb => h.mergeBlocksAlongProperties hb) h2
  · cases he
  · cases he

end

/-! ### Components to properties -/

section
variable {P : BasicBlock A → Prop} {Q : A → Prop} {vars : List String}

theorem gradients_componentsToProperties (hPQ : ∀ b b', P b →
      BasicBlock.componentsToProperties vars b = (b', .ok ()) → Q b'.data)
    {gradients : List (String × BasicBlock A)} (hg : ∀ p ∈ gradients, P p.2) {b b' : TensorBlock A}
    (he : TensorBlock.gradientsComponentsToProperties vars gradients b = (b', .ok ())) :
    b'.values = b.values ∧ b'.gradients.map Prod.fst = b.gradients.map Prod.fst ∧
    ∀ p ∈ b'.gradients, Q p.2.data ∨ (p ∈ b.gradients ∧ p.1 ∉ gradients.map Prod.fst) := by
  induction gradients generalizing b with
  | nil =>
    cases he
    exact ⟨rfl, rfl, fun p hp => .inr ⟨hp, by simp⟩⟩
  | cons g gradients ih =>
    obtain ⟨name, g⟩ := g
    rw [TensorBlock.gradientsComponentsToProperties, Act.bind_eq_ok] at he
    obtain ⟨b₁, _, h1, h2⟩ := he
    unfold Act.focus at h1
    rw [Prod.mk.injEq] at h1
    obtain ⟨rfl, h1⟩ := h1
    have hq := hPQ g _ (hg _ List.mem_cons_self) (Prod.ext rfl h1)
    obtain ⟨e1, e2, e3⟩ := ih (fun p hp => hg p (List.mem_cons_of_mem _ hp)) h2
    refine ⟨e1, ?_, fun p hp => ?_⟩
    · rw [e2]
      unfold TensorBlock.setGradient
      simp only [List.map_map]
      refine List.map_congr_left fun p _ => ?_
      simp only [Function.comp]
      split <;> rfl
    · rcases e3 p hp with h3 | ⟨h3, h4⟩
      · exact .inl h3
      · unfold TensorBlock.setGradient at h3
        obtain ⟨⟨n, old⟩, hq', he⟩ := List.mem_map.1 h3
        dsimp only at he
        split at he
        · subst he
          exact .inl hq
        · rename_i hn
          subst he
          refine .inr ⟨hq', ?_⟩
          rw [List.map_cons, List.mem_cons, not_or]
          exact ⟨hn, h4⟩

theorem block_componentsToProperties (hash : HashOrder) (hvars : vars ≠ []) (hPQ : ∀ b b', P b →
      BasicBlock.componentsToProperties vars b = (b', .ok ()) → Q b'.data)
    {b b' : TensorBlock A} (hv : P b.values) (hg : ∀ p ∈ b.gradients, P p.2)
    (he : TensorBlock.componentsToProperties hash vars b = (b', .ok ())) : b'.AllData Q := by
  unfold TensorBlock.componentsToProperties at he
  rw [if_neg (by simpa using hvars), Act.bind_eq_ok] at he
  obtain ⟨b₁, _, h1, h2⟩ := he
  unfold Act.focus at h1
  rw [Prod.mk.injEq] at h1
  obtain ⟨rfl, h1⟩ := h1
  rw [Act.get_bind] at h2
  obtain ⟨e1, e2, e3⟩ := gradients_componentsToProperties hPQ
    (fun p hp => hg p ((hash.perm _).mem_iff.1 hp)) h2
  refine ⟨by rw [e1]; exact hPQ _ _ hv (Prod.ext rfl h1), fun p hp => ?_⟩
  rcases e3 p hp with h3 | ⟨h3, h4⟩
  · exact h3
  · exact absurd (List.mem_map_of_mem (f := Prod.fst) ((hash.perm _).mem_iff.2 h3)) h4

theorem tensor_componentsToProperties (hash : HashOrder) (hvars : vars ≠ []) (hPQ : ∀ b b', P b →
      BasicBlock.componentsToProperties vars b = (b', .ok ()) → Q b'.data)
    {t t' : TensorMap A} (hv : ∀ b ∈ t.blocks, P b.values ∧ ∀ p ∈ b.gradients, P p.2)
    (he : TensorMap.componentsToProperties hash vars t = (t', .ok ())) : t'.AllData Q := by
  unfold TensorMap.componentsToProperties at he
  rw [if_neg (by simpa using hvars)] at he
  unfold Act.focus at he
  rw [Prod.mk.injEq] at he
  obtain ⟨rfl, he⟩ := he
  change (TensorMap.componentsToPropertiesLoop hash vars t.blocks).2 = .ok () at he
  change ∀ b ∈ (TensorMap.componentsToPropertiesLoop hash vars t.blocks).1, b.AllData Q
  generalize t.blocks = blocks at hv he
  induction blocks with
  | nil => simp [TensorMap.componentsToPropertiesLoop]
  | cons b blocks ih =>
    have e : TensorMap.componentsToPropertiesLoop hash vars (b :: blocks) =
        match TensorBlock.componentsToProperties hash vars b with
        | (b, .ok ()) => (b :: (TensorMap.componentsToPropertiesLoop hash vars blocks).1,
            (TensorMap.componentsToPropertiesLoop hash vars blocks).2)
        | (b, .err e) => (b :: blocks, .err e)
        | (b, .panic m) => (b :: blocks, .panic m) := rfl
    rcases h1 : TensorBlock.componentsToProperties hash vars b with ⟨b', r⟩
    rw [h1] at e
    cases r with
    | ok u =>
      have he' := (congrArg Prod.snd e).symm.trans he
      rw [congrArg Prod.fst e]
      intro x hx
      rcases List.mem_cons.1 hx with rfl | hx
      · exact block_componentsToProperties hash hvars hPQ (hv b List.mem_cons_self).1 (hv b List.mem_cons_self).2 h1
      · exact ih (fun y hy => hv y (List.mem_cons_of_mem _ hy)) he' x hx
    | err e' => cases (congrArg Prod.snd e).symm.trans he
    | panic m => cases (congrArg Prod.snd e).symm.trans he

end
end Equistore
