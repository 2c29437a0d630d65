import Verif.Spec.Lifetimes
import Verif.Lemmas.Provenance
import Verif.Lemmas.BackendLabels

/-! What calls of the C API do with labels. -/

namespace Equistore
open Spec

/-! ### Labels of blocks -/

section
variable {A A' A'' : Type}

/-- All the labels of a part of a block. -/
structure SameLabels (part : BasicBlock A) (part' : BasicBlock A') : Prop where
  samples : part'.samples = part.samples
  components : part'.components = part.components
  properties : part'.properties = part.properties

/-- The parts of a block are still there, with a relation between them. -/
def KeepsParts (R : BasicBlock A → BasicBlock A' → Prop) (b : TensorBlock A) (b' : TensorBlock A') : Prop :=
  R b.values b'.values ∧
    ∀ name part, b.gradients.lookup name = some part → ∃ part', b'.gradients.lookup name = some part' ∧ R part part'

theorem KeepsParts.select {R : BasicBlock A → BasicBlock A' → Prop} {b : TensorBlock A} {b' : TensorBlock A'}
    (hk : KeepsParts R b b') {name : Bytes} {part : BasicBlock A} (hs : selectBasic b name = .ok part) :
    ∃ part', selectBasic b' name = .ok part' ∧ R part part' := by
  unfold selectBasic at *
  rw [Res.bind_eq_ok] at hs
  obtain ⟨n, hn, hs⟩ := hs
  rw [hn]
  simp only [Res.ok_bind]
  by_cases hv : n = "values"
  · rw [if_pos hv] at hs ⊢
    cases hs
    exact ⟨_, rfl, hk.1⟩
  · rw [if_neg hv] at hs ⊢
    cases hl : b.gradients.lookup n with
    | none => rw [hl] at hs; cases hs
    | some x =>
      rw [hl] at hs
      cases hs
      obtain ⟨part', h1, h2⟩ := hk.2 n _ hl
      exact ⟨part', by rw [h1]; rfl, h2⟩

theorem KeepsParts.trans {R : BasicBlock A → BasicBlock A' → Prop} {R' : BasicBlock A' → BasicBlock A'' → Prop}
    {R'' : BasicBlock A → BasicBlock A'' → Prop} (hR : ∀ a b c, R a b → R' b c → R'' a c) {b : TensorBlock A}
    {b' : TensorBlock A'} {b'' : TensorBlock A''} (h1 : KeepsParts R b b') (h2 : KeepsParts R' b' b'') :
    KeepsParts R'' b b'' := by
  refine ⟨hR _ _ _ h1.1 h2.1, fun name part hp => ?_⟩
  obtain ⟨part', h3, h4⟩ := h1.2 name part hp
  obtain ⟨part'', h5, h6⟩ := h2.2 name part' h3
  exact ⟨part'', h5, hR _ _ _ h4 h6⟩

theorem SameLabels.trans (a : BasicBlock A) (b : BasicBlock A') (c : BasicBlock A'') (h1 : SameLabels a b)
    (h2 : SameLabels b c) : SameLabels a c :=
  ⟨h2.1.trans h1.1, h2.2.trans h1.2, h2.3.trans h1.3⟩

theorem SameLabels.axis {a : BasicBlock A} {b : BasicBlock A'} (h : SameLabels a b) (axis : Nat) :
    axisLabels b axis = axisLabels a axis := by
  unfold axisLabels
  rw [h.samples, h.components, h.properties]

theorem keepsParts_refl (b : TensorBlock A) : KeepsParts SameLabels b b :=
  ⟨⟨rfl, rfl, rfl⟩, fun _ part hp => ⟨part, hp, rfl, rfl, rfl⟩⟩

theorem keepsParts_mapData (f : A → A') (b : TensorBlock A) : KeepsParts SameLabels b (b.mapData f) := by
  refine ⟨⟨rfl, rfl, rfl⟩, fun name part hp => ⟨part.withData (f part.data), ?_, rfl, rfl, rfl⟩⟩
  unfold TensorBlock.mapData
  simp only
  rw [lookup_map (fun g : BasicBlock A => g.withData (f g.data)), hp]
  rfl

theorem keepsParts_skeleton (b : TensorBlock A) : KeepsParts SameLabels b.skeleton b := by
  refine ⟨⟨rfl, rfl, rfl⟩, fun name part hp => ?_⟩
  unfold TensorBlock.skeleton TensorBlock.mapData at hp
  simp only at hp
  rw [lookup_map (fun g : BasicBlock A => g.withData ())] at hp
  obtain ⟨x, hx, rfl⟩ := Option.map_eq_some_iff.1 hp
  exact ⟨x, hx, rfl, rfl, rfl⟩

theorem keepsParts_of_skeleton {b : TensorBlock A} {b' : TensorBlock A'} (hs : b'.skeleton = b.skeleton) :
    KeepsParts SameLabels b b' := by
  have h1 : KeepsParts SameLabels b b.skeleton := keepsParts_mapData _ b
  rw [← hs] at h1
  exact h1.trans SameLabels.trans (keepsParts_skeleton b')

end

section
variable {A : Type} [ArrayLike A]

theorem addGradient_keeps (b : TensorBlock A) (parameter : String) (data : A) (samples : Labels)
    (components : List Labels) :
    KeepsParts SameLabels b (TensorBlock.addGradient parameter data samples components b).1 := by
  have key : ∀ l, KeepsParts SameLabels b { b with
      gradients := b.gradients ++ [(parameter, b.gradientBlock data samples components)], gradientParameters := l } := by
    intro l
    refine ⟨⟨rfl, rfl, rfl⟩, fun name part hp => ⟨part, ?_, rfl, rfl, rfl⟩⟩
    rw [List.lookup_append, hp]
    rfl
  rw [addGradient_eq]
  cases h : TensorBlock.checkGradient b parameter data samples components with
  | ok u =>
    simp only
    split
    · exact key _
    · exact key _
  | err e => exact keepsParts_refl b
  | panic m => exact keepsParts_refl b

theorem addGradientOfC_keeps (name : Option Bytes) (array : A) (samples : CLabels) (components : List CLabels)
    (b : TensorBlock A) : KeepsParts SameLabels b (addGradientOfC name array samples components b).1 := by
  have hlift : ∀ {α : Type} (r : Res α) (f : α → Act (TensorBlock A) Unit),
      (∀ a, KeepsParts SameLabels b (f a b).1) → KeepsParts SameLabels b ((Act.lift r >>= f) b).1 := by
    intro α r f hf
    rw [Act.lift_bind]
    cases r with
    | ok a => exact hf a
    | err e => exact keepsParts_refl b
    | panic m => exact keepsParts_refl b
  refine hlift _ _ fun _ => hlift _ _ fun _ => hlift _ _ fun _ => hlift _ _ fun _ => ?_
  exact addGradient_keeps b _ _ _ _

/-! ### `components_to_properties` keeps the samples -/

theorem BasicBlock.componentsToProperties_samples (vars : List String) (x : Labels) :
    Act.Keeps (fun b : BasicBlock A => b.samples = x) (BasicBlock.componentsToProperties vars) := by
  unfold BasicBlock.componentsToProperties
  refine Act.Keeps.get_bind fun s hs => ?_
  split
  · exact Act.Keeps.lift _
  · refine Act.Keeps.bind (Act.Keeps.lift _) fun _ => ?_
    refine Act.Keeps.bind (Act.Keeps.set hs) fun _ => ?_
    refine Act.Keeps.bind (Act.Keeps.lift _) fun _ => ?_
    refine Act.Keeps.bind (Act.Keeps.lift _) fun _ => ?_
    refine Act.Keeps.bind (Act.Keeps.lift _) fun _ => ?_
    refine Act.Keeps.bind (Act.Keeps.lift _) fun _ => ?_
    refine Act.Keeps.bind (Act.Keeps.lift _) fun _ => ?_
    have hfocus : ∀ f : Act A Unit,
        Act.Keeps (fun b : BasicBlock A => b.samples = x) (Act.focus (·.data) (fun data b => { b with data }) f) :=
      fun f s hs => hs
    refine Act.Keeps.bind (hfocus _) fun _ => ?_
    refine Act.Keeps.bind (hfocus _) fun _ => ?_
    exact Act.Keeps.get_bind fun s hs => Act.Keeps.set hs

/-- The names of the gradients with something in them. -/
def partsOf {X : Type} (f : BasicBlock A → X) (b : TensorBlock A) : List (String × X) :=
  b.gradients.map fun p => (p.1, f p.2)

theorem setGradient_part {X : Type} (f : BasicBlock A → X) {b : TensorBlock A} (hn : b.Named) {name : String}
    {old g : BasicBlock A} (hm : (name, f old) ∈ partsOf f b) (hg : f g = f old) :
    partsOf f (TensorBlock.setGradient name g b) = partsOf f b := by
  unfold TensorBlock.setGradient partsOf
  simp only [List.map_map]
  apply List.map_congr_left
  rintro ⟨n, x⟩ hx
  simp only [Function.comp]
  by_cases h : n = name
  · subst h
    simp only [if_true, Prod.mk.injEq, true_and]
    rw [hg]
    obtain ⟨⟨n', y⟩, hy, heq⟩ := List.mem_map.1 hm
    simp only [Prod.mk.injEq] at heq
    obtain ⟨rfl, heq⟩ := heq
    have := List.inj_on_of_nodup_map hn hx hy rfl
    cases this
    exact heq.symm
  · rw [if_neg h]

/-- Something in the parts of a block which `components_to_properties` does not change. -/
def KeptByComponents {X : Type} (f : BasicBlock A → X) : Prop :=
  ∀ (vars : List String) (x : X), Act.Keeps (fun b : BasicBlock A => f b = x) (BasicBlock.componentsToProperties vars)

theorem gradientsComponentsToProperties_part {X : Type} {f : BasicBlock A → X} (hf : KeptByComponents f)
    (vars : List String) (gradients : List (String × BasicBlock A))
    (x : X) (entries : List (String × X)) (hn : (entries.map Prod.fst).Nodup)
    (hm : ∀ p ∈ gradients, (p.1, f p.2) ∈ entries) :
    Act.Keeps (fun b : TensorBlock A => f b.values = x ∧ partsOf f b = entries)
      (TensorBlock.gradientsComponentsToProperties vars gradients) := by
  induction gradients with
  | nil => exact Act.Keeps.pure _
  | cons g gradients ih =>
    obtain ⟨name, g⟩ := g
    unfold TensorBlock.gradientsComponentsToProperties
    refine Act.Keeps.bind ?_ fun _ => ih fun p hp => hm p (List.mem_cons_of_mem _ hp)
    refine Act.Keeps.focus (hf vars (f g)) (fun _ _ => rfl) ?_
    rintro b g' ⟨hv, he⟩ hg
    have hb : b.Named := by
      unfold TensorBlock.Named
      have : b.gradients.map Prod.fst = entries.map Prod.fst := by rw [← he]; simp [partsOf]
      rw [this]; exact hn
    refine ⟨hv, ?_⟩
    rw [setGradient_part f hb (old := g) (by rw [he]; exact hm _ List.mem_cons_self) hg, he]

/-- Only the samples. -/
def SameSamples {A A' : Type} (part : BasicBlock A) (part' : BasicBlock A') : Prop := part'.samples = part.samples

theorem keepsParts_of_part {X : Type} {f : BasicBlock A → X} {b b' : TensorBlock A} (hv : f b'.values = f b.values)
    (hg : partsOf f b' = partsOf f b) : KeepsParts (fun part part' => f part' = f part) b b' := by
  refine ⟨hv, fun name part hp => ?_⟩
  have h1 := congrArg (List.lookup name) hg
  unfold partsOf at h1
  rw [lookup_map f, lookup_map f, hp, Option.map_some, Option.map_eq_some_iff] at h1
  obtain ⟨part', h2, h3⟩ := h1
  exact ⟨part', h2, h3⟩

theorem block_componentsToProperties_part {X : Type} {f : BasicBlock A → X} (hf : KeptByComponents f)
    (hash : HashOrder) (vars : List String) (b : TensorBlock A) (hb : b.Named) :
    KeepsParts (fun part part' => f part' = f part) b (TensorBlock.componentsToProperties hash vars b).1 := by
  have key : Act.Keeps (fun b' : TensorBlock A => f b'.values = f b.values ∧ partsOf f b' = partsOf f b)
      (TensorBlock.componentsToProperties hash vars) := by
    unfold TensorBlock.componentsToProperties
    split
    · exact Act.Keeps.pure _
    · refine Act.Keeps.bind (Act.Keeps.focus (hf vars (f b.values)) (fun _ h => h.1) ?_) fun _ => ?_
      · rintro s v ⟨_, h2⟩ h1
        exact ⟨h1, h2⟩
      · refine Act.Keeps.get_bind fun s hs => ?_
        refine gradientsComponentsToProperties_part hf vars _ _ _ (by
          unfold partsOf; rw [List.map_map]; exact hb) ?_
        intro p hp
        rw [← hs.2]
        exact List.mem_map.2 ⟨p, (hash.perm s.gradients).mem_iff.1 hp, rfl⟩
  obtain ⟨h1, h2⟩ := key b ⟨rfl, rfl⟩
  exact keepsParts_of_part h1 h2

theorem componentsToProperties_part {X : Type} {f : BasicBlock A → X} (hf : KeptByComponents f)
    (hash : HashOrder) (vars : List String) (t : TensorMap A) (ht : ∀ b ∈ t.blocks, b.Named) :
    (TensorMap.componentsToProperties hash vars t).1.keys = t.keys ∧
      List.Forall₂ (KeepsParts fun part part' => f part' = f part) t.blocks
        (TensorMap.componentsToProperties hash vars t).1.blocks := by
  have hrefl : ∀ l : List (TensorBlock A), List.Forall₂ (KeepsParts fun part part' => f part' = f part) l l := by
    intro l
    rw [List.forall₂_same]
    exact fun b _ => keepsParts_of_part rfl rfl
  unfold TensorMap.componentsToProperties
  split
  · exact ⟨rfl, hrefl _⟩
  · refine ⟨rfl, ?_⟩
    show List.Forall₂ _ t.blocks (TensorMap.componentsToPropertiesLoop hash vars t.blocks).1
    obtain ⟨keys, blocks⟩ := t
    simp only at ht ⊢
    induction blocks with
    | nil => exact .nil
    | cons b blocks ih =>
      have hb := block_componentsToProperties_part hf hash vars b (ht b List.mem_cons_self)
      have hi := ih fun b hb => ht b (List.mem_cons_of_mem _ hb)
      unfold TensorMap.componentsToPropertiesLoop
      rcases hc : TensorBlock.componentsToProperties hash vars b with ⟨b', u | e | m⟩ <;> rw [hc] at hb
      · exact .cons hb hi
      · exact .cons hb (hrefl _)
      · exact .cons hb (hrefl _)

theorem keepsParts_of_samples {b b' : TensorBlock A} (hv : b'.values.samples = b.values.samples)
    (hg : partsOf (·.samples) b' = partsOf (·.samples) b) : KeepsParts SameSamples b b' :=
  keepsParts_of_part (f := (·.samples)) hv hg

theorem componentsToProperties_samples (hash : HashOrder) (vars : List String) (t : TensorMap A)
    (ht : ∀ b ∈ t.blocks, b.Named) :
    (TensorMap.componentsToProperties hash vars t).1.keys = t.keys ∧
      List.Forall₂ (KeepsParts SameSamples) t.blocks (TensorMap.componentsToProperties hash vars t).1.blocks :=
  componentsToProperties_part (f := (·.samples)) BasicBlock.componentsToProperties_samples hash vars t ht

end
end Equistore
