import Verif.Lemmas.CHeap
import Verif.Lemmas.Blocks

/-! What Rust functions do with the arrays they are given: which ones they keep, and which ones are new. -/

namespace Equistore

/-! ### Invariants of functions taking `&mut self` -/

namespace Act
variable {σ τ α β : Type}

/-- A property of the state which holds after the function, whatever its outcome. -/
def Keeps (P : σ → Prop) (x : Act σ α) : Prop := ∀ s, P s → P (x s).1

theorem Keeps.bind {P : σ → Prop} {x : Act σ α} {f : α → Act σ β} (hx : Keeps P x) (hf : ∀ a, Keeps P (f a)) :
    Keeps P (x >>= f) := by
  intro s hs
  rw [bind_apply]
  have := hx s hs
  rcases h : x s with ⟨s', a | e | m⟩ <;> rw [h] at this
  · exact hf a s' this
  · exact this
  · exact this

theorem Keeps.get_bind {P : σ → Prop} {f : σ → Act σ β} (hf : ∀ s, P s → Keeps P (f s)) :
    Keeps P (Act.get >>= f) := fun s hs => hf s hs s hs

theorem Keeps.lift {P : σ → Prop} (x : Res α) : Keeps P (Act.lift x : Act σ α) := fun _ hs => hs
theorem Keeps.pure {P : σ → Prop} (a : α) : Keeps P (pure a : Act σ α) := fun _ hs => hs
theorem Keeps.set {P : σ → Prop} {s : σ} (hs : P s) : Keeps P (Act.set s) := fun _ _ => hs

theorem Keeps.focus {P : σ → Prop} {Q : τ → Prop} {read : σ → τ} {write : τ → σ → σ} {x : Act τ α}
    (hx : Keeps Q x) (h1 : ∀ s, P s → Q (read s)) (h2 : ∀ s t, P s → Q t → P (write t s)) :
    Keeps P (Act.focus read write x) := fun s hs => h2 s _ hs (hx _ (h1 s hs))

end Act

section
variable {A : Type}

/-- All gradients have different names. -/
def TensorBlock.Named (b : TensorBlock A) : Prop := (b.gradients.map Prod.fst).Nodup

theorem TensorBlock.names_skeleton (b : TensorBlock A) : b.skeleton.gradients.map Prod.fst = b.gradients.map Prod.fst := by
  simp [skeleton, mapData]

theorem TensorBlock.Named.of_skeleton {A' : Type} {b : TensorBlock A} {b' : TensorBlock A'} (hb : b.Named)
    (h : b'.skeleton = b.skeleton) : b'.Named := by
  unfold Named at *
  rw [← names_skeleton, h, names_skeleton]
  exact hb

end

section
variable {B : Type} [ArrayLike B]

/-- Which arrays these are. -/
def TensorBlock.handles (b : TensorBlock (Live B)) : List (Option CArray) := b.arrays.map (·.handle)

/-! ### `TensorBlock::new`, `add_gradient` -/

theorem TensorBlock.new_arrays {data : Live B} {samples properties : Labels} {components : List Labels}
    {b : TensorBlock (Live B)} (h : TensorBlock.new data samples components properties = .ok b) :
    b.arrays = [data] ∧ b.Named := by
  unfold TensorBlock.new BasicBlock.new at h
  simp only [Res.bind_eq_ok, Res.pure_eq, Res.ok.injEq] at h
  obtain ⟨_, ⟨_, _, _, _, rfl⟩, rfl⟩ := h
  exact ⟨rfl, List.nodup_nil⟩

theorem TensorBlock.checkGradient_fresh {b : TensorBlock (Live B)} {parameter : String} {data : Live B}
    {samples : Labels} {components : List Labels} {u : Unit}
    (h : TensorBlock.checkGradient b parameter data samples components = .ok u) :
    parameter ∉ b.gradients.map Prod.fst := by
  unfold TensorBlock.checkGradient at h
  simp only [Res.bind_eq_ok, Res.guardErr_eq_ok] at h
  obtain ⟨_, h, _⟩ := h
  rw [Option.isNone_iff_eq_none, List.lookup_eq_none_iff] at h
  intro hm
  obtain ⟨p, hp, rfl⟩ := List.mem_map.1 hm
  simpa using h p hp

theorem TensorBlock.addGradient_arrays (b : TensorBlock (Live B)) (parameter : String) (data : Live B)
    (samples : Labels) (components : List Labels) :
    ((addGradient parameter data samples components b).1.arrays = b.arrays ∨
      (addGradient parameter data samples components b).1.arrays = b.arrays ++ [data]) ∧
    (b.Named → (addGradient parameter data samples components b).1.Named) := by
  rw [addGradient_eq]
  cases h : checkGradient b parameter data samples components with
  | ok u =>
    have hf := checkGradient_fresh h
    have hn : b.Named → ((b.gradients ++ [(parameter, b.gradientBlock data samples components)]).map Prod.fst).Nodup := by
      intro hb
      rw [List.map_append]
      refine List.Nodup.append hb (List.nodup_singleton _) ?_
      intro x hx hy
      rw [List.map_singleton, List.mem_singleton] at hy
      subst hy
      exact hf hx
    simp only
    split
    · refine ⟨.inr ?_, hn⟩
      simp [arrays, TensorBlock.gradientBlock]
    · refine ⟨.inr ?_, hn⟩
      simp [arrays, TensorBlock.gradientBlock]
  | err e => exact ⟨.inl rfl, id⟩
  | panic m => exact ⟨.inl rfl, id⟩

/-! ### `components_to_properties` -/

theorem BasicBlock.componentsToProperties_handle (vars : List String) (x : Option CArray) :
    Act.Keeps (fun b : BasicBlock (Live B) => b.data.handle = x) (BasicBlock.componentsToProperties vars) := by
  unfold BasicBlock.componentsToProperties
  refine Act.Keeps.get_bind fun s hs => ?_
  split
  · exact Act.Keeps.lift _
  · refine Act.Keeps.bind (Act.Keeps.lift _) fun _ => ?_
    refine Act.Keeps.bind (Act.Keeps.set hs) fun _ => ?_
    refine Act.Keeps.bind (Act.Keeps.lift _) fun _ => ?_
    refine Act.Keeps.bind (Act.Keeps.lift _) fun _ => ?_
    refine Act.Keeps.bind (Act.Keeps.lift _) fun _ => ?_
    refine Act.Keeps.bind (Act.Keeps.lift _) fun _ => ?_
    refine Act.Keeps.bind (Act.Keeps.lift _) fun _ => ?_
    have hfocus : ∀ f : Act (Live B) Unit, Act.Keeps (fun a : Live B => a.handle = x) f →
        Act.Keeps (fun b : BasicBlock (Live B) => b.data.handle = x)
          (Act.focus (·.data) (fun data b => { b with data }) f) :=
      fun f hf => Act.Keeps.focus hf (fun _ h => h) (fun _ _ _ h => h)
    refine Act.Keeps.bind (hfocus _ fun _ h => h) fun _ => ?_
    refine Act.Keeps.bind (hfocus _ fun _ h => h) fun _ => ?_
    exact Act.Keeps.get_bind fun s hs => Act.Keeps.set hs

/-- Same names of gradients, and the same arrays. -/
def TensorBlock.SameArrays (names : List String) (hs : List (Option CArray)) (b : TensorBlock (Live B)) : Prop :=
  b.gradients.map Prod.fst = names ∧ b.handles = hs

theorem TensorBlock.setGradient_same {b : TensorBlock (Live B)} (hn : b.Named) {name : String}
    {old g : BasicBlock (Live B)} (hm : (name, old.data.handle) ∈ b.gradients.map (fun p => (p.1, p.2.data.handle)))
    (hg : g.data.handle = old.data.handle) :
    (setGradient name g b).gradients.map (fun p => (p.1, p.2.data.handle)) =
      b.gradients.map (fun p => (p.1, p.2.data.handle)) := by
  unfold setGradient
  simp only [List.map_map]
  apply List.map_congr_left
  rintro ⟨n, x⟩ hx
  simp only [Function.comp]
  by_cases h : n = name
  · subst h
    simp only [if_true, Prod.mk.injEq, true_and]
    rw [hg]
    obtain ⟨⟨n', y⟩, hy, heq⟩ := List.mem_map.1 hm
    simp only [Prod.mk.injEq] at heq
    obtain ⟨rfl, heq⟩ := heq
    have := List.inj_on_of_nodup_map hn hx hy rfl
    cases this
    exact heq.symm
  · rw [if_neg h]

theorem TensorBlock.gradientsComponentsToProperties_handles (vars : List String)
    (gradients : List (String × BasicBlock (Live B))) (x : Option CArray) (entries : List (String × Option CArray))
    (hn : (entries.map Prod.fst).Nodup)
    (hm : ∀ p ∈ gradients, (p.1, p.2.data.handle) ∈ entries) :
    Act.Keeps (fun b : TensorBlock (Live B) => b.values.data.handle = x ∧
        b.gradients.map (fun p => (p.1, p.2.data.handle)) = entries)
      (gradientsComponentsToProperties vars gradients) := by
  induction gradients with
  | nil => exact Act.Keeps.pure _
  | cons g gradients ih =>
    obtain ⟨name, g⟩ := g
    unfold gradientsComponentsToProperties
    refine Act.Keeps.bind ?_ fun _ => ih fun p hp => hm p (List.mem_cons_of_mem _ hp)
    refine Act.Keeps.focus (BasicBlock.componentsToProperties_handle vars g.data.handle) (fun _ _ => rfl) ?_
    rintro b g' ⟨hv, he⟩ hg
    have hb : b.Named := by
      unfold Named
      have : b.gradients.map Prod.fst = entries.map Prod.fst := by rw [← he]; simp
      rw [this]; exact hn
    refine ⟨hv, ?_⟩
    rw [setGradient_same hb (old := g) (by rw [he]; exact hm _ List.mem_cons_self) hg, he]

theorem TensorBlock.componentsToProperties_handles (hash : HashOrder) (vars : List String)
    (b : TensorBlock (Live B)) (hb : b.Named) :
    (componentsToProperties hash vars b).1.handles = b.handles ∧ (componentsToProperties hash vars b).1.Named := by
  have key : Act.Keeps (fun b' : TensorBlock (Live B) => b'.values.data.handle = b.values.data.handle ∧
      b'.gradients.map (fun p => (p.1, p.2.data.handle)) = b.gradients.map (fun p => (p.1, p.2.data.handle)))
      (componentsToProperties hash vars) := by
    unfold componentsToProperties
    split
    · exact Act.Keeps.pure _
    · refine Act.Keeps.bind (Act.Keeps.focus
        (BasicBlock.componentsToProperties_handle vars b.values.data.handle) (fun _ h => h.1) ?_) fun _ => ?_
      · rintro s v ⟨_, h2⟩ h1
        exact ⟨h1, h2⟩
      · refine Act.Keeps.get_bind fun s hs => ?_
        refine gradientsComponentsToProperties_handles vars _ _ _ (by rw [List.map_map]; exact hb) ?_
        intro p hp
        rw [← hs.2]
        exact List.mem_map.2 ⟨p, (hash.perm s.gradients).mem_iff.1 hp, rfl⟩
  obtain ⟨h1, h2⟩ := key b ⟨rfl, rfl⟩
  have h3 := congrArg (List.map Prod.snd) h2
  have h4 := congrArg (List.map Prod.fst) h2
  simp only [List.map_map] at h3 h4
  constructor
  · simp only [handles, arrays, List.map_cons, h1, List.map_map]
    congr 1
  · unfold Named
    have : (componentsToProperties hash vars b).1.gradients.map Prod.fst = b.gradients.map Prod.fst := h4
    rw [this]
    exact hb

/-- The same arrays in each block, and different names for the gradients of each block. -/
def TensorMap.SameHandles (t t' : TensorMap (Live B)) : Prop :=
  List.Forall₂ (fun b b' : TensorBlock (Live B) => b'.handles = b.handles ∧ (b.Named → b'.Named)) t.blocks t'.blocks

theorem TensorMap.SameHandles.refl (t : TensorMap (Live B)) : SameHandles t t := by
  unfold SameHandles
  rw [List.forall₂_same]
  exact fun b _ => ⟨rfl, id⟩

theorem TensorMap.componentsToProperties_handles (hash : HashOrder) (vars : List String)
    (t : TensorMap (Live B)) (ht : ∀ b ∈ t.blocks, b.Named) :
    SameHandles t (componentsToProperties hash vars t).1 := by
  unfold componentsToProperties
  split
  · exact SameHandles.refl t
  · show List.Forall₂ _ t.blocks (componentsToPropertiesLoop hash vars t.blocks).1
    obtain ⟨keys, blocks⟩ := t
    simp only at ht ⊢
    induction blocks with
    | nil => exact .nil
    | cons b blocks ih =>
      have hb := TensorBlock.componentsToProperties_handles hash vars b (ht b List.mem_cons_self)
      have hrest : List.Forall₂ (fun b b' : TensorBlock (Live B) => b'.handles = b.handles ∧ (b.Named → b'.Named))
          blocks blocks := List.forall₂_same.2 fun b _ => ⟨rfl, id⟩
      unfold componentsToPropertiesLoop
      split
      · rename_i b' heq
        rw [heq] at hb
        exact .cons ⟨hb.1, fun _ => hb.2⟩ (ih fun b hb => ht b (List.mem_cons_of_mem _ hb))
      · rename_i b' e heq
        rw [heq] at hb
        exact .cons ⟨hb.1, fun _ => hb.2⟩ hrest
      · rename_i b' e heq
        rw [heq] at hb
        exact .cons ⟨hb.1, fun _ => hb.2⟩ hrest

/-! ### `keys_to_samples`, `keys_to_properties` -/

/-- All the arrays of this block are new, and the gradients have different names. -/
def TensorBlock.New (b : TensorBlock (Live B)) : Prop := (∀ a ∈ b.arrays, a.handle = none) ∧ b.Named

theorem create_handle {a a' : Live B} {shape : List Nat} (h : ArrayLike.create a shape = .ok a') :
    a'.handle = none := by
  have h : (do
    let content ← ArrayLike.create a.content shape
    return ({ handle := none, content } : Live B)) = .ok a' := h
  simp only [Res.bind_eq_ok, Res.pure_eq, Res.ok.injEq] at h
  obtain ⟨_, _, rfl⟩ := h
  rfl

theorem moveSamples_handle {output input output' : Live B} {samples : List SampleMapping} {start stop : Nat}
    (h : moveSamples output input samples start stop = .ok output') : output'.handle = output.handle := by
  unfold moveSamples at h
  have hk : (ArrayLike.moveSamplesFrom output input samples start stop).1.handle = output.handle := rfl
  split at h
  · rename_i o heq
    rw [heq] at hk
    cases h
    exact hk
  · cases h
  · cases h

theorem moveAllSamples_handle {stop : Nat} {l : List (Live B × List SampleMapping)} {output output' : Live B}
    (h : moveAllSamples stop output l = .ok output') : output'.handle = output.handle := by
  induction l generalizing output with
  | nil => cases h; rfl
  | cons a l ih =>
    obtain ⟨input, mapping⟩ := a
    simp only [moveAllSamples, Res.bind_eq_ok] at h
    obtain ⟨o, h1, h2⟩ := h
    rw [ih h2, moveSamples_handle h1]

theorem moveAllGradients_handle {build : Build} {parameter : String} {newSamples : Labels}
    {newComponents : List Labels} {stop : Nat}
    {l : List ((List LabelValue × TensorBlock (Live B)) × List SampleMapping)} {output output' : Live B}
    (h : moveAllGradients build parameter newSamples newComponents stop output l = .ok output') :
    output'.handle = output.handle := by
  induction l generalizing output with
  | nil => cases h; rfl
  | cons a l ih =>
    obtain ⟨⟨_, b⟩, mapping⟩ := a
    simp only [moveAllGradients, Res.bind_eq_ok] at h
    obtain ⟨_, _, _, _, _, _, o, h1, h2⟩ := h
    rw [ih h2, moveSamples_handle h1]

theorem moveAllProperties_handle {l : List ((Live B × List SampleMapping) × Option (Nat × Nat))}
    {output output' : Live B} (h : moveAllProperties output l = .ok output') : output'.handle = output.handle := by
  induction l generalizing output with
  | nil => cases h; rfl
  | cons a l ih =>
    obtain ⟨⟨input, mapping⟩, range⟩ := a
    cases range with
    | none => exact ih h
    | some r =>
      simp only [moveAllProperties, Res.bind_eq_ok] at h
      obtain ⟨o, h1, h2⟩ := h
      rw [ih h2, moveSamples_handle h1]

theorem moveAllGradientProperties_handle {build : Build} {parameter : String} {newSamples : Labels}
    {newComponents : List Labels}
    {l : List (((List LabelValue × TensorBlock (Live B)) × List SampleMapping) × Option (Nat × Nat))}
    {output output' : Live B}
    (h : moveAllGradientProperties build parameter newSamples newComponents output l = .ok output') :
    output'.handle = output.handle := by
  induction l generalizing output with
  | nil => cases h; rfl
  | cons a l ih =>
    obtain ⟨⟨⟨_, b⟩, mapping⟩, range⟩ := a
    cases range with
    | none => exact ih h
    | some r =>
      simp only [moveAllGradientProperties, Res.bind_eq_ok] at h
      obtain ⟨_, _, _, _, _, _, o, h1, h2⟩ := h
      rw [ih h2, moveSamples_handle h1]

theorem TensorBlock.New.addGradientExpect {b b' : TensorBlock (Live B)} (hb : b.New) {parameter : String}
    {data : Live B} (hd : data.handle = none) {samples : Labels} {components : List Labels}
    (h : Equistore.addGradientExpect b parameter data samples components = .ok b') : b'.New := by
  unfold Equistore.addGradientExpect at h
  have hg := addGradient_arrays b parameter data samples components
  split at h
  · rename_i c heq
    cases h
    rw [heq] at hg
    refine ⟨?_, hg.2 hb.2⟩
    intro a ha
    rcases hg.1 with h1 | h1
    · rw [h1] at ha; exact hb.1 a ha
    · rw [h1, List.mem_append, List.mem_singleton] at ha
      rcases ha with ha | rfl
      · exact hb.1 a ha
      · exact hd
  · cases h
  · cases h

theorem TensorBlock.New.of_new {data : Live B} (hd : data.handle = none) {samples properties : Labels}
    {components : List Labels} {b : TensorBlock (Live B)}
    (h : TensorBlock.new data samples components properties = .ok b) : b.New := by
  obtain ⟨h1, h2⟩ := TensorBlock.new_arrays h
  refine ⟨fun a ha => ?_, h2⟩
  rw [h1, List.mem_singleton] at ha
  rw [ha]; exact hd

theorem mergeGradientsAlongSamples_new {build : Build} {firstBlock : TensorBlock (Live B)}
    {blocks : List (List LabelValue × TensorBlock (Live B))} {mappings : List (List SampleMapping)} {stop : Nat}
    {l : List (String × BasicBlock (Live B))} {b b' : TensorBlock (Live B)} (hb : b.New)
    (h : mergeGradientsAlongSamples build firstBlock blocks mappings stop b l = .ok b') : b'.New := by
  induction l generalizing b with
  | nil => cases h; exact hb
  | cons a l ih =>
    obtain ⟨parameter, g⟩ := a
    simp only [mergeGradientsAlongSamples, Res.bind_eq_ok] at h
    obtain ⟨_, _, _, _, _, _, _, _, o, h1, o', h2, c, h3, h4⟩ := h
    exact ih (hb.addGradientExpect (by rw [moveAllGradients_handle h2, create_handle h1]) h3) h4

theorem mergeGradientsAlongProperties_new {build : Build} {firstBlock : TensorBlock (Live B)}
    {blocks : List (List LabelValue × TensorBlock (Live B))} {mappings : List (List SampleMapping)}
    {ranges : List (Option (Nat × Nat))} {count : Nat}
    {l : List (String × BasicBlock (Live B))} {b b' : TensorBlock (Live B)} (hb : b.New)
    (h : mergeGradientsAlongProperties build firstBlock blocks mappings ranges count b l = .ok b') : b'.New := by
  induction l generalizing b with
  | nil => cases h; exact hb
  | cons a l ih =>
    obtain ⟨parameter, g⟩ := a
    simp only [mergeGradientsAlongProperties, Res.bind_eq_ok] at h
    obtain ⟨_, _, _, _, _, _, _, _, o, h1, o', h2, c, h3, h4⟩ := h
    exact ih (hb.addGradientExpect (by rw [moveAllGradientProperties_handle h2, create_handle h1]) h3) h4

theorem mergeBlocksAlongSamples_new {build : Build} {hash : HashOrder} {names : List String} {sort : Bool}
    {blocks : List (List LabelValue × TensorBlock (Live B))} {b : TensorBlock (Live B)}
    (h : mergeBlocksAlongSamples build hash names sort blocks = .ok b) : b.New := by
  unfold mergeBlocksAlongSamples at h
  simp only [Res.bind_eq_ok, Res.expectOk_eq_ok] at h
  obtain ⟨_, _, _, _, _, _, _, _, _, _, _, _, o, h1, _, _, o', h2, c, h3, h4⟩ := h
  exact mergeGradientsAlongSamples_new
    (TensorBlock.New.of_new (by rw [moveAllSamples_handle h2, create_handle h1]) h3) h4

theorem mergeBlocksAlongProperties_new {build : Build} {hash : HashOrder} {keys : Option Labels}
    {names : List String} {sort : Bool} {blocks : List (List LabelValue × TensorBlock (Live B))}
    {b : TensorBlock (Live B)} (h : mergeBlocksAlongProperties build hash keys names sort blocks = .ok b) : b.New := by
  unfold mergeBlocksAlongProperties at h
  simp only [Res.bind_eq_ok, Res.expectOk_eq_ok] at h
  obtain ⟨_, _, _, _, _, _, _, _, _, _, _, _, _, _, _, _, _, _, o, h1, _, _, o', h2, c, h3, h4⟩ := h
  exact mergeGradientsAlongProperties_new
    (TensorBlock.New.of_new (by rw [moveAllProperties_handle h2, create_handle h1]) h3) h4

theorem mergeForKeys_new {t : TensorMap (Live B)} {newKeys : Labels} {positions : List Nat}
    {merge : List (List LabelValue × TensorBlock (Live B)) → Res (TensorBlock (Live B))}
    (hmerge : ∀ blocks b, merge blocks = .ok b → b.New) {blocks : List (TensorBlock (Live B))}
    (h : mergeForKeys t newKeys positions merge = .ok blocks) : ∀ b ∈ blocks, b.New := by
  unfold mergeForKeys at h
  simp only [Res.bind_eq_ok] at h
  obtain ⟨count, _, h⟩ := h
  split at h
  · simp only [Res.bind_eq_ok, Res.pure_eq, Res.ok.injEq] at h
    obtain ⟨_, _, b, hb, rfl⟩ := h
    intro b' hb'
    rw [List.mem_singleton] at hb'
    subst hb'
    exact hmerge _ _ hb
  · simp only [Res.bind_eq_ok] at h
    obtain ⟨_, _, h⟩ := h
    rw [mapM_eq_ok] at h
    intro b hb
    obtain ⟨i, hi, rfl⟩ := List.getElem_of_mem hb
    have := h.get (by rw [h.length_eq]; exact hi) hi
    simp only [Res.bind_eq_ok] at this
    obtain ⟨_, _, _, _, _, _, hx⟩ := this
    exact hmerge _ _ hx

/-- What `keys_to_samples` and `keys_to_properties` do with arrays: on success all the arrays are new, otherwise
nothing changes. -/
def NewOrUnchanged (x : Act (TensorMap (Live B)) Unit) : Prop :=
  ∀ t, ((x t).2 = .ok () ∧ ∀ b ∈ (x t).1.blocks, b.New) ∨ ((x t).2 ≠ .ok () ∧ (x t).1 = t)

theorem NewOrUnchanged.lift_bind {α : Type} (r : Res α) {f : α → Act (TensorMap (Live B)) Unit}
    (h : ∀ a, NewOrUnchanged (f a)) : NewOrUnchanged (Act.lift r >>= f) := by
  intro t
  rw [Act.lift_bind]
  cases r with
  | ok a => exact h a t
  | err e => exact .inr ⟨by simp, rfl⟩
  | panic m => exact .inr ⟨by simp, rfl⟩

theorem keysToSamples_new (build : Build) (hash : HashOrder) (keysToMove : Labels) (sort : Bool) :
    NewOrUnchanged (B := B) (TensorMap.keysToSamples build hash keysToMove sort) := by
  intro t
  unfold TensorMap.keysToSamples
  rw [Act.get_bind, Act.lift_bind]
  cases h : t.keysToSamplesResult build hash keysToMove sort with
  | ok r =>
    obtain ⟨keys, blocks⟩ := r
    refine .inl ⟨rfl, ?_⟩
    unfold TensorMap.keysToSamplesResult at h
    simp only [Res.bind_eq_ok, Res.pure_eq, Res.ok.injEq, Prod.mk.injEq] at h
    obtain ⟨_, _, _, _, ⟨k, ps⟩, _, bs, hbs, rfl, rfl⟩ := h
    exact mergeForKeys_new (fun _ _ => mergeBlocksAlongSamples_new) hbs
  | err e => exact .inr ⟨by simp, rfl⟩
  | panic m => exact .inr ⟨by simp, rfl⟩

theorem keysToProperties_new (build : Build) (hash : HashOrder) (keysToMove : Labels) (sort : Bool) :
    NewOrUnchanged (B := B) (TensorMap.keysToProperties build hash keysToMove sort) := by
  intro t
  unfold TensorMap.keysToProperties
  rw [Act.get_bind, Act.lift_bind]
  cases h : t.keysToPropertiesResult build hash keysToMove sort with
  | ok r =>
    obtain ⟨keys, blocks⟩ := r
    refine .inl ⟨rfl, ?_⟩
    unfold TensorMap.keysToPropertiesResult at h
    simp only [Res.bind_eq_ok, Res.pure_eq, Res.ok.injEq, Prod.mk.injEq] at h
    obtain ⟨⟨k, ps⟩, _, _, _, bs, hbs, rfl, rfl⟩ := h
    exact mergeForKeys_new (fun _ _ => mergeBlocksAlongProperties_new) hbs
  | err e => exact .inr ⟨by simp, rfl⟩
  | panic m => exact .inr ⟨by simp, rfl⟩

end

/-! ### Copies -/

section
variable {B : Type} [ArrayCallbacks B]

theorem cloneArray_ok {a a' : Live B} (h : cloneArray a = .ok a') :
    a'.handle = none ∧ ArrayCallbacks.copy a.content = some a'.content := by
  simp only [cloneArray, Res.bind_eq_ok, Res.expect_eq_ok, Res.pure_eq, Res.ok.injEq] at h
  obtain ⟨c, hc, rfl⟩ := h
  exact ⟨rfl, hc⟩

theorem cloneBlock_ok {b b' : TensorBlock (Live B)} (h : cloneBlock b = .ok b') :
    b'.skeleton = b.skeleton ∧ List.Forall₂ (fun a a' : Live B => a'.handle = none ∧
      ArrayCallbacks.copy a.content = some a'.content) b.arrays b'.arrays := by
  unfold cloneBlock at h
  simp only [Res.bind_eq_ok, Res.pure_eq, Res.ok.injEq] at h
  obtain ⟨v, hv, gs, hgs, rfl⟩ := h
  rw [mapM_eq_ok] at hgs
  obtain ⟨values, gradients, ps⟩ := b
  simp only [TensorBlock.skeleton, TensorBlock.mapData, BasicBlock.withData, TensorBlock.arrays, TensorBlock.mk.injEq,
    true_and, and_true, List.forall₂_cons]
  refine ⟨?_, cloneArray_ok hv, ?_⟩
  · clear hv
    dsimp only at hgs
    induction hgs with
    | nil => rfl
    | cons hg _ ih =>
      simp only [Res.bind_eq_ok, Res.pure_eq, Res.ok.injEq] at hg
      obtain ⟨d, _, rfl⟩ := hg
      simp only [List.map_cons, ih, BasicBlock.withData]
  · clear hv
    dsimp only at hgs
    induction hgs with
    | nil => exact .nil
    | cons hg _ ih =>
      simp only [Res.bind_eq_ok, Res.pure_eq, Res.ok.injEq] at hg
      obtain ⟨d, hd, rfl⟩ := hg
      exact .cons (cloneArray_ok hd) ih

end

end Equistore
