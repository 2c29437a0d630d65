import Verif.Lemmas.AllData

/-! What `components_to_properties` does not change about the arrays in a tensor map. -/

namespace Equistore
open Spec

variable {A : Type} [ArrayLike A] {α : Type} {flag : A → α}

/-- Something about an array which is not changed by `reshape` and `swap_axes`, successful or not. -/
structure KeepsFlag (flag : A → α) : Prop where
  reshape : ∀ a shape, flag (ArrayLike.reshape a shape).1 = flag a
  swapAxes : ∀ a i j, flag (ArrayLike.swapAxes a i j).1 = flag a

theorem Act.keep_bind {σ α β : Type} {I : σ → Prop} {x : Act σ α} {g : α → Act σ β} {s : σ} (hx : I (x s).1)
    (hg : ∀ a s', I s' → I (g a s').1) : I ((x >>= g) s).1 := by
  rw [Act.bind_apply]
  revert hx
  rcases x s with ⟨s', r | r | r⟩
  · exact fun hx => hg r s' hx
  · exact fun hx => hx
  · exact fun hx => hx

theorem Act.keep_lift {σ α β : Type} {I : σ → Prop} {x : Res α} {g : α → Act σ β} {s : σ} (hs : I s)
    (hg : ∀ a, I (g a s).1) : I ((Act.lift x >>= g) s).1 := by
  rw [Act.lift_bind]
  cases x with
  | ok a => exact hg a
  | err e => exact hs
  | panic m => exact hs

theorem KeepsFlag.basic (hf : KeepsFlag flag) (vars : List String) (b : BasicBlock A) :
    flag (BasicBlock.componentsToProperties vars b).1.data = flag b.data := by
  unfold BasicBlock.componentsToProperties
  rw [Act.get_bind]
  generalize hw : flag b.data = w
  cases b.components.findIdx? (fun c => c.names == vars) with
  | none => exact hw
  | some axis =>
    refine Act.keep_lift (I := fun b : BasicBlock A => flag b.data = w) hw fun c => ?_
    refine Act.keep_bind (I := fun b : BasicBlock A => flag b.data = w) hw fun _ s1 h1 => ?_
    refine Act.keep_lift (I := fun b : BasicBlock A => flag b.data = w) h1 fun P' => ?_
    refine Act.keep_lift (I := fun b : BasicBlock A => flag b.data = w) h1 fun shape => ?_
    refine Act.keep_lift (I := fun b : BasicBlock A => flag b.data = w) h1 fun _ => ?_
    refine Act.keep_lift (I := fun b : BasicBlock A => flag b.data = w) h1 fun count => ?_
    refine Act.keep_lift (I := fun b : BasicBlock A => flag b.data = w) h1 fun _ => ?_
    refine Act.keep_bind (I := fun b : BasicBlock A => flag b.data = w) ?_ fun _ s2 h2 => ?_
    · exact (hf.swapAxes _ _ _).trans h1
    · refine Act.keep_bind (I := fun b : BasicBlock A => flag b.data = w) ?_ fun _ s3 h3 => ?_
      · exact (hf.reshape _ _).trans h2
      · exact h3

/-- The flags of a list of gradients. -/
def gradientFlags (flag : A → α) (gs : List (String × BasicBlock A)) : List (String × α) :=
  gs.map fun g => (g.1, flag g.2.data)

theorem setGradient_flags (name : String) (g : BasicBlock A) (b : TensorBlock A)
    (h : ∀ x ∈ gradientFlags flag b.gradients, x.1 = name → x.2 = flag g.data) :
    gradientFlags flag (TensorBlock.setGradient name g b).gradients = gradientFlags flag b.gradients := by
  unfold gradientFlags TensorBlock.setGradient at *
  rw [List.map_map]
  refine List.map_congr_left fun x hx => ?_
  obtain ⟨n, old⟩ := x
  have := h _ (List.mem_map_of_mem hx)
  simp only [Function.comp_apply] at this ⊢
  by_cases hn : n = name
  · rw [if_pos hn, this hn]
  · rw [if_neg hn]

theorem KeepsFlag.gradients (hf : KeepsFlag flag) (vars : List String) (gs : List (String × BasicBlock A))
    (b : TensorBlock A)
    (h : ∀ g ∈ gs, ∀ x ∈ gradientFlags flag b.gradients, x.1 = g.1 → x.2 = flag g.2.data) :
    gradientFlags flag (TensorBlock.gradientsComponentsToProperties vars gs b).1.gradients =
        gradientFlags flag b.gradients ∧
      (TensorBlock.gradientsComponentsToProperties vars gs b).1.values = b.values := by
  induction gs generalizing b with
  | nil => exact ⟨rfl, rfl⟩
  | cons g gs ih =>
    obtain ⟨name, g⟩ := g
    have h1 := setGradient_flags (flag := flag) name (BasicBlock.componentsToProperties vars g).1 b (by
      rw [hf.basic]
      exact h _ List.mem_cons_self)
    rw [TensorBlock.gradientsComponentsToProperties, Act.bind_apply]
    unfold Act.focus
    split
    · rename_i h2
      simp only [Prod.mk.injEq] at h2
      rw [← h2.1]
      have := ih (TensorBlock.setGradient name (BasicBlock.componentsToProperties vars g).1 b) (by
        rw [h1]
        exact fun g hg => h g (List.mem_cons_of_mem _ hg))
      exact ⟨this.1.trans h1, this.2⟩
    · rename_i h2
      simp only [Prod.mk.injEq] at h2
      rw [← h2.1]
      exact ⟨h1, rfl⟩
    · rename_i h2
      simp only [Prod.mk.injEq] at h2
      rw [← h2.1]
      exact ⟨h1, rfl⟩

theorem KeepsFlag.block (hf : KeepsFlag flag) (hash : HashOrder) (vars : List String) (b : TensorBlock A)
    (hb : (b.gradients.map Prod.fst).Nodup) :
    gradientFlags flag (TensorBlock.componentsToProperties hash vars b).1.gradients = gradientFlags flag b.gradients ∧
    flag (TensorBlock.componentsToProperties hash vars b).1.values.data = flag b.values.data := by
  have hv := hf.basic vars b.values
  unfold TensorBlock.componentsToProperties
  split
  · exact ⟨rfl, rfl⟩
  · rw [Act.bind_apply]
    unfold Act.focus
    split
    · rename_i h1
      simp only [Prod.mk.injEq] at h1
      rw [Act.get_bind, ← h1.1]
      have := hf.gradients vars (hash.order b.gradients)
        { b with values := (BasicBlock.componentsToProperties vars b.values).1 } (by
          intro g hg x hx hn
          obtain ⟨y, hy, rfl⟩ := List.mem_map.1 hx
          have hg' : g ∈ b.gradients := (hash.perm _).mem_iff.1 hg
          have : y = g := List.inj_on_of_nodup_map hb hy hg' hn
          rw [this])
      exact ⟨this.1, by rw [this.2]; exact hv⟩
    · rename_i h1
      simp only [Prod.mk.injEq] at h1
      rw [← h1.1]
      exact ⟨rfl, hv⟩
    · rename_i h1
      simp only [Prod.mk.injEq] at h1
      rw [← h1.1]
      exact ⟨rfl, hv⟩

theorem KeepsFlag.componentsToProperties (hf : KeepsFlag flag) (hash : HashOrder) (names : List String) (t : TensorMap A)
    (ht : ∀ b ∈ t.blocks, (b.gradients.map Prod.fst).Nodup) :
    ((t.componentsToProperties hash names).1.blocks.map fun b =>
        (flag b.values.data, b.gradients.map fun g => (g.1, flag g.2.data))) =
      t.blocks.map fun b => (flag b.values.data, b.gradients.map fun g => (g.1, flag g.2.data)) := by
  have key : ∀ bs : List (TensorBlock A), (∀ b ∈ bs, (b.gradients.map Prod.fst).Nodup) →
      ((TensorMap.componentsToPropertiesLoop hash names bs).1.map fun b =>
        (flag b.values.data, b.gradients.map fun g => (g.1, flag g.2.data))) =
      bs.map fun b => (flag b.values.data, b.gradients.map fun g => (g.1, flag g.2.data)) := by
    intro bs hbs
    induction bs with
    | nil => rfl
    | cons b bs ih =>
      have ih := ih fun b hb => hbs b (List.mem_cons_of_mem _ hb)
      have h1 := hf.block hash names b (hbs b List.mem_cons_self)
      rw [TensorMap.componentsToPropertiesLoop]
      revert h1
      rcases TensorBlock.componentsToProperties hash names b with ⟨b', r | r | r⟩
      · intro h1
        simp only [List.map_cons]
        rw [ih, h1.2]
        exact congrArg (fun x => (flag b.values.data, x) :: _) h1.1
      · intro h1
        simp only [List.map_cons]
        rw [h1.2]
        exact congrArg (fun x => (flag b.values.data, x) :: _) h1.1
      · intro h1
        simp only [List.map_cons]
        rw [h1.2]
        exact congrArg (fun x => (flag b.values.data, x) :: _) h1.1
  unfold TensorMap.componentsToProperties
  split
  · rfl
  · exact key t.blocks ht

end Equistore
