import Verif.Lemmas.ComponentsData

/-! All the possible outcomes of `components_to_properties` for `ndarray` arrays. -/

namespace Equistore
open Spec NdArray

variable {vars : List String} {b b' : BasicBlock NdArray} {pre post : List Labels} {c : Labels}

theorem shapeSize_moved (n₀ : Nat) (s₁ : List Nat) (nc : Nat) (s₂ : List Nat) (np : Nat) :
    shapeSize (n₀ :: (s₁ ++ s₂) ++ [nc * np]) =
      shapeSize (swapList (n₀ :: s₁ ++ nc :: s₂ ++ [np]) (s₁.length + 1)
        ((n₀ :: s₁ ++ nc :: s₂ ++ [np]).length - 1 - 1)) := by
  rcases List.eq_nil_or_concat s₂ with rfl | ⟨m, y, rfl⟩
  · have e : (n₀ :: s₁ ++ [nc] ++ [np]).length - 1 - 1 = s₁.length + 1 := by simp
    rw [e, swapList_self]
    simp only [List.append_nil, shapeSize_append, shapeSize_cons, shapeSize_nil]
    ac_rfl
  · have e : (n₀ :: s₁ ++ nc :: m.concat y ++ [np]).length - 1 - 1 =
        (n₀ :: s₁).length + 1 + m.length := by simp; omega
    have := swapList_append (n₀ :: s₁) m [np] nc y
    have e2 : n₀ :: s₁ ++ nc :: m.concat y ++ [np] = n₀ :: s₁ ++ nc :: m ++ y :: [np] := by simp
    rw [e, e2, show s₁.length + 1 = (n₀ :: s₁).length from rfl, this]
    simp only [List.concat_eq_append, List.cons_append, shapeSize_append, shapeSize_cons, shapeSize_nil]
    ac_rfl

/-- Moving an existing component succeeds when its name is not one of the properties. -/
theorem BasicBlock.componentsToProperties_succeeds (hb : BasicValid b) (hv : ∃ c ∈ b.components, c.names = vars)
    (hn : ∀ n ∈ vars, n ∉ b.properties.names) :
    ∃ b', BasicBlock.componentsToProperties vars b = (b', .ok ()) := by
  have hw := BasicValid.wf hb
  cases hf : b.components.findIdx? (fun c => c.names == vars) with
  | none =>
    obtain ⟨c, hc, h⟩ := hv
    rw [List.findIdx?_eq_none_iff] at hf
    exact absurd h (by simpa using hf c hc)
  | some axis =>
    obtain ⟨pre, c, post, hs, rfl, hc, -⟩ := findIdx?_split hf
    have hc : c.names = vars := by simpa using hc
    have hcw := hw.components c (by rw [hs]; simp)
    obtain ⟨P', hP'⟩ : ∃ P', componentPropertyLabels c b.properties = .ok P' := by
      rcases componentPropertyLabels_cases hcw hw.properties with ⟨l, h, _⟩ | ⟨_, _, n, h1, h2⟩
      · exact ⟨l, h⟩
      · exact absurd h2 (hn n (hc ▸ h1))
    have hH := (componentPropertyLabels_iff hcw hw.properties).1 hP'
    obtain ⟨shape, h1, h2⟩ := hb.shape
    rw [hs] at h2
    obtain ⟨n₀, s₁, nc, s₂, np, hsp⟩ := ShapeSplit.exists h2
    have hsh : b.data.shape = shape := Res.ok.inj h1
    have hlen : s₁.length = pre.length := hsp.before.length_eq
    have hcount : P'.count = .ok (nc * np) := by
      have e1 := hsp.component
      have e2 := hsp.properties
      rw [Labels.Holds.count_eq hcw, Res.ok.injEq] at e1
      rw [Labels.Holds.count_eq hw.properties, Res.ok.injEq] at e2
      rw [Labels.Holds.count_eq (Labels.Holds.wf hH), hH.rows_eq, componentRows_length, e1, e2]
    have hdim : (2 ≤ shape.length) := by rw [hsp.shape_eq]; simp; omega
    have hcomp : b.components[pre.length]? = some c := by rw [hs]; simp
    have hax : pre.length + 1 < (shape.set (shape.length - 1) (nc * np)).length := by
      rw [hsp.shape_eq]; simp; omega
    let d := build (swapList shape (pre.length + 1) (shape.length - 1 - 1)) fun idx =>
      b.data.get (swapList idx (pre.length + 1) (shape.length - 1 - 1))
    have hswap : NdArray.swapAxes b.data (pre.length + 1) (shape.length - 1 - 1) = (d, .ok ()) := by
      have := @NdArray.swapAxes_ok b.data (pre.length + 1) (shape.length - 1 - 1)
        (by rw [hsh, hsp.shape_eq]; simp; omega) (by rw [hsh, hsp.shape_eq]; simp; omega)
      rw [this, hsh]
    have hre : NdArray.reshape d ((shape.set (shape.length - 1) (nc * np)).eraseIdx (pre.length + 1)) =
        ({ shape := n₀ :: (s₁ ++ s₂) ++ [nc * np], elements := d.elements }, .ok ()) := by
      rw [hsp.newShape]
      unfold NdArray.reshape
      rw [if_pos]
      rw [shapeSize_moved, build_shape, hsp.shape_eq, hlen]
    refine ⟨⟨⟨n₀ :: (s₁ ++ s₂) ++ [nc * np], d.elements⟩, b.samples,
      b.components.eraseIdx pre.length, P'⟩, ?_⟩
    unfold BasicBlock.componentsToProperties
    rw [Act.get_bind, hf]
    simp only
    rw [hcomp, Act.lift_bind, Res.expect_some]
    simp only [Act.set_bind]
    rw [Act.lift_bind, hP']
    simp only
    rw [Act.lift_bind, h1]
    simp only
    rw [Act.lift_bind]
    simp only [hdim, decide_true, Res.assert]
    rw [Act.lift_bind, hcount]
    simp only [if_true]
    rw [Act.lift_bind]
    simp only [hax, decide_true, if_true]
    have f1 : ∀ (bb : BasicBlock NdArray), bb.data = b.data →
        Act.focus (·.data) (fun data b => { b with data })
          (fun data => ArrayLike.swapAxes data (pre.length + 1) (shape.length - 1 - 1)) bb =
        ({ bb with data := d }, .ok ()) := by
      intro bb e
      unfold Act.focus
      simp only [e]
      have : ArrayLike.swapAxes b.data (pre.length + 1) (shape.length - 1 - 1) = (d, .ok ()) := hswap
      rw [this]
    have f2 : ∀ (bb : BasicBlock NdArray), bb.data = d →
        Act.focus (·.data) (fun data b => { b with data })
          (fun data => ArrayLike.reshape data
            ((shape.set (shape.length - 1) (nc * np)).eraseIdx (pre.length + 1))) bb =
        ({ bb with data := ({ shape := n₀ :: (s₁ ++ s₂) ++ [nc * np], elements := d.elements } : NdArray) }, .ok ()) := by
      intro bb e
      unfold Act.focus
      simp only [e]
      have : ArrayLike.reshape d ((shape.set (shape.length - 1) (nc * np)).eraseIdx (pre.length + 1)) =
        ({ shape := n₀ :: (s₁ ++ s₂) ++ [nc * np], elements := d.elements }, .ok ()) := hre
      rw [this]
    refine (Act.bind_ok_of (f1 ⟨b.data, b.samples, b.components.eraseIdx pre.length, b.properties⟩
      rfl)).trans ?_
    refine (Act.bind_ok_of (f2 ⟨d, b.samples, b.components.eraseIdx pre.length, b.properties⟩
      rfl)).trans ?_
    rfl

/-! ### Blocks -/

variable {hash : HashOrder} {B B' : TensorBlock NdArray}

theorem TensorBlock.componentsToProperties_succeeds (hb : BlockValid B) (hne : vars ≠ [])
    (hv : ∃ c ∈ B.values.components, c.names = vars)
    (hn : ∀ n ∈ vars, n ∉ B.values.properties.names) :
    ∃ B', TensorBlock.componentsToProperties hash vars B = (B', .ok ()) := by
  obtain ⟨v', h1⟩ := BasicBlock.componentsToProperties_succeeds hb.values hv hn
  have hg : ∀ p ∈ B.gradients, ∃ p' : String × BasicBlock NdArray, p'.1 = p.1 ∧
      BasicBlock.componentsToProperties vars p.2 = (p'.2, .ok ()) := by
    rintro ⟨name, g⟩ hp
    have hgv := hb.gradients name g hp
    obtain ⟨extra, he⟩ := hgv.components
    obtain ⟨c, hc, hcn⟩ := hv
    obtain ⟨g', hg'⟩ := BasicBlock.componentsToProperties_succeeds (vars := vars) hgv.basic
      ⟨c, by rw [he]; exact List.mem_append_right _ hc, hcn⟩ (by rw [hgv.properties]; exact hn)
    exact ⟨(name, g'), rfl, hg'⟩
  obtain ⟨gs, hgs⟩ : ∃ gs : List (String × BasicBlock NdArray), List.Forall₂ (fun p p' => p'.1 = p.1 ∧
      BasicBlock.componentsToProperties vars p.2 = (p'.2, .ok ())) B.gradients gs := by
    generalize B.gradients = l at hg
    induction l with
    | nil => exact ⟨[], .nil⟩
    | cons p l ih =>
      rw [List.forall_mem_cons] at hg
      obtain ⟨p', hp'⟩ := hg.1
      obtain ⟨gs, hgs⟩ := ih hg.2
      exact ⟨p' :: gs, .cons hp' hgs⟩
  exact ⟨{ values := v', gradients := gs, gradientParameters := B.gradientParameters },
    (TensorBlock.componentsToProperties_ok hb.names hne).2 ⟨h1, rfl, hgs⟩⟩

section
variable {A : Type} [ArrayLike A] {B : TensorBlock A}

theorem TensorBlock.componentsToProperties_missing (hne : vars ≠ [])
    (h : ∀ c ∈ B.values.components, c.names ≠ vars) :
    ∃ m, TensorBlock.componentsToProperties hash vars B = (B, .err (.invalidParameter m)) := by
  obtain ⟨m, hm⟩ := BasicBlock.componentsToProperties_missing h
  refine ⟨m, ?_⟩
  unfold TensorBlock.componentsToProperties
  have he : vars.isEmpty = false := by cases vars <;> simp_all
  rw [he]
  simp only [Bool.false_eq_true, if_false]
  rw [Act.bind_apply, Act.focus_apply, hm]

theorem TensorBlock.componentsToProperties_clash (hb : BasicValid B.values) (hne : vars ≠ [])
    (hv : ∃ c ∈ B.values.components, c.names = vars)
    (hn : ∃ n ∈ vars, n ∈ B.values.properties.names) :
    ∃ m pre c post, B.values.components = pre ++ c :: post ∧ c.names = vars ∧
      TensorBlock.componentsToProperties hash vars B =
      ({ B with values := { B.values with components := pre ++ post } }, .panic m) := by
  have hw := BasicValid.wf hb
  cases hf : B.values.components.findIdx? (fun c => c.names == vars) with
  | none =>
    obtain ⟨c, hc, h⟩ := hv
    rw [List.findIdx?_eq_none_iff] at hf
    exact absurd h (by simpa using hf c hc)
  | some axis =>
    obtain ⟨pre, c, post, hs, rfl, hc, hpre⟩ := findIdx?_split hf
    have hc : c.names = vars := by simpa using hc
    have hcw := hw.components c (by rw [hs]; simp)
    obtain ⟨m, hm⟩ : ∃ m, componentPropertyLabels c B.values.properties = .panic m := by
      rcases componentPropertyLabels_cases hcw hw.properties with ⟨l, _, h⟩ | ⟨m, h, _⟩
      · obtain ⟨n, h1, h2⟩ := hn
        exact absurd h2 (h n (hc.symm ▸ h1))
      · exact ⟨m, h⟩
    refine ⟨m, pre, c, post, hs, hc, ?_⟩
    unfold TensorBlock.componentsToProperties
    have he : vars.isEmpty = false := by cases vars <;> simp_all
    rw [he]
    simp only [Bool.false_eq_true, if_false]
    rw [Act.bind_apply, Act.focus_apply,
      BasicBlock.componentsToProperties_clash hs hc (fun x hx => by simpa using hpre x hx) hm]

end

/-! ### Tensor maps -/

theorem TensorMap.componentsToProperties_nil {A : Type} [ArrayLike A] {t : TensorMap A} :
    TensorMap.componentsToProperties hash [] t = (t, .ok ()) := rfl

theorem TensorMap.componentsToProperties_noBlocks {A : Type} [ArrayLike A] {t : TensorMap A} (h : t.blocks = []) :
    TensorMap.componentsToProperties hash vars t = (t, .ok ()) := by
  unfold TensorMap.componentsToProperties
  split
  · rfl
  · unfold Act.focus
    simp only [h]
    obtain ⟨k, bs⟩ := t
    simp only at h
    subst h
    rfl

theorem TensorMap.componentsToProperties_succeeds {t : TensorMap NdArray} (ht : TensorValid t) (hne : vars ≠ [])
    (hv : ∀ b ∈ t.blocks, ∃ c ∈ b.values.components, c.names = vars)
    (hn : ∀ b ∈ t.blocks, ∀ n ∈ vars, n ∉ b.values.properties.names) :
    ∃ t', TensorMap.componentsToProperties hash vars t = (t', .ok ()) := by
  obtain ⟨bs, hbs⟩ : ∃ bs, List.Forall₂ (fun b b' =>
      TensorBlock.componentsToProperties hash vars b = (b', .ok ())) t.blocks bs := by
    have hB := ht.blocks
    generalize t.blocks = l at hv hn hB
    induction l with
    | nil => exact ⟨[], .nil⟩
    | cons p l ih =>
      rw [List.forall_mem_cons] at hv hn hB
      obtain ⟨b', hb'⟩ := TensorBlock.componentsToProperties_succeeds (hash := hash) hB.1 hne hv.1 hn.1
      obtain ⟨bs, hbs⟩ := ih hv.2 hn.2 hB.2
      exact ⟨b' :: bs, .cons hb' hbs⟩
  exact ⟨{ keys := t.keys, blocks := bs }, (TensorMap.componentsToProperties_ok hne).2 ⟨rfl, hbs⟩⟩

section
variable {A : Type} [ArrayLike A]

theorem TensorMap.componentsToProperties_missing {t : TensorMap A} {b : TensorBlock A}
    {bs : List (TensorBlock A)} (hbs : t.blocks = b :: bs) (hne : vars ≠ [])
    (h : ∀ c ∈ b.values.components, c.names ≠ vars) :
    ∃ m, TensorMap.componentsToProperties hash vars t = (t, .err (.invalidParameter m)) := by
  obtain ⟨m, hm⟩ := TensorBlock.componentsToProperties_missing (hash := hash) hne h
  refine ⟨m, ?_⟩
  unfold TensorMap.componentsToProperties
  have he : vars.isEmpty = false := by cases vars <;> simp_all
  rw [he]
  simp only [Bool.false_eq_true, if_false]
  unfold Act.focus
  simp only [hbs]
  obtain ⟨k, l⟩ := t
  simp only at hbs
  subst hbs
  unfold TensorMap.componentsToPropertiesLoop
  rw [hm]

theorem TensorMap.componentsToProperties_clash {t : TensorMap A} {b : TensorBlock A}
    {bs : List (TensorBlock A)} (hbs : t.blocks = b :: bs) (hb : BasicValid b.values) (hne : vars ≠ [])
    (hv : ∃ c ∈ b.values.components, c.names = vars)
    (hn : ∃ n ∈ vars, n ∈ b.values.properties.names) :
    ∃ m pre c post, b.values.components = pre ++ c :: post ∧ c.names = vars ∧
      TensorMap.componentsToProperties hash vars t =
      ({ t with blocks := { b with values := { b.values with components := pre ++ post } } :: bs }, .panic m) := by
  obtain ⟨m, pre, c, post, h1, h2, hm⟩ := TensorBlock.componentsToProperties_clash (hash := hash) hb hne hv hn
  refine ⟨m, pre, c, post, h1, h2, ?_⟩
  unfold TensorMap.componentsToProperties
  have he : vars.isEmpty = false := by cases vars <;> simp_all
  rw [he]
  simp only [Bool.false_eq_true, if_false]
  unfold Act.focus
  simp only [hbs]
  obtain ⟨k, l⟩ := t
  simp only at hbs
  subst hbs
  unfold TensorMap.componentsToPropertiesLoop
  rw [hm]

/-- Having a component with these names does not depend on the block. -/
theorem Spec.Consistent.component_iff {a b : TensorBlock A} (h : Consistent a b) :
    (∃ c ∈ a.values.components, c.names = vars) ↔ (∃ c ∈ b.values.components, c.names = vars) := by
  have h1 := h.values.2
  have e : ∀ l : List Labels, (∃ c ∈ l, c.names = vars) ↔ vars ∈ l.map (·.names) := by
    intro l; simp
  rw [e, e, h1]

end
end Equistore
