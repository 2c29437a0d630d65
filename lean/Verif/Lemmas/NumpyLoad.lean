import Verif.Lemmas.NumpyIo

/-!
# Archives loaded with numpy
-/

namespace Equistore
open Spec
variable {A B : Type} [ArrayLike A] [ArrayLike B]
variable {wrap : NpArray → B} {native : Endian} {np : Numpy} {archive : Archive} {R : A → B → Prop}

/-- Some labels can be read from the archive. -/
def LabelsAt (native : Endian) (np : Numpy) (archive : Archive) (part : Part) (l : Labels) : Prop :=
  ∃ x, npGet np archive (Part.key part) = .ok x ∧ labelsFromNpz native x = .ok (pyView l)

/-- The values or a gradient can be read from the archive. -/
structure PyContains (wrap : NpArray → B) (native : Endian) (np : Numpy) (archive : Archive) (R : A → B → Prop)
    (b : BasicBlock A) (part : What → Part) (withProperties : Bool) : Prop where
  data : ∃ x, npGet np archive (Part.key (part .data)) = .ok x ∧ ArrayLike.shape b.data = .ok x.shape ∧ R b.data (wrap x)
  samples : LabelsAt native np archive (part .samples) b.samples
  component : ∀ k c, b.components[k]? = some c → LabelsAt native np archive (part (.component k)) c
  properties : withProperties = true → LabelsAt native np archive (part .properties) b.properties

theorem pyLoadComponents_of {pre : String} {part : Nat → Part} (hp : ∀ i : Nat, s!"{pre}/components/{i}" = Part.key (part i))
    (components : List Labels) (i : Nat)
    (h : ∀ k c, components[k]? = some c → LabelsAt native np archive (part (i + k)) c) :
    pyLoadComponents native np archive pre components.length i = .ok (components.map pyView) := by
  induction components generalizing i with
  | nil => rfl
  | cons c components ih =>
    rw [List.length_cons]
    unfold pyLoadComponents
    obtain ⟨x, h1, h2⟩ := h 0 c rfl
    rw [Nat.add_zero, ← hp] at h1
    rw [h1]
    simp only [bind, Except.bind, h2]
    rw [ih (i + 1)]
    · rfl
    · intro k c' hk
      have := h (k + 1) c' (by rw [List.getElem?_cons_succ]; exact hk)
      rw [show i + 1 + k = i + (k + 1) by omega]
      exact this

theorem ofC_components {components : List Labels} (h : ∀ c ∈ components, c.WF) :
    ((components.map pyView).map PyLabels.toC).mapM Labels.ofC = .ok components := by
  refine mapM_eq_ok.2 ?_
  rw [List.forall₂_map_left_iff, List.forall₂_map_left_iff, List.forall₂_same]
  exact fun c hc => pyView_ofC (h c hc)

theorem takeWhile_noNul {p : String} (h : '\x00' ∉ p.toList) :
    String.ofList (p.toList.takeWhile (· ≠ '\x00')) = p := by
  have : ∀ l : List Char, '\x00' ∉ l → l.takeWhile (· ≠ '\x00') = l := by
    intro l
    induction l with
    | nil => intro _; rfl
    | cons c l ih =>
      intro h
      rw [List.mem_cons, not_or] at h
      rw [List.takeWhile_cons, if_pos (by simpa using fun e => h.1 e.symm), ih h.2]
  rw [this _ h, String.ofList_toList]

theorem gradient_append' (b : TensorBlock B) (p q : String) (g : BasicBlock B) (list : List String) :
    TensorBlock.gradient { b with gradients := b.gradients ++ [(p, g)], gradientParameters := list } q =
      match b.gradient q with
      | some g' => some g'
      | none => if q = p then some g else none := by
  unfold TensorBlock.gradient
  rw [List.lookup_append]
  cases b.gradients.lookup q with
  | some g' => rfl
  | none =>
    rw [List.lookup_cons]
    by_cases h : q = p
    · simp [h]
    · have : (q == p) = false := by simpa using h
      simp [this, h]

theorem pyLoadGradients_of {b : TensorBlock A} {i : Nat} {origin : Nat}
    (hw1 : ∀ x, ArrayLike.shape (wrap x) = .ok x.shape) (hw2 : ∀ x, ArrayLike.origin (wrap x) = .ok origin)
    (hv : BlockValid b) (hz : ∀ p g, b.gradient p = some g → '\x00' ∉ p.toList)
    (hc : ∀ p g, b.gradient p = some g → PyContains wrap native np archive R g (Part.gradient i p) false)
    {ps : List String} {cur : TensorBlock B} (hcur : SameParts R b.values cur.values)
    (ho : ArrayLike.origin cur.values.data = .ok origin)
    (hps : ps.Nodup) (hin : ∀ p ∈ ps, (b.gradient p).isSome = true) (hf : ∀ p ∈ ps, cur.gradient p = none) :
    ∃ b', pyLoadGradients wrap native np archive i ps cur = .ok b' ∧ b'.values = cur.values ∧
      b'.gradientParameters = cur.gradientParameters ++ ps ∧
      b'.gradients.map Prod.fst = cur.gradients.map Prod.fst ++ ps ∧
      (∀ p ∈ ps, Option.Rel (SameParts R) (b.gradient p) (b'.gradient p)) ∧
      ∀ p, p ∉ ps → b'.gradient p = cur.gradient p := by
  induction ps generalizing cur with
  | nil => exact ⟨cur, rfl, rfl, by simp, by simp, by simp, fun _ _ => rfl⟩
  | cons p ps ih =>
    rw [List.nodup_cons] at hps
    obtain ⟨g, hg⟩ := Option.isSome_iff_exists.1 (hin p List.mem_cons_self)
    have hgm := (gradient_eq_some hv.names).1 hg
    have hgv := hv.gradients p g hgm
    have hcg := hc p g hg
    have hwf := hgv.basic.wf
    obtain ⟨x, h1, h1s, h1r⟩ := hcg.data
    obtain ⟨shape, hs1, hs2⟩ := hgv.basic.shape
    have hshape : shape = x.shape := by
      rw [hs1, Res.ok.injEq] at h1s
      exact h1s
    subst hshape
    obtain ⟨y, h2, h2'⟩ := hcg.samples
    have h3 := pyLoadComponents_of (native := native) (np := np) (archive := archive) (pre := s!"blocks/{i}/gradients/{p}")
      (gradientComponentKey_eq i p) g.components 0 (fun k c hk => by rw [Nat.zero_add]; exact hcg.component k c hk)
    have hlen : x.shape.length - 2 = g.components.length := by
      have := List.Forall₂.length_eq hs2
      simp at this
      omega
    have hacc : GradientAcceptable cur p (wrap x) g.samples g.components := by
      refine ⟨hf p List.mem_cons_self, ?_, ⟨_, hw2 x, ho⟩, hgv.samples, ?_, hgv.basic.components, x.shape, hw1 x, ?_⟩
      · rintro rfl
        exact hv.reserved (List.mem_map_of_mem (f := Prod.fst) hgm)
      · rw [hcur.components]; exact hgv.components
      · rw [hcur.properties, ← hgv.properties]; exact hs2
    have hnz : p.toList.contains '\x00' = false := by
      have := hz p g hg
      simpa using this
    have hstep : pyLoadGradients wrap native np archive i (p :: ps) cur =
        pyLoadGradients wrap native np archive i ps { cur with
          gradients := cur.gradients ++ [(p, cur.gradientBlock (wrap x) g.samples g.components)]
          gradientParameters := cur.gradientParameters ++ [p] } := by
      conv_lhs => unfold pyLoadGradients
      have k1 : s!"{s!"blocks/{i}/gradients/{p}"}/data" = Part.key (.gradient i p .data) := gradientKey_data i p
      have k2 : s!"{s!"blocks/{i}/gradients/{p}"}/samples" = Part.key (.gradient i p .samples) := gradientKey_samples i p
      simp only [k1, k2, h1, h2, bind, Except.bind, h2', hlen, h3, pyView_ofC hwf.samples, ofC_components hwf.components,
        pyCheck, takeWhile_noNul (hz p g hg), addGradient_eq, (checkGradient_iff (u := ())).2 hacc, hnz]
      rfl
    obtain ⟨b', e1, e2, e3, e6, e4, e5⟩ := ih (cur := { cur with
          gradients := cur.gradients ++ [(p, cur.gradientBlock (wrap x) g.samples g.components)]
          gradientParameters := cur.gradientParameters ++ [p] }) hcur ho hps.2
        (fun q hq => hin q (List.mem_cons_of_mem _ hq)) (by
          intro q hq
          rw [gradient_append', hf q (List.mem_cons_of_mem _ hq)]
          have : q ≠ p := by
            rintro rfl
            exact hps.1 hq
          simp [this])
    refine ⟨b', by rw [hstep]; exact e1, e2, by rw [e3]; simp, by rw [e6]; simp, ?_, ?_⟩
    · intro q hq
      rcases List.mem_cons.1 hq with rfl | hq
      · rw [e5 _ hps.1, gradient_append', hf _ List.mem_cons_self, hg]
        simp only [if_true]
        refine .some ⟨rfl, rfl, ?_, h1r⟩
        show cur.values.properties = _
        rw [hcur.properties, hgv.properties]
      · exact e4 q hq
    · intro q hq
      rw [List.mem_cons, not_or] at hq
      rw [e5 q hq.2, gradient_append']
      cases cur.gradient q with
      | some g' => rfl
      | none => simp [hq.1]

theorem pyLoadBlock_of {b : TensorBlock A} {i : Nat} {origin : Nat}
    (hw1 : ∀ x, ArrayLike.shape (wrap x) = .ok x.shape) (hw2 : ∀ x, ArrayLike.origin (wrap x) = .ok origin)
    (hv : BlockValid b) (hz : ∀ p g, b.gradient p = some g → '\x00' ∉ p.toList)
    (hcv : PyContains wrap native np archive R b.values (Part.values i) true)
    (hc : ∀ p g, b.gradient p = some g → PyContains wrap native np archive R g (Part.gradient i p) false)
    {ps : List String} (hps : ps.Perm (b.gradients.map Prod.fst)) :
    ∃ b', pyLoadBlock wrap native np archive ps i = .ok b' ∧ SameBlocks R b b' ∧ b'.GradientsNodup ∧
      b'.gradientParameters = ps := by
  have hwf := hv.values.wf
  obtain ⟨x, h1, h1s, h1r⟩ := hcv.data
  obtain ⟨shape, hs1, hs2⟩ := hv.values.shape
  have hshape : shape = x.shape := by
    rw [hs1, Res.ok.injEq] at h1s
    exact h1s
  subst hshape
  obtain ⟨y, h2, h2'⟩ := hcv.samples
  obtain ⟨z, h3, h3'⟩ := hcv.properties rfl
  have h4 := pyLoadComponents_of (native := native) (np := np) (archive := archive) (pre := s!"blocks/{i}/values")
    (valuesComponentKey_eq i) b.values.components 0 (fun k c hk => by rw [Nat.zero_add]; exact hcv.component k c hk)
  have hlen : x.shape.length - 2 = b.values.components.length := by
    have := List.Forall₂.length_eq hs2
    simp at this
    omega
  have hnew : TensorBlock.new (wrap x) b.values.samples b.values.components b.values.properties =
      .ok ⟨⟨wrap x, b.values.samples, b.values.components, b.values.properties⟩, [], []⟩ :=
    TensorBlock.new_eq_ok.2 ⟨⟨x.shape, hw1 x, hs2⟩, hv.values.components, rfl⟩
  obtain ⟨b', e1, e2, e3, e6, e4, e5⟩ := pyLoadGradients_of (wrap := wrap) (native := native) (np := np) (archive := archive)
    (R := R) (i := i) hw1 hw2 hv hz hc (ps := ps)
    (cur := ⟨⟨wrap x, b.values.samples, b.values.components, b.values.properties⟩, [], []⟩)
    ⟨rfl, rfl, rfl, h1r⟩ (hw2 x) (hps.nodup_iff.2 hv.names)
    (fun p hp => gradient_isSome.2 (hps.mem_iff.1 hp)) (fun p _ => rfl)
  refine ⟨b', ?_, ⟨?_, ?_, ?_⟩, ?_, by rw [e3]; rfl⟩
  · unfold pyLoadBlock
    have k1 : s!"{s!"blocks/{i}/values"}/data" = Part.key (.values i .data) := valuesKey_data i
    have k2 : s!"{s!"blocks/{i}/values"}/samples" = Part.key (.values i .samples) := valuesKey_samples i
    have k3 : s!"{s!"blocks/{i}/values"}/properties" = Part.key (.values i .properties) := valuesKey_properties i
    simp only [k1, k2, k3, h1, h2, h3, bind, Except.bind, h2', h3', hlen, h4]
    have hblock : blockOfC (wrap x) (pyView b.values.samples).toC ((b.values.components.map pyView).map PyLabels.toC)
        (pyView b.values.properties).toC =
        .ok ⟨⟨wrap x, b.values.samples, b.values.components, b.values.properties⟩, [], []⟩ := by
      unfold blockOfC
      rw [pyView_ofC hwf.samples, Res.ok_bind, ofC_components hwf.components, Res.ok_bind, pyView_ofC hwf.properties,
        Res.ok_bind, hnew]
    rw [hblock]
    exact e1
  · rw [e2]; exact ⟨rfl, rfl, rfl, h1r⟩
  · intro p
    by_cases hp : p ∈ ps
    · exact e4 p hp
    · rw [e5 p hp]
      have : b.gradient p = none := by
        rw [hps.mem_iff] at hp
        exact lookup_eq_none_iff_not_mem.2 hp
      rw [this]
      exact .none
  · rw [e3, hv.list]
    exact hps
  · unfold TensorBlock.GradientsNodup
    rw [e6]
    exact hps.nodup_iff.2 hv.names

theorem SameParts.names {a b : BasicBlock A} {a' b' : BasicBlock B} (ha : SameParts R a a') (hb : SameParts R b b')
    (h : SameNames a b) : SameNames a' b' := by
  unfold SameNames at h ⊢
  rw [ha.samples, hb.samples, ha.components, hb.components]
  exact h

theorem SameBlocks.consistent {a b : TensorBlock A} {a' b' : TensorBlock B} (ha : SameBlocks R a a')
    (hb : SameBlocks R b b') (h : Consistent a b) : Consistent a' b' := by
  have hsome : ∀ {x : TensorBlock A} {x' : TensorBlock B} (_ : SameBlocks R x x') (p : String),
      (x'.gradient p).isSome = (x.gradient p).isSome := by
    intro x x' hx p
    have := hx.gradients p
    generalize x.gradient p = o at this
    generalize x'.gradient p = o' at this
    cases this <;> rfl
  refine ⟨SameParts.names ha.values hb.values h.values, ?_, ?_, ?_⟩
  · rw [ha.values.properties, hb.values.properties]; exact h.properties
  · intro p
    rw [hsome ha, hsome hb]; exact h.parameters p
  · intro p g g' hg hg'
    have h1 := ha.gradients p
    have h2 := hb.gradients p
    rw [hg] at h1
    rw [hg'] at h2
    cases hx : a.gradient p with
    | none => rw [hx] at h1; cases h1
    | some x =>
      cases hy : b.gradient p with
      | none => rw [hy] at h2; cases h2
      | some y =>
        rw [hx] at h1
        rw [hy] at h2
        cases h1 with
        | some h1 =>
        cases h2 with
        | some h2 => exact SameParts.names h1 h2 (h.gradients p x y hx hy)

theorem except_mapM_cons {α β ε : Type} (f : α → Except ε β) (a : α) (l : List α) :
    (a :: l).mapM f = (do let b ← f a; let bs ← l.mapM f; return b :: bs) := by
  rw [List.mapM_cons]

/-- Archives from which numpy can read all parts of a tensor map are loaded as this tensor map. -/
theorem pyLoad_of {t : TensorMap A} {origin : Nat}
    (hw1 : ∀ x, ArrayLike.shape (wrap x) = .ok x.shape) (hw2 : ∀ x, ArrayLike.origin (wrap x) = .ok origin)
    (hv : TensorValid t) (hz : NoNul t) (hk : LabelsAt native np archive .keys t.keys)
    (hp2 : (pyGradientParameters archive).Perm (firstParameters t))
    (hc : ∀ i b, t.blocks[i]? = some b → PyContains wrap native np archive R b.values (Part.values i) true ∧
      ∀ p g, b.gradient p = some g → PyContains wrap native np archive R g (Part.gradient i p) false)
    (hash : HashOrder) : ∃ t', pyLoad wrap native np hash archive = .ok t' ∧ SameTensors R t t' := by
  have hkw : t.keys.WF := hv.keys.wf_of_count hv.count
  have hcount : t.keys.rows.length = t.blocks.length := by
    have := hkw.count_eq
    rw [hv.count, Res.ok.injEq] at this
    exact this.symm
  have hblock : ∀ i b, t.blocks[i]? = some b →
      ∃ b', pyLoadBlock wrap native np archive (pyGradientParameters archive) i = .ok b' ∧ SameBlocks R b b' ∧ b'.GradientsNodup := by
    intro i b hb
    have hm := List.mem_of_getElem? hb
    obtain ⟨hc1, hc2⟩ := hc i b hb
    obtain ⟨b', h1, h2, h3, -⟩ := pyLoadBlock_of hw1 hw2 (hv.blocks b hm) (hz b hm) hc1 hc2
      (hp2.trans (firstParameters_perm hv hm))
    exact ⟨b', h1, h2, h3⟩
  have hmap : ∀ (bs : List (TensorBlock A)) (start : Nat),
      (∀ i b, bs[i]? = some b → ∃ b', pyLoadBlock wrap native np archive (pyGradientParameters archive) (start + i) = .ok b' ∧
        SameBlocks R b b' ∧ b'.GradientsNodup) →
      ∃ bs', (List.range' start bs.length).mapM (pyLoadBlock wrap native np archive (pyGradientParameters archive)) = .ok bs' ∧
        List.Forall₂ (SameBlocks R) bs bs' ∧ ∀ b' ∈ bs', b'.GradientsNodup := by
    intro bs
    induction bs with
    | nil => intro start _; exact ⟨[], rfl, .nil, by simp⟩
    | cons b bs ih =>
      intro start hh
      obtain ⟨b', h1, h2, h2'⟩ := hh 0 b rfl
      obtain ⟨bs', h3, h4, h4'⟩ := ih (start + 1) (fun i c hc => by
        obtain ⟨c', h5, h6⟩ := hh (i + 1) c (by rw [List.getElem?_cons_succ]; exact hc)
        exact ⟨c', by rw [show start + 1 + i = start + (i + 1) by omega]; exact h5, h6⟩)
      refine ⟨b' :: bs', ?_, .cons h2 h4, List.forall_mem_cons.2 ⟨h2', h4'⟩⟩
      rw [List.length_cons, List.range'_succ, except_mapM_cons]
      rw [Nat.add_zero] at h1
      rw [h1, h3]
      rfl
  obtain ⟨bs', hb1, hb2, hb3⟩ := hmap t.blocks 0 (fun i b hb => by rw [Nat.zero_add]; exact hblock i b hb)
  rw [← List.range_eq_range'] at hb1
  refine ⟨⟨t.keys, bs'⟩, ?_, rfl, hb2⟩
  obtain ⟨x, hx1, hx2⟩ := hk
  unfold pyLoad
  rw [show "keys" = Part.key .keys from rfl]
  simp only [hx1, bind, Except.bind, hx2]
  rw [show (pyView t.keys).count = t.blocks.length from hcount]
  simp only [hb1, pyView_ofC hkw, pyCheck]
  have hnew : TensorMap.new hash t.keys bs' = .ok ⟨t.keys, bs'⟩ := by
    refine (TensorMap.new_eq_ok hb3).2 ⟨?_, ?_, rfl⟩
    · rw [hv.count, List.Forall₂.length_eq hb2]
    · intro a' ha' b' hb'
      obtain ⟨a, ha, hra⟩ := forall₂_mem_right hb2 ha'
      obtain ⟨b, hb, hrb⟩ := forall₂_mem_right hb2 hb'
      exact SameBlocks.consistent hra hrb (hv.consistent a ha b hb)
  rw [hnew]

end Equistore
