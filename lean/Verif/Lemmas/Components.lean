import Verif.Spec.Components
import Verif.Lemmas.MergeTensor
import Verif.Lemmas.Act

/-! `components_to_properties`. -/

namespace Equistore
open Spec NdArray

section
variable {A : Type} [ArrayLike A]

/-- The rows of the properties made from a component and the old properties. -/
def componentRows (c P : Labels) : List (List LabelValue) :=
  c.rows.flatMap fun e => P.rows.map (e ++ ·)

theorem componentPropertyLabels_eq {c P : Labels} (hc : c.WF) (hP : P.WF) :
    componentPropertyLabels c P = Labels.build (c.names ++ P.names) (componentRows c P) := by
  unfold componentPropertyLabels Labels.build
  rw [Labels.Holds.iter_eq hc, Labels.Holds.iter_eq hP]
  unfold componentRows
  cases LabelsBuilder.new (c.names ++ P.names) with
  | ok b =>
    cases hr : c.rows with
    | nil => simp
    | cons a l => simp
  | err e => rfl
  | panic m => rfl

theorem Labels.build_ne_err {names : List String} {entries : List (List LabelValue)} {e : Error} :
    Labels.build names entries ≠ .err e := by
  unfold Labels.build
  simp only [ne_eq, Res.bind_eq_err, not_or, not_exists, not_and]
  refine ⟨?_, fun b _ => ⟨LabelsBuilder.addAll_ne_err, fun b _ => ?_⟩⟩
  · unfold LabelsBuilder.new
    split
    · simp
    · simp [Res.bind_eq_err]
  · unfold LabelsBuilder.finish
    split <;> simp [Res.bind_eq_err]

theorem componentPropertyLabels_iff {c P l : Labels} (hc : c.WF) (hP : P.WF) :
    componentPropertyLabels c P = .ok l ↔ l.Holds (c.names ++ P.names) (componentRows c P) := by
  rw [componentPropertyLabels_eq hc hP, Labels.build_eq_ok]
  rw [List.length_append]
  have := Labels.Holds.names_pos hc
  omega

theorem componentRows_nodup {c P : Labels} (hc : c.WF) (hP : P.WF) : (componentRows c P).Nodup := by
  unfold componentRows
  rw [List.nodup_flatMap]
  refine ⟨fun e _ => (Labels.Holds.nodup hP).map fun a b h => List.append_cancel_left h, ?_⟩
  refine List.Pairwise.imp_of_mem ?_ (Labels.Holds.nodup hc)
  intro a b ha hb hne x hx hx'
  obtain ⟨p, _, rfl⟩ := List.mem_map.1 hx
  obtain ⟨p', _, h⟩ := List.mem_map.1 hx'
  have hl := Labels.Holds.row_length hc
  exact hne (List.append_inj h ((hl b hb).trans (hl a ha).symm)).1.symm

theorem componentRows_row_length {c P : Labels} (hc : c.WF) (hP : P.WF) :
    ∀ r ∈ componentRows c P, r.length = (c.names ++ P.names).length := by
  intro r hr
  unfold componentRows at hr
  obtain ⟨e, he, hr⟩ := List.mem_flatMap.1 hr
  obtain ⟨p, hp, rfl⟩ := List.mem_map.1 hr
  rw [List.length_append, List.length_append, Labels.Holds.row_length hc e he,
    Labels.Holds.row_length hP p hp]

/-- The labels can be built iff no name appears twice. -/
theorem componentPropertyLabels_cases {c P : Labels} (hc : c.WF) (hP : P.WF) :
    (∃ l, componentPropertyLabels c P = .ok l ∧ ∀ n ∈ c.names, n ∉ P.names) ∨
    (∃ m, componentPropertyLabels c P = .panic m ∧ ∃ n ∈ c.names, n ∈ P.names) := by
  have hc' := Labels.Holds.names_ok hc
  have hP' := Labels.Holds.names_ok hP
  by_cases h : ∀ n ∈ c.names, n ∉ P.names
  · left
    refine ⟨Labels.mk' (c.names ++ P.names) (componentRows c P), ?_, h⟩
    rw [componentPropertyLabels_iff hc hP]
    refine Labels.mk'_holds ⟨?_, ?_⟩ ?_ (componentRows_row_length hc hP) (componentRows_nodup hc hP)
    · intro n hn
      rcases List.mem_append.1 hn with hn | hn
      · exact hc'.1 n hn
      · exact hP'.1 n hn
    · rw [List.nodup_append]
      refine ⟨hc'.2, hP'.2, ?_⟩
      rintro a ha b hb rfl
      exact h a ha hb
    · rw [List.length_append]
      have := Labels.Holds.names_pos hc
      omega
  · right
    have hex : ∃ n ∈ c.names, n ∈ P.names := by
      by_contra hcon
      exact h fun n h1 h2 => hcon ⟨n, h1, h2⟩
    cases hr : componentPropertyLabels c P with
    | ok l =>
      have := (Labels.Holds.names_ok ((componentPropertyLabels_iff hc hP).1 hr)).2
      rw [List.nodup_append] at this
      obtain ⟨n, h1, h2⟩ := hex
      exact absurd rfl (this.2.2 n h1 n h2)
    | err e =>
      exfalso
      rw [componentPropertyLabels_eq hc hP] at hr
      exact Labels.build_ne_err hr
    | panic m => exact ⟨m, rfl, hex⟩

/-- Splitting a list at the first element satisfying a predicate. -/
theorem findIdx?_split {α : Type} {p : α → Bool} {l : List α} {i : Nat}
    (h : l.findIdx? p = some i) : ∃ pre x post, l = pre ++ x :: post ∧ pre.length = i ∧
      p x = true ∧ ∀ y ∈ pre, p y = false := by
  induction l generalizing i with
  | nil => simp at h
  | cons a l ih =>
    rw [List.findIdx?_cons] at h
    by_cases ha : p a = true
    · rw [if_pos ha] at h
      cases h
      exact ⟨[], a, l, rfl, rfl, ha, by simp⟩
    · rw [if_neg ha] at h
      cases hl : l.findIdx? p with
      | none => rw [hl] at h; simp at h
      | some j =>
        rw [hl] at h
        simp only [Option.map_some, Option.some.injEq] at h
        obtain ⟨pre, x, post, rfl, h2, h3, h4⟩ := ih hl
        refine ⟨a :: pre, x, post, rfl, by simp only [List.length_cons, h2]; omega, h3, ?_⟩
        intro y hy
        rcases List.mem_cons.1 hy with rfl | hy
        · simpa using ha
        · exact h4 y hy

theorem findIdx?_of_split {α : Type} {p : α → Bool} {pre post : List α} {x : α}
    (h1 : ∀ y ∈ pre, p y = false) (h2 : p x = true) :
    (pre ++ x :: post).findIdx? p = some pre.length := by
  induction pre with
  | nil => simp [List.findIdx?_cons, h2]
  | cons a pre ih =>
    rw [List.cons_append, List.findIdx?_cons, h1 a List.mem_cons_self,
      ih fun y hy => h1 y (List.mem_cons_of_mem _ hy)]
    simp

/-- What a successful call on values or on a gradient did. -/
structure BasicMoved (vars : List String) (b b' : BasicBlock A) (pre : List Labels) (c : Labels)
    (post : List Labels) : Prop where
  split : b.components = pre ++ c :: post
  names : c.names = vars
  before : ∀ x ∈ pre, x.names ≠ vars
  components : b'.components = pre ++ post
  samples : b'.samples = b.samples
  properties : componentPropertyLabels c b.properties = .ok b'.properties
  data : ∃ shape n d, ArrayLike.shape b.data = .ok shape ∧ 2 ≤ shape.length ∧
    b'.properties.count = .ok n ∧
    ArrayLike.swapAxes b.data (pre.length + 1) (shape.length - 1 - 1) = (d, .ok ()) ∧
    ArrayLike.reshape d ((shape.set (shape.length - 1) n).eraseIdx (pre.length + 1)) =
      (b'.data, .ok ())

theorem BasicBlock.componentsToProperties_ok {vars : List String} {b b' : BasicBlock A}
    (h : BasicBlock.componentsToProperties vars b = (b', .ok ())) :
    ∃ pre c post, BasicMoved vars b b' pre c post := by
  unfold BasicBlock.componentsToProperties at h
  rw [Act.get_bind] at h
  cases hf : b.components.findIdx? (fun c => c.names == vars) with
  | none => rw [hf] at h; simp at h
  | some axis =>
    rw [hf] at h
    obtain ⟨pre, c, post, hs, hl, hc, hb⟩ := findIdx?_split hf
    subst hl
    simp only [Act.bind_eq_ok, Act.lift_apply, Act.set_apply, Act.get_apply,
      Prod.mk.injEq, Res.expect_eq_ok, Res.assert_eq_ok, Res.ok.injEq] at h
    obtain ⟨s1, c1, ⟨rfl, h1⟩, s2, _, ⟨rfl, -⟩, s3, P', ⟨rfl, h2⟩, s4, shape, ⟨rfl, h3⟩, s5, _,
      ⟨rfl, h4⟩, s6, n, ⟨rfl, h5⟩, s7, _, ⟨rfl, h6⟩, s8, _, h7, s9, _, h8, s10, s11,
      ⟨rfl, rfl⟩, rfl, -⟩ := h
    unfold Act.focus at h7 h8
    rw [Prod.mk.injEq] at h7 h8
    obtain ⟨rfl, h7⟩ := h7
    obtain ⟨rfl, h8⟩ := h8
    have hc1 : c1 = c := by
      rw [hs] at h1
      simpa using h1.symm
    subst hc1
    refine ⟨pre, c1, post, hs, by simpa using hc, fun x hx => by simpa using hb x hx, ?_, rfl, h2,
      shape, n, _, h3, by simpa using h4, h5, Prod.ext rfl h7, Prod.ext rfl h8⟩
    simp only
    rw [hs]
    simp [List.eraseIdx_append_of_length_le]

theorem BasicBlock.componentsToProperties_missing {vars : List String} {b : BasicBlock A}
    (h : ∀ c ∈ b.components, c.names ≠ vars) :
    ∃ m, BasicBlock.componentsToProperties vars b = (b, .err (.invalidParameter m)) := by
  unfold BasicBlock.componentsToProperties
  have : b.components.findIdx? (fun c => c.names == vars) = none := by
    rw [List.findIdx?_eq_none_iff]
    intro c hc
    simpa using h c hc
  exact ⟨_, by rw [Act.get_bind, this]; rfl⟩

/-- A name clash: the component is already removed. -/
theorem BasicBlock.componentsToProperties_clash {vars : List String} {b : BasicBlock A}
    {pre post : List Labels} {c : Labels} {m : String}
    (hs : b.components = pre ++ c :: post) (hc : c.names = vars)
    (hpre : ∀ x ∈ pre, x.names ≠ vars)
    (hp : componentPropertyLabels c b.properties = .panic m) :
    BasicBlock.componentsToProperties vars b =
      ({ b with components := pre ++ post }, .panic m) := by
  unfold BasicBlock.componentsToProperties
  have : b.components.findIdx? (fun c => c.names == vars) = some pre.length := by
    rw [hs]
    exact findIdx?_of_split (fun y hy => by simpa using hpre y hy) (by simpa using hc)
  rw [Act.get_bind, this]
  simp only
  have h2 : b.components[pre.length]? = some c := by rw [hs]; simp
  have h3 : b.components.eraseIdx pre.length = pre ++ post := by
    rw [hs]; simp [List.eraseIdx_append_of_length_le]
  rw [h2, h3, Act.lift_bind, Res.expect_some]
  simp only [Act.set_bind]
  rw [Act.lift_bind, hp]


/-! ### Shapes -/

theorem forall₂_append_right {α β : Type} {R : α → β → Prop} {l : List α} {a b : List β}
    (h : List.Forall₂ R l (a ++ b)) :
    ∃ l₁ l₂, l = l₁ ++ l₂ ∧ List.Forall₂ R l₁ a ∧ List.Forall₂ R l₂ b := by
  induction a generalizing l with
  | nil => exact ⟨[], l, rfl, .nil, h⟩
  | cons x a ih =>
    cases h with
    | cons h1 h2 =>
      obtain ⟨l₁, l₂, rfl, h3, h4⟩ := ih h2
      exact ⟨_ :: l₁, l₂, rfl, .cons h1 h3, h4⟩

/-- The shape of an array, when one of the components is singled out. -/
structure ShapeSplit (shape : List Nat) (S : Labels) (pre : List Labels) (c : Labels) (post : List Labels)
    (P : Labels) (n₀ : Nat) (s₁ : List Nat) (nc : Nat) (s₂ : List Nat) (np : Nat) : Prop where
  shape_eq : shape = n₀ :: s₁ ++ nc :: s₂ ++ [np]
  samples : S.count = .ok n₀
  before : List.Forall₂ (fun n labels => Labels.count labels = .ok n) s₁ pre
  component : c.count = .ok nc
  after : List.Forall₂ (fun n labels => Labels.count labels = .ok n) s₂ post
  properties : P.count = .ok np

theorem ShapeSplit.exists {shape : List Nat} {S : Labels} {pre post : List Labels} {c P : Labels}
    (h : ShapeMatches shape S (pre ++ c :: post) P) :
    ∃ n₀ s₁ nc s₂ np, ShapeSplit shape S pre c post P n₀ s₁ nc s₂ np := by
  unfold ShapeMatches at h
  cases h with
  | cons h0 h =>
    obtain ⟨l, lp, rfl, h, hp⟩ := forall₂_append_right h
    obtain ⟨s₁, l, rfl, h1, h⟩ := forall₂_append_right h
    cases h with
    | cons hc h2 =>
      cases hp with
      | cons hp h3 =>
        cases h3
        exact ⟨_, s₁, _, _, _, by simp, h0, h1, hc, h2, hp⟩

variable {shape : List Nat} {S : Labels} {pre post : List Labels} {c P : Labels}
  {n₀ : Nat} {s₁ : List Nat} {nc : Nat} {s₂ : List Nat} {np : Nat}

theorem ShapeSplit.newShape (h : ShapeSplit shape S pre c post P n₀ s₁ nc s₂ np) (n : Nat) :
    (shape.set (shape.length - 1) n).eraseIdx (pre.length + 1) = n₀ :: (s₁ ++ s₂) ++ [n] := by
  have e1 := h.before.length_eq
  rw [h.shape_eq, ← e1]
  have : (n₀ :: s₁ ++ nc :: s₂ ++ [np]).length - 1 = (n₀ :: s₁ ++ nc :: s₂).length := by
    simp only [List.length_append, List.length_cons, List.length_nil]; omega
  rw [this, List.set_append_right _ _ (Nat.le_refl _)]
  simp [List.eraseIdx_append_of_length_le]

theorem BasicMoved.valid {vars : List String} {b b' : BasicBlock A} (hA : LawfulArray A)
    (hb : BasicValid b) (h : BasicMoved vars b b' pre c post) : BasicValid b' := by
  have hw := BasicValid.wf hb
  have hcw := hw.components c (by rw [h.split]; simp)
  have hP := (componentPropertyLabels_iff hcw hw.properties).1 h.properties
  obtain ⟨shape, h1, h2⟩ := hb.shape
  obtain ⟨shape', n, d, h3, h4, h5, h6, h7⟩ := h.data
  rw [h1, Res.ok.injEq] at h3
  subst h3
  rw [h.split] at h2
  obtain ⟨n₀, s₁, nc, s₂, np, hs⟩ := ShapeSplit.exists h2
  rw [hs.newShape] at h7
  have hco := hb.components
  rw [h.split] at hco
  refine ⟨⟨_, hA.reshape_shape _ _ _ h7, ?_⟩, ?_, ?_⟩
  · rw [h.samples, h.components]
    refine List.Forall₂.cons hs.samples ?_
    exact List.rel_append (List.rel_append hs.before hs.after) (.cons h5 .nil)
  · rw [h.components]
    refine ⟨fun x hx => hco.1 x ?_, ?_⟩
    · rcases List.mem_append.1 hx with hx | hx <;> simp [hx]
    · refine hco.2.sublist ?_
      rw [List.map_append, List.map_append, List.map_cons]
      exact List.Sublist.append_left (List.sublist_cons_self _ _) _
  · intro l hl
    rw [h.samples, h.components] at hl
    simp only [List.cons_append, List.mem_cons, List.mem_append, List.not_mem_nil, or_false] at hl
    rcases hl with rfl | (hl | hl) | rfl
    · exact hw.samples.fromBuilder
    · exact (hw.components l (by rw [h.split]; simp [hl])).fromBuilder
    · exact (hw.components l (by rw [h.split]; simp [hl])).fromBuilder
    · exact hP.wf.fromBuilder

theorem BasicMoved.spec {vars : List String} {b b' : BasicBlock A}
    (hb : BasicValid b) (h : BasicMoved vars b b' pre c post) : ComponentMoved vars b b' := by
  have hw := BasicValid.wf hb
  have hcw := hw.components c (by rw [h.split]; simp)
  have hP := (componentPropertyLabels_iff hcw hw.properties).1 h.properties
  refine ⟨pre, c, post, h.split, h.names, h.components, h.samples, ?_, ?_⟩
  · rw [hP.names_eq, h.names]
  · unfold entriesOf
    rw [hP.iter_eq, Labels.Holds.iter_eq hcw, Labels.Holds.iter_eq hw.properties]
    rfl

theorem BasicMoved.origin {vars : List String} {b b' : BasicBlock A} (hA : LawfulArray A)
    (h : BasicMoved vars b b' pre c post) : ArrayLike.origin b'.data = ArrayLike.origin b.data := by
  obtain ⟨shape', n, d, h3, h4, h5, h6, h7⟩ := h.data
  rw [hA.reshape_origin _ _ _ h7, hA.swap_origin _ _ _ _ h6]

/-- The split is unique. -/
theorem split_unique {vars : List String} {pre pre' post post' : List Labels} {c c' : Labels}
    (h : pre ++ c :: post = pre' ++ c' :: post')
    (h1 : ∀ x ∈ pre, x.names ≠ vars) (h2 : c.names = vars)
    (h1' : ∀ x ∈ pre', x.names ≠ vars) (h2' : c'.names = vars) :
    pre = pre' ∧ c = c' ∧ post = post' := by
  induction pre generalizing pre' with
  | nil =>
    cases pre' with
    | nil => simpa using h
    | cons a pre' =>
      simp only [List.nil_append, List.cons_append, List.cons.injEq] at h
      exact absurd (h.1 ▸ h2) (h1' a List.mem_cons_self)
  | cons a pre ih =>
    cases pre' with
    | nil =>
      simp only [List.nil_append, List.cons_append, List.cons.injEq] at h
      exact absurd (h.1.symm ▸ h2') (h1 a List.mem_cons_self)
    | cons a' pre' =>
      simp only [List.cons_append, List.cons.injEq] at h
      obtain ⟨e1, e2, e3⟩ := ih h.2 (fun x hx => h1 x (List.mem_cons_of_mem _ hx))
        (fun x hx => h1' x (List.mem_cons_of_mem _ hx))
      exact ⟨by rw [h.1, e1], e2, e3⟩

/-- Moving a component in a gradient, when the same was done for the values. -/
theorem BasicMoved.gradient {vars : List String} {v v' g g' : BasicBlock A} (hA : LawfulArray A)
    {pre' post' : List Labels} {c' : Labels} (hg : GradientValid v g)
    (h : BasicMoved vars v v' pre c post) (h' : BasicMoved vars g g' pre' c' post') :
    GradientValid v' g' ∧ ∃ extra, pre' = extra ++ pre ∧ c' = c ∧ post' = post := by
  obtain ⟨extra, he⟩ := hg.components
  have hco := hg.basic.components.2
  have hex : ∀ x ∈ extra ++ pre, x.names ≠ vars := by
    intro x hx hn
    rw [he, h.split, ← List.append_assoc, List.map_append, List.nodup_append] at hco
    refine hco.2.2 x.names (List.mem_map_of_mem hx) c.names (by simp) ?_
    rw [hn, h.names]
  have hsp := h'.split
  rw [he, h.split, ← List.append_assoc] at hsp
  obtain ⟨rfl, rfl, rfl⟩ := split_unique hsp hex h.names h'.before h'.names
  refine ⟨⟨h'.valid hA hg.basic, ?_, ⟨extra, ?_⟩, ?_, ?_⟩, extra, rfl, rfl, rfl⟩
  · have e1 := h'.properties
    rw [hg.properties, h.properties, Res.ok.injEq] at e1
    exact e1.symm
  · rw [h'.components, h.components, List.append_assoc]
  · rw [h'.samples]; exact hg.samples
  · rw [h'.origin hA, h.origin hA]; exact hg.origin

/-! ### Blocks -/

theorem gradientsComponentsToProperties_ok {vars : List String} {l : List (String × BasicBlock A)}
    {b b' : TensorBlock A} (hl : (l.map Prod.fst).Nodup) :
    TensorBlock.gradientsComponentsToProperties vars l b = (b', .ok ()) ↔
      ∃ f : String → BasicBlock A,
        (∀ p ∈ l, BasicBlock.componentsToProperties vars p.2 = (f p.1, .ok ())) ∧
        b' = { b with gradients := b.gradients.map fun p =>
          (p.1, if p.1 ∈ l.map Prod.fst then f p.1 else p.2) } := by
  induction l generalizing b with
  | nil =>
    simp only [TensorBlock.gradientsComponentsToProperties, Act.pure_apply, Prod.mk.injEq,
      List.not_mem_nil, false_implies, implies_true, true_and, List.map_nil, if_false, and_true]
    constructor
    · rintro rfl; exact ⟨fun _ => b.values, by simp⟩
    · rintro ⟨_, rfl⟩; simp
  | cons p l ih =>
    obtain ⟨name, g⟩ := p
    rw [List.map_cons, List.nodup_cons] at hl
    have hl1 : name ∉ l.map Prod.fst := hl.1
    have hset : ∀ (f : String → BasicBlock A) (x : BasicBlock A), f name = x →
        (TensorBlock.setGradient name x b).gradients.map (fun p =>
          (p.1, if p.1 ∈ l.map Prod.fst then f p.1 else p.2)) =
        b.gradients.map fun p => (p.1, if p.1 ∈ ((name, g) :: l).map Prod.fst then f p.1 else p.2) := by
      intro f x hx
      simp only [TensorBlock.setGradient, List.map_map]
      apply List.map_congr_left
      intro q hq
      obtain ⟨n, old⟩ := q
      simp only [Function.comp_apply, List.map_cons, List.mem_cons]
      by_cases hn : n = name
      · subst hn
        simp only [if_true, if_neg hl1, true_or, hx]
      · simp only [hn, false_or, if_false]
    unfold TensorBlock.gradientsComponentsToProperties
    rw [Act.bind_eq_ok]
    simp only [ih hl.2, List.forall_mem_cons]
    constructor
    · rintro ⟨b₁, u, h1, f, h2, rfl⟩
      unfold Act.focus at h1
      rw [Prod.mk.injEq] at h1
      obtain ⟨rfl, h1⟩ := h1
      have h1' : (BasicBlock.componentsToProperties vars g).2 = .ok () := h1
      let f' : String → BasicBlock A :=
        fun n => if n = name then (BasicBlock.componentsToProperties vars g).1 else f n
      have hf : f' name = (BasicBlock.componentsToProperties vars g).1 := if_pos rfl
      have hne : ∀ n ∈ l.map Prod.fst, f' n = f n := by
        intro n hn
        exact if_neg (by rintro rfl; exact hl1 hn)
      refine ⟨f', ⟨Prod.ext hf.symm h1', ?_⟩, ?_⟩
      · intro q hq
        rw [hne q.1 (List.mem_map_of_mem hq)]; exact h2 q hq
      · rw [← hset f' _ hf]
        have : ∀ p : String × BasicBlock A, (p.1, if p.1 ∈ l.map Prod.fst then f p.1 else p.2) =
            (p.1, if p.1 ∈ l.map Prod.fst then f' p.1 else p.2) := by
          intro p
          by_cases hp : p.1 ∈ l.map Prod.fst
          · rw [if_pos hp, if_pos hp, hne _ hp]
          · rw [if_neg hp, if_neg hp]
        simp only [this]
        rfl
    · rintro ⟨f, ⟨h1, h2⟩, rfl⟩
      have h1' : BasicBlock.componentsToProperties vars g = (f name, .ok ()) := h1
      refine ⟨TensorBlock.setGradient name (f name) b, (), ?_, f, h2, ?_⟩
      · unfold Act.focus
        simp only [h1']
      · rw [hset f _ rfl]
        rfl

/-- A successful call on a block, for any iteration order of the gradients. -/
theorem TensorBlock.componentsToProperties_ok {hash : HashOrder} {vars : List String}
    {b b' : TensorBlock A} (hn : (b.gradients.map Prod.fst).Nodup) (hv : vars ≠ []) :
    TensorBlock.componentsToProperties hash vars b = (b', .ok ()) ↔
      (BasicBlock.componentsToProperties vars b.values = (b'.values, .ok ()) ∧
        b'.gradientParameters = b.gradientParameters ∧
        List.Forall₂ (fun p p' => p'.1 = p.1 ∧
          BasicBlock.componentsToProperties vars p.2 = (p'.2, .ok ())) b.gradients b'.gradients) := by
  unfold TensorBlock.componentsToProperties
  have he : vars.isEmpty = false := by cases vars <;> simp_all
  rw [he]
  simp only [Bool.false_eq_true, if_false]
  have key : ∀ v' : BasicBlock A, TensorBlock.gradientsComponentsToProperties vars
      (hash.order b.gradients) { b with values := v' } = (b', .ok ()) ↔
      (b'.values = v' ∧ b'.gradientParameters = b.gradientParameters ∧
        List.Forall₂ (fun p p' => p'.1 = p.1 ∧
          BasicBlock.componentsToProperties vars p.2 = (p'.2, .ok ())) b.gradients b'.gradients) := by
    intro v'
    have hp := hash.perm b.gradients
    rw [gradientsComponentsToProperties_ok ((hp.map Prod.fst).nodup_iff.2 hn)]
    constructor
    · rintro ⟨f, h1, rfl⟩
      refine ⟨rfl, rfl, ?_⟩
      simp only
      rw [List.forall₂_map_right_iff, List.forall₂_same]
      intro p hpm
      have hm : p ∈ hash.order b.gradients := hp.mem_iff.2 hpm
      refine ⟨rfl, ?_⟩
      rw [if_pos (List.mem_map_of_mem hm)]
      exact h1 p hm
    · rintro ⟨h1, h2, h3⟩
      obtain ⟨v, gs, ps⟩ := b'
      simp only at h1 h2 h3
      subst h1 h2
      have hfst : gs.map Prod.fst = b.gradients.map Prod.fst := by
        clear hn hp
        generalize b.gradients = gs' at h3
        induction h3 with
        | nil => rfl
        | cons h _ ih => rw [List.map_cons, List.map_cons, h.1, ih]
      refine ⟨fun n => (gs.lookup n).getD v, ?_, ?_⟩
      · intro p hpm
        have hpm := hp.mem_iff.1 hpm
        obtain ⟨i, hi, rfl⟩ := List.getElem_of_mem hpm
        obtain ⟨hl, hget⟩ := List.forall₂_iff_get.1 h3
        have hi' : i < gs.length := hl ▸ hi
        have := hget i hi hi'
        simp only [List.get_eq_getElem] at this
        have hlook : gs.lookup b.gradients[i].1 = some gs[i].2 := by
          rw [lookup_eq_some_iff (by rw [hfst]; exact hn), ← this.1]
          exact List.getElem_mem hi'
        simp only [hlook]
        exact this.2
      · simp only [TensorBlock.mk.injEq, true_and, and_true]
        apply List.ext_getElem
        · rw [List.length_map, h3.length_eq]
        · intro i h4 h5
          rw [List.length_map] at h5
          obtain ⟨hl, hget⟩ := List.forall₂_iff_get.1 h3
          have := hget i h5 h4
          simp only [List.get_eq_getElem] at this
          have hlook : gs.lookup b.gradients[i].1 = some gs[i].2 := by
            rw [lookup_eq_some_iff (by rw [hfst]; exact hn), ← this.1]
            exact List.getElem_mem h4
          rw [List.getElem_map, hlook, if_pos (List.mem_map_of_mem (hp.mem_iff.2 (List.getElem_mem h5)))]
          exact Prod.ext this.1 rfl
  rw [Act.bind_eq_ok]
  constructor
  · rintro ⟨b₁, u, h1, h2⟩
    unfold Act.focus at h1
    rw [Prod.mk.injEq] at h1
    obtain ⟨rfl, h1⟩ := h1
    rw [Act.get_bind] at h2
    obtain ⟨e1, e2⟩ := (key _).1 h2
    exact ⟨Prod.ext e1.symm h1, e2⟩
  · rintro ⟨h1, h2⟩
    refine ⟨{ b with values := b'.values }, (), ?_, ?_⟩
    · unfold Act.focus
      rw [h1]
    · rw [Act.get_bind]
      exact (key _).2 ⟨rfl, h2⟩

/-- A successful call on a tensor map. -/
theorem componentsToPropertiesLoop_ok {hash : HashOrder} {vars : List String}
    {l l' : List (TensorBlock A)} :
    TensorMap.componentsToPropertiesLoop hash vars l = (l', .ok ()) ↔
      List.Forall₂ (fun b b' => TensorBlock.componentsToProperties hash vars b = (b', .ok ())) l l' := by
  induction l generalizing l' with
  | nil => simp [TensorMap.componentsToPropertiesLoop, eq_comm]
  | cons b l ih =>
    unfold TensorMap.componentsToPropertiesLoop
    cases hb : TensorBlock.componentsToProperties hash vars b with
    | mk b₁ r =>
      cases r with
      | ok u =>
        simp only
        constructor
        · intro h
          rw [Prod.mk.injEq] at h
          obtain ⟨rfl, h⟩ := h
          exact .cons hb (ih.1 (Prod.ext rfl h))
        · intro h
          cases h with
          | cons h1 h2 =>
            rw [hb, Prod.mk.injEq] at h1
            rw [ih.2 h2, h1.1]
      | err e =>
        simp only [Prod.mk.injEq, reduceCtorEq, and_false, false_iff]
        intro h
        cases h with
        | cons h1 h2 => rw [hb] at h1; simp at h1
      | panic m =>
        simp only [Prod.mk.injEq, reduceCtorEq, and_false, false_iff]
        intro h
        cases h with
        | cons h1 h2 => rw [hb] at h1; simp at h1

theorem TensorMap.componentsToProperties_ok {hash : HashOrder} {vars : List String}
    {t t' : TensorMap A} (hv : vars ≠ []) :
    TensorMap.componentsToProperties hash vars t = (t', .ok ()) ↔
      (t'.keys = t.keys ∧ List.Forall₂ (fun b b' =>
        TensorBlock.componentsToProperties hash vars b = (b', .ok ())) t.blocks t'.blocks) := by
  unfold TensorMap.componentsToProperties
  have he : vars.isEmpty = false := by cases vars <;> simp_all
  rw [he]
  simp only [Bool.false_eq_true, if_false]
  rw [← componentsToPropertiesLoop_ok]
  unfold Act.focus
  obtain ⟨k, bs⟩ := t'
  simp only [Prod.mk.injEq, TensorMap.mk.injEq]
  constructor
  · rintro ⟨⟨rfl, h1⟩, h2⟩; exact ⟨rfl, Prod.ext h1 h2⟩
  · rintro ⟨rfl, h⟩; rw [h]; simp

/-- The labels of a block after moving a component. -/
theorem blockMoved_valid {hash : HashOrder} {vars : List String}
    {b b' : TensorBlock A} (hA : LawfulArray A) (hb : BlockValid b) (hv : vars ≠ [])
    (h : TensorBlock.componentsToProperties hash vars b = (b', .ok ())) :
    BlockValid b' ∧ ComponentMoved vars b.values b'.values ∧
      b'.gradients.map Prod.fst = b.gradients.map Prod.fst ∧
      ∀ q g', b'.gradient q = some g' →
        ∃ g, b.gradient q = some g ∧ ComponentMoved vars g g' ∧ GradientValid b'.values g' := by
  obtain ⟨h1, h2, h3⟩ := (TensorBlock.componentsToProperties_ok hb.names hv).1 h
  obtain ⟨pre, c, post, hm⟩ := BasicBlock.componentsToProperties_ok h1
  have hfst : b'.gradients.map Prod.fst = b.gradients.map Prod.fst := by
    generalize b'.gradients = gs at h3
    generalize b.gradients = gs' at h3
    induction h3 with
    | nil => rfl
    | cons h _ ih => rw [List.map_cons, List.map_cons, h.1, ih]
  have hg : ∀ q g', (q, g') ∈ b'.gradients →
      ∃ g, (q, g) ∈ b.gradients ∧ ComponentMoved vars g g' ∧ GradientValid b'.values g' := by
    intro q g' hq
    obtain ⟨i, hi, he⟩ := List.getElem_of_mem hq
    obtain ⟨hl, hget⟩ := List.forall₂_iff_get.1 h3
    have hi' : i < b.gradients.length := hl ▸ hi
    have := hget i hi' hi
    simp only [List.get_eq_getElem, he] at this
    have hgm : b.gradients[i] = (q, b.gradients[i].2) := Prod.ext this.1.symm rfl
    have hmem : (q, b.gradients[i].2) ∈ b.gradients := hgm ▸ List.getElem_mem hi'
    obtain ⟨pre', c', post', hm'⟩ := BasicBlock.componentsToProperties_ok this.2
    have hgv := hb.gradients q _ hmem
    exact ⟨_, hmem, hm'.spec hgv.basic, (hm.gradient hA hgv hm').1⟩
  refine ⟨⟨hm.valid hA hb.values, ?_, by rw [hfst]; exact hb.names, by rw [hfst]; exact hb.reserved,
    by rw [h2, hb.list, hfst]⟩, hm.spec hb.values, hfst, ?_⟩
  · intro q g' hq
    obtain ⟨_, _, _, hv⟩ := hg q g' hq
    exact hv
  · intro q g' hq
    obtain ⟨g, h4, h5, h6⟩ := hg q g' ((gradient_eq_some (by unfold TensorBlock.GradientsNodup; rw [hfst]; exact hb.names)).1 hq)
    exact ⟨g, (gradient_eq_some hb.names).2 h4, h5, h6⟩

end
end Equistore
