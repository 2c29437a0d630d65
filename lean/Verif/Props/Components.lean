import Verif.Props.KeysToProperties
import Verif.Lemmas.ComponentsOutcome
import Verif.Lemmas.ComponentsRearranged

/-!
# Properties of `components_to_properties` (C09, C10, C11)
-/

namespace Equistore
open Spec

section
variable {A : Type} [ArrayLike A]

theorem ComponentMoved.names_eq {vars : List String} {b b' : BasicBlock A} (hb : BasicValid b)
    (h : ComponentMoved vars b b') :
    b'.components.map (·.names) = (b.components.map (·.names)).erase vars := by
  obtain ⟨pre, c, post, h1, h2, h3, -⟩ := h
  have hn := hb.components.2
  rw [h1, List.map_append, List.map_cons, List.nodup_append] at hn
  rw [h1, h3, List.map_append, List.map_append, List.map_cons, h2,
    List.erase_append_right _ ?_, List.erase_cons_head]
  intro hm
  exact hn.2.2 vars hm c.names (by simp) h2.symm

/-- **C09**: after a successful call the keys did not change, and in each block
this component was moved to the properties of the values and of each gradient; the gradients are
with respect to the same parameters and share the properties of the values. The
result is a valid tensor map: all shapes match the new labels. -/
theorem C09_components_to_properties_labels (hA : LawfulArray A) (hash : HashOrder)
    (vars : List String) (t t' : TensorMap A) (ht : TensorValid t) (hv : vars ≠ [])
    (h : t.componentsToProperties hash vars = (t', .ok ())) :
    t'.keys = t.keys ∧
    List.Forall₂ (fun b b' =>
      ComponentMoved vars b.values b'.values ∧
      b'.gradientParameters = b.gradientParameters ∧
      ∀ q, (b'.gradient q).isSome = (b.gradient q).isSome ∧
        ∀ g g', b.gradient q = some g → b'.gradient q = some g' →
          ComponentMoved vars g g' ∧ g'.properties = b'.values.properties) t.blocks t'.blocks ∧
    TensorValid t' := by
  obtain ⟨hk, hbs⟩ := (TensorMap.componentsToProperties_ok hv).1 h
  have hf : List.Forall₂ (fun b b' => BlockValid b ∧ BlockValid b' ∧
      ComponentMoved vars b.values b'.values ∧
      b'.gradientParameters = b.gradientParameters ∧
      ∀ q, (b'.gradient q).isSome = (b.gradient q).isSome ∧
        ∀ g g', b.gradient q = some g → b'.gradient q = some g' →
          ComponentMoved vars g g' ∧ g'.properties = b'.values.properties) t.blocks t'.blocks := by
    rw [List.forall₂_iff_get] at hbs ⊢
    refine ⟨hbs.1, fun i hi hi' => ?_⟩
    have hb := ht.blocks _ (List.get_mem t.blocks ⟨i, hi⟩)
    have hc := hbs.2 i hi hi'
    obtain ⟨h1, h2, h3, h4⟩ := blockMoved_valid hA hb hv hc
    refine ⟨hb, h1, h2, by rw [h1.list, h3, hb.list], fun q => ⟨?_, ?_⟩⟩
    · have e : ∀ B : TensorBlock A, (B.gradient q).isSome = decide (q ∈ B.gradients.map Prod.fst) := by
        intro B
        unfold TensorBlock.gradient
        rw [Bool.eq_iff_iff, List.lookup_isSome_iff]
        simp only [List.mem_map, decide_eq_true_eq]
        constructor
        · rintro ⟨p, hp, h⟩; exact ⟨p, hp, (by simpa using h : q = p.1).symm⟩
        · rintro ⟨p, hp, h⟩; exact ⟨p, hp, by simp [h]⟩
      rw [e, e, h3]
    · intro g g' hg hg'
      obtain ⟨g₁, h5, h6, h7⟩ := h4 q g' hg'
      rw [hg, Option.some.injEq] at h5
      subst h5
      exact ⟨h6, h7.properties⟩
  refine ⟨hk, hf.imp fun _ _ h => h.2.2, ⟨hk ▸ ht.keys, ?_, ?_, ?_⟩⟩
  · rw [hk, ht.count, hf.length_eq]
  · intro b' hb'
    obtain ⟨i, hi, rfl⟩ := List.getElem_of_mem hb'
    rw [List.forall₂_iff_get] at hf
    exact (hf.2 i (hf.1 ▸ hi) hi).2.1
  · intro a' ha' b' hb'
    obtain ⟨i, hi, rfl⟩ := List.getElem_of_mem ha'
    obtain ⟨j, hj, rfl⟩ := List.getElem_of_mem hb'
    rw [List.forall₂_iff_get] at hf
    have hi0 : i < t.blocks.length := hf.1 ▸ hi
    have hj0 : j < t.blocks.length := hf.1 ▸ hj
    obtain ⟨va, va', ma, -, ga⟩ := hf.2 i hi0 hi
    obtain ⟨vb, vb', mb, -, gb⟩ := hf.2 j hj0 hj
    simp only [List.get_eq_getElem] at va va' ma ga vb vb' mb gb
    have hc := ht.consistent _ (List.getElem_mem hi0) _ (List.getElem_mem hj0)
    refine ⟨⟨?_, ?_⟩, ?_, ?_, ?_⟩
    · obtain ⟨_, _, _, _, _, _, e1, _⟩ := ma
      obtain ⟨_, _, _, _, _, _, e2, _⟩ := mb
      rw [e1, e2]; exact hc.values.1
    · rw [ComponentMoved.names_eq va.values ma, ComponentMoved.names_eq vb.values mb, hc.values.2]
    · obtain ⟨_, _, _, _, _, _, _, e1, _⟩ := ma
      obtain ⟨_, _, _, _, _, _, _, e2, _⟩ := mb
      rw [e1, e2, hc.properties]
    · intro p
      rw [(ga p).1, (gb p).1, hc.parameters]
    · intro p g g' hg hg'
      have h1 := (ga p).1
      have h2 := (gb p).1
      rw [hg, Option.isSome_some] at h1
      rw [hg', Option.isSome_some] at h2
      obtain ⟨g₀, hg₀⟩ := Option.isSome_iff_exists.1 h1.symm
      obtain ⟨g₀', hg₀'⟩ := Option.isSome_iff_exists.1 h2.symm
      have m1 := ((ga p).2 _ _ hg₀ hg).1
      have m2 := ((gb p).2 _ _ hg₀' hg').1
      have hs := hc.gradients p _ _ hg₀ hg₀'
      have w1 := va.gradient_valid hg₀
      have w2 := vb.gradient_valid hg₀'
      refine ⟨?_, ?_⟩
      · obtain ⟨_, _, _, _, _, _, e1, _⟩ := m1
        obtain ⟨_, _, _, _, _, _, e2, _⟩ := m2
        rw [e1, e2]; exact hs.1
      · rw [ComponentMoved.names_eq w1.basic m1, ComponentMoved.names_eq w2.basic m2, hs.2]

/-- **C09**: an empty list of names changes nothing. -/
theorem C09_components_to_properties_nothing (hash : HashOrder) (t : TensorMap A) :
    t.componentsToProperties hash [] = (t, .ok ()) := rfl

/-- **C09**, the hypothesis on backends holds for `ndarray` and `EmptyArray`. -/
theorem C09_backends_lawful : LawfulArray NdArray ∧ LawfulArray EmptyArray :=
  ⟨lawful_ndArray, lawful_emptyArray⟩

end

/-! ### C10 -/

/-- What holds for all the moved values and gradients of a block holds for the tensor map. -/
theorem componentsToProperties_forall {P : BasicBlock NdArray → BasicBlock NdArray → Prop} (hash : HashOrder)
    (vars : List String) (t t' : TensorMap NdArray) (ht : TensorValid t) (hv : vars ≠ [])
    (h : t.componentsToProperties hash vars = (t', .ok ()))
    (key : ∀ B ∈ t.blocks, ∀ pre₀ c post, B.values.components = pre₀ ++ c :: post → c.names = vars →
      ∀ (b b' : BasicBlock NdArray) pre, BasicValid b → BasicMoved vars b b' pre c post → P b b') :
    List.Forall₂ (fun b b' => P b.values b'.values ∧
      ∀ q g g', b.gradient q = some g → b'.gradient q = some g' → P g g') t.blocks t'.blocks := by
  obtain ⟨hk, hbs⟩ := (TensorMap.componentsToProperties_ok hv).1 h
  rw [List.forall₂_iff_get] at hbs ⊢
  refine ⟨hbs.1, fun i hi hi' => ?_⟩
  have hmem := List.get_mem t.blocks ⟨i, hi⟩
  have hb := ht.blocks _ hmem
  have hp := key _ hmem
  have hc := hbs.2 i hi hi'
  obtain ⟨-, -, hfst, -⟩ := blockMoved_valid lawful_ndArray hb hv hc
  generalize t.blocks.get ⟨i, hi⟩ = b at *
  generalize t'.blocks.get ⟨i, hi'⟩ = b' at *
  obtain ⟨h1, h2, h3⟩ := (TensorBlock.componentsToProperties_ok hb.names hv).1 hc
  obtain ⟨pre, c, post, hm⟩ := BasicBlock.componentsToProperties_ok h1
  have hpost := hp pre c post hm.split hm.names
  refine ⟨hpost _ _ _ hb.values hm, ?_⟩
  intro q g g' hg hg'
  rw [gradient_eq_some hb.names] at hg
  rw [gradient_eq_some (by unfold TensorBlock.GradientsNodup; rw [hfst]; exact hb.names)] at hg'
  obtain ⟨j, hj, he⟩ := List.getElem_of_mem hg'
  obtain ⟨hl, hget⟩ := List.forall₂_iff_get.1 h3
  have hj' : j < b.gradients.length := hl ▸ hj
  have hgj := hget j hj' hj
  simp only [List.get_eq_getElem, he] at hgj
  have heq : b.gradients[j] = (q, g) := by
    have hm1 : (q, b.gradients[j].2) ∈ b.gradients := by
      have : b.gradients[j] = (q, b.gradients[j].2) := Prod.ext hgj.1.symm rfl
      exact this ▸ List.getElem_mem hj'
    have a1 := (gradient_eq_some hb.names).2 hm1
    have a2 := (gradient_eq_some hb.names).2 hg
    rw [a1, Option.some.injEq] at a2
    exact Prod.ext hgj.1.symm a2
  rw [heq] at hgj
  obtain ⟨pre', c', post', hm'⟩ := BasicBlock.componentsToProperties_ok hgj.2
  obtain ⟨-, extra, -, rfl, rfl⟩ := hm.gradient lawful_ndArray (hb.gradients q g hg) hm'
  exact hpost _ _ _ (hb.gradients q g hg).basic hm'

/-- There is only one way to find the component with these names. -/
theorem BasicMoved.split_eq {vars : List String} {b b' : BasicBlock NdArray} {pre post pre' post' : List Labels}
    {c c' : Labels} (hb : BasicValid b) (hm : BasicMoved vars b b' pre c post)
    (hs : b.components = pre' ++ c' :: post') (hc : c'.names = vars) : pre' = pre ∧ c' = c ∧ post' = post := by
  have hn := hb.components.2
  have hpre' : ∀ x ∈ pre', x.names ≠ vars := by
    intro x hx hxn
    rw [hs, List.map_append, List.nodup_append] at hn
    exact hn.2.2 x.names (List.mem_map_of_mem hx) c'.names (by simp) (hxn.trans hc.symm)
  obtain ⟨rfl, rfl, rfl⟩ := split_unique (hs ▸ hm.split.symm : pre ++ c :: post = pre' ++ c' :: post')
    hm.before hm.names hpre' hc
  exact ⟨rfl, rfl, rfl⟩

/-- **C10**, for all positions of the component: where each value is found, in the values and in each gradient.
With at most one component after the one moved, this is where it should be. Otherwise the values are
permuted, in the same way for all samples, properties and components before the one moved. -/
theorem C10_components_to_properties_rearranged (hash : HashOrder)
    (vars : List String) (t t' : TensorMap NdArray) (ht : TensorValid t) (hv : vars ≠ [])
    (h : t.componentsToProperties hash vars = (t', .ok ())) :
    List.Forall₂ (fun b b' => ValuesRearranged vars b.values b'.values ∧
      ∀ q g g', b.gradient q = some g → b'.gradient q = some g' → ValuesRearranged vars g g')
      t.blocks t'.blocks := by
  refine componentsToProperties_forall hash vars t t' ht hv h ?_
  intro B _ pre₀ c post _ _ b b' pre hb hm pre' c' post' hs hc n cs₂ cs₂' h1 h2 s cs₁ e p x h3 h4
  obtain ⟨rfl, rfl, rfl⟩ := hm.split_eq hb hs hc
  exact hm.rearranged hb h1 h2 h3 h4

/-- **C10**, nothing is lost: both ways to count have the same combinations of entries, each of them once. -/
theorem C10_combinations (C : List Labels) (hC : ∀ c ∈ C, c.FromBuilder ∧ c.names ≠ []) (cs : List (List LabelValue)) :
    (HasEntries C cs ↔ ∃ n : Nat, (combinations C)[n]? = some cs) ∧
    (HasEntries C cs ↔ cs.length = C.length ∧
      ∃ n : Nat, (combinations (lastFirst C))[n]? = some (lastFirst cs)) ∧
    (∀ n m : Nat, (combinations C)[n]? = some cs → (combinations C)[m]? = some cs → n = m) ∧
    (combinations (lastFirst C)).length = (combinations C).length := by
  have hw : ∀ c ∈ C, c.WF := fun c hc => (hC c hc).1.wf (hC c hc).2
  have hw' : ∀ c ∈ lastFirst C, c.WF := fun c hc => hw c (lastFirst_mem.1 hc)
  have hlen : ∀ {k}, CompAt C k cs → cs.length = C.length := by
    intro k hk
    have h1 := (hk.valid hw).length_eq
    have h2 := hk.2
    rw [List.length_map] at h1
    omega
  have hentries : HasEntries C cs ↔ ∃ k, CompAt C k cs := Iff.rfl
  refine ⟨?_, ?_, ?_, ?_⟩
  · rw [hentries]
    constructor
    · rintro ⟨k, hk⟩
      exact ⟨_, (combinations_getElem? hw).2 ⟨k, hk, rfl⟩⟩
    · rintro ⟨n, hn⟩
      obtain ⟨k, hk, -⟩ := (combinations_getElem? hw).1 hn
      exact ⟨k, hk⟩
  · rw [hentries]
    constructor
    · rintro ⟨k, hk⟩
      exact ⟨hlen hk, _, (combinations_getElem? hw').2 ⟨lastFirst k,
        (CompAt.lastFirst hw (hlen hk)).2 ⟨k, rfl, hk⟩, rfl⟩⟩
    · rintro ⟨hl, n, hn⟩
      obtain ⟨k, hk, -⟩ := (combinations_getElem? hw').1 hn
      obtain ⟨k', -, hk'⟩ := (CompAt.lastFirst hw hl).1 hk
      exact ⟨k', hk'⟩
  · intro n m hn hm
    obtain ⟨k, hk, rfl⟩ := (combinations_getElem? hw).1 hn
    obtain ⟨k', hk', rfl⟩ := (combinations_getElem? hw).1 hm
    rw [CompAt.unique hw hk hk']
  · rw [combinations_length hw, combinations_length hw']
    rcases List.eq_nil_or_concat C with rfl | ⟨m, y, rfl⟩
    · rfl
    · simp only [List.concat_eq_append, lastFirst_append, List.map_append, List.map_cons, List.map_nil,
        shapeSize_append, shapeSize_cons, shapeSize_nil, Nat.mul_one]
      exact Nat.mul_comm _ _

/-- **C10**, when counting the last component first makes no difference, for example if at most one component
comes after the one moved, or if the last one has a single entry: every value can be
found under its labels, in the values and in each gradient. What is missing: the other cases, where this is
false in general, see `C10_axes_counterexample`, and where `C10_components_to_properties_rearranged` says
what happens. -/
theorem C10_components_to_properties_values_partial (hash : HashOrder)
    (vars : List String) (t t' : TensorMap NdArray) (ht : TensorValid t) (hv : vars ≠ [])
    (h : t.componentsToProperties hash vars = (t', .ok ()))
    (hpos : ∀ b ∈ t.blocks, ∀ pre c post, b.values.components = pre ++ c :: post → c.names = vars →
      (combinations post).map lastFirst = combinations (lastFirst post)) :
    List.Forall₂ (fun b b' => ValuesMoved vars b.values b'.values ∧
      ∀ q g g', b.gradient q = some g → b'.gradient q = some g' → ValuesMoved vars g g')
      t.blocks t'.blocks := by
  refine componentsToProperties_forall hash vars t t' ht hv h ?_
  intro B hB pre₀ c post hs₀ hc₀ b b' pre hb hm pre' c' post' hs hc s cs₁ e cs₂ p x h1 h2
  have hp := hpos B hB pre₀ c post hs₀ hc₀
  obtain ⟨rfl, rfl, rfl⟩ := hm.split_eq hb hs hc
  have hw := BasicValid.wf hb
  have hpo : ∀ l ∈ post', l.WF := fun l hl => hw.components l (by rw [hm.split]; simp [hl])
  by_cases hcs : ∃ k, CompAt post' k cs₂
  · obtain ⟨k, hk⟩ := hcs
    have hn := (combinations_getElem? hpo).2 ⟨k, hk, rfl⟩
    refine hm.rearranged hb hn ?_ h1 h2
    rw [← hp, List.getElem?_map, hn, Option.map_some]
  · have hcw := hw.components c' (by rw [hm.split]; simp)
    have hP := (componentPropertyLabels_iff hcw hw.properties).1 hm.properties
    have hw' : BlockWF b' := by
      refine ⟨by rw [hm.samples]; exact hw.samples, ?_, Labels.Holds.wf hP⟩
      rw [hm.components]
      intro l hl
      exact hw.components l (by rw [hm.split]; rcases List.mem_append.1 hl with hl | hl <;> simp [hl])
    rw [hasValue_iff hw', hasValue_iff hw, hm.split, hm.components]
    constructor
    · rintro ⟨i, k, j, -, h9, -⟩
      obtain ⟨k₁, k₂, rfl, -, h13⟩ := (CompAt.append_iff h1).1 h9
      exact absurd ⟨k₂, h13⟩ hcs
    · rintro ⟨i, k, j, -, h9, -⟩
      obtain ⟨k₁, k₂, rfl, -, h13⟩ := (CompAt.append_iff h1).1 h9
      obtain ⟨_, k₃, rfl, -, h14⟩ := (CompAt.cons_iff hcw).1 h13
      exact absurd ⟨k₃, h14⟩ hcs

/-- **C10**: counting the last component first makes no difference if it is the only one, if it has a single
entry, or if all the others have a single entry. -/
theorem C10_positions (post : List Labels)
    (h : post.length ≤ 1 ∨ (∀ c ∈ post.getLast?, (entriesOf c).length = 1) ∨
      ∀ c ∈ post.dropLast, (entriesOf c).length = 1) :
    (combinations post).map lastFirst = combinations (lastFirst post) := by
  rcases List.eq_nil_or_concat post with rfl | ⟨m, y, rfl⟩
  · rfl
  rw [List.concat_eq_append] at h ⊢
  have hone : (entriesOf y).length = 1 ∨ ∀ c ∈ m, (entriesOf c).length = 1 := by
    rcases h with h | h | h
    · right
      rw [List.length_append, List.length_singleton] at h
      rw [List.length_eq_zero_iff.1 (by omega : m.length = 0)]
      simp
    · exact .inl (h y (by simp))
    · exact .inr (by simpa using h)
  have happ : ∀ m : List Labels, combinations (m ++ [y]) =
      (combinations m).flatMap fun cs => (entriesOf y).map fun e => cs ++ [e] := by
    intro m
    induction m with
    | nil => simp [combinations, List.map_eq_flatMap]
    | cons c m ih => simp [combinations, ih, List.flatMap_assoc, List.flatMap_map, List.map_flatMap,
        Function.comp_def]
  rw [happ, lastFirst_append, List.map_flatMap]
  simp only [List.map_map, Function.comp_def, lastFirst_append, combinations]
  rcases hone with h1 | h1
  · obtain ⟨e, he⟩ := List.length_eq_one_iff.1 h1
    simp [he, List.map_eq_flatMap]
  · have hc : ∃ cs, combinations m = [cs] := by
      clear happ h
      induction m with
      | nil => exact ⟨[], rfl⟩
      | cons c m ih =>
        rw [List.forall_mem_cons] at h1
        obtain ⟨cs, hcs⟩ := ih h1.2
        obtain ⟨e, he⟩ := List.length_eq_one_iff.1 h1.1
        exact ⟨e :: cs, by simp [combinations, hcs, he]⟩
    obtain ⟨cs, hcs⟩ := hc
    simp [hcs, List.map_eq_flatMap]

/-- **C10** without a condition on the position of the component; see `C10_axes_counterexample`. -/
def C10_full_statement : Prop :=
  ∀ (hash : HashOrder) (vars : List String) (t t' : TensorMap NdArray), TensorValid t → vars ≠ [] →
    t.componentsToProperties hash vars = (t', .ok ()) →
    List.Forall₂ (fun b b' => ValuesMoved vars b.values b'.values ∧
      ∀ q g g', b.gradient q = some g → b'.gradient q = some g' → ValuesMoved vars g g')
      t.blocks t'.blocks

/-! ### C11 -/

/-- **C11**, complete list of outcomes for `ndarray` arrays: success when the component
exists and its name is not the name of a property; an error when there is no such component,
which leaves the tensor map unchanged; a panic if the name is already used for a
property. -/
theorem C11_outcomes (hash : HashOrder) (vars : List String) (t : TensorMap NdArray)
    (ht : TensorValid t) (hv : vars ≠ []) (hb : t.blocks ≠ []) :
    (HasComponent t vars ∧ ¬ NameClash t vars ↔
      ∃ t', t.componentsToProperties hash vars = (t', .ok ())) ∧
    (¬ HasComponent t vars ↔
      ∃ message, t.componentsToProperties hash vars = (t, .err (.invalidParameter message))) ∧
    (HasComponent t vars ∧ NameClash t vars ↔
      ∃ t' message, t.componentsToProperties hash vars = (t', .panic message)) := by
  obtain ⟨b, bs, hbs⟩ := List.exists_cons_of_ne_nil hb
  have hmem : b ∈ t.blocks := by rw [hbs]; simp
  have e1 : HasComponent t vars ↔ ∃ c ∈ b.values.components, c.names = vars := by
    constructor
    · rintro ⟨b₁, h1, h2⟩
      exact (Consistent.component_iff (ht.consistent _ hmem _ h1)).2 h2
    · exact fun h => ⟨b, hmem, h⟩
  have e2 : NameClash t vars ↔ ∃ n ∈ vars, n ∈ b.values.properties.names := by
    constructor
    · rintro ⟨b₁, h1, n, h2, h3⟩
      exact ⟨n, h2, (ht.consistent _ hmem _ h1).properties ▸ h3⟩
    · exact fun h => ⟨b, hmem, h⟩
  by_cases hc : HasComponent t vars
  · by_cases hn : NameClash t vars
    · obtain ⟨m, _, _, _, _, _, h⟩ := TensorMap.componentsToProperties_clash (hash := hash) hbs
        (ht.blocks _ hmem).values hv (e1.1 hc) (e2.1 hn)
      rw [h]
      simp [hc, hn]
    · obtain ⟨t', h⟩ := TensorMap.componentsToProperties_succeeds (hash := hash) ht hv
        (fun b₁ h1 => (Consistent.component_iff (ht.consistent _ hmem _ h1)).1 (e1.1 hc))
        (fun b₁ h1 n h2 h3 => hn ⟨b₁, h1, n, h2, h3⟩)
      rw [h]
      simp [hc, hn]
  · obtain ⟨m, h⟩ := TensorMap.componentsToProperties_missing (hash := hash) hbs hv
      (fun c h1 h2 => hc (e1.2 ⟨c, h1, h2⟩))
    rw [h]
    simp [hc]

/-- **C11** without blocks there is nothing to do, whatever the names. -/
theorem C11_no_blocks {A : Type} [ArrayLike A] (hash : HashOrder) (vars : List String)
    (t : TensorMap A) (hb : t.blocks = []) :
    t.componentsToProperties hash vars = (t, .ok ()) :=
  TensorMap.componentsToProperties_noBlocks hb

/-- **C11** for errors: they leave the tensor map unchanged. What is missing: panics, where
this is false, see `C11_clash_counterexample`. -/
theorem C11_error_atomic_partial (hash : HashOrder) (vars : List String) (t t' : TensorMap NdArray)
    (ht : TensorValid t) (e : Error)
    (h : t.componentsToProperties hash vars = (t', .err e)) : t' = t := by
  by_cases hv : vars = []
  · subst hv
    rw [C09_components_to_properties_nothing] at h
    simp at h
  by_cases hb : t.blocks = []
  · rw [C11_no_blocks hash vars t hb] at h
    simp at h
  obtain ⟨h1, h2, h3⟩ := C11_outcomes hash vars t ht hv hb
  by_cases hc : HasComponent t vars
  · by_cases hn : NameClash t vars
    · obtain ⟨t₁, m, h4⟩ := h3.1 ⟨hc, hn⟩
      rw [h4] at h; simp at h
    · obtain ⟨t₁, h4⟩ := h1.1 ⟨hc, hn⟩
      rw [h4] at h; simp at h
  · obtain ⟨m, h4⟩ := h2.1 hc
    rw [h4, Prod.mk.injEq] at h
    exact h.1.symm

/-- **C11**, what a panic leaves behind: the first block has lost a component while
its array and properties did not change, so the block is no longer valid. -/
theorem C11_panic_corrupts (hash : HashOrder) (vars : List String) (t : TensorMap NdArray)
    (ht : TensorValid t) (hv : vars ≠ []) (hc : HasComponent t vars) (hn : NameClash t vars) :
    ∃ t' message, t.componentsToProperties hash vars = (t', .panic message) ∧ ¬ TensorValid t' := by
  have hb : t.blocks ≠ [] := by
    obtain ⟨b, h, -⟩ := hc
    rintro e; rw [e] at h; simp at h
  obtain ⟨b, bs, hbs⟩ := List.exists_cons_of_ne_nil hb
  have hmem : b ∈ t.blocks := by rw [hbs]; simp
  have e1 : ∃ c ∈ b.values.components, c.names = vars := by
    obtain ⟨b₁, h1, h2⟩ := hc
    exact (Consistent.component_iff (ht.consistent _ hmem _ h1)).2 h2
  have e2 : ∃ n ∈ vars, n ∈ b.values.properties.names := by
    obtain ⟨b₁, h1, n, h2, h3⟩ := hn
    exact ⟨n, h2, (ht.consistent _ hmem _ h1).properties ▸ h3⟩
  obtain ⟨m, pre, c, post, h1, h2, h⟩ := TensorMap.componentsToProperties_clash (hash := hash) hbs
    (ht.blocks _ hmem).values hv e1 e2
  refine ⟨_, m, h, fun hv' => ?_⟩
  have hb' := (hv'.blocks _ List.mem_cons_self).values.shape
  obtain ⟨shape, h3, h4⟩ := hb'
  obtain ⟨shape', h5, h6⟩ := (ht.blocks _ hmem).values.shape
  simp only at h3 h4
  rw [h3, Res.ok.injEq] at h5
  subst h5
  have l1 := h4.length_eq
  have l2 := h6.length_eq
  rw [h1] at l2
  simp only [List.length_append, List.length_cons, List.length_nil] at l1 l2
  omega

/-- **C11** in full; see `C11_clash_counterexample`. -/
def C11_full_statement : Prop :=
  ∀ (hash : HashOrder) (vars : List String) (t t' : TensorMap NdArray) (r : Res Unit), TensorValid t →
    t.componentsToProperties hash vars = (t', r) → r ≠ .ok () → t' = t

/-! ### Examples and counterexamples -/

theorem run_eq {σ : Type} {x : σ × Res Unit} {s : σ} (hs : s = x.1) (h : x.2 = .ok ()) :
    x = (s, .ok ()) := by
  subst hs; exact Prod.ext rfl h

namespace Example

/-- The tensor map with component "c" moved to the properties. -/
def flat : TensorMap NdArray := (tensor.componentsToProperties .insertion ["c"]).1

theorem flat_eq : tensor.componentsToProperties .insertion ["c"] = (flat, .ok ()) :=
  run_eq (by unfold flat; rfl) (by decide +kernel)

/-- A block with three components. -/
def deepBlock : TensorBlock NdArray :=
  ⟨⟨⟨[1, 2, 2, 2, 1], (List.range 8).map (BitVec.ofNat 64)⟩, Labels.mk' ["s"] [[0]],
    [Labels.mk' ["a"] [[0], [1]], Labels.mk' ["b"] [[0], [1]], Labels.mk' ["c"] [[0], [1]]],
    Labels.mk' ["p"] [[0]]⟩, [], []⟩

def deep : TensorMap NdArray := ⟨Labels.mk' ["k"] [[0]], [deepBlock]⟩
def deepFlat : TensorMap NdArray := (deep.componentsToProperties .insertion ["a"]).1
/-- The same, moving the component before last. -/
def deepFlatB : TensorMap NdArray := (deep.componentsToProperties .insertion ["b"]).1

theorem deep_valid : TensorValid deep := TensorMap.valid_of_rebuilds (by decide +kernel)
theorem deepFlat_eq : deep.componentsToProperties .insertion ["a"] = (deepFlat, .ok ()) :=
  run_eq (by unfold deepFlat; rfl) (by decide +kernel)
theorem deepFlatB_eq : deep.componentsToProperties .insertion ["b"] = (deepFlatB, .ok ()) :=
  run_eq (by unfold deepFlatB; rfl) (by decide +kernel)

/-- A block where the component has the same name as the property. -/
def clashBlock : TensorBlock NdArray :=
  ⟨⟨⟨[1, 2, 1], (List.range 2).map (BitVec.ofNat 64)⟩, Labels.mk' ["s"] [[0]],
    [Labels.mk' ["p"] [[0], [1]]], Labels.mk' ["p"] [[0]]⟩, [], []⟩
def clash : TensorMap NdArray := ⟨Labels.mk' ["k"] [[0]], [clashBlock]⟩
theorem clash_valid : TensorValid clash := TensorMap.valid_of_rebuilds (by decide +kernel)

end Example

/-- The hypotheses of `C09` and `C10` are met by `Example.tensor`, with gradients; the component
moves in all of them. -/
example : TensorValid Example.tensor ∧
    Example.tensor.componentsToProperties .insertion ["c"] = (Example.flat, .ok ()) ∧
    (∀ b ∈ Example.tensor.blocks, ∀ pre c post, b.values.components = pre ++ c :: post →
      c.names = ["c"] → (combinations post).map lastFirst = combinations (lastFirst post)) ∧
    (Example.flat.blocks.map fun b => (entriesOf b.values.properties, b.values.components.length,
      b.gradients.map fun g => (entriesOf g.2.properties, g.2.components.length))) =
      List.replicate 3 ([[-1, 0], [-1, 1], [-1, 5], [1, 0], [1, 1], [1, 5]], 0,
        [([[-1, 0], [-1, 1], [-1, 5], [1, 0], [1, 1], [1, 5]], 1)]) := by
  refine ⟨Example.tensor_valid, Example.flat_eq, ?_, by decide +kernel⟩
  intro b hb pre c post h1 _
  have hl : b.values.components.length = 1 := by
    revert b
    simp only [Example.tensor, List.mem_cons, List.not_mem_nil, or_false, or_self]
    rintro b rfl -
    decide +kernel
  rw [h1, List.length_append, List.length_cons] at hl
  exact C10_positions post (.inl (by omega))

/-- `C10_components_to_properties_rearranged` with two components after the one moved: the entries
`b = 0, c = 1` are at position 1, where there is `b = 1, c = 0` if the last one counts first. -/
example : TensorValid Example.deep ∧
    Example.deep.componentsToProperties .insertion ["a"] = (Example.deepFlat, .ok ()) ∧
    (∀ b ∈ Example.deep.blocks, ∃ c post, b.values.components = c :: post ∧ c.names = ["a"] ∧
      (combinations post)[1]? = some [[0], [1]] ∧
      (combinations (lastFirst post))[1]? = some (lastFirst [[1], [0]])) ∧
    (∀ b ∈ Example.deep.blocks, HasValue b.values [0] [[1], [1], [0]] [0] (BitVec.ofNat 64 6)) ∧
    ∀ b ∈ Example.deepFlat.blocks, HasValue b.values [0] [[0], [1]] [1, 0] (BitVec.ofNat 64 6) := by
  refine ⟨Example.deep_valid, Example.deepFlat_eq, ?_, ?_, ?_⟩
  · simp only [Example.deep, List.mem_cons, List.not_mem_nil, or_false]
    rintro b rfl
    exact ⟨_, _, rfl, by decide +kernel, by decide +kernel, by decide +kernel⟩
  · simp only [Example.deep, List.mem_cons, List.not_mem_nil, or_false]
    rintro b rfl
    refine ⟨0, [1, 1, 0], 0, ?_, ?_, rfl, ?_, by decide +kernel⟩
    · unfold EntryAt; decide +kernel
    · unfold EntryAt; decide +kernel
    · unfold EntryAt; decide +kernel
  · have h : Example.deepFlat.blocks = [Example.deepFlat.blocks[0]'(by decide +kernel)] := by
      decide +kernel
    rw [h]
    simp only [List.mem_cons, List.not_mem_nil, or_false]
    rintro b rfl
    refine ⟨0, [0, 1], 1, ?_, ?_, rfl, ?_, by decide +kernel⟩
    · unfold EntryAt; decide +kernel
    · unfold EntryAt; decide +kernel
    · unfold EntryAt; decide +kernel

/-- Also with one component after the one moved, and one before. -/
example : TensorValid Example.deep ∧
    Example.deep.componentsToProperties .insertion ["b"] = (Example.deepFlatB, .ok ()) ∧
    ∀ b ∈ Example.deepFlatB.blocks,
      HasValue b.values [0] [[1], [0]] [1, 0] (BitVec.ofNat 64 6) := by
  refine ⟨Example.deep_valid, Example.deepFlatB_eq, ?_⟩
  have h : Example.deepFlatB.blocks = [Example.deepFlatB.blocks[0]'(by decide +kernel)] := by
    decide +kernel
  rw [h]
  simp only [List.mem_cons, List.not_mem_nil, or_false]
  rintro b rfl
  refine ⟨0, [1, 0], 1, ?_, ?_, rfl, ?_, by decide +kernel⟩
  · unfold EntryAt; decide +kernel
  · unfold EntryAt; decide +kernel
  · unfold EntryAt; decide +kernel

/-- **C10** is false when two components come after the one moved: here the value at
`b = 1, c = 0` ends up at `b = 0, c = 1`. -/
theorem C10_axes_counterexample : ¬ C10_full_statement := by
  intro h
  have h1 := h .insertion ["a"] Example.deep Example.deepFlat Example.deep_valid (by simp)
    Example.deepFlat_eq
  have hb : Example.deepFlat.blocks = [Example.deepFlat.blocks[0]'(by decide +kernel)] := by
    decide +kernel
  rw [hb] at h1
  cases h1 with
  | cons h2 _ =>
    have h3 := h2.1 [] (Labels.mk' ["a"] [[0], [1]])
      [Labels.mk' ["b"] [[0], [1]], Labels.mk' ["c"] [[0], [1]]] rfl rfl [0] [] [0] [[1], [0]] [0]
      (BitVec.ofNat 64 2) rfl rfl
    have h4 : HasValue Example.deepBlock.values [0] ([] ++ [0] :: [[1], [0]]) [0] (BitVec.ofNat 64 2) := by
      refine ⟨0, [0, 1, 0], 0, ?_, ?_, rfl, ?_, by decide +kernel⟩
      · unfold EntryAt; decide +kernel
      · unfold EntryAt; decide +kernel
      · unfold EntryAt; decide +kernel
    have h5 := h3.2 h4
    have hv : TensorValid Example.deepFlat :=
      (C09_components_to_properties_labels lawful_ndArray .insertion ["a"] Example.deep Example.deepFlat
        Example.deep_valid (by simp) Example.deepFlat_eq).2.2
    have hbv := (hv.blocks _ (List.getElem_mem (by decide +kernel : 0 < Example.deepFlat.blocks.length))).values
    have h6 : HasValue (Example.deepFlat.blocks[0]'(by decide +kernel)).values [0] [[1], [0]] [0, 0]
        (BitVec.ofNat 64 1) := by
      refine ⟨0, [1, 0], 0, ?_, ?_, rfl, ?_, by decide +kernel⟩
      · unfold EntryAt; decide +kernel
      · unfold EntryAt; decide +kernel
      · unfold EntryAt; decide +kernel
    have h7 := hasValue_unique hbv h5 h6
    exact absurd h7 (by decide)

/-- The hypotheses of `C11` are met, with each of the outcomes. -/
example : TensorValid Example.tensor ∧ HasComponent Example.tensor ["c"] ∧
    ¬ NameClash Example.tensor ["c"] ∧ ¬ HasComponent Example.tensor ["x"] ∧
    TensorValid Example.clash ∧ HasComponent Example.clash ["p"] ∧ NameClash Example.clash ["p"] := by
  refine ⟨Example.tensor_valid, ?_, ?_, ?_, Example.clash_valid, ?_, ?_⟩ <;>
    (first | unfold HasComponent | unfold NameClash) <;> decide +kernel

/-- **C11** is false: a name clash panics after the component was removed. -/
theorem C11_clash_counterexample : ¬ C11_full_statement := by
  intro h
  obtain ⟨t', m, h1, h2⟩ := C11_panic_corrupts .insertion ["p"] Example.clash Example.clash_valid
    (by simp) (by unfold HasComponent; decide +kernel) (by unfold NameClash; decide +kernel)
  have := h .insertion ["p"] Example.clash t' _ Example.clash_valid h1 (by simp)
  exact h2 (this ▸ Example.clash_valid)

end Equistore
