import Verif.Spec.ComponentsExact
import Verif.Props.Components
import Verif.Lemmas.MovedComponents

/-!
# Exactly when `components_to_properties` keeps values under their labels (C10)
-/

namespace Equistore
open Spec

theorem combinations_append (m : List Labels) (y : Labels) : combinations (m ++ [y]) =
    (combinations m).flatMap fun cs => (entriesOf y).map fun e => cs ++ [e] := by
  induction m with
  | nil => simp [combinations, List.map_eq_flatMap]
  | cons c m ih => simp [combinations, ih, List.flatMap_assoc, List.flatMap_map, List.map_flatMap, Function.comp_def]

theorem combinations_eq_nil {C : List Labels} : combinations C = [] ↔ ∃ c ∈ C, entriesOf c = [] := by
  induction C with
  | nil => simp [combinations]
  | cons c C ih =>
    rw [combinations, List.flatMap_eq_nil_iff]
    constructor
    · intro h
      cases he : entriesOf c with
      | nil => exact ⟨c, by simp, he⟩
      | cons e es =>
        have := h e (by rw [he]; simp)
        rw [List.map_eq_nil_iff] at this
        obtain ⟨c', h1, h2⟩ := ih.1 this
        exact ⟨c', by simp [h1], h2⟩
    · rintro ⟨c', h1, h2⟩ e he
      rcases List.mem_cons.1 h1 with rfl | h1
      · rw [h2] at he; simp at he
      · rw [ih.2 ⟨c', h1, h2⟩]; rfl

theorem combinations_eq_singleton {C : List Labels} {cs : List (List LabelValue)} (h : combinations C = [cs]) :
    ∀ c ∈ C, (entriesOf c).length = 1 := by
  induction C generalizing cs with
  | nil => simp
  | cons c C ih =>
    have hl := congrArg List.length h
    rw [combinations, List.length_flatMap] at hl
    simp only [List.length_map, List.map_const', List.sum_replicate_nat, List.length_singleton] at hl
    obtain ⟨cs', hcs'⟩ := List.length_eq_one_iff.1 (Nat.dvd_one.1 ⟨_, (Nat.mul_comm _ _ ▸ hl).symm⟩)
    intro c' hc'
    rcases List.mem_cons.1 hc' with rfl | hc'
    · exact Nat.dvd_one.1 ⟨_, hl.symm⟩
    · exact ih hcs' c' hc'

/-- **C10**: counting the last component first makes no difference exactly if there is at most one component, if there is
nothing to count, or if the last component or all the others have a single entry. -/
theorem C10_positions_exact (post : List Labels) (hpost : ∀ c ∈ post, c.FromBuilder ∧ c.names ≠ []) :
    (combinations post).map lastFirst = combinations (lastFirst post) ↔ OrderIrrelevant post := by
  unfold OrderIrrelevant
  constructor
  · intro h
    rcases List.eq_nil_or_concat post with rfl | ⟨m, y, rfl⟩
    · exact .inl (by simp)
    rw [List.concat_eq_append] at h hpost ⊢
    have hw : y.WF := (hpost y (by simp)).1.wf (hpost y (by simp)).2
    rw [combinations_append, lastFirst_append, List.map_flatMap] at h
    simp only [List.map_map, Function.comp_def, lastFirst_append, combinations] at h
    cases hy : entriesOf y with
    | nil => exact .inr (.inl ⟨y, by simp, hy⟩)
    | cons e es =>
    cases hes : es with
    | nil =>
      refine .inr (.inr (.inl ?_))
      intro c hc
      simp only [List.getLast?_append, List.getLast?_singleton, Option.some_or, Option.mem_def, Option.some.injEq] at hc
      rw [← hc, hy, hes]; rfl
    | cons e' es' =>
    have hne : e ≠ e' := by
      have hn : (entriesOf y).Nodup := by
        rw [entriesOf_eq hw]; exact Labels.Holds.nodup hw
      rw [hy, hes] at hn
      intro he
      exact (List.nodup_cons.1 hn).1 (by rw [he]; simp)
    cases hm : combinations m with
    | nil =>
      obtain ⟨c, h1, h2⟩ := combinations_eq_nil.1 hm
      exact .inr (.inl ⟨c, by simp [h1], h2⟩)
    | cons a as =>
    cases has : as with
    | nil =>
      refine .inr (.inr (.inr ?_))
      rw [List.dropLast_concat]
      exact combinations_eq_singleton (hm.trans (by rw [has]))
    | cons a' as' =>
      rw [hy, hes, hm, has] at h
      simp only [List.flatMap_cons, List.map_cons, List.cons_append, List.cons.injEq] at h
      exact absurd h.2.1.1.symm hne
  · rintro (h | ⟨c, h1, h2⟩ | h | h)
    · exact C10_positions post (.inl h)
    · rw [combinations_eq_nil.2 ⟨c, h1, h2⟩, combinations_eq_nil.2 ⟨c, lastFirst_mem.2 h1, h2⟩]; rfl
    · exact C10_positions post (.inr (.inl h))
    · exact C10_positions post (.inr (.inr h))

/-- **C10**, exactly when values are kept: if a block contains values, and no value twice, then every value is found under
its labels if and only if the order of the components after the moved one is irrelevant. This is for the values and for
each gradient. -/
theorem C10_exact (hash : HashOrder) (vars : List String) (t t' : TensorMap NdArray) (ht : TensorValid t) (hv : vars ≠ [])
    (h : t.componentsToProperties hash vars = (t', .ok ())) :
    let Exact := fun b b' => Recognizable b → ∀ pre c post, b.components = pre ++ c :: post → c.names = vars →
      (ValuesMoved vars b b' ↔ OrderIrrelevant post)
    List.Forall₂ (fun b b' => Exact b.values b'.values ∧
      ∀ q g g', b.gradient q = some g → b'.gradient q = some g' → Exact g g') t.blocks t'.blocks := by
  intro Exact
  refine componentsToProperties_forall hash vars t t' ht hv h ?_
  intro B hB pre₀ c post hs₀ hc₀ b b' pre hb hm hr pre' c' post' hs hc
  obtain ⟨rfl, rfl, rfl⟩ := hm.split_eq hb hs hc
  have hw := BasicValid.wf hb
  have hpo : ∀ l ∈ post', l.WF := fun l hl => hw.components l (by rw [hm.split]; simp [hl])
  have hcw := hw.components c' (by rw [hm.split]; simp)
  have hbuild : ∀ l ∈ post', l.FromBuilder ∧ l.names ≠ [] := fun l hl =>
    ⟨⟨_, _, (Labels.build_eq_ok (Labels.Holds.names_pos (hpo l hl))).2 (hpo l hl)⟩,
      List.length_pos_iff.1 (Labels.Holds.names_pos (hpo l hl))⟩
  rw [← C10_positions_exact post' hbuild]
  constructor
  · intro hmoved
    refine List.ext_getElem? fun n => ?_
    rw [List.getElem?_map]
    have hlen := combinations_lastFirst_length hpo
    cases hn : (combinations post')[n]? with
    | none =>
      rw [List.getElem?_eq_none_iff] at hn
      exact (List.getElem?_eq_none_iff.2 (by omega)).symm
    | some cs₂ =>
      have hlt := (List.getElem?_eq_some_iff.1 hn).1
      rw [← hlen] at hlt
      have hn' := List.getElem?_eq_getElem hlt
      obtain ⟨cs₂', hcs₂'⟩ := lastFirst_surjective (combinations (lastFirst post'))[n]
      rw [← hcs₂'] at hn'
      rw [hn']
      obtain ⟨s, cs, p, x, hx⟩ := hr.nonempty
      obtain ⟨i, k, j, h1, h2, h3, -⟩ := (hasValue_iff hw).1 hx
      rw [hm.split] at h2
      have hl := h2.1.length_eq
      have hk := h2.2
      rw [List.length_zip, List.length_append, List.length_cons] at hl
      obtain ⟨cs₁, rest, rfl, hcs₁⟩ : ∃ cs₁ rest, cs = cs₁ ++ rest ∧ cs₁.length = pre'.length :=
        ⟨cs.take pre'.length, cs.drop pre'.length, (List.take_append_drop _ _).symm, by
          rw [List.length_take]; omega⟩
      obtain ⟨k₁, k₂, rfl, h4, h5⟩ := (CompAt.append_iff hcs₁).1 h2
      obtain ⟨e, cs₀, rfl⟩ : ∃ e cs₀, rest = e :: cs₀ := by
        cases rest with
        | nil => rw [List.append_nil] at hk hl; omega
        | cons e cs₀ => exact ⟨e, cs₀, rfl⟩
      obtain ⟨a, k₃, rfl, h6, -⟩ := (CompAt.cons_iff hcw).1 h5
      have he : e.length = vars.length := by
        rw [← hc]; exact Labels.Holds.row_length hcw e (List.mem_of_getElem? h6)
      have hfound : ∃ k', CompAt post' k' cs₂' := by
        have hpo' : ∀ l ∈ lastFirst post', l.WF := fun l hl => hpo l (lastFirst_mem.1 hl)
        obtain ⟨k', hk', -⟩ := (combinations_getElem? hpo').1 hn'
        have hl' : cs₂'.length = post'.length := by
          have h1 := (hk'.valid hpo').length_eq
          have h2 := hk'.2
          rw [List.length_map, lastFirst_length] at h1
          rw [lastFirst_length] at h2
          omega
        obtain ⟨k'', -, hk''⟩ := (CompAt.lastFirst hpo hl').1 hk'
        exact ⟨k'', hk''⟩
      obtain ⟨k', hk'⟩ := hfound
      have hy : HasValue b s (cs₁ ++ e :: cs₂') p (b.data.get (i :: (k₁ ++ a :: k') ++ [j])) := by
        refine (hasValue_iff hw).2 ⟨i, _, j, h1, ?_, h3, rfl⟩
        rw [hm.split]
        exact (CompAt.append_iff hcs₁).2 ⟨k₁, _, rfl, h4, (CompAt.cons_iff hcw).2 ⟨a, k', rfl, h6, hk'⟩⟩
      have hy' := (hm.rearranged hb hn hn' hcs₁ he).2 hy
      have hy'' := (hmoved pre' c' post' hs hc s cs₁ e cs₂ p _ hcs₁ he).1 hy'
      have := (hr.different _ _ _ _ _ _ _ hy'' hy).2.1
      rw [List.append_cancel_left_eq, List.cons.injEq] at this
      rw [this.2]
      rfl
  · intro hp pre₁ c₁ post₁ hs₁ hc₁ s cs₁ e cs₂ p x h1 h2
    obtain ⟨rfl, rfl, rfl⟩ := hm.split_eq hb hs₁ hc₁
    by_cases hcs : ∃ k, CompAt post₁ k cs₂
    · obtain ⟨k, hk⟩ := hcs
      have hn := (combinations_getElem? hpo).2 ⟨k, hk, rfl⟩
      refine hm.rearranged hb hn ?_ h1 h2
      rw [← hp, List.getElem?_map, hn, Option.map_some]
    · have hP := (componentPropertyLabels_iff hcw hw.properties).1 hm.properties
      have hw' : BlockWF b' := BasicValid.wf (hm.valid lawful_ndArray hb)
      rw [hasValue_iff hw', hasValue_iff hw, hm.split, hm.components]
      constructor
      · rintro ⟨i, k, j, -, h9, -⟩
        obtain ⟨k₁, k₂, rfl, -, h13⟩ := (CompAt.append_iff h1).1 h9
        exact absurd ⟨k₂, h13⟩ hcs
      · rintro ⟨i, k, j, -, h9, -⟩
        obtain ⟨k₁, k₂, rfl, -, h13⟩ := (CompAt.append_iff h1).1 h9
        obtain ⟨_, k₃, rfl, -, h14⟩ := (CompAt.cons_iff hcw).1 h13
        exact absurd ⟨k₃, h14⟩ hcs

/-- Arrays without repeated elements can be used. -/
theorem Recognizable.of_nodup {b : BasicBlock NdArray} (hb : BasicValid b) (ha : ArrayOk b.data)
    (hn : b.data.elements.Nodup) (hs : ∃ sample components property x, HasValue b sample components property x) :
    Recognizable b := by
  refine ⟨hs, ?_⟩
  intro s cs p s' cs' p' x h h'
  have hw := BasicValid.wf hb
  obtain ⟨i, k, j, h1, h2, h3, h4⟩ := (hasValue_iff hw).1 h
  obtain ⟨i', k', j', h1', h2', h3', h4'⟩ := (hasValue_iff hw).1 h'
  obtain ⟨shape, h5, h6⟩ := hb.shape
  have hsh : b.data.shape = shape := Res.ok.inj h5
  have hv : ∀ {i k j s cs p}, b.samples.rows[i]? = some s → CompAt b.components k cs →
      b.properties.rows[j]? = some p → ValidIdx b.data.shape (i :: k ++ [j]) := by
    intro i k j s cs p h1 h2 h3
    rw [hsh, shapeMatches_eq hw.samples hw.components hw.properties h6]
    exact .cons (List.getElem?_eq_some_iff.1 h1).1
      (List.rel_append (h2.valid hw.components) (.cons (List.getElem?_eq_some_iff.1 h3).1 .nil))
  have hi := hv h1 h2 h3
  have hi' := hv h1' h2' h3'
  have hget : ∀ {idx}, ValidIdx b.data.shape idx → b.data.elements[offset b.data.shape idx]? = some (b.data.get idx) := by
    intro idx h
    have hl := offset_lt h
    rw [← ha] at hl
    rw [NdArray.get, List.getD_eq_getElem?_getD, List.getElem?_eq_getElem hl]
    rfl
  have hx := hget hi
  have hx' := hget hi'
  rw [h4] at hx
  rw [h4'] at hx'
  have e := offset_inj hi hi' (nodup_getElem?_inj hn hx hx')
  rw [List.cons_append, List.cons_append, List.cons.injEq] at e
  obtain ⟨rfl, e⟩ := e
  obtain ⟨rfl, e'⟩ := List.append_inj' e rfl
  obtain rfl := List.singleton_inj.1 e'
  rw [h1, Option.some.injEq] at h1'
  rw [h3, Option.some.injEq] at h3'
  refine ⟨h1', ?_, h3'⟩
  have c1 := (combinations_getElem? hw.components).2 ⟨k, h2, rfl⟩
  have c2 := (combinations_getElem? hw.components).2 ⟨k, h2', rfl⟩
  rw [c1, Option.some.injEq] at c2
  exact c2

/-- The hypotheses are met where values are kept, and where they are not. -/
example : Recognizable Example.deepBlock.values ∧
    OrderIrrelevant [Labels.mk' ["c"] [[0], [1]]] ∧
    ¬ OrderIrrelevant [Labels.mk' ["b"] [[0], [1]], Labels.mk' ["c"] [[0], [1]]] := by
  refine ⟨Recognizable.of_nodup (Example.deep_valid.blocks Example.deepBlock (by simp [Example.deep])).values ?_ ?_ ?_, ?_, ?_⟩
  · unfold ArrayOk; decide +kernel
  · decide +kernel
  · refine ⟨[0], [[0], [1], [0]], [0], BitVec.ofNat 64 2, 0, [0, 1, 0], 0, ?_, ?_, rfl, ?_, by decide +kernel⟩
    · unfold EntryAt; decide +kernel
    · unfold EntryAt; decide +kernel
    · unfold EntryAt; decide +kernel
  · unfold OrderIrrelevant; decide +kernel
  · unfold OrderIrrelevant; decide +kernel

end Equistore
