import Verif.Lemmas.ComponentsRearranged
import Verif.Lemmas.MovedFits
import Verif.Lemmas.MovedOutcome
import Verif.Lemmas.BackendTensor

/-!
# `components_to_properties` after `keys_to_samples`

The description `MovedToSamples` is stable by moving components to the properties before and after.
-/

namespace Equistore
open Spec NdArray

/-- How components and properties change when a component is moved to the properties. -/
def Rearranged (pre : List Labels) (c : Labels) (post : List Labels) (cs : List (List LabelValue))
    (p : List LabelValue) (cs' : List (List LabelValue)) (p' : List LabelValue) : Prop :=
  ∃ (n : Nat) (cs₁ cs₂ cs₂' : List (List LabelValue)) (e : List LabelValue),
    (combinations post)[n]? = some cs₂ ∧ (combinations (lastFirst post))[n]? = some (lastFirst cs₂') ∧
    cs₁.length = pre.length ∧ e.length = c.names.length ∧ cs = cs₁ ++ e :: cs₂' ∧ cs' = cs₁ ++ cs₂ ∧ p' = e ++ p

theorem lastFirst_surjective {α : Type} (l : List α) : ∃ l', lastFirst l' = l := by
  cases l with
  | nil => exact ⟨[], rfl⟩
  | cons x l => exact ⟨l ++ [x], lastFirst_append _ _⟩

theorem combinations_lastFirst_length {C : List Labels} (hC : ∀ c ∈ C, c.WF) :
    (combinations (lastFirst C)).length = (combinations C).length := by
  rw [combinations_length hC, combinations_length fun c hc => hC c (lastFirst_mem.1 hc)]
  rcases List.eq_nil_or_concat C with rfl | ⟨m, y, rfl⟩
  · rfl
  · simp only [List.concat_eq_append, lastFirst_append, List.map_append, List.map_cons, List.map_nil,
      shapeSize_append, shapeSize_cons, shapeSize_nil, Nat.mul_one]
    exact Nat.mul_comm _ _

section
variable {vars : List String} {b b' : BasicBlock NdArray} {pre post : List Labels} {c : Labels}

theorem BasicMoved.values_iff (hb : BasicValid b) (h : BasicMoved vars b b' pre c post)
    {s : List LabelValue} {cs : List (List LabelValue)} {p : List LabelValue} {x : Elt} :
    HasValue b' s cs p x ↔ ∃ cs₀ p₀, Rearranged pre c post cs₀ p₀ cs p ∧ HasValue b s cs₀ p₀ x := by
  constructor
  · intro hx
    have hx' := hx
    have hw := BasicValid.wf hb
    have hw' := BasicValid.wf (h.valid lawful_ndArray hb)
    have hcw := hw.components c (by rw [h.split]; simp)
    have hP := (componentPropertyLabels_iff hcw hw.properties).1 h.properties
    have hpo : ∀ l ∈ post, l.WF := fun l hl => hw.components l (by rw [h.split]; simp [hl])
    obtain ⟨i, k, j, h1, h2, h3, -⟩ := (hasValue_iff hw').1 hx
    rw [h.components] at h2
    have hl := h2.1.length_eq
    have hk := h2.2
    rw [List.length_zip, List.length_append] at hl
    obtain ⟨cs₁, cs₂, rfl, hcs⟩ : ∃ cs₁ cs₂, cs = cs₁ ++ cs₂ ∧ cs₁.length = pre.length :=
      ⟨cs.take pre.length, cs.drop pre.length, (List.take_append_drop _ _).symm, by
        rw [List.length_take]; omega⟩
    obtain ⟨k₁, k₂, rfl, h4, h5⟩ := (CompAt.append_iff hcs).1 h2
    rw [hP.rows_eq] at h3
    have hp := List.mem_of_getElem? h3
    obtain ⟨e, p₀, rfl, he⟩ : ∃ e p₀, p = e ++ p₀ ∧ e.length = c.names.length := by
      unfold componentRows at hp
      obtain ⟨e, he, hp⟩ := List.mem_flatMap.1 hp
      obtain ⟨p₀, -, rfl⟩ := List.mem_map.1 hp
      exact ⟨e, p₀, rfl, Labels.Holds.row_length hcw e he⟩
    have hn := (combinations_getElem? hpo).2 ⟨k₂, h5, rfl⟩
    have hlt := (List.getElem?_eq_some_iff.1 hn).1
    rw [← combinations_lastFirst_length hpo] at hlt
    have hn' := List.getElem?_eq_getElem hlt
    obtain ⟨cs₂', hcs₂'⟩ := lastFirst_surjective (combinations (lastFirst post))[offset _ k₂]
    rw [← hcs₂'] at hn'
    refine ⟨_, _, ⟨_, cs₁, cs₂, cs₂', e, hn, hn', hcs, he, rfl, rfl, rfl⟩, ?_⟩
    exact (h.rearranged hb hn hn' hcs (by rw [he, h.names])).1 hx'
  · rintro ⟨cs₀, p₀, ⟨n, cs₁, cs₂, cs₂', e, hn, hn', hcs, he, rfl, rfl, rfl⟩, hx⟩
    exact (h.rearranged hb hn hn' hcs (by rw [he, h.names])).2 hx

theorem BasicMoved.arrayOk (h : BasicMoved vars b b' pre c post) (ha : ArrayOk b.data) : ArrayOk b'.data := by
  obtain ⟨shape, n, d, -, -, -, h1, h2⟩ := h.data
  have hd : ArrayOk d := by
    have e : d = (NdArray.swapAxes b.data (pre.length + 1) (shape.length - 1 - 1)).1 := (congrArg Prod.fst h1).symm
    rw [e]
    unfold NdArray.swapAxes
    split
    · exact build_wf _ _
    · exact ha
  obtain ⟨h3, h4⟩ := NdArray.reshape_ok h2
  rw [h4]
  exact hd.trans h3.symm

/-- The result is the same for the same labels. -/
theorem BasicMoved.labels_eq {B B' : BasicBlock NdArray} {Pre Post : List Labels} {C : Labels}
    (h : BasicMoved vars b b' pre c post) (H : BasicMoved vars B B' Pre C Post)
    (hc : b.components = B.components) (hp : b.properties = B.properties) :
    (pre = Pre ∧ c = C ∧ post = Post) ∧ b'.components = B'.components ∧ b'.properties = B'.properties := by
  obtain ⟨rfl, rfl, rfl⟩ := split_unique (h.split.symm.trans (hc.trans H.split)) h.before h.names H.before H.names
  refine ⟨⟨rfl, rfl, rfl⟩, by rw [h.components, H.components], ?_⟩
  have e := h.properties
  rw [hp, H.properties, Res.ok.injEq] at e
  exact e.symm

end

/-- The relation between blocks before and after `components_to_properties`. -/
structure BlockFlat (vars : List String) (b b' : TensorBlock NdArray) : Prop where
  valid : BlockValid b
  valid' : BlockValid b'
  values : ∃ pre c post, BasicMoved vars b.values b'.values pre c post
  isSome : ∀ q, (b'.gradient q).isSome = (b.gradient q).isSome
  gradients : ∀ q g g', b.gradient q = some g → b'.gradient q = some g' → ∃ pre c post, BasicMoved vars g g' pre c post

theorem blockFlat {hash : HashOrder} {vars : List String} {b b' : TensorBlock NdArray} (hb : BlockValid b)
    (hv : vars ≠ []) (h : TensorBlock.componentsToProperties hash vars b = (b', .ok ())) : BlockFlat vars b b' := by
  obtain ⟨hb', -, hfst, -⟩ := blockMoved_valid lawful_ndArray hb hv h
  obtain ⟨h1, h2, h3⟩ := (TensorBlock.componentsToProperties_ok hb.names hv).1 h
  refine ⟨hb, hb', BasicBlock.componentsToProperties_ok h1, fun q => ?_, fun q g g' hg hg' => ?_⟩
  · rw [Bool.eq_iff_iff, gradient_isSome, gradient_isSome, hfst]
  · rw [gradient_eq_some hb.names] at hg
    rw [gradient_eq_some hb'.names] at hg'
    obtain ⟨j, hj, he⟩ := List.getElem_of_mem hg'
    obtain ⟨hl, hget⟩ := List.forall₂_iff_get.1 h3
    have hj' : j < b.gradients.length := hl ▸ hj
    have hgj := hget j hj' hj
    simp only [List.get_eq_getElem, he] at hgj
    have heq : b.gradients[j] = (q, g) := by
      have hm1 : (q, b.gradients[j].2) ∈ b.gradients := by
        have : b.gradients[j] = (q, b.gradients[j].2) := Prod.ext hgj.1.symm rfl
        exact this ▸ List.getElem_mem hj'
      have a1 := (gradient_eq_some hb.names).2 hm1
      have a2 := (gradient_eq_some hb.names).2 hg
      rw [a1, Option.some.injEq] at a2
      exact Prod.ext hgj.1.symm a2
    rw [heq] at hgj
    exact BasicBlock.componentsToProperties_ok hgj.2

theorem BlockFlat.exists_gradient {vars : List String} {b b' : TensorBlock NdArray} (h : BlockFlat vars b b')
    {q : String} {g : BasicBlock NdArray} (hg : b.gradient q = some g) : ∃ g', b'.gradient q = some g' :=
  Option.isSome_iff_exists.1 (by rw [h.isSome, hg]; rfl)

theorem BlockFlat.exists_gradient' {vars : List String} {b b' : TensorBlock NdArray} (h : BlockFlat vars b b')
    {q : String} {g' : BasicBlock NdArray} (hg : b'.gradient q = some g') : ∃ g, b.gradient q = some g :=
  Option.isSome_iff_exists.1 (by rw [← h.isSome, hg]; rfl)

theorem forall₂_right {α β : Type} {R : α → β → Prop} {l : List α} {l' : List β} (h : List.Forall₂ R l l') {b : β}
    (hb : b ∈ l') : ∃ a ∈ l, R a b := by
  induction h with
  | nil => simp at hb
  | cons h1 _ ih =>
    rcases List.mem_cons.1 hb with rfl | hb
    · exact ⟨_, List.mem_cons_self, h1⟩
    · obtain ⟨a, h2, h3⟩ := ih hb
      exact ⟨a, List.mem_cons_of_mem _ h2, h3⟩

/-- Blocks with the same key before and after. -/
theorem zip_flat {vars : List String} {ks : List (List LabelValue)} {l l' : List (TensorBlock NdArray)}
    (h : List.Forall₂ (BlockFlat vars) l l') :
    (∀ kb ∈ ks.zip l, ∃ kb' ∈ ks.zip l', kb'.1 = kb.1 ∧ BlockFlat vars kb.2 kb'.2) ∧
    ∀ kb' ∈ ks.zip l', ∃ kb ∈ ks.zip l, kb'.1 = kb.1 ∧ BlockFlat vars kb.2 kb'.2 := by
  induction h generalizing ks with
  | nil => simp
  | @cons b b' l l' h1 _ ih =>
    cases ks with
    | nil => simp
    | cons k ks =>
      simp only [List.zip_cons_cons, List.forall_mem_cons, List.exists_mem_cons_iff]
      obtain ⟨i1, i2⟩ := ih (ks := ks)
      exact ⟨⟨.inl ⟨by first | trivial | rfl, h1⟩, fun kb hkb => .inr (i1 kb hkb)⟩, .inl ⟨by first | trivial | rfl, h1⟩, fun kb hkb => .inr (i2 kb hkb)⟩

theorem group_flat {vars names moved : List String} {pairs pairs' : List (List LabelValue × TensorBlock NdArray)}
    (h : (∀ kb ∈ pairs, ∃ kb' ∈ pairs', kb'.1 = kb.1 ∧ BlockFlat vars kb.2 kb'.2) ∧
      ∀ kb' ∈ pairs', ∃ kb ∈ pairs, kb'.1 = kb.1 ∧ BlockFlat vars kb.2 kb'.2) (key' : List LabelValue) :
    (∀ kb ∈ group names moved pairs key', ∃ kb' ∈ group names moved pairs' key',
      kb'.1 = kb.1 ∧ BlockFlat vars kb.2 kb'.2) ∧
    ∀ kb' ∈ group names moved pairs' key', ∃ kb ∈ group names moved pairs key',
      kb'.1 = kb.1 ∧ BlockFlat vars kb.2 kb'.2 := by
  refine ⟨fun kb hkb => ?_, fun kb' hkb' => ?_⟩
  · have h1 := (mem_group (key := kb.1) (b := kb.2)).1 hkb
    obtain ⟨kb', h2, h3, h4⟩ := h.1 kb h1.1
    exact ⟨kb', (mem_group (key := kb'.1) (b := kb'.2)).2 ⟨h2, by rw [h3]; exact h1.2⟩, h3, h4⟩
  · have h1 := (mem_group (key := kb'.1) (b := kb'.2)).1 hkb'
    obtain ⟨kb, h2, h3, h4⟩ := h.2 kb' h1.1
    exact ⟨kb, (mem_group (key := kb.1) (b := kb.2)).2 ⟨h2, by rw [← h3]; exact h1.2⟩, h3, h4⟩

theorem Spec.BlockMoved.flat {vars names moved : List String}
    {pairs pairs₂ : List (List LabelValue × TensorBlock NdArray)} {key' : List LabelValue}
    {b' b'' : TensorBlock NdArray} (h : BlockMoved names moved pairs key' b')
    (hgr : (∀ kb ∈ group names moved pairs key', ∃ kb' ∈ group names moved pairs₂ key',
        kb'.1 = kb.1 ∧ BlockFlat vars kb.2 kb'.2) ∧
      ∀ kb' ∈ group names moved pairs₂ key', ∃ kb ∈ group names moved pairs key',
        kb'.1 = kb.1 ∧ BlockFlat vars kb.2 kb'.2)
    (hb : BlockFlat vars b' b'') : BlockMoved names moved pairs₂ key' b'' := by
  obtain ⟨up, down⟩ := hgr
  obtain ⟨pre, c, post, hm⟩ := hb.values
  -- the same component is moved in all blocks
  have hval : ∀ kb ∈ group names moved pairs key', ∀ B', BlockFlat vars kb.2 B' →
      BasicMoved vars kb.2.values B'.values pre c post ∧ b''.values.components = B'.values.components ∧
        b''.values.properties = B'.values.properties := by
    intro kb hkb B' hB
    obtain ⟨Pre, C, Post, hM⟩ := hB.values
    obtain ⟨⟨rfl, rfl, rfl⟩, h1, h2⟩ := hm.labels_eq hM (h.labels kb hkb).1 (h.labels kb hkb).2
    exact ⟨hM, h1, h2⟩
  have hgrad : ∀ {q g' g'' Pre C Post}, b'.gradient q = some g' → BasicMoved vars g' g'' Pre C Post →
      ∀ kb ∈ group names moved pairs key', ∀ B' g G, BlockFlat vars kb.2 B' → kb.2.gradient q = some g →
      B'.gradient q = some G → BasicMoved vars g G Pre C Post ∧ g''.components = G.components := by
    intro q g' g'' Pre C Post hg' hmg kb hkb B' g G hB hg hG
    obtain ⟨Pre', C', Post', hM⟩ := hB.gradients q g G hg hG
    have e1 := (h.gradientLabels kb hkb q g g' hg hg').2
    have e2 : g'.properties = g.properties := by
      rw [(hb.valid.gradient_valid hg').properties, (hB.valid.gradient_valid hg).properties,
        (h.labels kb hkb).2]
    obtain ⟨⟨rfl, rfl, rfl⟩, h1, -⟩ := hmg.labels_eq hM e1 e2
    exact ⟨hM, h1⟩
  have hsamples : ∀ {B B' : TensorBlock NdArray}, BlockFlat vars B B' → B'.values.samples = B.values.samples := by
    intro B B' hB
    obtain ⟨_, _, _, hM⟩ := hB.values
    exact hM.samples
  have hgsamples : ∀ {B B' : TensorBlock NdArray} {q g g'}, BlockFlat vars B B' → B.gradient q = some g →
      B'.gradient q = some g' → g'.samples = g.samples := by
    intro B B' q g g' hB hg hg'
    obtain ⟨_, _, _, hM⟩ := hB.gradients q g g' hg hg'
    exact hM.samples
  refine ⟨?_, ?_, ?_, ?_, ?_, ?_, ?_, ?_, ?_, ?_⟩
  · intro kb₂ hkb₂
    obtain ⟨kb, hkb, -, hB⟩ := down kb₂ hkb₂
    rw [hsamples hb, hsamples hB]
    exact h.sampleNames kb hkb
  · intro s'
    rw [hsamples hb, h.samples]
    constructor
    · rintro ⟨kb, hkb, s, hs, rfl⟩
      obtain ⟨kb₂, hkb₂, e, hB⟩ := up kb hkb
      exact ⟨kb₂, hkb₂, s, by rw [hsamples hB]; exact hs, by rw [e]⟩
    · rintro ⟨kb₂, hkb₂, s, hs, rfl⟩
      obtain ⟨kb, hkb, e, hB⟩ := down kb₂ hkb₂
      exact ⟨kb, hkb, s, by rw [← hsamples hB]; exact hs, by rw [e]⟩
  · intro kb₂ hkb₂
    obtain ⟨kb, hkb, -, hB⟩ := down kb₂ hkb₂
    exact (hval kb hkb _ hB).2
  · intro s' cs p x
    rw [hm.values_iff hb.valid.values]
    constructor
    · rintro ⟨cs₀, p₀, hr, hx⟩
      obtain ⟨kb, hkb, s, rfl, hx₀⟩ := (h.values _ _ _ _).1 hx
      obtain ⟨kb₂, hkb₂, e, hB⟩ := up kb hkb
      exact ⟨kb₂, hkb₂, s, by rw [e], ((hval kb hkb _ hB).1.values_iff hB.valid.values).2
        ⟨cs₀, p₀, hr, hx₀⟩⟩
    · rintro ⟨kb₂, hkb₂, s, rfl, hx⟩
      obtain ⟨kb, hkb, e, hB⟩ := down kb₂ hkb₂
      obtain ⟨cs₀, p₀, hr, hx⟩ := ((hval kb hkb _ hB).1.values_iff hB.valid.values).1 hx
      exact ⟨cs₀, p₀, hr, (h.values _ _ _ _).2 ⟨kb, hkb, s, by rw [e], hx⟩⟩
  · intro kb₂ hkb₂ q
    obtain ⟨kb, hkb, -, hB⟩ := down kb₂ hkb₂
    rw [hb.isSome, hB.isSome]
    exact h.parameters kb hkb q
  · intro kb₂ hkb₂ q G g'' hG hg''
    obtain ⟨kb, hkb, -, hB⟩ := down kb₂ hkb₂
    obtain ⟨g, hg⟩ := hB.exists_gradient' hG
    obtain ⟨g', hg'⟩ := hb.exists_gradient' hg''
    obtain ⟨Pre, C, Post, hmg⟩ := hb.gradients q g' g'' hg' hg''
    refine ⟨?_, (hgrad hg' hmg kb hkb _ g G hB hg hG).2⟩
    rw [hgsamples hb hg' hg'', hgsamples hB hg hG]
    exact (h.gradientLabels kb hkb q g g' hg hg').1
  · intro q g'' hg''
    obtain ⟨g', hg'⟩ := hb.exists_gradient' hg''
    rw [hgsamples hb hg' hg'']
    exact h.gradientSorted q g' hg'
  · intro kb₂ hkb₂ q G hG r hr
    obtain ⟨kb, hkb, e, hB⟩ := down kb₂ hkb₂
    obtain ⟨g, hg⟩ := hB.exists_gradient' hG
    rw [hgsamples hB hg hG] at hr
    obtain ⟨r', hr'⟩ := h.gradientKept kb hkb q g hg r hr
    exact ⟨r', by rw [hsamples hb, hsamples hB, e]; exact hr'⟩
  · intro q g'' hg'' r'
    obtain ⟨g', hg'⟩ := hb.exists_gradient' hg''
    rw [hgsamples hb hg' hg'', h.gradientSamples q g' hg']
    constructor
    · rintro ⟨kb, hkb, g, hg, r, hr, hn⟩
      obtain ⟨kb₂, hkb₂, e, hB⟩ := up kb hkb
      obtain ⟨G, hG⟩ := hB.exists_gradient hg
      exact ⟨kb₂, hkb₂, G, hG, r, by rw [hgsamples hB hg hG]; exact hr, by
        rw [hsamples hb, hsamples hB, e]; exact hn⟩
    · rintro ⟨kb₂, hkb₂, G, hG, r, hr, hn⟩
      obtain ⟨kb, hkb, e, hB⟩ := down kb₂ hkb₂
      obtain ⟨g, hg⟩ := hB.exists_gradient' hG
      exact ⟨kb, hkb, g, hg, r, by rw [← hgsamples hB hg hG]; exact hr, by
        rw [hsamples hb, hsamples hB, e] at hn; exact hn⟩
  · intro q g'' hg'' r' cs p x
    obtain ⟨g', hg'⟩ := hb.exists_gradient' hg''
    obtain ⟨Pre, C, Post, hmg⟩ := hb.gradients q g' g'' hg' hg''
    rw [hmg.values_iff (hb.valid.gradient_valid hg').basic]
    constructor
    · rintro ⟨cs₀, p₀, hr, hx⟩
      obtain ⟨kb, hkb, g, hg, r, hn, hx⟩ := (h.gradientValues q g' hg' _ _ _ _).1 hx
      obtain ⟨kb₂, hkb₂, e, hB⟩ := up kb hkb
      obtain ⟨G, hG⟩ := hB.exists_gradient hg
      exact ⟨kb₂, hkb₂, G, hG, r, by rw [hsamples hb, hsamples hB, e]; exact hn,
        ((hgrad hg' hmg kb hkb _ g G hB hg hG).1.values_iff (hB.valid.gradient_valid hg).basic).2 ⟨cs₀, p₀, hr, hx⟩⟩
    · rintro ⟨kb₂, hkb₂, G, hG, r, hn, hx⟩
      obtain ⟨kb, hkb, e, hB⟩ := down kb₂ hkb₂
      obtain ⟨g, hg⟩ := hB.exists_gradient' hG
      obtain ⟨cs₀, p₀, hr, hx⟩ :=
        ((hgrad hg' hmg kb hkb _ g G hB hg hG).1.values_iff (hB.valid.gradient_valid hg).basic).1 hx
      refine ⟨cs₀, p₀, hr, (h.gradientValues q g' hg' _ _ _ _).2 ⟨kb, hkb, g, hg, r, ?_, hx⟩⟩
      rw [hsamples hb, hsamples hB, e] at hn
      exact hn

/-- Samples of the merged blocks do not change. -/
theorem flatMap_flat {vars names moved : List String} {ks : List (List LabelValue)}
    {l l' : List (TensorBlock NdArray)} (h : List.Forall₂ (BlockFlat vars) l l') (key' : List LabelValue)
    {β : Type} (f : List LabelValue → Labels → List β) :
    ((group names moved (ks.zip l') key').flatMap fun kb => f kb.1 kb.2.values.samples) =
      (group names moved (ks.zip l) key').flatMap fun kb => f kb.1 kb.2.values.samples := by
  induction h generalizing ks with
  | nil => rfl
  | @cons b b' l l' h1 _ ih =>
    cases ks with
    | nil => rfl
    | cons k ks =>
      have e : b'.values.samples = b.values.samples := by
        obtain ⟨_, _, _, hM⟩ := h1.values
        exact hM.samples
      have ih := ih (ks := ks)
      unfold group at ih ⊢
      rw [List.zip_cons_cons, List.zip_cons_cons, List.filter_cons, List.filter_cons]
      split
      · rw [List.flatMap_cons, List.flatMap_cons, ih, e]
      · exact ih

theorem Spec.MovedToSamples.flat {vars moved : List String} {sort : Bool} {t t₁ t₂ t₁₂ : TensorMap NdArray}
    (ht : TensorValid t) (h : MovedToSamples moved sort t t₁) (ht₂ : TensorValid t₂) (ht₁₂ : TensorValid t₁₂)
    (k₂ : t₂.keys = t.keys) (hb₂ : List.Forall₂ (BlockFlat vars) t.blocks t₂.blocks)
    (k₁₂ : t₁₂.keys = t₁.keys) (hb₁₂ : List.Forall₂ (BlockFlat vars) t₁.blocks t₁₂.blocks) :
    MovedToSamples moved sort t₂ t₁₂ := by
  have hz := zip_flat (ks := t.keys.rows) hb₂
  have hz' := zip_flat (ks := t₁.keys.rows) hb₁₂
  have hblock : ∀ b'' ∈ t₁₂.blocks, ∃ b' ∈ t₁.blocks, BlockFlat vars b' b'' := fun b'' hb'' =>
    forall₂_right hb₁₂ hb''
  refine ⟨ht₁₂, ?_, by rw [k₁₂, k₂]; exact h.keyNames, by rw [k₁₂, k₂]; exact h.keys, ?_, ?_, ?_⟩
  · intro b'' hb''
    obtain ⟨b', hb', hB⟩ := hblock b'' hb''
    refine ⟨?_, fun p g'' hg'' => ?_⟩
    · obtain ⟨_, _, _, hM⟩ := hB.values
      exact hM.arrayOk (h.arrays b' hb').1
    · obtain ⟨g', hg'⟩ := hB.exists_gradient' hg''
      obtain ⟨_, _, _, hM⟩ := hB.gradients p g' g'' hg' hg''
      exact hM.arrayOk ((h.arrays b' hb').2 p g' hg')
  · intro pairs pairs' hp hp' kb' hkb'
    rw [ht₂.iter_eq, Res.ok.injEq, k₂] at hp
    rw [ht₁₂.iter_eq, Res.ok.injEq, k₁₂] at hp'
    subst hp hp'
    obtain ⟨kb, hkb, e, hB⟩ := hz'.2 kb' hkb'
    rw [k₂, e]
    exact (h.blocks _ _ ht.iter_eq h.valid.iter_eq kb hkb).flat (group_flat hz _) hB
  · intro hs b'' hb''
    obtain ⟨b', hb', hB⟩ := hblock b'' hb''
    obtain ⟨_, _, _, hM⟩ := hB.values
    rw [hM.samples]
    exact h.sorted hs b' hb'
  · intro hs pairs pairs' hp hp' kb' hkb'
    rw [ht₂.iter_eq, Res.ok.injEq, k₂] at hp
    rw [ht₁₂.iter_eq, Res.ok.injEq, k₁₂] at hp'
    subst hp hp'
    obtain ⟨kb, hkb, e, hB⟩ := hz'.2 kb' hkb'
    obtain ⟨_, _, _, hM⟩ := hB.values
    rw [hM.samples, e, k₂, flatMap_flat hb₂ kb.1 fun key samples =>
      (entriesOf samples).map (· ++ movedKey t.keys.names moved key)]
    exact h.unsorted hs _ _ ht.iter_eq h.valid.iter_eq kb hkb

/-! ### When both orders succeed -/

section
variable {n : Nat} {c C P Q : List (List LabelValue)}

theorem product_left (hc : ∀ e ∈ c, e.length = n) (hC : ∀ e ∈ C, e.length = n) (hP : P ≠ [])
    (h : (c.flatMap fun e => P.map (e ++ ·)) = C.flatMap fun e => P.map (e ++ ·)) : c = C := by
  obtain ⟨p, P, rfl⟩ := List.exists_cons_of_ne_nil hP
  induction c generalizing C with
  | nil =>
    cases C with
    | nil => rfl
    | cons e C => simp at h
  | cons e c ih =>
    cases C with
    | nil => simp at h
    | cons e' C =>
      rw [List.forall_mem_cons] at hc hC
      rw [List.flatMap_cons, List.flatMap_cons] at h
      have h0 := h
      rw [List.map_cons, List.map_cons, List.cons_append, List.cons_append, List.cons.injEq] at h0
      obtain ⟨rfl, -⟩ := List.append_inj h0.1 (by rw [hc.1, hC.1])
      rw [List.append_cancel_left_eq] at h
      rw [ih hc.2 hC.2 h]

theorem product_prefix {e : List LabelValue} (hc : ∀ x ∈ e :: c, x.length = n) (hn : e ∉ c) :
    (((e :: c).flatMap fun e => P.map (e ++ ·)).filter fun r => decide (r.take n = e)) = P.map (e ++ ·) := by
  rw [List.forall_mem_cons] at hc
  rw [List.flatMap_cons, List.filter_append]
  have h1 : (P.map (e ++ ·)).filter (fun r => decide (r.take n = e)) = P.map (e ++ ·) := by
    rw [List.filter_eq_self]
    intro r hr
    obtain ⟨p, -, rfl⟩ := List.mem_map.1 hr
    simp [← hc.1]
  have h2 : (c.flatMap fun e => P.map (e ++ ·)).filter (fun r => decide (r.take n = e)) = [] := by
    rw [List.filter_eq_nil_iff]
    intro r hr
    obtain ⟨e', he', hr⟩ := List.mem_flatMap.1 hr
    obtain ⟨p, -, rfl⟩ := List.mem_map.1 hr
    have : (e' ++ p).take n = e' := by simp [← hc.2 e' he']
    simp only [this, decide_eq_true_eq]
    rintro rfl
    exact hn he'
  rw [h1, h2, List.append_nil]

/-- A product determines its factors, unless they are empty. -/
theorem product_unique (hc : ∀ e ∈ c, e.length = n) (hC : ∀ e ∈ C, e.length = n) (hcn : c.Nodup) (hCn : C.Nodup)
    (hc0 : c ≠ []) (hP : P ≠ []) (h : (c.flatMap fun e => P.map (e ++ ·)) = C.flatMap fun e => Q.map (e ++ ·)) :
    c = C ∧ P = Q := by
  have hPQ : P = Q := by
    obtain ⟨e, c, rfl⟩ := List.exists_cons_of_ne_nil hc0
    cases C with
    | nil =>
      obtain ⟨p, P, rfl⟩ := List.exists_cons_of_ne_nil hP
      simp at h
    | cons e' C =>
      have hQ : Q ≠ [] := by
        rintro rfl
        obtain ⟨p, P, rfl⟩ := List.exists_cons_of_ne_nil hP
        have : (List.flatMap (fun e : List LabelValue => List.map (fun x => e ++ x) []) (e' :: C)) = [] := by
          rw [List.flatMap_eq_nil_iff]; simp
        rw [this] at h
        simp at h
      have hee : e = e' := by
        obtain ⟨p, P, rfl⟩ := List.exists_cons_of_ne_nil hP
        obtain ⟨q, Q, rfl⟩ := List.exists_cons_of_ne_nil hQ
        rw [List.forall_mem_cons] at hc hC
        rw [List.flatMap_cons, List.flatMap_cons, List.map_cons, List.map_cons, List.cons_append, List.cons_append,
          List.cons.injEq] at h
        exact (List.append_inj h.1 (by rw [hc.1, hC.1])).1
      subst hee
      have h1 := product_prefix (P := P) hc (List.nodup_cons.1 hcn).1
      rw [h, product_prefix hC (List.nodup_cons.1 hCn).1] at h1
      exact (List.map_injective_iff.2 (fun a b hab => List.append_cancel_left hab) h1).symm
  subst hPQ
  exact ⟨product_left hc hC hP h, rfl⟩

end

section
variable {vars : List String} {a b a' b' : TensorBlock NdArray}

theorem BasicMoved.components_eq {b b' B B' : BasicBlock NdArray} {pre post Pre Post : List Labels} {c C : Labels}
    (h : BasicMoved vars b b' pre c post) (H : BasicMoved vars B B' Pre C Post)
    (hc : b.components = B.components) : b'.components = B'.components := by
  obtain ⟨rfl, rfl, rfl⟩ := split_unique (h.split.symm.trans (hc.trans H.split)) h.before h.names H.before H.names
  rw [h.components, H.components]

theorem BlockFlat.alike (ha : BlockFlat vars a a') (hb : BlockFlat vars b b') (h : Alike a b) : Alike a' b' := by
  obtain ⟨_, _, _, hM⟩ := ha.values
  obtain ⟨_, _, _, hM'⟩ := hb.values
  obtain ⟨-, h1, h2⟩ := hM.labels_eq hM' h.components h.properties
  refine ⟨h1, h2, fun q G G' hG hG' => ?_⟩
  obtain ⟨g, hg⟩ := ha.exists_gradient' hG
  obtain ⟨g', hg'⟩ := hb.exists_gradient' hG'
  obtain ⟨_, _, _, hm⟩ := ha.gradients q g G hg hG
  obtain ⟨_, _, _, hm'⟩ := hb.gradients q g' G' hg' hG'
  exact hm.components_eq hm' (h.gradients q g g' hg hg')

/-- The names of components determine the position of the one which is moved. -/
theorem split_length {pre pre' post post' : List Labels} {c c' : Labels}
    (h : (pre ++ c :: post).map Labels.names = (pre' ++ c' :: post').map Labels.names)
    (h1 : ∀ x ∈ pre, x.names ≠ vars) (h2 : c.names = vars)
    (h1' : ∀ x ∈ pre', x.names ≠ vars) (h2' : c'.names = vars) : pre.length = pre'.length := by
  induction pre generalizing pre' with
  | nil =>
    cases pre' with
    | nil => rfl
    | cons x pre' =>
      simp only [List.nil_append, List.map_cons, List.cons_append, List.cons.injEq] at h
      exact absurd (h.1.symm.trans h2) (h1' x List.mem_cons_self)
  | cons x pre ih =>
    cases pre' with
    | nil =>
      simp only [List.nil_append, List.map_cons, List.cons_append, List.cons.injEq] at h
      exact absurd (h.1.trans h2') (h1 x List.mem_cons_self)
    | cons x' pre' =>
      simp only [List.map_cons, List.cons_append, List.cons.injEq] at h
      rw [List.forall_mem_cons] at h1 h1'
      rw [List.length_cons, List.length_cons, ih h.2 h1.2 h1'.2]

theorem BlockFlat.alike_of (ha : BlockFlat vars a a') (hb : BlockFlat vars b b') (hc : Consistent a b)
    (hp : entriesOf a.values.properties ≠ []) (hcs : ∀ c ∈ a.values.components, c.names = vars → entriesOf c ≠ [])
    (h : Alike a' b') : Alike a b := by
  obtain ⟨pre, c, post, hM⟩ := ha.values
  obtain ⟨Pre, C, Post, hM'⟩ := hb.values
  have hw := BasicValid.wf ha.valid.values
  have hw' := BasicValid.wf hb.valid.values
  have hcmem : c ∈ a.values.components := by rw [hM.split]; simp
  have hcw := hw.components c hcmem
  have hCw := hw'.components C (by rw [hM'.split]; simp)
  have hP := (componentPropertyLabels_iff hcw hw.properties).1 hM.properties
  have hP' := (componentPropertyLabels_iff hCw hw'.properties).1 hM'.properties
  have hrows : componentRows c a.values.properties = componentRows C b.values.properties := by
    rw [← hP.rows_eq, ← hP'.rows_eq, h.properties]
  have hcn : c.names = C.names := hM.names.trans hM'.names.symm
  obtain ⟨e1, e2⟩ := product_unique (Labels.Holds.row_length hcw) (by
      rw [hcn]; exact Labels.Holds.row_length hCw) (Labels.Holds.nodup hcw) (Labels.Holds.nodup hCw)
    (by rw [← entriesOf_eq hcw]; exact hcs c hcmem hM.names) (by rw [← entriesOf_eq hw.properties]; exact hp) hrows
  have hcC : c = C := Labels.WF.ext hcw hCw hcn e1
  have hPP : a.values.properties = b.values.properties := Labels.WF.ext hw.properties hw'.properties hc.properties e2
  subst hcC
  have hnames : a.values.components.map Labels.names = b.values.components.map Labels.names := hc.values.2
  rw [hM.split, hM'.split] at hnames
  have hlen := split_length hnames hM.before hM.names hM'.before hM'.names
  have hcomp := h.components
  rw [hM.components, hM'.components] at hcomp
  obtain ⟨rfl, rfl⟩ := List.append_inj hcomp hlen
  refine ⟨by rw [hM.split, hM'.split], hPP, fun q g g' hg hg' => ?_⟩
  obtain ⟨G, hG⟩ := ha.exists_gradient hg
  obtain ⟨G', hG'⟩ := hb.exists_gradient hg'
  obtain ⟨_, _, _, hm⟩ := ha.gradients q g G hg hG
  obtain ⟨_, _, _, hm'⟩ := hb.gradients q g' G' hg' hG'
  have hgc := h.gradients q G G' hG hG'
  obtain ⟨-, extra, rfl, rfl, rfl⟩ := hM.gradient lawful_ndArray (ha.valid.gradient_valid hg) hm
  obtain ⟨-, extra', rfl, rfl, rfl⟩ := hM'.gradient lawful_ndArray (hb.valid.gradient_valid hg') hm'
  rw [hm.components, hm'.components] at hgc
  rw [hm.split, hm'.split, List.append_cancel_right hgc]

theorem BlockFlat.usable (h : BlockFlat vars b b') : GradientsUsable b' ↔ GradientsUsable b := by
  have hs : b'.values.samples = b.values.samples := by
    obtain ⟨_, _, _, hM⟩ := h.values
    exact hM.samples
  have hgs : ∀ {q g g'}, b.gradient q = some g → b'.gradient q = some g' → g'.samples = g.samples := by
    intro q g g' hg hg'
    obtain ⟨_, _, _, hM⟩ := h.gradients q g g' hg hg'
    exact hM.samples
  constructor
  · rintro ⟨h1, h2⟩
    refine ⟨fun q g hg => ?_, fun q g hg r hr => ?_⟩
    · obtain ⟨g', hg'⟩ := h.exists_gradient hg
      exact h1 q g' hg'
    · obtain ⟨g', hg'⟩ := h.exists_gradient hg
      rw [← hs]
      exact h2 q g' hg' r (by rw [hgs hg hg']; exact hr)
  · rintro ⟨h1, h2⟩
    refine ⟨fun q g' hg' => ?_, fun q g' hg' r hr => ?_⟩
    · obtain ⟨g, hg⟩ := h.exists_gradient' hg'
      exact h1 q g hg
    · obtain ⟨g, hg⟩ := h.exists_gradient' hg'
      rw [hs]
      exact h2 q g hg r (by rw [← hgs hg hg']; exact hr)

end

section
variable {vars : List String} {t t₂ : TensorMap NdArray} (k₂ : t₂.keys = t.keys)
  (hb₂ : List.Forall₂ (BlockFlat vars) t.blocks t₂.blocks)
include k₂ hb₂

theorem flat_blocks_ne : t₂.blocks ≠ [] ↔ t.blocks ≠ [] := by
  have := hb₂.length_eq
  rw [ne_eq, ne_eq, ← List.length_eq_zero_iff, ← List.length_eq_zero_iff, this]

theorem canMove_flat {M : Labels} (h : CanMove t M) : CanMove t₂ M := by
  have hz := zip_flat (ks := t.keys.rows) hb₂
  refine ⟨h.noEntries, by rw [k₂]; exact h.names, by rw [k₂]; exact h.something.imp_left (flat_blocks_ne k₂ hb₂).2,
    ?_, ?_, ?_⟩
  · intro b' hb'
    obtain ⟨b, hb, hB⟩ := forall₂_right hb₂ hb'
    obtain ⟨_, _, _, hM⟩ := hB.values
    rw [hM.samples]
    exact h.fresh b hb
  · unfold AllAlike
    rw [k₂]
    intro a' ha' b' hb' hab
    obtain ⟨a, ha, ea, hA⟩ := hz.2 a' ha'
    obtain ⟨b, hb, eb, hB⟩ := hz.2 b' hb'
    rw [ea, eb] at hab
    exact hA.alike hB (h.alike a ha b hb hab)
  · intro b' hb'
    obtain ⟨b, hb, hB⟩ := forall₂_right hb₂ hb'
    exact hB.usable.2 (h.usable b hb)

theorem canMove_unflat (ht : TensorValid t) (hp : ∀ b ∈ t.blocks, entriesOf b.values.properties ≠ [] ∧
    ∀ c ∈ b.values.components, c.names = vars → entriesOf c ≠ []) {M : Labels} (h : CanMove t₂ M) : CanMove t M := by
  have hz := zip_flat (ks := t.keys.rows) hb₂
  have hleft : ∀ b ∈ t.blocks, ∃ b' ∈ t₂.blocks, BlockFlat vars b b' := fun b hb => by
    obtain ⟨b', h1, h2⟩ := forall₂_right hb₂.flip hb
    exact ⟨b', h1, h2⟩
  refine ⟨h.noEntries, by rw [← k₂]; exact h.names,
    by rw [← k₂]; exact h.something.imp_left (flat_blocks_ne k₂ hb₂).1, ?_, ?_, ?_⟩
  · intro b hb
    obtain ⟨b', hb', hB⟩ := hleft b hb
    obtain ⟨_, _, _, hM⟩ := hB.values
    rw [← hM.samples]
    exact h.fresh b' hb'
  · intro a ha b hb hab
    obtain ⟨a', ha', ea, hA⟩ := hz.1 a ha
    obtain ⟨b', hb', eb, hB⟩ := hz.1 b hb
    have hal := h.alike
    unfold AllAlike at hal
    rw [k₂] at hal
    have hma := (List.of_mem_zip (a := a.1) (b := a.2) ha).2
    have hmb := (List.of_mem_zip (a := b.1) (b := b.2) hb).2
    exact hA.alike_of hB (ht.consistent _ hma _ hmb) (hp _ hma).1 (hp _ hma).2
      (hal a' ha' b' hb' (by rw [ea, eb]; exact hab))
  · intro b hb
    obtain ⟨b', hb', hB⟩ := hleft b hb
    exact hB.usable.1 (h.usable b' hb')

theorem componentsAgree_flat {m : List String} (ht : TensorValid t) (ht₂ : TensorValid t₂)
    (h : GradientComponentsAgree t m) : GradientComponentsAgree t₂ m := by
  intro pairs hp key' q a' ha' b' hb' G G' hG hG'
  rw [ht₂.iter_eq, Res.ok.injEq, k₂] at hp
  subst hp
  rw [k₂] at ha' hb'
  have hz := (group_flat (names := t.keys.names) (moved := m) (zip_flat (ks := t.keys.rows) hb₂) key').2
  obtain ⟨a, ha, -, hA⟩ := hz a' ha'
  obtain ⟨b, hb, -, hB⟩ := hz b' hb'
  obtain ⟨g, hg⟩ := hA.exists_gradient' hG
  obtain ⟨g', hg'⟩ := hB.exists_gradient' hG'
  obtain ⟨_, _, _, hm⟩ := hA.gradients q g G hg hG
  obtain ⟨_, _, _, hm'⟩ := hB.gradients q g' G' hg' hG'
  exact hm.components_eq hm' (h _ ht.iter_eq key' q a ha b hb g g' hg hg')

theorem samplesFit_flat {m : List String} (ht : TensorValid t) (ht₂ : TensorValid t₂) (h : SamplesFit t m) :
    SamplesFit t₂ m := by
  intro pairs hp key'
  rw [ht₂.iter_eq, Res.ok.injEq, k₂] at hp
  subst hp
  rw [k₂]
  have h1 := h _ ht.iter_eq key'
  have e := flatMap_flat (names := t.keys.names) (moved := m) (ks := t.keys.rows) hb₂ key'
    fun _ samples => [(entriesOf samples).length]
  have hmap : ∀ (l : List (List LabelValue × TensorBlock NdArray)),
      (l.flatMap fun kb => [(entriesOf kb.2.values.samples).length]) =
        l.map fun kb => (entriesOf kb.2.values.samples).length := fun l => by
    rw [List.map_eq_flatMap]
  rw [hmap, hmap] at e
  rw [e]
  exact h1

end

section
variable {A : Type} [ArrayLike A] {view : A → NdArray}

theorem samplesFit_map (h : Implements view) {t : TensorMap A} (ht : TensorValid t) {m : List String} :
    SamplesFit (t.mapData view) m ↔ SamplesFit t m := by
  have htv := (TensorValid.map_iff h).2 ht
  have e : ∀ key', ((group t.keys.names m ((t.mapData view).keys.rows.zip (t.mapData view).blocks) key').map
      fun kb => (entriesOf kb.2.values.samples).length) = (group t.keys.names m (t.keys.rows.zip t.blocks) key').map
      fun kb => (entriesOf kb.2.values.samples).length := by
    intro key'
    rw [TensorMap.mapData_keys, TensorMap.mapData_blocks, zip_mapData, group_map, List.map_map]
    rfl
  constructor
  · intro hf pairs hp key'
    rw [ht.iter_eq, Res.ok.injEq] at hp
    subst hp
    rw [← e]
    exact hf _ htv.iter_eq key'
  · intro hf pairs hp key'
    rw [htv.iter_eq, Res.ok.injEq] at hp
    subst hp
    have := hf _ ht.iter_eq key'
    rw [← e] at this
    exact this

/-- The order in which gradients are visited does not matter. -/
theorem componentsToProperties_hash {hash hash' : HashOrder} {vars : List String} {t t' : TensorMap A}
    (ht : TensorValid t) (h : t.componentsToProperties hash vars = (t', .ok ())) :
    t.componentsToProperties hash' vars = (t', .ok ()) := by
  by_cases hv : vars = []
  · subst hv
    exact h
  obtain ⟨hk, hb⟩ := (TensorMap.componentsToProperties_ok hv).1 h
  refine (TensorMap.componentsToProperties_ok hv).2 ⟨hk, ?_⟩
  rw [List.forall₂_iff_get] at hb ⊢
  refine ⟨hb.1, fun i h1 h2 => ?_⟩
  have hn := (ht.blocks _ (List.get_mem t.blocks ⟨i, h1⟩)).names
  exact (TensorBlock.componentsToProperties_ok hn hv).2 ((TensorBlock.componentsToProperties_ok hn hv).1 (hb.2 i h1 h2))

/-- `components_to_properties`, seen through `view`. -/
theorem componentsToProperties_view (h : Implements view) {hash : HashOrder} {vars : List String} {t : TensorMap A}
    (ht : TensorValid t) :
    ((∃ t', t.componentsToProperties hash vars = (t', .ok ())) ↔
      ∃ n', (t.mapData view).componentsToProperties .insertion vars = (n', .ok ())) ∧
    ∀ t', vars ≠ [] → t.componentsToProperties hash vars = (t', .ok ()) →
      TensorValid t' ∧ (t'.mapData view).keys = (t.mapData view).keys ∧
      List.Forall₂ (BlockFlat vars) (t.mapData view).blocks (t'.mapData view).blocks := by
  have htv := (TensorValid.map_iff h).2 ht
  have hmap := TensorMap.componentsToProperties_map h orderByName_insertion (vars := vars) (t := t) ht.blocks
  refine ⟨⟨?_, ?_⟩, fun t' hv hok => ?_⟩
  · rintro ⟨t', h1⟩
    rw [componentsToProperties_hash ht h1 (hash' := .insertion)] at hmap
    exact ⟨_, hmap⟩
  · rintro ⟨n', h1⟩
    rw [hmap, Prod.mk.injEq] at h1
    exact ⟨_, componentsToProperties_hash ht (Prod.ext rfl h1.2)⟩
  · rw [componentsToProperties_hash ht hok (hash' := .insertion)] at hmap
    have hvv : TensorValid (t'.mapData view) := componentsToProperties_keeps lawful_ndArray htv hmap
    obtain ⟨hk, hbs⟩ := (TensorMap.componentsToProperties_ok hv).1 hmap
    refine ⟨(TensorValid.map_iff h).1 hvv, hk, ?_⟩
    rw [List.forall₂_iff_get] at hbs ⊢
    exact ⟨hbs.1, fun i h1 h2 => blockFlat (htv.blocks _ (List.get_mem _ _)) hv (hbs.2 i h1 h2)⟩

/-- When `components_to_properties` succeeds. -/
theorem componentsToProperties_succeeds_of {hash : HashOrder} {vars : List String} (hv : vars ≠ [])
    {t t₁ t₁₂ : TensorMap NdArray} (ht : TensorValid t)
    (hb : List.Forall₂ (BlockFlat vars) t₁.blocks t₁₂.blocks)
    (hsame : ∀ b ∈ t.blocks, ∃ b₁ ∈ t₁.blocks, b₁.values.components = b.values.components ∧
      b₁.values.properties = b.values.properties) : ∃ t', t.componentsToProperties hash vars = (t', .ok ()) := by
  have key : ∀ b ∈ t.blocks, (∃ c ∈ b.values.components, c.names = vars) ∧
      ∀ n ∈ vars, n ∉ b.values.properties.names := by
    intro b hb'
    obtain ⟨b₁, h1, h2, h3⟩ := hsame b hb'
    obtain ⟨b₂, -, hB⟩ := forall₂_right hb.flip h1
    obtain ⟨pre, c, post, hM⟩ := (show BlockFlat vars b₁ b₂ from hB).values
    have hw := BasicValid.wf (show BlockFlat vars b₁ b₂ from hB).valid.values
    have hcm : c ∈ b₁.values.components := by rw [hM.split]; simp
    have hcw := hw.components c hcm
    have hP := (componentPropertyLabels_iff hcw hw.properties).1 hM.properties
    have hnd := hP.names_ok.2
    rw [List.nodup_append, hM.names] at hnd
    rw [← h2, ← h3]
    exact ⟨⟨c, hcm, hM.names⟩, fun n hn hn' => hnd.2.2 n hn n hn' rfl⟩
  exact TensorMap.componentsToProperties_succeeds ht hv (fun b hb => (key b hb).1) (fun b hb => (key b hb).2)

end

end Equistore
