import Verif.Spec.Moved
import Verif.Spec.History
import Verif.Spec.Backend
import Verif.Lemmas.ComponentsData
import Verif.Props.KeysToSamples

/-!
# Tensor maps after `keys_to_samples`
-/

namespace Equistore
open Spec NdArray

theorem compAt_exists {C : List Labels} (hC : ∀ c ∈ C, c.WF) {k : List Nat}
    (h : ValidIdx (C.map fun c => c.rows.length) k) : ∃ cs, CompAt C k cs := by
  induction C generalizing k with
  | nil => cases h; exact ⟨[], .nil, rfl⟩
  | cons c C ih =>
    cases h with
    | cons h1 h2 =>
      obtain ⟨cs, hcs⟩ := ih (fun c h => hC c (List.mem_cons_of_mem _ h)) h2
      exact ⟨_ :: cs, (CompAt.cons_iff (hC c List.mem_cons_self)).2
        ⟨_, _, rfl, List.getElem?_eq_getElem h1, hcs⟩⟩

theorem nodup_getElem?_inj {α : Type} {l : List α} (hl : l.Nodup) {i j : Nat} {x : α} (hi : l[i]? = some x)
    (hj : l[j]? = some x) : i = j := by
  obtain ⟨h1, h2⟩ := List.getElem?_eq_some_iff.1 hi
  obtain ⟨h3, h4⟩ := List.getElem?_eq_some_iff.1 hj
  exact (List.Nodup.getElem_inj_iff hl).1 (h2.trans h4.symm)

theorem hasValue_ext {b b' : BasicBlock NdArray} (hb : BasicValid b) (hb' : BasicValid b') (ha : ArrayOk b.data)
    (ha' : ArrayOk b'.data) (hs : b.samples = b'.samples) (hc : b.components = b'.components)
    (hp : b.properties = b'.properties) (h : ∀ s cs p x, HasValue b s cs p x → HasValue b' s cs p x) :
    b = b' := by
  have hw := BasicValid.wf hb
  have hw' := BasicValid.wf hb'
  obtain ⟨shape, h1, h2⟩ := hb.shape
  obtain ⟨shape', h1', h2'⟩ := hb'.shape
  have e := shapeMatches_eq hw.samples hw.components hw.properties h2
  have e' := shapeMatches_eq hw'.samples hw'.components hw'.properties h2'
  have hsh : b.data.shape = shape := Res.ok.inj h1
  have hsh' : b'.data.shape = shape' := Res.ok.inj h1'
  have hd : b.data = b'.data := by
    refine ext_get ha ha' (by rw [hsh, hsh', e, e', hs, hc, hp]) fun idx hi => ?_
    rw [hsh, e] at hi
    obtain ⟨i, k, j, rfl, h3, h4, h5⟩ := validIdx_split hi
    obtain ⟨cs, hcs⟩ := compAt_exists hw.components h4
    have hv : HasValue b b.samples.rows[i] cs b.properties.rows[j] (b.data.get (i :: k ++ [j])) :=
      (hasValue_iff hw).2 ⟨i, k, j, List.getElem?_eq_getElem h3, hcs, List.getElem?_eq_getElem h5, rfl⟩
    obtain ⟨i', k', j', h6, h7, h8, h9⟩ := (hasValue_iff hw').1 (h _ _ _ _ hv)
    rw [← hc] at h7
    rw [← hs] at h6
    rw [← hp] at h8
    have hk := CompAt.unique hw.components hcs h7
    have hi := nodup_getElem?_inj (Labels.Holds.nodup hw.samples) (List.getElem?_eq_getElem h3) h6
    have hj := nodup_getElem?_inj (Labels.Holds.nodup hw.properties) (List.getElem?_eq_getElem h5) h8
    subst hk hi hj
    exact h9.symm
  cases b; cases b'
  simp only at hs hc hp hd
  subst hs hc hp hd
  rfl

/-- The result of `keys_to_samples`. -/
theorem keysToSamples_moved {build : Build} {hash : HashOrder} {keysToMove : Labels} {sort : Bool}
    {t t' : TensorMap NdArray} (ht : TensorValid t) (hm : keysToMove.FromBuilder)
    (h : t.keysToSamples build hash keysToMove sort = (t', .ok ()))
    (hcomp : build.debug = true ∨ GradientComponentsAgree t keysToMove.names) :
    MovedToSamples keysToMove.names sort t t' := by
  have hv := keysToSamples_valid ht hm h
  obtain ⟨hw, hr, hk⟩ := (keysToSamples_ok_iff ht hm).1 h
  have hC16 := C16_keys_to_samples_keys build hash keysToMove sort t t' ht hm h
  have hcomp' : ∀ key' q, build.debug = true ∨ ∀ a ∈ (group t.keys.names keysToMove.names
      (t.keys.rows.zip t.blocks) key').map (toMerge t.keys.names keysToMove.names),
      ∀ c ∈ (group t.keys.names keysToMove.names
      (t.keys.rows.zip t.blocks) key').map (toMerge t.keys.names keysToMove.names),
      ∀ g g₂, a.2.gradient q = some g → c.2.gradient q = some g₂ → g.components = g₂.components := by
    intro key' q
    refine hcomp.imp_right fun hc a ha c hc' g g₂ h1 h2 => ?_
    obtain ⟨a₁, ha₁, rfl⟩ := List.mem_map.1 ha
    obtain ⟨c₁, hc₁, rfl⟩ := List.mem_map.1 hc'
    exact hc _ ht.iter_eq key' q a₁ ha₁ c₁ hc₁ g g₂ h1 h2
  have hpos := Labels.Holds.names_pos hw
  refine ⟨hv, ?_, hC16.1, hC16.2.1, ?_, ?_, ?_⟩
  · intro b hb
    obtain ⟨key', hkb⟩ := hk.block_key hb
    have hg := group_ok ht (Labels.Holds.names_ok hw).2 hk.names key'
    exact ⟨(mergeBlocksAlongSamples_values hg rfl hpos (hk.merged hkb)).1, fun p g hp =>
      (mergeBlocksAlongSamples_gradients hg rfl hpos (hk.merged hkb) hp (hcomp' key' p)).1⟩
  · intro pairs pairs' hp hp' kb' hkb'
    obtain ⟨key', b'⟩ := kb'
    have h17 := C17_keys_to_samples_values build hash keysToMove sort t t' ht hm h pairs pairs' hp hp' key' b' hkb'
    have h19 := C19_keys_to_samples_samples build hash keysToMove sort t t' ht hm h pairs pairs' hp hp' key' b' hkb'
    have h20 := C20_keys_to_samples_gradient_samples build hash keysToMove sort t t' ht hm h pairs pairs' hp hp' key'
      b' hkb'
    have h20v := C20_keys_to_samples_gradients_partial build hash keysToMove sort t t' ht hm h pairs pairs' hp hp'
      key' b' hkb'
    have hex : ∀ P : List LabelValue × TensorBlock NdArray → Prop,
        (∃ kb ∈ group t.keys.names keysToMove.names pairs key', P kb) ↔
        ∃ key b, (key, b) ∈ pairs ∧ remainingKey t.keys.names keysToMove.names key = key' ∧ P (key, b) := by
      intro P
      constructor
      · rintro ⟨⟨key, b⟩, h1, h2⟩
        exact ⟨key, b, (mem_group.1 h1).1, (mem_group.1 h1).2, h2⟩
      · rintro ⟨key, b, h1, h2, h3⟩
        exact ⟨(key, b), mem_group.2 ⟨h1, h2⟩, h3⟩
    rw [ht.iter_eq, Res.ok.injEq] at hp
    rw [hk.iter_eq, Res.ok.injEq] at hp'
    subst hp hp'
    have hg := group_ok ht (Labels.Holds.names_ok hw).2 hk.names key'
    obtain ⟨f, mappings, stop, hM, hS, hstop⟩ := mergeBlocksAlongSamples_merged hg rfl hpos (hk.merged hkb')
    have hext : ∀ key : List LabelValue, extendSample true key = (· ++ key) := fun key => by
      funext s; simp [extendSample]
    have hall : ∀ {q g'}, b'.gradient q = some g' → _ := fun {q g'} hq => hM.gradient_labels hg (q := q) (g' := g') hq
    refine ⟨h19.1, fun s' => ?_, fun kb hkb => ?_, fun s' cs p x => ?_, ?_, ?_, ?_, ?_, ?_, ?_⟩
    · rw [h19.2.1, List.mem_flatMap]
      refine exists_congr fun kb => and_congr_right fun _ => ?_
      rw [List.mem_map]
      exact exists_congr fun s => and_congr_right fun _ => eq_comm
    · have := hS.compatible (toMerge t.keys.names keysToMove.names kb) (List.mem_map_of_mem hkb)
      exact ⟨hM.components.trans this.1.symm, hS.properties.trans this.2.symm⟩
    · rw [h17, hex]
    · intro kb hkb q
      exact (h20 q).1 kb.1 kb.2 ((mem_group (key := kb.1) (b := kb.2)).1 hkb).1
        ((mem_group (key := kb.1) (b := kb.2)).1 hkb).2
    · intro kb hkb q g g' hq hq'
      obtain ⟨fg, hfg, hl⟩ := hall hq'
      have hmem := List.mem_map_of_mem (f := toMerge t.keys.names keysToMove.names) hkb
      refine ⟨?_, ?_⟩
      · rw [hl.names]
        exact ((hg.consistent _ hM.first_mem _ hmem).gradients q fg g hfg hq).1
      · rw [hl.components]
        rcases hcomp' key' q with hd | hc
        · obtain ⟨fg', hfg', hgm⟩ := hM.gradient_some hg hq'
          have : fg' = fg := Option.some.inj (hfg'.symm.trans hfg)
          subst this
          obtain ⟨_, _, _, _, _, _, hmove⟩ := hgm.data
          obtain ⟨_, hc⟩ := moveAllGradientProperties_ok hmove
          obtain ⟨m, hm'⟩ := zip_mem_of hM.mapping.length_eq hmem
          obtain ⟨rng, hr'⟩ := zip_mem_of (r := fullRanges ((group t.keys.names keysToMove.names
            (t.keys.rows.zip t.blocks) key').map (toMerge t.keys.names keysToMove.names)) stop)
            (by rw [List.length_zip, ← hM.mapping.length_eq]; simp [fullRanges]) hm'
          have hne : rng ≠ none := by
            have := (List.of_mem_zip hr').2
            rw [(List.mem_replicate.1 this).2]
            simp
          obtain ⟨g₂, hg₂, he⟩ := hc _ hr' hne
          have : g₂ = g := Option.some.inj (hg₂.symm.trans hq)
          subst this
          exact (he hd).symm
        · exact hc _ hM.first_mem _ hmem fg g hfg hq
    · intro q g' hq
      exact ((h20 q).2 g' hq).1
    · intro kb hkb q g hq r hr
      have hmem := List.mem_map_of_mem (f := toMerge t.keys.names keysToMove.names) hkb
      have hgv := (hg.valid _ hmem).gradient_valid hq
      have hsome : (b'.gradient q).isSome = true := by
        rw [(h20 q).1 kb.1 kb.2 ((mem_group (key := kb.1) (b := kb.2)).1 hkb).1
          ((mem_group (key := kb.1) (b := kb.2)).1 hkb).2, hq]; rfl
      obtain ⟨g', hg'⟩ := Option.isSome_iff_exists.1 hsome
      obtain ⟨fg, hfg, hl⟩ := hall hg'
      obtain ⟨g₂, hg₂, hren⟩ := hl.all _ hmem
      have : g₂ = g := Option.some.inj (hg₂.symm.trans hq)
      subst this
      obtain ⟨r', hr'⟩ := hren r (by rw [← entriesOf_eq hgv.wf.samples]; exact hr)
      exact ⟨r', by rw [hext] at hr'; exact hr'⟩
    · intro q g' hq r'
      rw [((h20 q).2 g' hq).2, hex]
    · intro q g' hq r' cs p x
      rw [h20v q g' hq (hcomp.imp_right fun hc => hc _ ht.iter_eq key' q) r' cs p x, hex]
  · intro hs b' hb'
    obtain ⟨key', hkb⟩ := hk.block_key hb'
    exact (C19_keys_to_samples_samples build hash keysToMove sort t t' ht hm h _ _ ht.iter_eq hk.iter_eq key' b'
      hkb).2.2.1 hs
  · intro hs pairs pairs' hp hp' kb' hkb'
    exact (C19_keys_to_samples_samples build hash keysToMove sort t t' ht hm h pairs pairs' hp hp' kb'.1 kb'.2
      hkb').2.2.2 hs

/-! ### The description determines the tensor map -/

theorem sorted_ext {l l' : List (List LabelValue)} (h : l.Pairwise (· < ·)) (h' : l'.Pairwise (· < ·))
    (hm : ∀ x, x ∈ l ↔ x ∈ l') : l = l' := by
  have hn : ∀ {l : List (List LabelValue)}, l.Pairwise (· < ·) → l.Nodup := fun h =>
    h.imp fun {a b} hab hne => by subst hne; exact (List.lt_irrefl a) hab
  refine ((List.perm_ext_iff_of_nodup (hn h) (hn h')).2 hm).eq_of_pairwise ?_ h h'
  intro a b _ _ h1 h2
  exact absurd (rows_lt_trans h1 h2) (List.lt_irrefl a)

theorem Spec.BlockMoved.same {names moved : List String} {pairs : List (List LabelValue × TensorBlock NdArray)}
    {key' : List LabelValue} {b b' : TensorBlock NdArray} (h : BlockMoved names moved pairs key' b)
    (h' : BlockMoved names moved pairs key' b') (hne : ∃ kb, kb ∈ group names moved pairs key')
    (hb : BlockValid b) (hb' : BlockValid b')
    (ha : ArrayOk b.values.data ∧ ∀ p g, b.gradient p = some g → ArrayOk g.data)
    (ha' : ArrayOk b'.values.data ∧ ∀ p g, b'.gradient p = some g → ArrayOk g.data)
    (hs : entriesOf b.values.samples = entriesOf b'.values.samples) : SameBlock b b' := by
  obtain ⟨kb, hkb⟩ := hne
  have hw := BasicValid.wf hb.values
  have hw' := BasicValid.wf hb'.values
  have hS : b.values.samples = b'.values.samples := by
    refine Labels.WF.ext hw.samples hw'.samples ?_ ?_
    · rw [h.sampleNames kb hkb, h'.sampleNames kb hkb]
    · rw [← entriesOf_eq hw.samples, ← entriesOf_eq hw'.samples]
      exact hs
  have hv : b.values = b'.values := by
    refine hasValue_ext hb.values hb'.values ha.1 ha'.1 hS ?_ ?_ fun s cs p x hx => ?_
    · rw [(h.labels kb hkb).1, (h'.labels kb hkb).1]
    · rw [(h.labels kb hkb).2, (h'.labels kb hkb).2]
    · rw [h'.values, ← h.values]; exact hx
  have hsome : ∀ q, (b.gradient q).isSome = (b'.gradient q).isSome := fun q => by
    rw [h.parameters kb hkb, h'.parameters kb hkb]
  have hgr : ∀ q g g', b.gradient q = some g → b'.gradient q = some g' → g = g' := by
    intro q g g' hg hg'
    have hgv := hb.gradient_valid hg
    have hgv' := hb'.gradient_valid hg'
    have hk : (kb.2.gradient q).isSome = true := by rw [← h.parameters kb hkb, hg]; rfl
    obtain ⟨gk, hgk⟩ := Option.isSome_iff_exists.1 hk
    have hl := h.gradientLabels kb hkb q gk g hgk hg
    have hl' := h'.gradientLabels kb hkb q gk g' hgk hg'
    refine hasValue_ext hgv.basic hgv'.basic (ha.2 q g hg) (ha'.2 q g' hg') ?_ ?_ ?_ fun s cs p x hx => ?_
    · refine Labels.WF.ext hgv.wf.samples hgv'.wf.samples (by rw [hl.1, hl'.1]) ?_
      rw [← entriesOf_eq hgv.wf.samples, ← entriesOf_eq hgv'.wf.samples]
      refine sorted_ext (h.gradientSorted q g hg) (h'.gradientSorted q g' hg') fun x => ?_
      rw [h.gradientSamples q g hg, h'.gradientSamples q g' hg', hS]
    · rw [hl.2, hl'.2]
    · rw [hgv.properties, hgv'.properties, hv]
    · rw [h'.gradientValues q g' hg', ← hS, ← h.gradientValues q g hg]; exact hx
  refine ⟨hv, fun q => ?_, ?_⟩
  · have := hsome q
    cases hg : b.gradient q with
    | none =>
      rw [hg] at this
      cases hg' : b'.gradient q with
      | none => rfl
      | some g' => rw [hg'] at this; cases this
    | some g =>
      rw [hg] at this
      cases hg' : b'.gradient q with
      | none => rw [hg'] at this; cases this
      | some g' => rw [hgr q g g' hg hg']
  · rw [hb.list, hb'.list, List.perm_ext_iff_of_nodup hb.names hb'.names]
    intro q
    rw [← gradient_isSome, ← gradient_isSome, hsome q]

/-- The description of a result determines it. -/
theorem Spec.MovedToSamples.same {moved : List String} {sort : Bool} {t t' t'' : TensorMap NdArray}
    (ht : TensorValid t) (h : MovedToSamples moved sort t t') (h' : MovedToSamples moved sort t t'') :
    SameTensor t' t'' := by
  have hk : t'.keys = t''.keys := by
    refine Labels.WF.ext h.valid.keys_wf h'.valid.keys_wf ?_ ?_
    · rw [h.keyNames, h'.keyNames]
    · rw [← entriesOf_eq h.valid.keys_wf, ← entriesOf_eq h'.valid.keys_wf]
      exact FirstAppearances.unique h.keys h'.keys
  refine ⟨hk, ?_⟩
  have hl := h.valid.length_eq
  have hl' := h'.valid.length_eq
  rw [List.forall₂_iff_get]
  refine ⟨by rw [hk] at hl; omega, fun i h1 h2 => ?_⟩
  simp only [List.get_eq_getElem]
  have hi : i < t'.keys.rows.length := by omega
  have hm : (t'.keys.rows[i], t'.blocks[i]) ∈ t'.keys.rows.zip t'.blocks := by
    rw [← List.getElem_zip (i := i) (h := by rw [List.length_zip]; omega)]
    exact List.getElem_mem _
  have hm' : (t'.keys.rows[i], t''.blocks[i]) ∈ t''.keys.rows.zip t''.blocks := by
    have hi' : i < t''.keys.rows.length := by omega
    have : t'.keys.rows[i] = t''.keys.rows[i] := by simp only [hk]
    rw [this, ← List.getElem_zip (i := i) (h := by rw [List.length_zip]; omega)]
    exact List.getElem_mem _
  have hb := List.getElem_mem h1
  have hb' := List.getElem_mem h2
  have hB := h.blocks _ _ ht.iter_eq h.valid.iter_eq _ hm
  have hB' := h'.blocks _ _ ht.iter_eq h'.valid.iter_eq _ hm'
  refine hB.same hB' ?_ (h.valid.blocks _ hb) (h'.valid.blocks _ hb') (h.arrays _ hb) (h'.arrays _ hb') ?_
  rotate_left
  · cases sort with
    | true => exact sorted_ext (h.sorted rfl _ hb) (h'.sorted rfl _ hb') fun x => by rw [hB.samples, hB'.samples]
    | false =>
      exact FirstAppearances.unique (h.unsorted rfl _ _ ht.iter_eq h.valid.iter_eq _ hm)
        (h'.unsorted rfl _ _ ht.iter_eq h'.valid.iter_eq _ hm')
  have hkey : t'.keys.rows[i] ∈ entriesOf t'.keys := by
    rw [entriesOf_eq h.valid.keys_wf]; exact List.getElem_mem _
  rw [h.keys.same, List.mem_map] at hkey
  obtain ⟨key, h3, h4⟩ := hkey
  rw [entriesOf_eq ht.keys_wf] at h3
  obtain ⟨b, hb⟩ := zip_mem_of ht.length_eq h3
  exact ⟨(key, b), mem_group.2 ⟨hb, h4⟩⟩

end Equistore
