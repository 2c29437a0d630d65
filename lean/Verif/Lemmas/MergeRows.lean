import Verif.Lemmas.Groups

/-! Merging samples and gradient samples. -/

namespace Equistore
open Spec

variable {A : Type} [ArrayLike A]

/-- A mapping sends the i-th input row to an output row related to it by `T`. -/
structure MapsTo (T : List LabelValue → List LabelValue → Prop)
    (inRows outRows : List (List LabelValue)) (mapping : List SampleMapping) : Prop where
  length : mapping.length = inRows.length
  spec : ∀ (i : Nat) r, inRows[i]? = some r →
    ∃ o r', mapping[i]? = some ⟨i, o⟩ ∧ outRows[o]? = some r' ∧ T r r'

theorem MapsTo.mem {T : List LabelValue → List LabelValue → Prop}
    {inRows outRows : List (List LabelValue)} {mapping : List SampleMapping}
    (h : MapsTo T inRows outRows mapping) {m : SampleMapping} (hm : m ∈ mapping) :
    mapping[m.input]? = some m ∧
    ∃ r r', inRows[m.input]? = some r ∧ outRows[m.output]? = some r' ∧ T r r' := by
  obtain ⟨i, hi, rfl⟩ := List.getElem_of_mem hm
  have hi' : i < inRows.length := by rw [← h.length]; exact hi
  obtain ⟨o, r', h1, h2, h3⟩ := h.spec i inRows[i] (List.getElem?_eq_getElem hi')
  rw [List.getElem?_eq_getElem hi, Option.some.injEq] at h1
  have h4 : mapping[i]? = some ⟨i, o⟩ := by rw [List.getElem?_eq_getElem hi, h1]
  rw [h1]
  exact ⟨h4, inRows[i], r', List.getElem?_eq_getElem hi', h2, h3⟩

theorem getElem?_nodup_inj {α : Type} {l : List α} (h : l.Nodup) {i j : Nat} {a : α}
    (hi : l[i]? = some a) (hj : l[j]? = some a) : i = j := by
  obtain ⟨h1, rfl⟩ := List.getElem?_eq_some_iff.1 hi
  obtain ⟨h2, h3⟩ := List.getElem?_eq_some_iff.1 hj
  exact ((List.Nodup.getElem_inj_iff h).1 h3).symm

theorem MapsTo.nodup {T : List LabelValue → List LabelValue → Prop}
    {inRows outRows : List (List LabelValue)} {mapping : List SampleMapping}
    (h : MapsTo T inRows outRows mapping) (hn : inRows.Nodup)
    (hT : ∀ r ∈ inRows, ∀ s ∈ inRows, ∀ r', T r r' → T s r' → r = s) :
    (mapping.map (·.output)).Nodup := by
  rw [List.Nodup, List.pairwise_iff_getElem]
  intro i j hi hj hij
  rw [List.length_map] at hi hj
  rw [List.getElem_map, List.getElem_map]
  intro hc
  have hi' : i < inRows.length := by rw [← h.length]; exact hi
  have hj' : j < inRows.length := by rw [← h.length]; exact hj
  obtain ⟨o, r, h1, h2, h3⟩ := h.spec i inRows[i] (List.getElem?_eq_getElem hi')
  obtain ⟨o', s, h1', h2', h3'⟩ := h.spec j inRows[j] (List.getElem?_eq_getElem hj')
  rw [List.getElem?_eq_getElem hi, Option.some.injEq] at h1
  rw [List.getElem?_eq_getElem hj, Option.some.injEq] at h1'
  rw [h1, h1'] at hc
  simp only at hc
  subst hc
  rw [h2, Option.some.injEq] at h2'
  subst h2'
  have := hT _ (List.getElem_mem hi') _ (List.getElem_mem hj') r h3 h3'
  have := (List.Nodup.getElem_inj_iff hn).1 this
  omega

theorem mapping_exists {F : List LabelValue → Res (List LabelValue)} {out : Labels}
    {names : List String} {outRows : List (List LabelValue)} (ho : out.Holds names outRows)
    {inRows : List (List LabelValue)} {k : Nat} {msg : String}
    (h : ∀ r ∈ inRows, ∃ r', F r = .ok r' ∧ r' ∈ outRows) :
    ∃ mapping, (inRows.zipIdx k).mapM (fun p : List LabelValue × Nat => do
        let r' ← F p.1
        let position ← out.position r'
        let output ← Res.expect position msg
        return ({ input := p.2, output } : SampleMapping)) = .ok mapping ∧
      mapping.length = inRows.length ∧
      ∀ (i : Nat) r, inRows[i]? = some r →
        ∃ o r', mapping[i]? = some ⟨k + i, o⟩ ∧ outRows[o]? = some r' ∧ F r = .ok r' := by
  induction inRows generalizing k with
  | nil => exact ⟨[], rfl, rfl, by simp⟩
  | cons r rs ih =>
    obtain ⟨mapping, e1, e2, e3⟩ := ih (k := k + 1) fun r hr => h r (List.mem_cons_of_mem _ hr)
    obtain ⟨r', h1, h2⟩ := h r List.mem_cons_self
    obtain ⟨o, ho1, ho2⟩ := List.getElem_of_mem h2
    have hpos : out.position r' = .ok (some o) := ho.position_eq_some.2 (by
      rw [List.getElem?_eq_getElem ho1, ho2])
    refine ⟨⟨k, o⟩ :: mapping, ?_, by simp [e2], ?_⟩
    · rw [List.zipIdx_cons, List.mapM_cons]
      simp only [h1, Res.ok_bind, hpos, Res.expect_some]
      simp only [pure_bind, e1, Res.ok_bind]
      rfl
    · intro i s hs
      cases i with
      | zero =>
        simp only [List.getElem?_cons_zero, Option.some.injEq] at hs
        subst hs
        exact ⟨o, r', by simp, by rw [List.getElem?_eq_getElem ho1, ho2], h1⟩
      | succ i =>
        rw [List.getElem?_cons_succ] at hs
        obtain ⟨o', r'', h3, h4, h5⟩ := e3 i s hs
        exact ⟨o', r'', by rw [List.getElem?_cons_succ, h3]; simp; omega, h4, h5⟩

/-! ### Samples -/

/-- All the extended samples. -/
def allSamples (addKey : Bool) (blocks : List (List LabelValue × TensorBlock A)) :
    List (List LabelValue) :=
  blocks.flatMap fun kb => kb.2.values.samples.rows.map (extendSample addKey kb.1)

/-- The samples of the merged block. -/
def mergedRows (sort addKey : Bool) (blocks : List (List LabelValue × TensorBlock A)) :
    List (List LabelValue) :=
  if sort then sortRows (indexSet (allSamples addKey blocks))
  else indexSet (allSamples addKey blocks)

theorem mem_mergedRows {sort addKey : Bool} {blocks : List (List LabelValue × TensorBlock A)}
    {r : List LabelValue} : r ∈ mergedRows sort addKey blocks ↔
      ∃ kb ∈ blocks, ∃ s ∈ kb.2.values.samples.rows, r = extendSample addKey kb.1 s := by
  have : r ∈ mergedRows sort addKey blocks ↔ r ∈ allSamples addKey blocks := by
    unfold mergedRows
    split
    · rw [(sortRows_perm _).mem_iff, mem_indexSet]
    · exact mem_indexSet
  rw [this]
  simp only [allSamples, List.mem_flatMap, List.mem_map]
  constructor
  · rintro ⟨kb, h1, s, h2, rfl⟩; exact ⟨kb, h1, s, h2, rfl⟩
  · rintro ⟨kb, h1, s, h2, rfl⟩; exact ⟨kb, h1, s, h2, rfl⟩

theorem mergedRows_nodup (sort addKey : Bool) (blocks : List (List LabelValue × TensorBlock A)) :
    (mergedRows sort addKey blocks).Nodup := by
  unfold mergedRows
  split
  · rw [(sortRows_perm _).nodup_iff]; exact indexSet_nodup _
  · exact indexSet_nodup _

theorem collectSamples_eq {addKey : Bool} {blocks : List (List LabelValue × TensorBlock A)}
    (hs : ∀ kb ∈ blocks, kb.2.values.samples.WF) :
    collectSamples addKey blocks = .ok (allSamples addKey blocks) := by
  induction blocks with
  | nil => rfl
  | cons kb blocks ih =>
    obtain ⟨key, b⟩ := kb
    simp only [collectSamples]
    rw [Labels.Holds.iter_eq (hs _ List.mem_cons_self), Res.ok_bind,
      ih fun kb h => hs kb (List.mem_cons_of_mem _ h)]
    rfl

/-- Relation between a sample and the corresponding merged sample. -/
def Extends (addKey : Bool) (key : List LabelValue) (r r' : List LabelValue) : Prop :=
  r' = extendSample addKey key r

theorem extends_inj {addKey : Bool} {key r s r' : List LabelValue} (h : Extends addKey key r r')
    (h' : Extends addKey key s r') : r = s := by
  unfold Extends extendSample at *
  subst h
  split at h'
  · exact (List.append_cancel_right h')
  · exact h'

theorem mapM_forall₂ {α β : Type} {f : α → Res β} {P : α → β → Prop} {l : List α}
    (h : ∀ a ∈ l, ∃ b, f a = .ok b ∧ P a b) :
    ∃ r, l.mapM f = .ok r ∧ List.Forall₂ P l r := by
  induction l with
  | nil => exact ⟨[], rfl, .nil⟩
  | cons a l ih =>
    obtain ⟨b, h1, h2⟩ := h a List.mem_cons_self
    obtain ⟨r, h3, h4⟩ := ih fun a ha => h a (List.mem_cons_of_mem _ ha)
    exact ⟨b :: r, by rw [List.mapM_cons, h1, Res.ok_bind, h3]; rfl, .cons h2 h4⟩

/-- What `merge_samples` does once the merged labels can be created. -/
theorem mergeSamples_of_build {first : List LabelValue × TensorBlock A}
    {rest : List (List LabelValue × TensorBlock A)}
    {newNames : List String} {sort : Bool} (hpos : 0 < newNames.length)
    (hs : ∀ kb ∈ first :: rest, kb.2.values.samples.WF) {merged : Labels} {addKey : Bool}
    (hadd : addKey = decide (first.2.values.samples.size < newNames.length))
    (hb : Labels.build newNames (mergedRows sort addKey (first :: rest)) = .ok merged) :
    ∃ mappings, mergeSamples (first :: rest) newNames sort = .ok (merged, mappings) ∧
      List.Forall₂ (fun kb mapping => MapsTo (Extends addKey kb.1) kb.2.values.samples.rows
        (mergedRows sort addKey (first :: rest)) mapping) (first :: rest) mappings := by
  have hh := (Labels.build_eq_ok hpos).1 hb
  have := mapM_forall₂ (l := first :: rest)
    (f := fun kb : List LabelValue × TensorBlock A => sampleMapping merged addKey kb.1 kb.2)
    (P := fun kb mapping => MapsTo (Extends addKey kb.1) kb.2.values.samples.rows
        (mergedRows sort addKey (first :: rest)) mapping) (by
      intro kb hkb
      obtain ⟨mapping, e1, e2, e3⟩ := mapping_exists (F := fun s => .ok (extendSample addKey kb.1 s))
        (k := 0) (msg := "missing entry in merged samples") hh (inRows := kb.2.values.samples.rows)
        (fun r hr => ⟨_, rfl, mem_mergedRows.2 ⟨kb, hkb, r, hr, rfl⟩⟩)
      refine ⟨mapping, ?_, e2, ?_⟩
      · unfold sampleMapping
        rw [Labels.Holds.iter_eq (hs kb hkb), Res.ok_bind]
        exact e1
      · intro i r hr
        obtain ⟨o, r', h1, h2, h3⟩ := e3 i r hr
        rw [Nat.zero_add] at h1
        simp only [Res.ok.injEq] at h3
        exact ⟨o, r', h1, h2, h3.symm⟩)
  obtain ⟨mappings, e1, e2⟩ := this
  refine ⟨mappings, ?_, e2⟩
  unfold mergeSamples
  simp only [List.head?_cons, Res.expect_some, Res.ok_bind, ← hadd,
    collectSamples_eq hs]
  rw [show (if sort = true then sortRows (indexSet (allSamples addKey (first :: rest)))
    else indexSet (allSamples addKey (first :: rest))) = mergedRows sort addKey (first :: rest) from rfl,
    hb, Res.ok_bind, e1]
  rfl

theorem mergeSamples_ok {first : List LabelValue × TensorBlock A}
    {rest : List (List LabelValue × TensorBlock A)}
    {newNames : List String} {sort : Bool} (hpos : 0 < newNames.length)
    (hs : ∀ kb ∈ first :: rest, kb.2.values.samples.WF) {merged : Labels}
    {mappings : List (List SampleMapping)} {addKey : Bool}
    (hadd : addKey = decide (first.2.values.samples.size < newNames.length))
    (h : mergeSamples (first :: rest) newNames sort = .ok (merged, mappings)) :
    merged.Holds newNames (mergedRows sort addKey (first :: rest)) ∧
      List.Forall₂ (fun kb mapping => MapsTo (Extends addKey kb.1) kb.2.values.samples.rows
        (mergedRows sort addKey (first :: rest)) mapping) (first :: rest) mappings := by
  have h' := h
  unfold mergeSamples at h'
  simp only [List.head?_cons, Res.expect_some, Res.ok_bind, ← hadd,
    collectSamples_eq hs] at h'
  rw [show (if sort = true then sortRows (indexSet (allSamples addKey (first :: rest)))
    else indexSet (allSamples addKey (first :: rest))) = mergedRows sort addKey (first :: rest) from rfl,
    Res.bind_eq_ok] at h'
  obtain ⟨l, hl, h'⟩ := h'
  rw [Res.bind_eq_ok] at h'
  obtain ⟨ms, _, h'⟩ := h'
  simp only [Res.pure_eq, Res.ok.injEq, Prod.mk.injEq] at h'
  obtain ⟨rfl, rfl⟩ := h'
  obtain ⟨ms', e1, e2⟩ := mergeSamples_of_build hpos hs hadd hl
  rw [h] at e1
  simp only [Res.ok.injEq, Prod.mk.injEq, true_and] at e1
  subst e1
  exact ⟨(Labels.build_eq_ok hpos).1 hl, e2⟩

/-! ### Gradient samples -/

theorem usize_eq_ok {v : LabelValue} {n : Nat} : LabelValue.usize v = .ok n ↔ v.toInt = n := by
  simp only [LabelValue.usize, Res.bind_eq_ok, Res.assert_eq_ok, decide_eq_true_iff, exists_const,
    Res.pure_eq, Res.ok.injEq]
  constructor
  · rintro ⟨h, rfl⟩; omega
  · intro h; omega

theorem ofUsize_eq_ok {v : LabelValue} {n : Nat} :
    LabelValue.ofUsize n = .ok v ↔ (n < 2147483647 ∧ v = Int32.ofNat n) := by
  simp only [LabelValue.ofUsize, Res.bind_eq_ok, Res.assert_eq_ok, decide_eq_true_iff, exists_const,
    Res.pure_eq, Res.ok.injEq]
  constructor
  · rintro ⟨h, rfl⟩; exact ⟨h, rfl⟩
  · rintro ⟨h, rfl⟩; exact ⟨h, rfl⟩

theorem toInt_ofNat {n : Nat} (h : n < 2147483647) : (Int32.ofNat n).toInt = n :=
  Int32.toInt_ofNat_of_lt (by omega)

/-- The relation between a gradient sample and the merged gradient sample: the
first value is translated. -/
def Translates (mapping : List SampleMapping) (r r' : List LabelValue) : Prop :=
  ∃ v rest old m, r = v :: rest ∧ v.toInt = (old : Nat) ∧ mapping[old]? = some m ∧
    m.output < 2147483647 ∧ r' = Int32.ofNat m.output :: rest

theorem translate_ok {build : Build} {mapping : List SampleMapping} {r r' : List LabelValue}
    (hm : ∀ (i : Nat) m, mapping[i]? = some m → m.input = i) :
    translateGradientSample build mapping r = .ok r' ↔ Translates mapping r r' := by
  simp only [translateGradientSample, Res.bind_eq_ok, Res.expect_eq_ok, usize_eq_ok,
    Build.debugAssert_eq_ok, ofUsize_eq_ok, Res.pure_eq, Res.ok.injEq, Translates]
  constructor
  · rintro ⟨v, h1, old, h2, m, h3, u, h4, v', ⟨h5, rfl⟩, rfl⟩
    cases r with
    | nil => simp at h1
    | cons w rest =>
      simp only [List.getElem?_cons_zero, Option.some.injEq] at h1
      subst h1
      exact ⟨w, rest, old, m, rfl, h2, h3, h5, rfl⟩
  · rintro ⟨v, rest, old, m, rfl, h2, h3, h5, rfl⟩
    exact ⟨v, rfl, old, h2, m, h3, (), by simp [hm old m h3], _, ⟨h5, rfl⟩, rfl⟩

theorem MapsTo.input {T : List LabelValue → List LabelValue → Prop}
    {inRows outRows : List (List LabelValue)} {mapping : List SampleMapping}
    (h : MapsTo T inRows outRows mapping) (i : Nat) (m : SampleMapping)
    (hi : mapping[i]? = some m) : m.input = i := by
  have h1 := (List.getElem?_eq_some_iff.1 hi).1
  obtain ⟨o, r', h2, _⟩ := h.spec i (inRows[i]'(h.length ▸ h1)) (List.getElem?_eq_getElem (h.length ▸ h1))
  rw [hi, Option.some.injEq] at h2
  rw [h2]

theorem ofNat_inj {a b : Nat} (ha : a < 2147483647) (hb : b < 2147483647)
    (h : Int32.ofNat a = Int32.ofNat b) : a = b := by
  have h1 := toInt_ofNat ha
  have h2 := toInt_ofNat hb
  rw [h] at h1
  omega

theorem translates_inj {mapping : List SampleMapping} (hn : (mapping.map (·.output)).Nodup)
    {r s r' : List LabelValue} (h : Translates mapping r r') (h' : Translates mapping s r') : r = s := by
  obtain ⟨v, rest, old, m, rfl, h2, h3, h4, rfl⟩ := h
  obtain ⟨w, rest', old', m', rfl, h2', h3', h4', h5⟩ := h'
  rw [List.cons.injEq] at h5
  have ho := ofNat_inj h4 h4' h5.1
  have : old = old' := by
    apply getElem?_nodup_inj hn (a := m.output)
    · rw [List.getElem?_map, h3]; rfl
    · rw [List.getElem?_map, h3', ho]; rfl
  subst this
  rw [h5.2]
  congr 1
  rw [← Int32.toInt_inj, h2, h2']

/-- The gradients of the blocks, when they all exist. -/
def GradientOf (parameter : String) (kb : List LabelValue × TensorBlock A) (g : BasicBlock A) : Prop :=
  kb.2.gradient parameter = some g

theorem collectGradientSamples_ok {build : Build} {parameter : String}
    {items : List ((List LabelValue × TensorBlock A) × List SampleMapping)}
    {collected : List (List LabelValue)}
    (hw : ∀ it ∈ items, ∀ g, it.1.2.gradient parameter = some g → g.samples.WF)
    (hm : ∀ it ∈ items, ∀ (i : Nat) m, it.2[i]? = some m → m.input = i)
    (h : collectGradientSamples build parameter items = .ok collected) :
    (∀ it ∈ items, ∃ g, it.1.2.gradient parameter = some g ∧
      ∀ r ∈ g.samples.rows, ∃ r' ∈ collected, Translates it.2 r r') ∧
    ∀ r' ∈ collected, ∃ it ∈ items, ∃ g, it.1.2.gradient parameter = some g ∧
      ∃ r ∈ g.samples.rows, Translates it.2 r r' := by
  induction items generalizing collected with
  | nil => simp [collectGradientSamples] at h; subst h; simp
  | cons it items ih =>
    obtain ⟨⟨key, b⟩, mapping⟩ := it
    simp only [collectGradientSamples, Res.bind_eq_ok, Res.expect_eq_ok] at h
    obtain ⟨g, hg, rows, hrows, tr, htr, others, hothers, h⟩ := h
    simp only [Res.pure_eq, Res.ok.injEq] at h
    subst h
    have hwg := hw _ List.mem_cons_self g hg
    rw [Labels.Holds.iter_eq hwg, Res.ok.injEq] at hrows
    subst hrows
    have hm0 := hm _ List.mem_cons_self
    obtain ⟨ih1, ih2⟩ := ih (fun it h => hw it (List.mem_cons_of_mem _ h))
      (fun it h => hm it (List.mem_cons_of_mem _ h)) hothers
    rw [mapM_eq_ok] at htr
    constructor
    · intro it hit
      rcases List.mem_cons.1 hit with rfl | hit
      · refine ⟨g, hg, fun r hr => ?_⟩
        obtain ⟨i, hi, rfl⟩ := List.getElem_of_mem hr
        have hi' : i < tr.length := by rw [← htr.length_eq]; exact hi
        refine ⟨tr[i], List.mem_append_left _ (List.getElem_mem hi'), ?_⟩
        exact (translate_ok hm0).1 ((List.forall₂_iff_get.1 htr).2 i hi hi')
      · obtain ⟨g', h1, h2⟩ := ih1 it hit
        refine ⟨g', h1, fun r hr => ?_⟩
        obtain ⟨r', h3, h4⟩ := h2 r hr
        exact ⟨r', List.mem_append_right _ h3, h4⟩
    · intro r' hr'
      rcases List.mem_append.1 hr' with hr' | hr'
      · obtain ⟨i, hi, rfl⟩ := List.getElem_of_mem hr'
        have hi' : i < g.samples.rows.length := by rw [htr.length_eq]; exact hi
        exact ⟨_, List.mem_cons_self, g, hg, _, List.getElem_mem hi',
          (translate_ok hm0).1 ((List.forall₂_iff_get.1 htr).2 i hi' hi)⟩
      · obtain ⟨it, h1, h2⟩ := ih2 r' hr'
        exact ⟨it, List.mem_cons_of_mem _ h1, h2⟩

theorem mem_btreeSet {l : List (List LabelValue)} {r : List LabelValue} : r ∈ btreeSet l ↔ r ∈ l := by
  unfold btreeSet; rw [(sortRows_perm _).mem_iff, mem_indexSet]

theorem btreeSet_sorted (l : List (List LabelValue)) : (btreeSet l).Pairwise (· < ·) :=
  sortRows_sorted (indexSet_nodup l)

/-- What is known about merged gradient samples. -/
structure MergedGradientSamples (parameter : String)
    (items : List ((List LabelValue × TensorBlock A) × List SampleMapping)) (names : List String)
    (l : Labels) : Prop where
  holds : l.Holds names l.rows
  sorted : l.rows.Pairwise (· < ·)
  every : ∀ it ∈ items, ∃ g, it.1.2.gradient parameter = some g ∧
      ∀ r ∈ g.samples.rows, ∃ r' ∈ l.rows, Translates it.2 r r'
  only : ∀ r' ∈ l.rows, ∃ it ∈ items, ∃ g, it.1.2.gradient parameter = some g ∧
      ∃ r ∈ g.samples.rows, Translates it.2 r r'

theorem mergeGradientSamples_ok {build : Build} {parameter : String}
    {blocks : List (List LabelValue × TensorBlock A)} {mappings : List (List SampleMapping)}
    {l : Labels}
    (hw : ∀ it ∈ blocks.zip mappings, ∀ g, it.1.2.gradient parameter = some g → g.samples.WF)
    (hm : ∀ it ∈ blocks.zip mappings, ∀ (i : Nat) m, it.2[i]? = some m → m.input = i)
    (h : mergeGradientSamples build blocks parameter mappings = .ok l) :
    ∃ it g, (blocks.zip mappings).head? = some it ∧ it.1.2.gradient parameter = some g ∧
      MergedGradientSamples parameter (blocks.zip mappings) g.samples.names l := by
  simp only [mergeGradientSamples, Res.bind_eq_ok, Res.expect_eq_ok] at h
  obtain ⟨collected, h1, first, h2, g, h3, h4⟩ := h
  have hmem : first ∈ blocks.zip mappings := List.mem_of_mem_head? h2
  have hp : 0 < g.samples.names.length := Labels.Holds.names_pos (hw first hmem g h3)
  rw [Labels.build_eq_ok hp] at h4
  obtain ⟨h5, h6⟩ := collectGradientSamples_ok hw hm h1
  refine ⟨first, g, h2, h3, ?_⟩
  have hr := h4.rows_eq
  refine ⟨by rw [hr]; exact h4, by rw [hr]; exact btreeSet_sorted _, ?_, ?_⟩
  · intro it hit
    obtain ⟨g', h7, h8⟩ := h5 it hit
    refine ⟨g', h7, fun r hr' => ?_⟩
    obtain ⟨r', h9, h10⟩ := h8 r hr'
    exact ⟨r', by rw [hr, mem_btreeSet]; exact h9, h10⟩
  · intro r' hr'
    rw [hr, mem_btreeSet] at hr'
    exact h6 r' hr'

theorem gradientMapping_ok {build : Build} {mapping : List SampleMapping} {newSamples : Labels}
    {names : List String} {rows : List (List LabelValue)} (hn : newSamples.Holds names rows)
    {g : BasicBlock A} (hg : g.samples.WF)
    (hm : ∀ (i : Nat) m, mapping[i]? = some m → m.input = i)
    (h : ∀ r ∈ g.samples.rows, ∃ r' ∈ rows, Translates mapping r r') :
    ∃ gm, gradientMapping build mapping newSamples g = .ok gm ∧
      MapsTo (Translates mapping) g.samples.rows rows gm := by
  obtain ⟨gm, e1, e2, e3⟩ := mapping_exists (F := translateGradientSample build mapping)
    (k := 0) (msg := "missing entry in merged samples") hn (inRows := g.samples.rows)
    (by
      intro r hr
      obtain ⟨r', h1, h2⟩ := h r hr
      exact ⟨r', (translate_ok hm).2 h2, h1⟩)
  refine ⟨gm, ?_, e2, ?_⟩
  · unfold gradientMapping
    rw [Labels.Holds.iter_eq hg, Res.ok_bind]
    exact e1
  · intro i r hr
    obtain ⟨o, r', h1, h2, h3⟩ := e3 i r hr
    rw [Nat.zero_add] at h1
    exact ⟨o, r', h1, h2, (translate_ok hm).1 h3⟩

end Equistore
