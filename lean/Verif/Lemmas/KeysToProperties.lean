import Verif.Lemmas.MergedBlock

/-! `keys_to_properties` on one group of blocks. -/

namespace Equistore
open Spec NdArray

section
variable {A : Type} [ArrayLike A]

theorem checkMergeProperties_iff {user : Bool} {first : TensorBlock A}
    {blocks : List (List LabelValue × TensorBlock A)} {u : Unit} :
    checkMergeProperties user first blocks = .ok u ↔
      ∀ kb ∈ blocks, kb.2.values.components = first.values.components ∧
        (user = true → kb.2.values.properties = first.values.properties) := by
  induction blocks with
  | nil => simp [checkMergeProperties]
  | cons kb blocks ih =>
    obtain ⟨key, b⟩ := kb
    rw [List.forall_mem_cons, ← ih]
    simp only [checkMergeProperties, Res.bind_eq_ok, Res.guardErr_eq_ok, beq_iff_eq, exists_const,
      Bool.or_eq_true, Bool.not_eq_true', and_assoc, exists_and_left]
    cases user <;> simp

/-- The entries of the new properties: block after block, or for each of the entries
given by the user. -/
def newPropertyRows (user : Option Labels) (blocks : List (List LabelValue × TensorBlock A))
    (firstProperties : Labels) : List (List LabelValue) :=
  match user with
  | none => blocks.flatMap fun kb => kb.2.values.properties.rows.map (kb.1 ++ ·)
  | some e => e.rows.flatMap fun entry => firstProperties.rows.map (entry ++ ·)

theorem collectProperties_eq {key : List LabelValue → List LabelValue}
    {blocks : List (List LabelValue × TensorBlock A)}
    (hw : ∀ kb ∈ blocks, kb.2.values.properties.WF) :
    collectProperties key blocks =
      .ok (blocks.flatMap fun kb => kb.2.values.properties.rows.map (key kb.1 ++ ·)) := by
  induction blocks with
  | nil => rfl
  | cons kb blocks ih =>
    obtain ⟨k, b⟩ := kb
    simp only [collectProperties]
    rw [Labels.Holds.iter_eq (hw _ List.mem_cons_self), Res.ok_bind,
      ih fun kb h => hw kb (List.mem_cons_of_mem _ h)]
    rfl

theorem collectUserProperties_eq {blocks : List (List LabelValue × TensorBlock A)}
    (hw : ∀ kb ∈ blocks, kb.2.values.properties.WF) {entries : List (List LabelValue)} :
    collectUserProperties blocks entries = .ok (entries.flatMap fun entry =>
      blocks.flatMap fun kb => kb.2.values.properties.rows.map (entry ++ ·)) := by
  induction entries with
  | nil => rfl
  | cons e entries ih =>
    simp only [collectUserProperties, collectProperties_eq hw, Res.ok_bind, ih]
    rfl

theorem indexSet_append {α : Type} [DecidableEq α] (a b : List α) :
    indexSet (a ++ b) = indexSet a ++ indexSet (b.filter fun x => decide (x ∉ a)) := by
  have := List.eraseDups_append (as := a) (bs := b)
  unfold indexSet
  rw [this]
  congr 2
  unfold List.removeAll
  apply List.filter_congr
  intro x _
  simp

theorem indexSet_repeat {α β : Type} [DecidableEq α] {l : List α} (h : l.Nodup) {bs : List β}
    (hb : bs ≠ []) : indexSet (bs.flatMap fun _ => l) = l := by
  cases bs with
  | nil => exact absurd rfl hb
  | cons b bs =>
    rw [List.flatMap_cons, indexSet_append, indexSet_of_nodup h]
    have : (bs.flatMap fun _ => l).filter (fun x => decide (x ∉ l)) = [] := by
      rw [List.filter_eq_nil_iff]
      intro x hx
      simp only [List.mem_flatMap] at hx
      obtain ⟨_, _, hx⟩ := hx
      simpa using hx
    rw [this]
    simp [indexSet]

theorem indexSet_flatMap {α β : Type} [DecidableEq α] {f g : β → List α} {l : List β}
    (hg : ∀ b ∈ l, indexSet (f b) = g b)
    (hd : l.Pairwise fun a b => ∀ x ∈ f a, x ∉ f b) : indexSet (l.flatMap f) = l.flatMap g := by
  induction l with
  | nil => rfl
  | cons a l ih =>
    rw [List.pairwise_cons] at hd
    rw [List.flatMap_cons, List.flatMap_cons, indexSet_append, hg a List.mem_cons_self]
    have : (l.flatMap f).filter (fun x => decide (x ∉ f a)) = l.flatMap f := by
      rw [List.filter_eq_self]
      intro x hx
      simp only [List.mem_flatMap] at hx
      obtain ⟨b, hb, hx⟩ := hx
      rw [decide_eq_true_iff]
      intro hc
      exact hd.1 b hb x hc hx
    rw [this, ih (fun b hb => hg b (List.mem_cons_of_mem _ hb)) hd.2]

theorem map_append_nodup {l : List (List LabelValue)} (h : l.Nodup) (k : List LabelValue) :
    (l.map (k ++ ·)).Nodup :=
  h.map fun _ _ hab => List.append_cancel_left hab

theorem disjoint_prefix {a b : List LabelValue} (hl : a.length = b.length) (hne : a ≠ b)
    {l l' : List (List LabelValue)} : ∀ x ∈ l.map (a ++ ·), x ∉ l'.map (b ++ ·) := by
  intro x hx hx'
  simp only [List.mem_map] at hx hx'
  obtain ⟨p, _, rfl⟩ := hx
  obtain ⟨p', _, h⟩ := hx'
  exact hne (List.append_inj h hl.symm).1.symm

/-- What the user may give: entries with the moved names. -/
def UserOk (w : Nat) (user : Option Labels) : Prop :=
  ∀ e, user = some e → e.WF ∧ e.names.length = w

theorem newPropertyEntries_eq {w : Nat} {user : Option Labels} (hu : UserOk w user)
    {blocks : List (List LabelValue × TensorBlock A)} (hg : GroupOk w blocks) {P : Labels}
    (hne : blocks ≠ [])
    (hp : user.isSome = true → ∀ kb ∈ blocks, kb.2.values.properties = P) :
    newPropertyEntries user blocks P = .ok (newPropertyRows user blocks P) ∧
      (newPropertyRows user blocks P).Nodup := by
  have hw : ∀ kb ∈ blocks, kb.2.values.properties.WF :=
    fun kb hkb => (BasicValid.wf (hg.valid kb hkb).values).properties
  have hd : ∀ kb ∈ blocks, kb.2.values.properties.rows.Nodup := fun kb hkb => Labels.Holds.nodup (hw kb hkb)
  cases user with
  | none =>
    have hdis : blocks.Pairwise fun a b => ∀ x ∈ a.2.values.properties.rows.map (a.1 ++ ·),
        x ∉ b.2.values.properties.rows.map (b.1 ++ ·) := by
      refine List.Pairwise.imp_of_mem ?_ hg.distinct
      intro a b ha hb hne
      exact disjoint_prefix ((hg.width a ha).trans (hg.width b hb).symm) hne
    have hix := indexSet_flatMap (f := fun kb : List LabelValue × TensorBlock A =>
      kb.2.values.properties.rows.map (kb.1 ++ ·)) (g := fun kb =>
      kb.2.values.properties.rows.map (kb.1 ++ ·)) (l := blocks)
      (fun kb hkb => indexSet_of_nodup (map_append_nodup (hd kb hkb) kb.1)) hdis
    refine ⟨?_, ?_⟩
    · unfold newPropertyEntries
      simp only [collectProperties_eq hw, Res.ok_bind, id_eq, Res.pure_eq, Res.ok.injEq]
      exact hix
    · have := indexSet_nodup (blocks.flatMap fun kb : List LabelValue × TensorBlock A =>
        kb.2.values.properties.rows.map (kb.1 ++ ·))
      rw [hix] at this
      exact this
  | some e =>
    obtain ⟨he, hel⟩ := hu e rfl
    have hp := hp rfl
    have hPw : P.WF := by
      obtain ⟨kb, hkb⟩ := List.exists_mem_of_ne_nil _ hne
      rw [← hp kb hkb]; exact hw kb hkb
    have hrl := Labels.Holds.row_length he
    have hsame : ∀ entry : List LabelValue,
        (blocks.flatMap fun kb => kb.2.values.properties.rows.map (entry ++ ·)) =
        blocks.flatMap fun _ => P.rows.map (entry ++ ·) := by
      intro entry
      have : ∀ kb ∈ blocks, kb.2.values.properties.rows.map (entry ++ ·) = P.rows.map (entry ++ ·) :=
        fun kb hkb => by rw [hp kb hkb]
      rw [List.flatMap_def, List.flatMap_def, List.map_congr_left this]
    have hix := indexSet_flatMap (f := fun entry : List LabelValue =>
        blocks.flatMap fun kb => kb.2.values.properties.rows.map (entry ++ ·))
      (g := fun entry => P.rows.map (entry ++ ·)) (l := e.rows)
      (fun entry hentry => by
        rw [hsame]; exact indexSet_repeat (map_append_nodup (Labels.Holds.nodup hPw) entry) hne)
      (by
        refine List.Pairwise.imp_of_mem ?_ (Labels.Holds.nodup he)
        intro a b ha hb hne x hx hx'
        rw [hsame] at hx hx'
        simp only [List.mem_flatMap] at hx hx'
        obtain ⟨_, _, hx⟩ := hx
        obtain ⟨_, _, hx'⟩ := hx'
        exact disjoint_prefix ((hrl a ha).trans (hrl b hb).symm) hne x hx hx')
    refine ⟨?_, ?_⟩
    · unfold newPropertyEntries
      simp only [Labels.Holds.iter_eq he, collectUserProperties_eq hw, Res.ok_bind, hix,
        hPw.count_eq, he.count_eq]
      have hlen : (e.rows.flatMap fun entry => P.rows.map (entry ++ ·)).length =
          P.rows.length * e.rows.length := by
        rw [List.length_flatMap]
        simp [Nat.mul_comm]
      rw [hlen]
      simp [Res.assert, newPropertyRows]
    · have := indexSet_nodup (e.rows.flatMap fun entry : List LabelValue =>
        blocks.flatMap fun kb => kb.2.values.properties.rows.map (entry ++ ·))
      rw [hix] at this
      exact this

/-- A listed key: any, or one of those given by the user. -/
def Listed (user : Option Labels) (key : List LabelValue) : Prop :=
  ∀ e, user = some e → key ∈ e.rows

theorem segment_spec {pre seg post rows : List (List LabelValue)} (h : rows = pre ++ seg ++ post)
    (hn : rows.Nodup) {s : Nat} {x : List LabelValue} (h0 : seg[0]? = some x)
    (hs : rows[s]? = some x) : s + seg.length ≤ rows.length ∧
      ∀ (j : Nat) y, seg[j]? = some y → rows[s + j]? = some y := by
  have hlen : 0 < seg.length := (List.getElem?_eq_some_iff.1 h0).1
  have h1 : rows[pre.length]? = some x := by
    rw [h, List.append_assoc, List.getElem?_append_right (Nat.le_refl _), Nat.sub_self,
      List.getElem?_append_left hlen, h0]
  have := getElem?_nodup_inj hn hs h1
  subst this
  refine ⟨by rw [h]; simp, ?_⟩
  intro j y hy
  have hj : j < seg.length := (List.getElem?_eq_some_iff.1 hy).1
  rw [h, List.append_assoc, List.getElem?_append_right (by omega),
    List.getElem?_append_left (by omega)]
  rw [show pre.length + j - pre.length = j by omega, hy]

theorem newPropertyRows_segment {w : Nat} {user : Option Labels} (hu : UserOk w user)
    {blocks : List (List LabelValue × TensorBlock A)} (hg : GroupOk w blocks) {P : Labels}
    (hp : user.isSome = true → ∀ kb ∈ blocks, kb.2.values.properties = P)
    {kb : List LabelValue × TensorBlock A} (hkb : kb ∈ blocks) :
    (Listed user kb.1 → ∃ pre post, newPropertyRows user blocks P =
      pre ++ kb.2.values.properties.rows.map (kb.1 ++ ·) ++ post) ∧
    (¬ Listed user kb.1 → ∀ p, kb.1 ++ p ∉ newPropertyRows user blocks P) := by
  cases user with
  | none =>
    refine ⟨fun _ => ?_, fun h => absurd (by intro e he; cases he) h⟩
    obtain ⟨l1, l2, rfl⟩ := List.append_of_mem hkb
    refine ⟨l1.flatMap fun kb => kb.2.values.properties.rows.map (kb.1 ++ ·),
      l2.flatMap fun kb => kb.2.values.properties.rows.map (kb.1 ++ ·), ?_⟩
    simp [newPropertyRows]
  | some e =>
    obtain ⟨he, hel⟩ := hu e rfl
    refine ⟨fun h => ?_, fun h p hc => ?_⟩
    · obtain ⟨l1, l2, h1⟩ := List.append_of_mem (h e rfl)
      refine ⟨l1.flatMap fun entry => P.rows.map (entry ++ ·),
        l2.flatMap fun entry => P.rows.map (entry ++ ·), ?_⟩
      simp [newPropertyRows, h1, hp rfl kb hkb]
    · simp only [newPropertyRows, List.mem_flatMap, List.mem_map] at hc
      obtain ⟨entry, h1, p', _, h3⟩ := hc
      have hl : entry.length = kb.1.length := by
        rw [Labels.Holds.row_length he entry h1, hel, hg.width kb hkb]
      apply h
      intro e' he'
      cases he'
      rw [← (List.append_inj h3 hl).1]
      exact h1

/-- The steps of a successful merge along properties. -/
structure PropertiesMerged (build : Build) (hash : HashOrder) (user : Option Labels)
    (extracted : List String) (sort : Bool)
    (first : List LabelValue × TensorBlock A) (blocks : List (List LabelValue × TensorBlock A))
    (mappings : List (List SampleMapping)) (ranges : List (Option (Nat × Nat)))
    (b' : TensorBlock A) : Prop where
  compatible : ∀ kb ∈ blocks, kb.2.values.components = first.2.values.components ∧
        (user.isSome = true → kb.2.values.properties = first.2.values.properties)
  samples : mergeSamples blocks first.2.values.samples.names sort =
    .ok (b'.values.samples, mappings)
  components : b'.values.components = first.2.values.components
  properties : ∃ entries, newPropertyEntries user blocks first.2.values.properties = .ok entries ∧
    Labels.build (extracted ++ first.2.values.properties.names) entries = .ok b'.values.properties
  ranges_eq : (blocks.mapM fun kb => propertyRange b'.values.properties kb.1 kb.2) = .ok ranges
  data : ∃ shape count n zeros, ArrayLike.shape first.2.values.data = .ok shape ∧
    b'.values.samples.count = .ok count ∧ b'.values.properties.count = .ok n ∧
    ArrayLike.create first.2.values.data ((shape.set 0 count).set (shape.length - 1) n) = .ok zeros ∧
    moveAllProperties zeros (((blocks.map fun b => b.2.values.data).zip mappings).zip ranges) =
      .ok b'.values.data
  gradients : ∃ n newBlock, b'.values.properties.count = .ok n ∧
    TensorBlock.new b'.values.data b'.values.samples b'.values.components
      b'.values.properties = .ok newBlock ∧
    mergeGradientsAlongProperties build first.2 blocks mappings ranges n newBlock
      (hash.order first.2.gradients) = .ok b'

theorem mergeBlocksAlongProperties_ok {build : Build} {hash : HashOrder} {user : Option Labels}
    {extracted : List String}
    {sort : Bool} {blocks : List (List LabelValue × TensorBlock A)} {b' : TensorBlock A}
    (h : mergeBlocksAlongProperties build hash user extracted sort blocks = .ok b') :
    ∃ first mappings ranges, blocks.head? = some first ∧
      PropertiesMerged build hash user extracted sort first blocks mappings ranges b' := by
  unfold mergeBlocksAlongProperties at h
  simp only [Res.bind_eq_ok, Res.expect_eq_ok, Res.expectOk_eq_ok, checkMergeProperties_iff] at h
  obtain ⟨first, h1, _, h2, ⟨merged, mappings⟩, h3, entries, h4, props, h5, n, h6, shape, h7, _, h8,
    count, h9, zeros, h10, ranges, h11, data, h12, nb, h13, h14⟩ := h
  simp only at h9 h12 h13 h14
  obtain ⟨hv, _⟩ := mergeGradientsAlongProperties_ok h14
  obtain ⟨_, _, hn⟩ := TensorBlock.new_eq_ok.1 h13
  have e : b'.values = ⟨data, merged, first.2.values.components, props⟩ := by
    rw [hv, hn]
  refine ⟨first, mappings, ranges, h1, ?_⟩
  refine ⟨h2, by rw [e]; exact h3, by rw [e], ⟨entries, h4, by rw [e]; exact h5⟩, by rw [e]; exact h11,
    ⟨shape, count, n, zeros, h7, ?_, ?_, h10, ?_⟩, ⟨n, nb, ?_, ?_, h14⟩⟩
  · rw [e]; exact h9
  · rw [e]; exact h6
  · rw [e]; exact h12
  · rw [e]; exact h6
  · rw [e]; exact h13

theorem mergeBlocksAlongProperties_merged {build : Build} {hash : HashOrder} {user : Option Labels}
    {extracted : List String}
    {sort : Bool} {blocks : List (List LabelValue × TensorBlock A)} {b' : TensorBlock A} {w : Nat}
    (hg : GroupOk w blocks) (hu : UserOk w user)
    (h : mergeBlocksAlongProperties build hash user extracted sort blocks = .ok b') :
    ∃ first mappings ranges,
      MergedBlock build hash sort false first.2.values.samples.names first blocks
        mappings ranges b' ∧
      PropertiesMerged build hash user extracted sort first blocks mappings ranges b' ∧
      b'.values.properties.Holds (extracted ++ first.2.values.properties.names)
        (newPropertyRows user blocks first.2.values.properties) := by
  obtain ⟨first, mappings, ranges, hf, hs⟩ := mergeBlocksAlongProperties_ok h
  have hfm : first ∈ blocks := List.mem_of_mem_head? hf
  have hfv := hg.valid first hfm
  have hfw := BasicValid.wf hfv.values
  obtain ⟨rest, hrest⟩ : ∃ rest, blocks = first :: rest := by
    cases blocks with
    | nil => simp at hf
    | cons a l => simp only [List.head?_cons, Option.some.injEq] at hf; exact ⟨l, by rw [hf]⟩
  have hadd : false = decide (first.2.values.samples.size < first.2.values.samples.names.length) := by
    rw [Labels.Holds.size_eq hfw.samples]
    simp
  have hsamp := hs.samples
  have hmm : b'.values.samples.Holds first.2.values.samples.names
      (mergedRows sort false blocks) ∧
      List.Forall₂ (fun kb mapping => MapsTo (Extends false kb.1) kb.2.values.samples.rows
        (mergedRows sort false blocks) mapping) blocks mappings := by
    subst hrest
    exact mergeSamples_ok (Labels.Holds.names_pos hfw.samples)
      (fun kb hkb => (BasicValid.wf (hg.valid kb hkb).values).samples) hadd hsamp
  obtain ⟨entries, hen, hpr⟩ := hs.properties
  have hne : blocks ≠ [] := by rw [hrest]; simp
  obtain ⟨hen', hnd⟩ := newPropertyEntries_eq hu hg hne (fun hu kb hkb => (hs.compatible kb hkb).2 hu)
  rw [hen', Res.ok.injEq] at hen
  subst hen
  have hph := (Labels.build_eq_ok (by
    have := Labels.Holds.names_pos hfw.properties
    rw [List.length_append]; omega)).1 hpr
  obtain ⟨n, nb, hn, hnb, hgr⟩ := hs.gradients
  have hnbv : BlockValid nb := by
    refine BlockValid.new ?_ hnb
    intro l hl
    simp only [List.cons_append, List.mem_cons, List.mem_append, List.not_mem_nil, or_false] at hl
    rcases hl with rfl | hl | rfl
    · exact hmm.1.wf.fromBuilder
    · rw [hs.components] at hl; exact (hfw.components _ hl).fromBuilder
    · exact hph.wf.fromBuilder
  have hgv : ∀ pg ∈ hash.order first.2.gradients, GradientValid first.2.values pg.2 := by
    intro pg hpg
    exact hfv.gradients pg.1 pg.2 ((hash.perm _).mem_iff.1 hpg)
  rw [hph.wf.count_eq, Res.ok.injEq] at hn
  subst hn
  obtain ⟨e1, gs', e2, e3, e4⟩ := mergeGradientsAlongProperties_ok hgr
  have hnbe := (TensorBlock.new_eq_ok.1 hnb).2.2
  have hng : nb.gradients = [] := by rw [hnbe]
  rw [hng, List.nil_append] at e2
  refine ⟨first, mappings, ranges, ⟨hf, ?_, hmm.1, ?_, hs.components,
    fun kb hkb => (hs.compatible kb hkb).1, ?_⟩, hs, hph⟩
  · refine mergeGradientsAlongProperties_valid hnbv ?_ hgr
    intro pg hpg c hc
    exact ((hgv pg hpg).wf.components c hc).fromBuilder
  · rw [hmm.1.rows_eq]; exact hmm.2
  · rw [e2, e1]
    rw [e1] at e4
    exact e4

end

variable {build : Build} {hash : HashOrder} {extracted : List String} {user : Option Labels}
    {sort : Bool} {blocks : List (List LabelValue × TensorBlock NdArray)} {b' : TensorBlock NdArray}
    {w : Nat}

theorem propertyRange_spec {A : Type} [ArrayLike A] {blocks : List (List LabelValue × TensorBlock A)}
    (hg : GroupOk w blocks) (hu : UserOk w user) {P P' : Labels}
    {names : List String}
    (hph : P'.Holds names (newPropertyRows user blocks P))
    (hp : user.isSome = true → ∀ kb ∈ blocks, kb.2.values.properties = P)
    {ranges : List (Option (Nat × Nat))}
    (h : (blocks.mapM fun kb => propertyRange P' kb.1 kb.2) = .ok ranges) :
    RangesOk (fun key p => key ++ p) (Listed user) P' blocks ranges := by
  rw [mapM_eq_ok] at h
  have key : List.Forall₂ (fun (kb : List LabelValue × TensorBlock A)
      (range : Option (Nat × Nat)) => (∀ s e, range = some (s, e) →
        e = s + kb.2.values.properties.rows.length ∧ e ≤ P'.rows.length ∧
        ∀ (j : Nat) p, kb.2.values.properties.rows[j]? = some p →
          P'.rows[s + j]? = some (kb.1 ++ p)) ∧ (range ≠ none ↔ Listed user kb.1)) blocks ranges := by
    rw [List.forall₂_iff_get] at h ⊢
    refine ⟨h.1, fun i h1 h2 => ?_⟩
    have := h.2 i h1 h2
    have hkb : blocks.get ⟨i, h1⟩ ∈ blocks := List.get_mem _ _
    revert this hkb
    generalize blocks.get ⟨i, h1⟩ = kb
    generalize ranges.get ⟨i, h2⟩ = range
    intro this hkb
    have hw := (BasicValid.wf (hg.valid kb hkb).values).properties
    unfold propertyRange at this
    simp only [hw.count_eq, Res.ok_bind, Res.bind_eq_ok, Res.pure_eq, Res.ok.injEq] at this
    obtain ⟨p0, h3, start, h4, rfl⟩ := this
    have hlt : 0 < kb.2.values.properties.rows.length := by
      by_contra hc; rw [Labels.Holds.index_panic hw hc] at h3; cases h3
    rw [Labels.Holds.index_eq hw hlt, Res.ok.injEq] at h3
    have h0 : kb.2.values.properties.rows[0]? = some p0 := by
      rw [List.getElem?_eq_getElem hlt, h3]
    obtain ⟨g1, g2⟩ := newPropertyRows_segment hu hg hp hkb
    have hrows := hph.rows_eq
    have hlk : ∀ s, start = some s ↔ P'.rows[s]? = some (kb.1 ++ p0) := by
      intro s
      rw [hrows, ← hph.position_eq_some, h4, Res.ok.injEq]
    by_cases hl : Listed user kb.1
    · obtain ⟨pre, post, hseg⟩ := g1 hl
      have hs0 : (kb.2.values.properties.rows.map (kb.1 ++ ·))[0]? = some (kb.1 ++ p0) := by
        rw [List.getElem?_map, h0]; rfl
      refine ⟨?_, ?_⟩
      · intro s e hse
        cases start with
        | none => simp at hse
        | some s' =>
          simp only [Option.map_some, Option.some.injEq, Prod.mk.injEq] at hse
          obtain ⟨rfl, rfl⟩ := hse
          have h5 := (hlk s').1 rfl
          rw [hrows] at h5
          obtain ⟨h6, h7⟩ := segment_spec hseg hph.nodup hs0 h5
          rw [List.length_map] at h6
          refine ⟨rfl, by rw [hrows]; exact h6, ?_⟩
          intro j p hj
          rw [hrows]
          apply h7
          rw [List.getElem?_map, hj]; rfl
      · simp only [ne_eq, Option.map_eq_none_iff, hl, iff_true]
        intro hc
        have hmem : kb.1 ++ p0 ∈ P'.rows := by
          rw [hrows, hseg, List.mem_append, List.mem_append]
          exact Or.inl (Or.inr (List.mem_of_getElem? hs0))
        obtain ⟨s, hs', hs''⟩ := List.getElem_of_mem hmem
        have := (hlk s).2 (by rw [List.getElem?_eq_getElem hs', hs''])
        rw [hc] at this
        cases this
    · have hn : start = none := by
        cases start with
        | none => rfl
        | some s =>
          have h5 := (hlk s).1 rfl
          rw [hrows] at h5
          exact absurd (List.mem_of_getElem? h5) (g2 hl p0)
      subst hn
      simp [hl]
  exact ⟨key.imp fun _ _ h => h.1, key.imp fun _ _ h => h.2⟩

theorem prefix_apart (w : Nat) : ∀ a b : List LabelValue, a.length = w → b.length = w → a ≠ b →
      ∀ p p' : List LabelValue, a ++ p ≠ b ++ p' := fun _ _ ha hb hne _ _ h =>
  hne (List.append_inj h (ha.trans hb.symm)).1

/-- Values of a merge along properties. -/
theorem mergeBlocksAlongProperties_values (hg : GroupOk w blocks) (hu : UserOk w user)
    (h : mergeBlocksAlongProperties build hash user extracted sort blocks = .ok b') :
    ArrayOk b'.values.data ∧
    ∀ s cs p' x, HasValue b'.values s cs p' x ↔
      ((∃ kb ∈ blocks, Listed user kb.1 ∧ ∃ p, p' = kb.1 ++ p ∧ HasValue kb.2.values s cs p x) ∨
      (x = 0 ∧ s ∈ b'.values.samples.rows ∧ HasEntries b'.values.components cs ∧
        p' ∈ b'.values.properties.rows ∧ ∀ kb ∈ blocks, Listed user kb.1 →
          s ∈ kb.2.values.samples.rows → ∀ p ∈ kb.2.values.properties.rows, p' ≠ kb.1 ++ p)) := by
  obtain ⟨first, mappings, ranges, hm, hs, hph⟩ := mergeBlocksAlongProperties_merged hg hu h
  obtain ⟨shape, count, n, zeros, h1, h2, hn, h3, h4⟩ := hs.data
  have hbw := BasicValid.wf hm.valid.values
  rw [hbw.samples.count_eq, Res.ok.injEq] at h2
  rw [hbw.properties.count_eq, Res.ok.injEq] at hn
  subst h2
  subst hn
  have hr := propertyRange_spec hg hu hph (fun hu kb hkb => (hs.compatible kb hkb).2 hu) hs.ranges_eq
  obtain ⟨e1, e2⟩ := hm.values hg hr (Or.inr (prefix_apart w)) h1 h3 h4
  refine ⟨e1, fun s cs p' x => ?_⟩
  rw [e2 s cs p' x]
  simp only [extendSample, Bool.false_eq_true, if_false]
  constructor
  · rintro (⟨kb, hkb, hl, s, p, rfl, rfl, h5⟩ | ⟨h5, h6, h7, h8, h9⟩)
    · exact Or.inl ⟨kb, hkb, hl, p, rfl, h5⟩
    · exact Or.inr ⟨h5, h6, h7, h8, fun kb hkb hl hs' p hp hc =>
        h9 kb hkb hl s hs' p hp rfl hc.symm⟩
  · rintro (⟨kb, hkb, hl, p, rfl, h5⟩ | ⟨h5, h6, h7, h8, h9⟩)
    · exact Or.inl ⟨kb, hkb, hl, s, p, rfl, rfl, h5⟩
    · refine Or.inr ⟨h5, h6, h7, h8, fun kb hkb hl s' hs' p hp hc hc' => ?_⟩
      subst hc
      exact h9 kb hkb hl hs' p hp hc'.symm

/-- Gradients of a merge along properties, when components have the same sizes. -/
theorem mergeBlocksAlongProperties_positions (hg : GroupOk w blocks) (hu : UserOk w user)
    (h : mergeBlocksAlongProperties build hash user extracted sort blocks = .ok b') {q : String}
    {g' : BasicBlock NdArray} (hq : b'.gradient q = some g')
    (hcomp : build.debug = true ∨ ∀ a ∈ blocks, ∀ c ∈ blocks, ∀ g g₂, a.2.gradient q = some g →
      c.2.gradient q = some g₂ →
        (g.components.map fun c => c.rows.length) = g₂.components.map fun c => c.rows.length) :
    ArrayOk g'.data ∧
    ∀ r' cs p' x, HasValue g' r' cs p' x ↔
      ((∃ kb ∈ blocks, Listed user kb.1 ∧ ∃ g, kb.2.gradient q = some g ∧ ∃ r p,
        SampleRenumbered kb.2.values.samples b'.values.samples id r r' ∧ p' = kb.1 ++ p ∧
        HasValue (withComponents g'.components g) r cs p x) ∨
      (x = 0 ∧ r' ∈ g'.samples.rows ∧ HasEntries g'.components cs ∧
        p' ∈ b'.values.properties.rows ∧ ∀ kb ∈ blocks, Listed user kb.1 →
          ∀ g, kb.2.gradient q = some g → ∀ r ∈ g.samples.rows, ∀ p ∈ g.properties.rows,
            SampleRenumbered kb.2.values.samples b'.values.samples id r r' → p' ≠ kb.1 ++ p)) := by
  obtain ⟨first, mappings, ranges, hm, hs, hph⟩ := mergeBlocksAlongProperties_merged hg hu h
  have hr := propertyRange_spec hg hu hph (fun hu kb hkb => (hs.compatible kb hkb).2 hu) hs.ranges_eq
  obtain ⟨e1, e2⟩ := hm.gradient_values hg hr (Or.inr (prefix_apart w)) hq hcomp
  refine ⟨e1, fun r' cs p x => ?_⟩
  rw [e2 r' cs p x]
  have hext : ∀ key : List LabelValue, extendSample false key = id := fun key => by
    funext s; simp [extendSample]
  simp only [hext, eq_comm, ne_eq]

/-- The components of the gradients of a merge along properties. -/
theorem mergeBlocksAlongProperties_gradient_components (hg : GroupOk w blocks) (hu : UserOk w user)
    (h : mergeBlocksAlongProperties build hash user extracted sort blocks = .ok b') {q : String}
    {g' : BasicBlock NdArray} (hq : b'.gradient q = some g') :
    (∃ first ∈ blocks.head?, ∃ g, first.2.gradient q = some g ∧ g'.components = g.components) ∧
    (build.debug = true → ∀ kb ∈ blocks, Listed user kb.1 → ∀ g, kb.2.gradient q = some g →
      g.components = g'.components) := by
  obtain ⟨first, mappings, ranges, hm, hs, hph⟩ := mergeBlocksAlongProperties_merged hg hu h
  have hr := propertyRange_spec hg hu hph (fun hu kb hkb => (hs.compatible kb hkb).2 hu) hs.ranges_eq
  obtain ⟨fg, h1, h2⟩ := hm.gradient_some hg hq
  exact ⟨⟨first, hm.head, fg, h1, h2.components⟩, hm.gradient_debug hg hr hq⟩

/-- Gradients of a merge along properties. -/
theorem mergeBlocksAlongProperties_gradients (hg : GroupOk w blocks) (hu : UserOk w user)
    (h : mergeBlocksAlongProperties build hash user extracted sort blocks = .ok b') {q : String}
    {g' : BasicBlock NdArray} (hq : b'.gradient q = some g')
    (hcomp : build.debug = true ∨ ∀ a ∈ blocks, ∀ c ∈ blocks, ∀ g g₂, a.2.gradient q = some g →
      c.2.gradient q = some g₂ → g.components = g₂.components) :
    ArrayOk g'.data ∧
    ∀ r' cs p' x, HasValue g' r' cs p' x ↔
      ((∃ kb ∈ blocks, Listed user kb.1 ∧ ∃ g, kb.2.gradient q = some g ∧ ∃ r p,
        SampleRenumbered kb.2.values.samples b'.values.samples id r r' ∧ p' = kb.1 ++ p ∧
        HasValue g r cs p x) ∨
      (x = 0 ∧ r' ∈ g'.samples.rows ∧ HasEntries g'.components cs ∧
        p' ∈ b'.values.properties.rows ∧ ∀ kb ∈ blocks, Listed user kb.1 →
          ∀ g, kb.2.gradient q = some g → ∀ r ∈ g.samples.rows, ∀ p ∈ g.properties.rows,
            SampleRenumbered kb.2.values.samples b'.values.samples id r r' → p' ≠ kb.1 ++ p)) := by
  obtain ⟨⟨first, hf, fg, h1, h2⟩, h3⟩ := mergeBlocksAlongProperties_gradient_components hg hu h hq
  obtain ⟨e1, e2⟩ := mergeBlocksAlongProperties_positions hg hu h hq
    (hcomp.imp_right fun hc a ha c hc' g g₂ h4 h5 => by rw [hc a ha c hc' g g₂ h4 h5])
  refine ⟨e1, fun r' cs p x => (e2 r' cs p x).trans (or_congr ?_ Iff.rfl)⟩
  have hsame : ∀ kb ∈ blocks, Listed user kb.1 → ∀ g, kb.2.gradient q = some g →
      withComponents g'.components g = g := by
    intro kb hkb hl g h4
    rcases hcomp with hd | hc
    · rw [← h3 hd kb hkb hl g h4]; rfl
    · rw [h2, ← hc kb hkb first (List.mem_of_mem_head? hf) g fg h4 h1]; rfl
  constructor
  · rintro ⟨kb, hkb, hl, g, h4, r, p, h5, h6, h7⟩
    rw [hsame kb hkb hl g h4] at h7
    exact ⟨kb, hkb, hl, g, h4, r, p, h5, h6, h7⟩
  · rintro ⟨kb, hkb, hl, g, h4, r, p, h5, h6, h7⟩
    refine ⟨kb, hkb, hl, g, h4, r, p, h5, h6, ?_⟩
    rw [hsame kb hkb hl g h4]; exact h7

end Equistore
