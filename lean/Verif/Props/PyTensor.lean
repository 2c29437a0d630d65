import Verif.Spec.PyTensor
import Verif.Props.PyBlock
import Verif.Props.PySelection
import Verif.Props.KeysToSamples
import Verif.Props.KeysToProperties
import Verif.Props.Components

/-!
# Tensor maps in Python (C85, C86)
-/

namespace Equistore
open Spec

section
variable {A : Type} [ArrayLike A]

/-! ### C85 -/

/-- **C85.** `TensorMap(keys, blocks)` succeeds exactly when the library accepts the keys, there is one block for each entry of
the keys, and the blocks are consistent with each other. Then `keys` in Python has the names and entries given, `len` is the number of
blocks, `block(i)` is the block which was at position `i` of the list, and iterating gives the entries of the keys with these
blocks. What is missing from the full statement: keys which are not seen by the library as in Python (C60). -/
theorem C85_created_partial (hash : HashOrder) (keys : PyLabels) (hk : PlainLabels keys) (blocks : List (TensorBlock A))
    (hb : ∀ b ∈ blocks, BlockValid b) (hs : blocks.length ≤ 18446744073709551616) :
    ∃ r, pyNewTensor hash keys blocks = some r ∧
      ((∃ t, r = .ok t) ↔ Acceptable keys ∧ keys.count = blocks.length ∧ ∀ a ∈ blocks, ∀ b ∈ blocks, Consistent a b) ∧
      ∀ t, r = .ok t → TensorValid t ∧ t.blocks = blocks ∧ (∃ v, pyKeys t = .ok v ∧ LabelsAgree v keys) ∧
        pyLen t = .ok blocks.length ∧ (∀ i < blocks.length, pyBlockById t i = .ok i) ∧
        ∃ entries, keys.entries = some entries ∧
          pyIter t = .ok ((entries.zip (List.range blocks.length)).map fun item => (keys.names.zip item.1, item.2)) := by
  have hnodup : ∀ b ∈ blocks, (b.gradients.map Prod.fst).Nodup := fun b h => (hb b h).names
  have hr : pyNewTensor hash keys blocks = some (pyCheck do
      let keys ← Labels.ofC keys.toC
      TensorMap.new hash keys blocks) := by rw [pyNewTensor, if_pos hk.readable]
  refine ⟨_, hr, ?_, ?_⟩
  · constructor
    · rintro ⟨t, h⟩
      cases hl : Labels.ofC keys.toC with
      | err e => rw [hl] at h; cases h
      | panic m => rw [hl] at h; cases h
      | ok l =>
        rw [hl, Res.ok_bind] at h
        have hc := hk.converted hl
        cases hn : TensorMap.new hash l blocks with
        | err e => rw [hn] at h; cases h
        | panic m => rw [hn] at h; cases h
        | ok t' =>
          obtain ⟨h1, h2⟩ := (C12_tensor_created_iff hash l blocks hnodup).1 ⟨t', hn⟩
          rw [hc.count, Res.ok.injEq] at h1
          exact ⟨hk.acceptable_iff.1 ⟨l, hl⟩, h1, h2⟩
    · rintro ⟨h1, h2, h3⟩
      obtain ⟨l, hl⟩ := hk.acceptable_iff.2 h1
      have hc := hk.converted hl
      obtain ⟨t, ht⟩ := (C12_tensor_created_iff hash l blocks hnodup).2 ⟨by rw [hc.count, h2], h3⟩
      exact ⟨t, by rw [hl, Res.ok_bind, ht]; rfl⟩
  · intro t h
    cases hl : Labels.ofC keys.toC with
    | err e => rw [hl] at h; cases h
    | panic m => rw [hl] at h; cases h
    | ok l =>
      rw [hl, Res.ok_bind] at h
      have hc := hk.converted hl
      cases hn : TensorMap.new hash l blocks with
      | err e => rw [hn] at h; cases h
      | panic m => rw [hn] at h; cases h
      | ok t' =>
        rw [hn] at h
        cases h
        obtain ⟨h1, h2, h3⟩ := C12_tensor_content hash l blocks t hn
        have hv := h3 hc.made hb
        obtain ⟨entries, h4, h5⟩ := hc.entries
        have hne := keys_names_ne hv
        obtain ⟨c, v, h6, h7, h8⟩ := showsLabels_ofC hv.keys hne
        have hkeys : pyKeys t = .ok v := by unfold pyKeys; rw [h6]; exact h7
        rw [h1] at h8
        have hlen := C63_iteration t hv (by rw [h2]; exact hs)
        rw [h2] at hlen
        have hid : ∀ i < blocks.length, pyBlockById t i = .ok i := by
          intro i hi
          unfold pyBlockById
          have : ((i : Int) % 18446744073709551616).toNat = i := by omega
          simp only [this]
          rw [if_pos (by rw [h2]; exact hi)]
        refine ⟨hv, h2, ⟨v, hkeys, hc.same h8⟩, hlen.1, hid, entries, h4, ?_⟩
        have hvn : v.names = keys.names := (hc.same h8).1
        have hve : v.entries = some entries := by rw [(hc.same h8).2.2, h4]
        have hel : entries.length = blocks.length := by
          have e1 := hv.count
          have hw := hv.keys.wf hne
          rw [hw.count_eq, Res.ok.injEq, h2] at e1
          have e2 := hw.iter_eq
          rw [h1, h5, Res.ok.injEq] at e2
          rw [e2, ← h1, e1]
        unfold pyIter
        rw [hkeys]
        show (match v.entries with
          | none => .error .exception
          | some entries => entries.zipIdx.mapM fun (key, i) => do
            let block ← pyBlockById t i
            return (v.names.zip key, block) : Except PyExc _) = _
        rw [hve, hvn]
        have key : ∀ (l : List (List LabelValue)) (n : Nat), n + l.length = blocks.length →
            (l.zipIdx n).mapM (fun (x : List LabelValue × Nat) => (do
              let block ← pyBlockById t x.2
              return (keys.names.zip x.1, block) : Except PyExc _)) =
            .ok ((l.zip (List.range' n l.length)).map fun item => (keys.names.zip item.1, item.2)) := by
          intro l
          induction l with
          | nil => intro n _; rfl
          | cons a l ih =>
            intro n hn
            simp only [List.length_cons] at hn
            rw [List.zipIdx_cons, List.mapM_cons, hid n (by omega), ih (n + 1) (by omega)]
            rfl
        have := key entries 0 (by omega)
        rw [hel, ← List.range_eq_range'] at this
        exact this

/-! ### C86 -/

theorem blockHasNames_iff {b : TensorBlock A} (hb : BlockValid b) {s : List String} {cs : List (List String)} {p : List String} :
    BlockHasNames b s cs p ↔
      b.values.samples.names = s ∧ b.values.components.map (·.names) = cs ∧ b.values.properties.names = p := by
  obtain ⟨⟨v, h1, h2⟩, ⟨vs, h3, h4⟩, ⟨w, h5, h6⟩, -⟩ := C84_shown b hb "values" (by decide) _ (.inl ⟨rfl, rfl⟩)
  have hvs : vs.map (·.names) = b.values.components.map (·.names) := by
    have : ∀ {vs ls}, List.Forall₂ ShowsLabels vs ls → vs.map (·.names) = ls.map (·.names) := by
      intro vs ls h
      induction h with
      | nil => rfl
      | cons h _ ih => rw [List.map_cons, List.map_cons, h.1, ih]
    exact this h4
  unfold BlockHasNames
  constructor
  · rintro ⟨⟨v', h7, h8⟩, ⟨vs', h9, h10⟩, ⟨w', h11, h12⟩⟩
    rw [h1] at h7; rw [h3] at h9; rw [h5] at h11
    cases h7; cases h9; cases h11
    exact ⟨h2.1 ▸ h8, hvs ▸ h10, h6.1 ▸ h12⟩
  · rintro ⟨h7, h8, h9⟩
    exact ⟨⟨v, h1, h2.1.trans h7⟩, ⟨vs, h3, hvs.trans h8⟩, ⟨w, h5, h6.1.trans h9⟩⟩

theorem hasNames_iff {t : TensorMap A} (ht : TensorValid t) {b : TensorBlock A} {bs : List (TensorBlock A)}
    (h : t.blocks = b :: bs) {s : List String} {cs : List (List String)} {p : List String} :
    HasNames t s cs p ↔ BlockHasNames b s cs p := by
  have hf : pyFirstBlock t = .ok b := by
    unfold pyFirstBlock pyBlockById
    rw [h]
    rfl
  have hb := ht.blocks b (by rw [h]; simp)
  obtain ⟨⟨v, h1, h2⟩, ⟨vs, h3, h4⟩, ⟨w, h5, h6⟩, -⟩ := C84_shown b hb "values" (by decide) _ (.inl ⟨rfl, rfl⟩)
  unfold HasNames BlockHasNames pySampleNames pyComponentsNames pyPropertyNames
  rw [hf]
  show ((do let samples ← pySamples b "values"; return samples.names : Except PyExc _) = _ ∧
    (do let components ← pyComponents b "values"; return components.map (·.names) : Except PyExc _) = _ ∧
    (do let properties ← pyProperties b "values"; return properties.names : Except PyExc _) = _) ↔ _
  rw [h1, h3, h5]
  show (Except.ok v.names = _ ∧ Except.ok (vs.map _) = _ ∧ Except.ok w.names = _) ↔ _
  simp

/-- **C86.** If a tensor map has blocks, `sample_names`, `components_names` and `property_names` are the names of the samples,
components and properties of each of its blocks. -/
theorem C86_every_block (t : TensorMap A) (ht : TensorValid t) (hne : t.blocks ≠ []) :
    ∃ s cs p, HasNames t s cs p ∧ ∀ b ∈ t.blocks, BlockHasNames b s cs p := by
  obtain ⟨b, bs, h⟩ := List.exists_cons_of_ne_nil hne
  refine ⟨_, _, _, (hasNames_iff ht h).2 ((blockHasNames_iff (ht.blocks b (by rw [h]; simp))).2 ⟨rfl, rfl, rfl⟩), ?_⟩
  intro b' hb'
  have hc := ht.consistent b' hb' b (by rw [h]; simp)
  exact (blockHasNames_iff (ht.blocks b' hb')).2 ⟨hc.values.1, hc.values.2, hc.properties⟩

/-- **C86.** Without blocks, all three raise an `EquistoreError`. -/
theorem C86_no_blocks (t : TensorMap A) (hne : t.blocks = []) :
    pySampleNames t = .error .equistoreError ∧ pyComponentsNames t = .error .equistoreError ∧
      pyPropertyNames t = .error .equistoreError := by
  have hf : pyFirstBlock t = .error .equistoreError := by
    unfold pyFirstBlock pyBlockById
    rw [hne]
    rfl
  unfold pySampleNames pyComponentsNames pyPropertyNames
  rw [hf]
  exact ⟨rfl, rfl, rfl⟩

theorem hasNames_of {t : TensorMap A} (ht : TensorValid t) (hne : t.blocks ≠ []) {s : List String} {cs : List (List String)}
    {p : List String} (h : ∀ b ∈ t.blocks,
      b.values.samples.names = s ∧ b.values.components.map (·.names) = cs ∧ b.values.properties.names = p) :
    HasNames t s cs p := by
  obtain ⟨b, bs, hb⟩ := List.exists_cons_of_ne_nil hne
  have hm : b ∈ t.blocks := by rw [hb]; simp
  exact (hasNames_iff ht hb).2 ((blockHasNames_iff (ht.blocks b hm)).2 (h b hm))

theorem names_of {t : TensorMap A} (ht : TensorValid t) {s : List String} {cs : List (List String)}
    {p : List String} (h : HasNames t s cs p) : t.blocks ≠ [] ∧ ∀ b ∈ t.blocks,
      b.values.samples.names = s ∧ b.values.components.map (·.names) = cs ∧ b.values.properties.names = p := by
  have hne : t.blocks ≠ [] := by
    intro hn
    have := (C86_no_blocks t hn).1
    rw [h.1] at this
    cases this
  obtain ⟨s', cs', p', h1, h2⟩ := C86_every_block t ht hne
  obtain ⟨e1, e2, e3⟩ := h
  obtain ⟨e4, e5, e6⟩ := h1
  rw [e1] at e4; rw [e2] at e5; rw [e3] at e6
  cases e4; cases e5; cases e6
  exact ⟨hne, fun b hb => (blockHasNames_iff (ht.blocks b hb)).1 (h2 b hb)⟩

theorem KeysMoved.blocks_ne {moved : List String} {t t' : TensorMap A}
    {merge : List (List LabelValue × TensorBlock A) → Res (TensorBlock A)} (h : KeysMoved moved t t' merge)
    (ht : TensorValid t) (hne : t.blocks ≠ []) : t'.blocks ≠ [] := by
  intro hn
  have h1 := h.blocks.length_eq
  rw [hn, List.length_nil, List.length_eq_zero_iff] at h1
  have h2 := h.keys.rows_eq
  rw [h1] at h2
  split at h2
  · cases h2
  · obtain ⟨r, rs, hr⟩ := List.exists_cons_of_ne_nil (l := t.keys.rows) (by
      intro hr
      have := ht.length_eq
      rw [hr, List.length_nil] at this
      exact hne (List.length_eq_zero_iff.1 this.symm))
    have : remainingKey t.keys.names moved r ∈ indexSet (t.keys.rows.map (remainingKey t.keys.names moved)) :=
      mem_indexSet.2 (List.mem_map_of_mem (by rw [hr]; simp))
    rw [← h2] at this
    cases this

variable {build : Build} {hash : HashOrder}

/-- **C86.** After `keys_to_samples`, `sample_names` has the moved names at the end, and the other names are the same. -/
theorem C86_keys_to_samples (keysToMove : Labels) (hm : keysToMove.FromBuilder) (sort : Bool) (t t' : TensorMap A)
    (ht : TensorValid t) (h : t.keysToSamples build hash keysToMove sort = (t', .ok ())) (s : List String)
    (cs : List (List String)) (p : List String) (hn : HasNames t s cs p) :
    HasNames t' (s ++ keysToMove.names) cs p := by
  have hv := keysToSamples_valid ht hm h
  obtain ⟨hne, hall⟩ := names_of ht hn
  obtain ⟨hw, hr, hk⟩ := (keysToSamples_ok_iff ht hm).1 h
  have hgo := fun key' => group_ok ht (Labels.Holds.names_ok hw).2 hk.names key'
  have hpos : 0 < keysToMove.names.length := Labels.Holds.names_pos hw
  refine hasNames_of hv ?_ ?_
  · exact hk.blocks_ne ht hne
  · intro b hb
    obtain ⟨key', hkb⟩ := hk.block_key hb
    obtain ⟨f, _, _, hM, hS, _⟩ := mergeBlocksAlongSamples_merged (hgo key') rfl hpos (hk.merged hkb)
    obtain ⟨h1, h2, h3⟩ := hall _ (hk.first_in hM.first_mem)
    rw [hM.samples.names_eq, hM.components, hS.properties]
    exact ⟨by rw [h1], h2, h3⟩

/-- **C86.** After `keys_to_properties`, `property_names` has the moved names at the start, and the other names are the same. -/
theorem C86_keys_to_properties (keysToMove : Labels) (hm : keysToMove.FromBuilder) (sort : Bool) (t t' : TensorMap A)
    (ht : TensorValid t) (h : t.keysToProperties build hash keysToMove sort = (t', .ok ())) (s : List String)
    (cs : List (List String)) (p : List String) (hn : HasNames t s cs p) :
    HasNames t' s cs (keysToMove.names ++ p) := by
  have hv := keysToProperties_valid ht hm h
  obtain ⟨hne, hall⟩ := names_of ht hn
  obtain ⟨hw, hk⟩ := (keysToProperties_ok_iff ht hm).1 h
  have hgo := fun key' => group_ok ht (Labels.Holds.names_ok hw).2 hk.names key'
  refine hasNames_of hv ?_ ?_
  · exact hk.blocks_ne ht hne
  · intro b hb
    obtain ⟨key', hkb⟩ := hk.block_key hb
    obtain ⟨f, _, _, hM, hS, hP⟩ := mergeBlocksAlongProperties_merged (hgo key') (userKeys_ok hw) (hk.merged hkb)
    obtain ⟨h1, h2, h3⟩ := hall _ (hk.first_in hM.first_mem)
    rw [hM.samples.names_eq, hM.components, hP.names_eq]
    exact ⟨h1, h2, by rw [h3]⟩

/-- **C86.** After `components_to_properties`, `components_names` has lost the moved names, `property_names` has them at the start,
and `sample_names` is the same. -/
theorem C86_components_to_properties (hA : LawfulArray A) (vars : List String) (hv : vars ≠ []) (t t' : TensorMap A)
    (ht : TensorValid t) (h : t.componentsToProperties hash vars = (t', .ok ())) (s : List String)
    (cs : List (List String)) (p : List String) (hn : HasNames t s cs p) :
    vars ∈ cs ∧ HasNames t' s (cs.erase vars) (vars ++ p) := by
  obtain ⟨-, hf, hv'⟩ := C09_components_to_properties_labels hA hash vars t t' ht hv h
  obtain ⟨hne, hall⟩ := names_of ht hn
  have key : ∀ b b' : TensorBlock A, b ∈ t.blocks → ComponentMoved vars b.values b'.values → vars ∈ cs ∧
      b'.values.samples.names = s ∧ b'.values.components.map (·.names) = cs.erase vars ∧
      b'.values.properties.names = vars ++ p := by
    rintro b b' hb ⟨pre, c, post, h1, h2, h3, h4, h5, -⟩
    obtain ⟨e1, e2, e3⟩ := hall b hb
    have hnd := (ht.blocks b hb).values.components.2
    rw [e2] at hnd
    rw [h1, List.map_append, List.map_cons, h2] at e2
    subst e2
    refine ⟨by simp, by rw [h4, e1], ?_, by rw [h5, e3]⟩
    rw [h3, List.map_append, List.erase_append_right, List.erase_cons_head]
    rw [List.nodup_append] at hnd
    intro hin
    exact hnd.2.2 _ hin _ (by simp) rfl
  obtain ⟨b, bs, hbs⟩ := List.exists_cons_of_ne_nil hne
  rw [hbs] at hf
  have hmem : b ∈ t.blocks := by rw [hbs]; simp
  cases hb' : t'.blocks with
  | nil => rw [hb'] at hf; cases hf
  | cons b' bs' =>
    rw [hb'] at hf
    cases hf with
    | cons hf1 hf2 =>
      obtain ⟨k1, k2, k3, k4⟩ := key b b' hmem hf1.1
      exact ⟨k1, (hasNames_iff hv' hb').2 ((blockHasNames_iff (hv'.blocks b' (by rw [hb']; simp))).2 ⟨k2, k3, k4⟩)⟩

end

/-- **C85**, full statement, for arrays of the library. -/
def C85_full_statement : Prop :=
  ∀ (hash : HashOrder) (keys : PyLabels), Obtained (fun _ => True) (fun _ => True) keys →
    ∀ (blocks : List (TensorBlock NdArray)), (∀ b ∈ blocks, BlockValid b) →
    ∀ t, pyNewTensor hash keys blocks = some (.ok t) → t.blocks = blocks ∧ ∃ v, pyKeys t = .ok v ∧ LabelsAgree v keys

namespace Example

theorem block_valid : BlockValid block := BlockValid.new (by
  intro l hl
  simp only [List.cons_append, List.nil_append, List.mem_cons, List.not_mem_nil, or_false] at hl
  rcases hl with rfl | rfl | rfl <;> exact Labels.rebuilds_fromBuilder (by decide +kernel)) block_new

/-- `Labels(["k", "l"], [[0, 1], [0, 2], [3, 1]])` -/
def pyTensorKeys : PyLabels := PyLabels.ofMemory ["k", "l"] [0, 1, 0, 2, 3, 1] 3 none

theorem pyTensorKeys_plain : PlainLabels pyTensorKeys :=
  ⟨.new (names := ["k", "l"]) (values := matrix 2 [[0, 1], [0, 2], [3, 1]]) (by unfold PlainNames; decide +kernel)
    (by simp [ValuesArg.Complete, matrix]) (by decide +kernel), by decide⟩

/-- Non-vacuity of `C85_created_partial`. -/
example : PlainLabels pyTensorKeys ∧ (∀ b ∈ [gradBlock, gradBlock, gradBlock], BlockValid b) ∧
    pyNewTensor .insertion pyTensorKeys [gradBlock, gradBlock, gradBlock] = some (.ok tensor) ∧
    pyNewTensor .insertion pyTensorKeys [gradBlock, gradBlock] = some (.error .equistoreError) ∧
    pyNewTensor .insertion pyTensorKeys [gradBlock, block, gradBlock] = some (.error .equistoreError) :=
  ⟨pyTensorKeys_plain, by simp [gradBlock_made.valid], by decide +kernel, by decide +kernel, by decide +kernel⟩

/-- Non-vacuity of `C86_every_block` and `C86_keys_to_samples`. -/
example : TensorValid tensor ∧ HasNames tensor ["s"] [["c"]] ["p"] ∧
    (tensor.keysToSamples ⟨true⟩ .insertion moveLK true).2 = .ok () ∧
    HasNames (tensor.keysToSamples ⟨true⟩ .insertion moveLK true).1 ["s", "l", "k"] [["c"]] ["p"] := by
  have h : HasNames tensor ["s"] [["c"]] ["p"] := ⟨by decide +kernel, by decide +kernel, by decide +kernel⟩
  have h2 : (tensor.keysToSamples ⟨true⟩ .insertion moveLK true).2 = .ok () := by decide +kernel
  have h3 := C86_keys_to_samples moveLK moveLK_fromBuilder true tensor _ tensor_valid (Prod.ext rfl h2) _ _ _ h
  rw [show moveLK.names = ["l", "k"] by decide +kernel] at h3
  exact ⟨tensor_valid, h, h2, h3⟩

/-- Non-vacuity of `C86_keys_to_properties`. -/
example : (tensor.keysToProperties ⟨true⟩ .insertion moveL true).2 = .ok () ∧
    HasNames (tensor.keysToProperties ⟨true⟩ .insertion moveL true).1 ["s"] [["c"]] ["l", "p"] := by
  have h : HasNames tensor ["s"] [["c"]] ["p"] := ⟨by decide +kernel, by decide +kernel, by decide +kernel⟩
  have h2 : (tensor.keysToProperties ⟨true⟩ .insertion moveL true).2 = .ok () := by decide +kernel
  have h3 := C86_keys_to_properties moveL moveL_fromBuilder true tensor _ tensor_valid (Prod.ext rfl h2) _ _ _ h
  rw [show moveL.names = ["l"] by decide +kernel] at h3
  exact ⟨h2, h3⟩

/-- Non-vacuity of `C86_components_to_properties`. -/
example : HasNames tensor ["s"] [["c"]] ["p"] ∧ tensor.componentsToProperties .insertion ["c"] = (flat, .ok ()) ∧
    HasNames flat ["s"] [] ["c", "p"] := by
  have h : HasNames tensor ["s"] [["c"]] ["p"] := ⟨by decide +kernel, by decide +kernel, by decide +kernel⟩
  have h3 := (C86_components_to_properties lawful_ndArray ["c"] (by simp) tensor _ tensor_valid flat_eq _ _ _ h).2
  rw [show [["c"]].erase ["c"] = [] by simp] at h3
  exact ⟨h, flat_eq, h3⟩

/-- Non-vacuity of `C86_no_blocks`: a valid tensor map without blocks. -/
example : TensorValid (⟨Labels.mk' ["k"] [], []⟩ : TensorMap NdArray) := TensorMap.valid_of_rebuilds (by decide +kernel)

end Example

open Example in
/-- With `keys[::2]` the library reads the first entries of `keys`. -/
theorem C85_counterexample : ¬ C85_full_statement := by
  intro h
  obtain ⟨-, v, h1, h2⟩ := h .insertion pyStep
    (.index (.new trivial (by simp [ValuesArg.Complete, matrix]) pyThree_new) trivial pyStep_index) [block, block]
    (by simp [block_valid]) ⟨Labels.mk' ["s"] [[0], [2]], [block, block]⟩ (by decide +kernel)
  have h3 : (match pyKeys (⟨Labels.mk' ["s"] [[0], [2]], [block, block]⟩ : TensorMap NdArray) with
    | .ok v => v.entries | .error _ => none) = some [[0], [2]] := by decide +kernel
  rw [h1] at h3
  simp only [h2.2.2] at h3
  have h4 : pyStep.entries = some [[0], [3]] := by decide +kernel
  rw [h4] at h3
  exact absurd h3 (by decide +kernel)

end Equistore
