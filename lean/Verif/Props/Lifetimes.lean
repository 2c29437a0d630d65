import Verif.Lemmas.LifetimesCalls

/-!
# C68: labels, keys and pointers to blocks stay valid as long as documented
-/

namespace Equistore
open Spec Heap

variable {B : Type} [Inhabited B] [ArrayCallbacks B]

/-! ### Histories -/

theorem Lives.run {except : Place → Call B → Prop} {place place' : Place} {h h' : Heap B} {l l' : Ledger} (hr : Run h l)
    (hl : Lives except place h l place' h' l') : Run h' l' := by
  induction hl with
  | now => exact hr
  | step p _ ha _ hrun _ ih => exact .step p ih ha hrun

theorem KeysLive.run {n : Nat} {h h' : Heap B} {l l' : Ledger} (hr : Run h l) (hl : KeysLive n h l h' l') :
    Run h' l' := by
  induction hl with
  | now => exact hr
  | step p _ ha hrun _ ih => exact .step p ih ha hrun

theorem Lives.labels {place place' : Place} {h h' : Heap B} {l l' : Ledger} (hr : Run h l)
    (hl : Lives MovesComponents place h l place' h' l') {b : TensorBlock CArray} (hb : place.block h = some b) :
    ∃ b', place'.block h' = some b' ∧ KeepsParts SameLabels b b' := by
  induction hl with
  | now => exact ⟨b, hb, keepsParts_refl b⟩
  | step p hl ha hm hrun hafter ih =>
    obtain ⟨b₁, h1, h2⟩ := ih
    obtain ⟨b₂, h3, _, h4⟩ := place_step (Lives.run hr hl) ha hrun h1 hafter
    exact ⟨b₂, h3, h2.trans SameLabels.trans (h4 hm)⟩

theorem Lives.samples {except : Place → Call B → Prop} {place place' : Place} {h h' : Heap B} {l l' : Ledger}
    (hr : Run h l) (hl : Lives except place h l place' h' l') {b : TensorBlock CArray} (hb : place.block h = some b) :
    ∃ b', place'.block h' = some b' ∧ KeepsParts SameSamples b b' := by
  induction hl with
  | now => exact ⟨b, hb, KeepsParts.samples (keepsParts_refl b)⟩
  | step p hl ha hm hrun hafter ih =>
    obtain ⟨b₁, h1, h2⟩ := ih
    obtain ⟨b₂, h3, h4, _⟩ := place_step (Lives.run hr hl) ha hrun h1 hafter
    exact ⟨b₂, h3, h2.trans (R' := SameSamples) (R'' := SameSamples) (fun _ _ _ x y => Eq.trans y x) h4⟩

/-- The block at a place is the one behind the pointers to it. -/
theorem block_of_place {h : Heap B} {l : Ledger} (hr : Run h l) {q : BlockPtr} {place : Place} (hq : l.Usable q)
    (hp : Place.of q = some place) : ∃ b, h.block q = some b ∧ place.block h = some b := by
  obtain ⟨owner, hi⟩ := inv_run hr
  cases q with
  | null => cases hp
  | owned n =>
    cases hp
    obtain ⟨b, hb⟩ := hi.usable hq (by simp)
    exact ⟨b, hb, hb⟩
  | inside t v i =>
    cases hp
    obtain ⟨b, hb⟩ := hi.usable hq (by simp)
    obtain ⟨T, h1, h2⟩ := block_inside.1 hb
    exact ⟨b, hb, by simp [Place.block, h1, h2]⟩

theorem axisLabels_mem {A : Type} {part : BasicBlock A} {axis : Nat} {labels : Labels}
    (h : axisLabels part axis = .ok labels) :
    labels = part.samples ∨ labels ∈ part.components ∨ labels = part.properties := by
  unfold axisLabels at h
  split at h
  · cases h; exact .inl rfl
  · split at h
    · cases hc : part.components[axis - 1]? with
      | none => rw [hc] at h; cases h
      | some x =>
        rw [hc] at h
        cases h
        exact .inr (.inl (List.mem_of_getElem? hc))
    · split at h
      · cases h; exact .inr (.inr rfl)
      · cases h

theorem selectBasic_mem {A : Type} {b : TensorBlock A} {name : Bytes} {part : BasicBlock A}
    (h : selectBasic b name = .ok part) : part = b.values ∨ part ∈ b.gradients.map (·.2) := by
  unfold selectBasic at h
  rw [Res.bind_eq_ok] at h
  obtain ⟨n, _, h⟩ := h
  split at h
  · cases h; exact .inl rfl
  · cases hl : b.gradients.lookup n with
    | none => rw [hl] at h; cases h
    | some x =>
      rw [hl] at h
      cases h
      obtain ⟨l₁, l₂, h1, _⟩ := List.lookup_eq_some_iff.1 hl
      exact .inr (by rw [h1]; simp)

theorem toC_labelsPtr {labels : Labels} {L : CLabels} (h : labels.toC = .ok L) : L.labelsPtr = some labels := by
  unfold Labels.toC at h
  simp only [Res.bind_eq_ok] at h
  obtain ⟨count, _, h⟩ := h
  split at h
  · cases h; rfl
  · simp only [Res.bind_eq_ok] at h
    obtain ⟨_, _, _, _, _, _, h⟩ := h
    cases h; rfl

/-- What `eqs_block_labels` returned. -/
theorem blockLabels_parts {A : Type} {b : TensorBlock A} {name : Bytes} {axis : Nat} {L : CLabels}
    (h : blockLabels b name axis = .ok L) : ∃ part labels, selectBasic b name = .ok part ∧
      axisLabels part axis = .ok labels ∧ labels.toC = .ok L ∧ L.labelsPtr = some labels := by
  unfold blockLabels at h
  simp only [Res.bind_eq_ok] at h
  obtain ⟨part, h1, labels, h2, h3⟩ := h
  exact ⟨part, labels, h1, h2, h3, toC_labelsPtr h3⟩

theorem inMemory_of_blockLabels {h : Heap B} {place : Place} {b : TensorBlock CArray} (hb : place.block h = some b)
    {name : Bytes} {axis : Nat} {L : CLabels} (hL : blockLabels b name axis = .ok L) {labels : Labels}
    (hl : L.labelsPtr = some labels) : InMemory h labels := by
  obtain ⟨part, labels', h1, h2, _, h4⟩ := blockLabels_parts hL
  rw [hl] at h4
  cases h4
  have hhas : HasLabels b labels := ⟨part, selectBasic_mem h1, axisLabels_mem h2⟩
  cases place with
  | alone n => exact .inl ⟨n, b, hb, hhas⟩
  | inside t i =>
    simp only [Place.block, Option.bind_eq_some_iff] at hb
    obtain ⟨⟨T, v⟩, hT, hb⟩ := hb
    exact .inr ⟨t, T, v, hT, .inr ⟨b, List.mem_of_getElem? hb, hhas⟩⟩

theorem eqsBlockLabels_of_place {h : Heap B} {l : Ledger} (hr : Run h l) {q : BlockPtr} {place : Place}
    (hq : l.Usable q) (hp : Place.of q = some place) {b : TensorBlock CArray} (hb : place.block h = some b)
    (name : Bytes) (axis : Nat) : eqsBlockLabels q name axis h = some (h, blockLabels b name axis) := by
  obtain ⟨b', h1, h2⟩ := block_of_place hr hq hp
  rw [hb] at h2
  cases h2
  have hn : q ≠ .null := by rintro rfl; cases hp
  simp only [eqsBlockLabels, if_neg hn, h1]

/-! ### The property -/

/-- **C68**, the whole statement. Labels returned by `eqs_block_labels` stay in memory for as long as documented. -/
def C68_full_statement : Prop :=
  ∀ (B : Type) [Inhabited B] [ArrayCallbacks B] (h : Heap B) (l : Ledger), Run h l →
    ∀ (q : BlockPtr) (name : Bytes) (axis : Nat) (L : CLabels) (labels : Labels), l.Usable q →
      eqsBlockLabels q name axis h = some (h, .ok L) → L.labelsPtr = some labels →
      ∀ (place place' : Place) (h' : Heap B) (l' : Ledger), Place.of q = some place →
        Lives Nothing place h l place' h' l' → InMemory h' labels

/-- **C68.** Labels returned by `eqs_block_labels` (for the values or any gradient, and any axis) stay in memory until
the block is destroyed, or the tensor map containing it is destroyed or its keys are moved, if
`eqs_tensormap_components_to_properties` is not called on this tensor map; and `eqs_block_labels` on any pointer
to this block (which may be in a tensor map now) returns the same labels again. In between, anything else
can happen: gradients are added, the block is moved into a tensor map, and any function fails.

Missing from the full statement: calls to `eqs_tensormap_components_to_properties`, for which it is not true. -/
theorem C68_labels_partial (h : Heap B) (l : Ledger) (hr : Run h l) (q : BlockPtr) (name : Bytes) (axis : Nat)
    (L : CLabels) (labels : Labels) (hq : l.Usable q) (hL : eqsBlockLabels q name axis h = some (h, .ok L))
    (hl : L.labelsPtr = some labels) (place place' : Place) (h' : Heap B) (l' : Ledger)
    (hp : Place.of q = some place) (hlives : Lives MovesComponents place h l place' h' l') :
    InMemory h' labels ∧ ∀ q', l'.Usable q' → Place.of q' = some place' →
      eqsBlockLabels q' name axis h' = some (h', .ok L) := by
  obtain ⟨b, hb, hpb⟩ := block_of_place hr hq hp
  have h1 := eqsBlockLabels_of_place hr hq hp hpb name axis
  rw [hL] at h1
  simp only [Option.some.injEq, Prod.mk.injEq, true_and] at h1
  obtain ⟨b', hb', hk⟩ := Lives.labels hr hlives hpb
  obtain ⟨part, labels', h2, h3, h4, _⟩ := blockLabels_parts h1.symm
  obtain ⟨part', h5, h6⟩ := hk.select h2
  have h7 : blockLabels b' name axis = .ok L := by
    unfold blockLabels
    rw [h5, Res.ok_bind, h6.axis, h3, Res.ok_bind, h4]
  refine ⟨inMemory_of_blockLabels hb' h7 hl, fun q' hq' hp' => ?_⟩
  rw [eqsBlockLabels_of_place (Lives.run hr hlives) hq' hp' hb', h7]

/-- **C68.** For samples the documentation is right, also if `eqs_tensormap_components_to_properties` is called (and
also if this fails in the middle). -/
theorem C68_samples (h : Heap B) (l : Ledger) (hr : Run h l) (q : BlockPtr) (name : Bytes) (L : CLabels)
    (labels : Labels) (hq : l.Usable q) (hL : eqsBlockLabels q name 0 h = some (h, .ok L))
    (hl : L.labelsPtr = some labels) (place place' : Place) (h' : Heap B) (l' : Ledger)
    (hp : Place.of q = some place) (hlives : Lives Nothing place h l place' h' l') :
    InMemory h' labels ∧ ∀ q', l'.Usable q' → Place.of q' = some place' →
      eqsBlockLabels q' name 0 h' = some (h', .ok L) := by
  obtain ⟨b, hb, hpb⟩ := block_of_place hr hq hp
  have h1 := eqsBlockLabels_of_place hr hq hp hpb name 0
  rw [hL] at h1
  simp only [Option.some.injEq, Prod.mk.injEq, true_and] at h1
  obtain ⟨b', hb', hk⟩ := Lives.samples hr hlives hpb
  obtain ⟨part, labels', h2, h3, h4, _⟩ := blockLabels_parts h1.symm
  obtain ⟨part', h5, h6⟩ := hk.select h2
  have h7 : blockLabels b' name 0 = .ok L := by
    have h8 : axisLabels part' 0 = axisLabels part 0 := by
      show Res.ok part'.samples = .ok part.samples
      rw [show part'.samples = part.samples from h6]
    unfold blockLabels
    rw [h5, Res.ok_bind, h8, h3, Res.ok_bind, h4]
  refine ⟨inMemory_of_blockLabels hb' h7 hl, fun q' hq' hp' => ?_⟩
  rw [eqsBlockLabels_of_place (Lives.run hr hlives) hq' hp' hb', h7]

theorem KeysLive.keys {n v : Nat} {h h' : Heap B} {l l' : Ledger} (hr : Run h l) (hl : KeysLive n h l h' l')
    {t : TensorMap CArray} (ht : h.tensors n = some (t, v)) :
    ∃ t', h'.tensors n = some (t', v) ∧ t'.keys = t.keys ∧ t'.blocks.length = t.blocks.length := by
  induction hl with
  | now => exact ⟨t, ht, rfl, rfl⟩
  | step p hl ha hrun hc ih =>
    obtain ⟨t₁, h1, h2, h3⟩ := ih
    obtain ⟨t₂, h4, h5, h6⟩ := keys_step (KeysLive.run hr hl) ha hrun h1 hc
    exact ⟨t₂, h4, h5.trans h2, h6.trans h3⟩

/-- **C68.** Keys returned by `eqs_tensormap_keys` stay in memory until the tensor map is destroyed or its keys are
moved, and the same keys are returned again. -/
theorem C68_keys (h : Heap B) (l : Ledger) (hr : Run h l) (n : Nat) (L : CLabels) (labels : Labels)
    (hL : eqsTensormapKeys (some n) h = some (h, .ok L)) (hl : L.labelsPtr = some labels)
    (h' : Heap B) (l' : Ledger) (hlives : KeysLive n h l h' l') :
    InMemory h' labels ∧ eqsTensormapKeys (some n) h' = some (h', .ok L) := by
  simp only [eqsTensormapKeys] at hL
  cases ht : h.tensors n with
  | none => rw [ht] at hL; cases hL
  | some x =>
    obtain ⟨t, v⟩ := x
    simp only [ht, Option.some.injEq, Prod.mk.injEq, true_and] at hL
    obtain ⟨t', h1, h2, _⟩ := KeysLive.keys hr hlives ht
    have h3 := toC_labelsPtr hL
    rw [hl] at h3
    cases h3
    exact ⟨.inr ⟨n, t', v, h1, .inl h2.symm⟩, by simp only [eqsTensormapKeys, h1, h2, hL]⟩

/-- **C68.** Pointers returned by `eqs_tensormap_block_by_id` can be used until the tensor map is destroyed or its keys
are moved: there still is a block at this address, and the same pointer is returned again. -/
theorem C68_blocks (h : Heap B) (l : Ledger) (hr : Run h l) (n index : Nat) (q : BlockPtr)
    (hq : eqsTensormapBlockById (some n) index h = some (h, .ok q))
    (h' : Heap B) (l' : Ledger) (hlives : KeysLive n h l h' l') :
    (h'.block q).isSome ∧ eqsTensormapBlockById (some n) index h' = some (h', .ok q) := by
  simp only [eqsTensormapBlockById] at hq
  cases ht : h.tensors n with
  | none => rw [ht] at hq; cases hq
  | some x =>
    obtain ⟨t, v⟩ := x
    simp only [ht] at hq
    split at hq
    · rename_i hi
      cases hq
      obtain ⟨t', h1, _, h3⟩ := KeysLive.keys hr hlives ht
      rw [← h3] at hi
      refine ⟨?_, by simp only [eqsTensormapBlockById, h1, if_pos hi]⟩
      rw [block_inside.2 ⟨t', h1, List.getElem?_eq_getElem hi⟩]
      rfl
    · cases hq

/-! ### Running programs -/

namespace Spec

/-- Run calls, following a block. -/
def executeLives (p : Platform) : List (Call B) → Place × Heap B × Ledger → Option (Place × Heap B × Ledger)
  | [], s => some s
  | c :: cs, (place, h, l) =>
    if c.check l then
      match c.run p h with
      | none => none
      | some (h', reply) =>
        match place.after c reply with
        | none => none
        | some place' => executeLives p cs (place', h', l.record c reply)
    else
      none

theorem executeLives_sound {p : Platform} {cs : List (Call B)} {place place₁ place' : Place} {h h₁ h' : Heap B}
    {l l₁ l' : Ledger} (hl : Lives Nothing place h l place₁ h₁ l₁)
    (he : executeLives p cs (place₁, h₁, l₁) = some (place', h', l')) : Lives Nothing place h l place' h' l' := by
  induction cs generalizing place₁ h₁ l₁ with
  | nil => cases he; exact hl
  | cons c cs ih =>
    simp only [executeLives] at he
    split at he
    · rename_i hc
      split at he
      · cases he
      · rename_i h₂ reply hrun
        split at he
        · cases he
        · rename_i place₂ hafter
          exact ih (.step p hl (Call.check_sound hc) id hrun hafter) he
    · cases he

/-- None of these calls moves components. -/
def staysOut (cs : List (Call B)) : Bool := cs.all fun c => match c with
  | .componentsToProperties _ _ => false
  | _ => true

theorem executeLives_labels {p : Platform} {cs : List (Call B)} {place place₁ place' : Place} {h h₁ h' : Heap B}
    {l l₁ l' : Ledger} (hl : Lives MovesComponents place h l place₁ h₁ l₁) (hs : staysOut cs = true)
    (he : executeLives p cs (place₁, h₁, l₁) = some (place', h', l')) :
    Lives MovesComponents place h l place' h' l' := by
  induction cs generalizing place₁ h₁ l₁ with
  | nil => cases he; exact hl
  | cons c cs ih =>
    simp only [executeLives] at he
    simp only [staysOut, List.all_cons, Bool.and_eq_true] at hs
    split at he
    · rename_i hc
      split at he
      · cases he
      · rename_i h₂ reply hrun
        split at he
        · cases he
        · rename_i place₂ hafter
          refine ih (.step p hl (Call.check_sound hc) ?_ hrun hafter) hs.2 he
          intro hm
          cases c <;> cases place₁ <;> first | (cases hs.1; done) | (cases hm; done)
    · cases he

/-- Whether a block has some labels. -/
def hasLabels (b : TensorBlock CArray) (labels : Labels) : Bool :=
  (b.values :: b.gradients.map (·.2)).any fun part =>
    labels = part.samples || part.components.contains labels || labels = part.properties

/-- Whether labels are in memory, up to some address. -/
def inMemory (h : Heap B) (labels : Labels) : Bool :=
  (List.range h.next).any fun n =>
    (match h.blocks n with
      | none => false
      | some b => hasLabels b labels) ||
    (match h.tensors n with
      | none => false
      | some (t, _) => labels = t.keys || t.blocks.any fun b => hasLabels b labels)

theorem hasLabels_complete {b : TensorBlock CArray} {labels : Labels} (h : HasLabels b labels) :
    hasLabels b labels = true := by
  obtain ⟨part, h1, h2⟩ := h
  rw [hasLabels, List.any_eq_true]
  refine ⟨part, by simpa using h1, ?_⟩
  rcases h2 with h2 | h2 | h2 <;> simp [h2]

theorem inMemory_complete {h : Heap B} {l : Ledger} (hr : Run h l) {labels : Labels} (hm : InMemory h labels) :
    inMemory h labels = true := by
  obtain ⟨owner, hi⟩ := inv_run hr
  rw [inMemory, List.any_eq_true]
  rcases hm with ⟨n, b, hb, hl⟩ | ⟨n, t, v, ht, hl⟩
  · have h1 := hi.heap.fresh (.block n) (object_block_isSome.2 (by rw [hb]; rfl))
    refine ⟨n, List.mem_range.2 h1, ?_⟩
    simp [hb, hasLabels_complete hl]
  · have h1 := hi.heap.fresh (.tensor n) (object_tensor_isSome.2 (by rw [ht]; rfl))
    refine ⟨n, List.mem_range.2 h1, ?_⟩
    rcases hl with hl | ⟨b, hb, hl⟩
    · simp [ht, hl]
    · simp only [ht, Bool.or_eq_true]
      exact .inr (.inr (List.any_eq_true.2 ⟨b, hb, hasLabels_complete hl⟩))

end Spec

namespace Lifetimes.Example
open Ownership.Example

/-- A component with two entries. -/
def component : CLabels :=
  { labelsPtr := none, names := some [[99, 0]], values := some [0, 1], size := 1, count := 2 }

def values : Bytes := [118, 97, 108, 117, 101, 115, 0]

/-- A block with one sample, two components and one property. -/
def makeBlock : List (Call NdArray) :=
  [.arrayNew (NdArray.build [1, 2, 1] fun _ => default), .block ⟨0, true⟩ (labels [7]) [component] (properties [3])]

/-- It is moved into a tensor map, and a gradient is added. -/
def useBlock : List (Call NdArray) :=
  [.tensormap (labels [0]) [.owned 1], .tensormapBlockById (some 2) 0,
   .arrayNew (NdArray.build [1, 2, 1] fun _ => default),
   .blockAddGradient (.inside 2 3 0) (some [103, 0]) ⟨4, true⟩ (gradientSamples [0]) [component],
   .keysToProperties (some 2) (properties [1]) true]

/-- What happens to labels along an axis of the values in this program. -/
def history (axis : Nat) (rest : List (Call NdArray)) : Option (Option Labels × Bool × Bool × Place) :=
  match execute platform makeBlock (Heap.empty, Ledger.empty) with
  | none => none
  | some (h, l) =>
    match eqsBlockLabels (.owned 1) values axis h with
    | some (_, .ok L) =>
      match executeLives platform (useBlock ++ rest) (.alone 1, h, l) with
      | none => none
      | some (place, h', _) =>
        some (L.labelsPtr, (L.labelsPtr.map (inMemory h')).getD false,
          (match eqsBlockLabels (.inside 2 3 0) values axis h' with
          | some (_, .ok L') => L' = L
          | _ => false), place)
    | _ => none

/-- The labels of all three axes can be used afterwards. -/
example : [0, 1, 2].map (fun axis => (history axis []).map fun s => s.2) =
    [some (true, true, .inside 2 0), some (true, true, .inside 2 0), some (true, true, .inside 2 0)] := by
  decide +kernel

/-- After moving components, only the samples can. -/
example : [0, 1, 2].map (fun axis => (history axis [.componentsToProperties (some 2) [some [99, 0]]]).map fun s => s.2) =
    [some (true, true, .inside 2 0), some (false, false, .inside 2 0), some (false, false, .inside 2 0)] := by
  decide +kernel

/-- The hypotheses of `C68_labels_partial` hold for this program. -/
example : ∃ (h : Heap NdArray) (l : Ledger) (L : CLabels) (labels : Labels) (h' : Heap NdArray) (l' : Ledger),
    Run h l ∧ l.Usable (.owned 1) ∧
    eqsBlockLabels (.owned 1) values 1 h = some (h, .ok L) ∧ L.labelsPtr = some labels ∧
    Lives MovesComponents (.alone 1) h l (.inside 2 0) h' l' ∧ l'.Usable (.inside 2 3 0) := by
  have key : ((execute platform makeBlock (Heap.empty, Ledger.empty)).bind fun s =>
      (executeLives platform useBlock (.alone 1, s)).map fun s' =>
        ((match eqsBlockLabels (.owned 1) values 1 s.1 with
          | some (_, .ok L) => L.labelsPtr.isSome
          | _ => false), s.2.blocks, s'.1, s'.2.2.interior)) =
      some (true, [1], .inside 2 0, [.inside 2 3 0]) := by decide +kernel
  obtain ⟨⟨h, l⟩, he, key⟩ := Option.bind_eq_some_iff.1 key
  obtain ⟨⟨place', h', l'⟩, he', key⟩ := Option.map_eq_some_iff.1 key
  simp only [Prod.mk.injEq] at key
  obtain ⟨h1, h2, rfl, h3⟩ := key
  have hr := execute_run .start he
  have hu : l.Usable (.owned 1) := .inr (.inl ⟨1, by rw [show l.blocks = [1] from h2]; simp, rfl⟩)
  obtain ⟨b, hb, hpb⟩ := block_of_place hr hu rfl
  have hL := eqsBlockLabels_of_place hr hu rfl hpb values 1
  rw [show eqsBlockLabels (.owned 1) values 1 (h, l).1 = _ from hL] at h1
  cases hl : blockLabels b values 1 with
  | err e => rw [hl] at h1; cases h1
  | panic m => rw [hl] at h1; cases h1
  | ok L =>
    rw [hl] at h1 hL
    obtain ⟨labels, hlabels⟩ := Option.isSome_iff_exists.1 h1
    exact ⟨h, l, L, labels, h', l', hr, hu, hL, hlabels, executeLives_labels .now (by decide) he', .inr (.inr (by
      rw [show l'.interior = _ from h3]; simp))⟩

end Lifetimes.Example

open Lifetimes.Example Ownership.Example in
/-- **C68** is false of the code: `eqs_tensormap_components_to_properties` is not mentioned in the documentation, but
it replaces the labels of components and properties, and the pointers of the program are dangling. -/
theorem C68_counterexample : ¬C68_full_statement := by
  intro hfull
  have key : ((execute platform makeBlock (Heap.empty, Ledger.empty)).bind fun s =>
      (executeLives platform (useBlock ++ [.componentsToProperties (some 2) [some [99, 0]]]) (.alone 1, s)).map fun s' =>
        ((match eqsBlockLabels (.owned 1) values 1 s.1 with
          | some (_, .ok L) =>
            match L.labelsPtr with
            | some labels => !inMemory s'.2.1 labels
            | none => false
          | _ => false), s.2.blocks)) =
      some (true, [1]) := by decide +kernel
  obtain ⟨⟨h, l⟩, he, key⟩ := Option.bind_eq_some_iff.1 key
  obtain ⟨⟨place', h', l'⟩, he', key⟩ := Option.map_eq_some_iff.1 key
  simp only [Prod.mk.injEq] at key
  obtain ⟨h1, h2⟩ := key
  have hr := execute_run .start he
  have hu : l.Usable (.owned 1) := .inr (.inl ⟨1, by rw [show l.blocks = [1] from h2]; simp, rfl⟩)
  obtain ⟨b, hb, hpb⟩ := block_of_place hr hu rfl
  have hL := eqsBlockLabels_of_place hr hu rfl hpb values 1
  rw [show eqsBlockLabels (.owned 1) values 1 (h, l).1 = _ from hL] at h1
  cases hl : blockLabels b values 1 with
  | err e => rw [hl] at h1; cases h1
  | panic m => rw [hl] at h1; cases h1
  | ok L =>
    rw [hl] at h1 hL
    simp only at h1
    cases hp : L.labelsPtr with
    | none => rw [hp] at h1; cases h1
    | some labels =>
      rw [hp] at h1
      have hlives : Lives Nothing (.alone 1) h l place' h' l' := executeLives_sound .now he'
      have hm := hfull NdArray h l hr (.owned 1) values 1 L labels hu hL hp (.alone 1) place' h' l' rfl hlives
      have := inMemory_complete (Lives.run hr hlives) hm
      simp [this] at h1

end Equistore
