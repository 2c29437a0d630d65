import Verif.Spec.CResults
import Verif.Lemmas.CallsModify
import Verif.Lemmas.SameCallbacks

/-! What is in the heap after calls of the C API, in terms of the functions on blocks and tensor maps. -/

namespace Equistore
open Spec

section
variable {A B : Type}

theorem checkGradientsNames_mapData (f : A → B) (first gs : List (String × BasicBlock A)) :
    checkGradientsNames (first.map fun pg => (pg.1, pg.2.withData (f pg.2.data)))
      (gs.map fun pg => (pg.1, pg.2.withData (f pg.2.data))) = checkGradientsNames first gs := by
  induction gs with
  | nil => rfl
  | cons pg gs ih =>
    obtain ⟨p, g⟩ := pg
    rw [List.map_cons, checkGradientsNames, checkGradientsNames, ih, lookup_map (fun g : BasicBlock A => g.withData (f g.data))]
    cases first.lookup p with
    | none => rfl
    | some g' => rfl

theorem checkBlocks_mapData (f : A → B) {hash : HashOrder} (hh : OrderByName hash) (first : TensorBlock A)
    (blocks : List (TensorBlock A)) :
    checkBlocks hash (first.mapData f) (blocks.map (TensorBlock.mapData f)) = checkBlocks hash first blocks := by
  induction blocks with
  | nil => rfl
  | cons b blocks ih =>
    rw [List.map_cons, checkBlocks, checkBlocks, ih]
    simp only [TensorBlock.mapData]
    rw [hh (fun g : BasicBlock A => g.withData (f g.data)), checkGradientsNames_mapData]
    simp only [List.length_map]
    rfl

theorem TensorMap.new_mapData (f : A → B) {hash : HashOrder} (hh : OrderByName hash) (keys : Labels)
    (blocks : List (TensorBlock A)) :
    TensorMap.new hash keys (blocks.map (TensorBlock.mapData f)) =
      (TensorMap.new hash keys blocks).map (TensorMap.mapData f) := by
  unfold TensorMap.new
  refine Res.bind_same rfl fun count _ => ?_
  rw [List.length_map]
  refine Res.bind_same rfl fun _ _ => ?_
  cases blocks with
  | nil => rfl
  | cons b blocks =>
    have := checkBlocks_mapData f hh b (b :: blocks)
    refine Res.bind_same ?_ fun _ _ => rfl
    exact this

end

section
variable {A B : Type} [ArrayLike A] [ArrayLike B] (f : A → B)

theorem saveGradients_mapData (hd : ∀ a, ArrayLike.data (f a) = ArrayLike.data a) (hs : ∀ a, ArrayLike.shape (f a) = ArrayLike.shape a)
    (build : Build) (py : PyLiteral) (native : Endian) (i : Nat) (gs : List (String × BasicBlock A)) :
    saveGradients build py native i (gs.map fun g => (g.1, g.2.withData (f g.2.data))) = saveGradients build py native i gs := by
  induction gs with
  | nil => rfl
  | cons g gs ih =>
    obtain ⟨p, g⟩ := g
    have : writeData build py native (f g.data) = writeData build py native g.data := by
      unfold writeData; rw [hd, hs]
    rw [List.map_cons, saveGradients, saveGradients, ih]
    simp only [BasicBlock.withData, this]

theorem saveBlocks_mapData (hd : ∀ a, ArrayLike.data (f a) = ArrayLike.data a) (hs : ∀ a, ArrayLike.shape (f a) = ArrayLike.shape a)
    (build : Build) (py : PyLiteral) (native : Endian) (hash : HashOrder) (hh : OrderByName hash) (bs : List (TensorBlock A)) (i : Nat) :
    saveBlocks build py native hash (bs.map (TensorBlock.mapData f)) i = saveBlocks build py native hash bs i := by
  induction bs generalizing i with
  | nil => rfl
  | cons b bs ih =>
    have : writeData build py native (f b.values.data) = writeData build py native b.values.data := by
      unfold writeData; rw [hd, hs]
    rw [List.map_cons, saveBlocks, saveBlocks, ih]
    simp only [TensorBlock.mapData]
    rw [hh (fun g : BasicBlock A => g.withData (f g.data)), saveGradients_mapData f hd hs]
    simp only [BasicBlock.withData, this]

theorem save_mapData (hd : ∀ a, ArrayLike.data (f a) = ArrayLike.data a) (hs : ∀ a, ArrayLike.shape (f a) = ArrayLike.shape a)
    (build : Build) (py : PyLiteral) (native : Endian) (hash : HashOrder) (hh : OrderByName hash) (t : TensorMap A) :
    save build py native hash (t.mapData f) = save build py native hash t := by
  unfold save
  rw [TensorMap.mapData_blocks, saveBlocks_mapData f hd hs _ _ _ _ hh]
  rfl

theorem selectBasic_mapData (b : TensorBlock A) (name : Bytes) :
    selectBasic (b.mapData f) name = (selectBasic b name).map fun part => part.withData (f part.data) := by
  unfold selectBasic
  cases Res.expect (cstrStr name) "called `Result::unwrap()` on an `Err` value" with
  | err e => rfl
  | panic m => rfl
  | ok s =>
    rw [Res.ok_bind, Res.ok_bind]
    by_cases hs : s = "values"
    · rw [if_pos hs, if_pos hs]; rfl
    · rw [if_neg hs, if_neg hs]
      simp only [TensorBlock.mapData]
      rw [lookup_map (fun g : BasicBlock A => g.withData (f g.data))]
      cases b.gradients.lookup s <;> rfl

theorem blockLabels_mapData (b : TensorBlock A) (name : Bytes) (axis : Nat) :
    blockLabels (b.mapData f) name axis = blockLabels b name axis := by
  unfold blockLabels
  rw [selectBasic_mapData]
  cases selectBasic b name <;> rfl

end

namespace Heap
variable {B : Type} [Inhabited B] [ArrayCallbacks B] {h : Heap B} {l : Ledger} {owner : Nat → Option Owner}

theorem sameCallbacks_live : SameCallbacks (Live.content (B := B)) (fun _ => True) where
  origin := SameViews.origin_id fun _ => rfl
  shape _ := rfl
  reshape _ _ := rfl
  swapAxes _ _ _ := rfl
  create a shape := by
    change ArrayLike.create a.content shape = Res.map Live.content (do
      let content ← ArrayLike.create a.content shape
      return { handle := none, content })
    cases ArrayLike.create a.content shape <;> rfl
  created _ _ _ _ := trivial
  move _ _ _ _ _ _ := rfl
  moved _ _ _ _ _ _ := trivial

/-- What the arrays in the heap are. -/
theorem thawed_content (h : Heap B) {a : CArray} (ha : (h.arrays a.ptr).isSome) :
    h.arrays a.ptr = some (thawed h a).content := by
  obtain ⟨x, hx⟩ := Option.isSome_iff_exists.1 ha
  simp [thawed, hx]

theorem Inv.alive (hi : Inv h l owner) {o : Owner} {b : TensorBlock CArray} (hb : b ∈ h.blocksOf o) {a : CArray} (ha : a ∈ b.arrays) :
    (h.arrays a.ptr).isSome :=
  (hi.heap.owned.alive a.ptr).2 ((hi.heap.isHeld o).owned a.ptr (List.mem_map.2 ⟨a, List.mem_flatMap.2 ⟨b, hb, ha⟩, rfl⟩))

/-- What is in a block, from the arrays given to Rust functions. -/
theorem Inv.block_content (hi : Inv h l owner) {o : Owner} {b : TensorBlock CArray} (hb : b ∈ h.blocksOf o) :
    b.mapData (fun a => h.arrays a.ptr) = ((b.mapData (thawed h)).mapData Live.content).mapData some := by
  rw [TensorBlock.mapData_mapData, TensorBlock.mapData_mapData]
  refine TensorBlock.ext_skeleton (by rw [TensorBlock.skeleton_mapData, TensorBlock.skeleton_mapData]) ?_
  rw [TensorBlock.arrays_mapData, TensorBlock.arrays_mapData]
  exact List.map_congr_left fun a ha => thawed_content h (hi.alive hb ha)

theorem Inv.tensor_content (hi : Inv h l owner) {n v : Nat} {t : TensorMap CArray} (ht : h.tensors n = some (t, v)) :
    t.mapData (fun a => h.arrays a.ptr) = ((t.mapData (thawed h)).mapData Live.content).mapData some := by
  rw [TensorMap.mapData_mapData, TensorMap.mapData_mapData]
  simp only [TensorMap.mapData, TensorMap.mk.injEq, true_and]
  refine List.map_congr_left fun b hb => ?_
  have := hi.block_content (o := .tensor n) (b := b) (by simpa [blocksOf, object, ht, Object.blocks] using hb)
  rw [TensorBlock.mapData_mapData, TensorBlock.mapData_mapData] at this
  exact this

theorem mapData_some_inj {A : Type} {b b' : TensorBlock A} (hb : b.mapData some = b'.mapData some) : b = b' := by
  refine TensorBlock.ext_skeleton ?_ ?_
  · rw [← TensorBlock.skeleton_mapData some b, hb, TensorBlock.skeleton_mapData]
  · have := congrArg TensorBlock.arrays hb
    rw [TensorBlock.arrays_mapData, TensorBlock.arrays_mapData] at this
    exact List.map_injective_iff.2 (fun _ _ h => Option.some.inj h) this

theorem tensor_mapData_some_inj {A : Type} {t t' : TensorMap A} (hb : t.mapData some = t'.mapData some) : t = t' := by
  refine TensorMap.ext_skeleton ?_ ?_
  · rw [← TensorMap.skeleton_mapData some t, hb, TensorMap.skeleton_mapData]
  · have := congrArg TensorMap.arrays hb
    rw [TensorMap.arrays_mapData, TensorMap.arrays_mapData] at this
    exact List.map_injective_iff.2 (fun _ _ h => Option.some.inj h) this

theorem Inv.seesTensor (hi : Inv h l owner) {n v : Nat} {t : TensorMap CArray} (ht : h.tensors n = some (t, v)) {u : TensorMap B} :
    SeesTensor h n u ↔ u = (t.mapData (thawed h)).mapData Live.content := by
  unfold SeesTensor look
  simp only [ht, Option.map_some, Option.some.injEq, Content.tensor.injEq]
  rw [hi.tensor_content ht]
  exact ⟨fun h => (tensor_mapData_some_inj h).symm, fun h => by rw [h]⟩

theorem Inv.seesBlock (hi : Inv h l owner) {q : BlockPtr} {b : TensorBlock CArray} (hb : h.block q = some b) {u : TensorBlock B} :
    SeesBlock h q u ↔ u = (b.mapData (thawed h)).mapData Live.content := by
  cases q with
  | null => cases hb
  | owned n =>
    have hb' : h.blocks n = some b := hb
    unfold SeesBlock look
    simp only [hb', Option.map_some, Option.some.injEq, Content.block.injEq]
    rw [hi.block_content (HeapInv.mem_blocksOf hb)]
    exact ⟨fun h => (mapData_some_inj h).symm, fun h => by rw [h]⟩
  | inside n v i =>
    simp only [Heap.block] at hb
    split at hb
    · cases hb
    · rename_i t v' ht
      split at hb
      · simp only [SeesBlock, hi.seesTensor ht]
        constructor
        · rintro ⟨_, rfl, h2⟩
          simp only [TensorMap.mapData, List.getElem?_map, hb, Option.map_some, Option.some.injEq] at h2
          exact h2.symm
        · rintro rfl
          exact ⟨_, rfl, by simp only [TensorMap.mapData, List.getElem?_map, hb, Option.map_some]⟩
      · cases hb

/-- The content of the arrays which a Rust function leaves behind. -/
theorem Committed.tensor {h h₁ : Heap B} {before : List CArray} {t : TensorMap (Live B)} {t₁ : TensorMap CArray}
    (hc : Committed h h₁ before t.arrays t₁.arrays) (hsk : t₁.skeleton = t.skeleton) :
    t₁.mapData (fun a => h₁.arrays a.ptr) = (t.mapData Live.content).mapData some := by
  rw [TensorMap.mapData_mapData]
  refine TensorMap.ext_skeleton (by rw [TensorMap.skeleton_mapData, TensorMap.skeleton_mapData, hsk]) ?_
  rw [TensorMap.arrays_mapData, TensorMap.arrays_mapData]
  have := hc.content
  generalize t.arrays = ls at this
  generalize t₁.arrays = cs at this
  induction this with
  | nil => rfl
  | cons h1 _ ih => rw [List.map_cons, List.map_cons, ih, h1.1]; rfl

theorem Committed.block {h h₁ : Heap B} {before : List CArray} {b : TensorBlock (Live B)} {b₁ : TensorBlock CArray}
    (hc : Committed h h₁ before b.arrays b₁.arrays) (hsk : b₁.skeleton = b.skeleton) :
    b₁.mapData (fun a => h₁.arrays a.ptr) = (b.mapData Live.content).mapData some := by
  rw [TensorBlock.mapData_mapData]
  refine TensorBlock.ext_skeleton (by rw [TensorBlock.skeleton_mapData, TensorBlock.skeleton_mapData, hsk]) ?_
  rw [TensorBlock.arrays_mapData, TensorBlock.arrays_mapData]
  have := hc.content
  generalize b.arrays = ls at this
  generalize b₁.arrays = cs at this
  induction this with
  | nil => rfl
  | cons h1 _ ih => rw [List.map_cons, List.map_cons, ih, h1.1]; rfl

/-- What a function which changes a tensor map leaves behind. -/
theorem modify_look (hi : Inv h l owner) {n v : Nat} {t : TensorMap CArray} (ht : h.tensors n = some (t, v))
    {replaces : Bool} {action : Act (TensorMap (Live B)) Unit}
    (haction : ∀ t : TensorMap (Live B), (∀ b ∈ t.blocks, b.Named) →
      (replaces = true ∧ (action t).2 = .ok () ∧ ∀ b ∈ (action t).1.blocks, b.New) ∨
      (¬(replaces = true ∧ (action t).2 = .ok ()) ∧ TensorMap.SameHandles t (action t).1)) :
    ∃ h', modifyTensor (some n) replaces action h = some (h', (action (t.mapData (thawed h))).2) ∧
      SeesTensor h' n ((action (t.mapData (thawed h))).1.mapData Live.content) := by
  have hthaw : h.thawTensor t = some (t.mapData (thawed h)) := hi.heap.thawTensor ht
  have hheld : Held owner t.arrays := by rw [← held_tensor ht]; exact hi.heap.isHeld (.tensor n)
  have hnamedt : ∀ b ∈ (t.mapData (thawed h)).blocks, b.Named := by
    intro b hb
    obtain ⟨b', hb', rfl⟩ := List.mem_map.1 hb
    refine TensorBlock.Named.of_skeleton (hi.heap.named (.tensor n) b' ?_) (TensorBlock.skeleton_mapData _ _)
    simpa [blocksOf, object, ht, Object.blocks] using hb'
  have hact := haction _ hnamedt
  have hmod : modifyTensor (some n) replaces action h =
      (match h.commitTensor t.arrays (action (t.mapData (thawed h))).1 with
      | none => none
      | some (h₁, t₁) =>
        if replaces = true ∧ (action (t.mapData (thawed h))).2 = .ok () then
          some ({ h₁.setTensor t₁ n h₁.next with next := h₁.next + 1 }, (action (t.mapData (thawed h))).2)
        else
          some (h₁.setTensor t₁ n v, (action (t.mapData (thawed h))).2)) := by
    simp only [modifyTensor, ht, hthaw]
    rfl
  rw [hmod]
  generalize action (t.mapData (thawed h)) = result at *
  have hcond : (kept result.1.arrays).Nodup ∧ ∀ a ∈ result.1.arrays, ∀ c, a.handle = some c → c ∈ t.arrays := by
    rcases hact with ⟨_, _, hnew⟩ | ⟨_, hsame⟩
    · have hnone : ∀ a ∈ result.1.arrays, a.handle = none := by
        intro a ha
        obtain ⟨b, hb, ha⟩ := List.mem_flatMap.1 ha
        exact (hnew b hb).1 a ha
      refine ⟨by rw [kept_none hnone]; exact List.nodup_nil, fun a ha c hc => ?_⟩
      rw [hnone a ha] at hc; cases hc
    · have h1 : List.Forall₂ (fun b b' : TensorBlock (Live B) => b'.handles = b.handles ∧ (b.Named → b'.Named))
          (t.blocks.map (TensorBlock.mapData (thawed h))) result.1.blocks := hsame
      rw [List.forall₂_map_left_iff] at h1
      have hh : result.1.arrays.map (·.handle) = t.arrays.map some := by
        simp only [TensorMap.arrays, List.map_flatMap]
        generalize t.blocks = bs at h1
        generalize result.1.blocks = bs' at h1
        induction h1 with
        | nil => rfl
        | @cons b b' _ _ h2 _ ih =>
          have h3 : b'.arrays.map (·.handle) = b.arrays.map some := by
            have := h2.1
            rw [TensorBlock.handles, TensorBlock.handles, TensorBlock.arrays_mapData, thawed_handles] at this
            exact this
          rw [List.flatMap_cons, List.flatMap_cons, ih, h3]
      exact ⟨by rw [kept_handles hh]; exact hheld.nodup, handle_mem hh⟩
  obtain ⟨h₁, t₁, hct, hc, _, hsk⟩ := commitTensor_spec hi.heap.owned hheld hcond.1 hcond.2 (.tensor n)
  rw [hct]
  have hlook := hc.tensor hsk
  dsimp only
  split
  · refine ⟨_, rfl, ?_⟩
    simp only [SeesTensor, look, setTensor, setAt, if_true, Option.map_some]
    rw [hlook]
  · refine ⟨_, rfl, ?_⟩
    simp only [SeesTensor, look, setTensor, setAt, if_true, Option.map_some]
    rw [hlook]

end Heap
end Equistore
