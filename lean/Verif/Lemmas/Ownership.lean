import Verif.Spec.Ownership
import Verif.Lemmas.Handles

/-! The invariant behind the ownership of arrays in the C API. -/

namespace Equistore
namespace Heap
variable {B : Type}

/-! ### Objects -/

/-- What is behind a pointer. -/
inductive Object where
  | block (b : TensorBlock CArray)
  | tensor (t : TensorMap CArray) (vector : Nat)

/-- The blocks of an object. -/
def Object.blocks : Object → List (TensorBlock CArray)
  | .block b => [b]
  | .tensor t _ => t.blocks

/-- The object at an address. -/
def object (h : Heap B) : Owner → Option Object
  | .program => none
  | .block n => (h.blocks n).map .block
  | .tensor n => (h.tensors n).map fun x => .tensor x.1 x.2

/-- The blocks at an address. -/
def blocksOf (h : Heap B) (o : Owner) : List (TensorBlock CArray) :=
  match h.object o with
  | none => []
  | some x => x.blocks

/-- The arrays at an address. -/
def held (h : Heap B) (o : Owner) : List CArray := (h.blocksOf o).flatMap TensorBlock.arrays

/-- The address of the object. -/
def Owner.address : Owner → Nat
  | .program => 0
  | .block n => n
  | .tensor n => n

/-- The object a pointer to a block points to, or into. -/
def target : BlockPtr → Owner
  | .null => .program
  | .owned n => .block n
  | .inside t _ _ => .tensor t

theorem object_block {h : Heap B} {n : Nat} {x : Object} :
    h.object (.block n) = some x ↔ ∃ b, h.blocks n = some b ∧ x = .block b := by
  simp only [object, Option.map_eq_some_iff]
  constructor
  · rintro ⟨b, h1, h2⟩; exact ⟨b, h1, h2.symm⟩
  · rintro ⟨b, h1, h2⟩; exact ⟨b, h1, h2.symm⟩

theorem object_block_isSome {h : Heap B} {n : Nat} : (h.object (.block n)).isSome ↔ (h.blocks n).isSome := by
  simp [object]

theorem object_tensor_isSome {h : Heap B} {n : Nat} : (h.object (.tensor n)).isSome ↔ (h.tensors n).isSome := by
  simp [object]

theorem object_congr {h h' : Heap B} (hb : h'.blocks = h.blocks) (ht : h'.tensors = h.tensors) (o : Owner) :
    h'.object o = h.object o := by
  cases o <;> simp [object, hb, ht]

theorem blocks_of_object {h h' : Heap B} {n : Nat} (ho : h'.object (.block n) = h.object (.block n)) :
    h'.blocks n = h.blocks n := by
  simp only [object] at ho
  cases h1 : h'.blocks n <;> cases h2 : h.blocks n <;> simp_all

theorem tensors_of_object {h h' : Heap B} {n : Nat} (ho : h'.object (.tensor n) = h.object (.tensor n)) :
    h'.tensors n = h.tensors n := by
  simp only [object] at ho
  cases h1 : h'.tensors n with
  | none => cases h2 : h.tensors n <;> simp_all
  | some x =>
    obtain ⟨t, v⟩ := x
    cases h2 : h.tensors n with
    | none => simp_all
    | some y => obtain ⟨t', v'⟩ := y; simp_all

theorem block_of_object {h h' : Heap B} {q : BlockPtr} (ho : h'.object (target q) = h.object (target q)) :
    h'.block q = h.block q := by
  cases q with
  | null => rfl
  | owned n => exact blocks_of_object ho
  | inside t v i => simp only [block, tensors_of_object ho]

theorem block_isSome_object {h : Heap B} {q : BlockPtr} {b : TensorBlock CArray} (hb : h.block q = some b) :
    (h.object (target q)).isSome := by
  cases q with
  | null => cases hb
  | owned n => exact object_block_isSome.2 (by rw [show h.blocks n = some b from hb]; rfl)
  | inside t v i =>
    refine object_tensor_isSome.2 ?_
    simp only [block] at hb
    cases h1 : h.tensors t with
    | none => rw [h1] at hb; cases hb
    | some x => rfl

theorem block_inside {h : Heap B} {t v i : Nat} {b : TensorBlock CArray} :
    h.block (.inside t v i) = some b ↔ ∃ T, h.tensors t = some (T, v) ∧ T.blocks[i]? = some b := by
  simp only [block]
  cases h1 : h.tensors t with
  | none => simp
  | some x =>
    obtain ⟨T, v'⟩ := x
    simp only [Option.some.injEq, Prod.mk.injEq]
    constructor
    · intro h2
      split at h2
      · rename_i heq; exact ⟨T, ⟨rfl, heq⟩, h2⟩
      · cases h2
    · rintro ⟨T', ⟨rfl, rfl⟩, h2⟩
      rw [if_pos rfl]; exact h2

theorem setBlock_object_ne {h : Heap B} {q : BlockPtr} {b : TensorBlock CArray} {o : Owner} (ho : o ≠ target q) :
    (h.setBlock b q).object o = h.object o := by
  cases q with
  | null => rfl
  | owned n =>
    cases o with
    | block m =>
      have : m ≠ n := fun heq => ho (by rw [heq]; rfl)
      simp [object, setBlock, setAt, this]
    | _ => rfl
  | inside t v i =>
    simp only [setBlock]
    cases h1 : h.tensors t with
    | none => rfl
    | some x =>
      cases o with
      | tensor m =>
        have : m ≠ t := fun heq => ho (by rw [heq]; rfl)
        simp [object, setAt, this]
      | _ => rfl

theorem setBlock_fields {h : Heap B} {q : BlockPtr} {b : TensorBlock CArray} :
    (h.setBlock b q).arrays = h.arrays ∧ (h.setBlock b q).created = h.created ∧
    (h.setBlock b q).destroyed = h.destroyed ∧ (h.setBlock b q).next = h.next := by
  cases q with
  | null => exact ⟨rfl, rfl, rfl, rfl⟩
  | owned n => exact ⟨rfl, rfl, rfl, rfl⟩
  | inside t v i =>
    simp only [setBlock]
    cases h1 : h.tensors t with
    | none => exact ⟨rfl, rfl, rfl, rfl⟩
    | some x => exact ⟨rfl, rfl, rfl, rfl⟩

/-- A block behind a pointer, among the other blocks of the same object. -/
theorem block_split {h : Heap B} {q : BlockPtr} {b : TensorBlock CArray} (hb : h.block q = some b) :
    ∃ pre post, h.blocksOf (target q) = pre ++ b :: post ∧
      ∀ (h' : Heap B) b', h'.object (target q) = h.object (target q) →
        (h'.setBlock b' q).blocksOf (target q) = pre ++ b' :: post := by
  cases q with
  | null => cases hb
  | owned n =>
    have hb : h.blocks n = some b := hb
    refine ⟨[], [], ?_, ?_⟩
    · simp [blocksOf, object, target, hb, Object.blocks]
    · intro h' b' _
      simp [blocksOf, object, target, setBlock, setAt, Object.blocks]
  | inside t v i =>
    obtain ⟨T, h1, h2⟩ := block_inside.1 hb
    obtain ⟨hi, rfl⟩ := List.getElem?_eq_some_iff.1 h2
    refine ⟨T.blocks.take i, T.blocks.drop (i + 1), ?_, ?_⟩
    · simp only [blocksOf, object, target, h1, Option.map_some, Object.blocks]
      rw [List.getElem_cons_drop, List.take_append_drop]
    · intro h' b' ho
      have h3 : h'.tensors t = some (T, v) := by rw [tensors_of_object ho, h1]
      simp only [blocksOf, object, target, setBlock, h3, setAt, if_true, Option.map_some, Object.blocks]
      exact List.set_eq_take_append_cons_drop.trans (if_pos hi)

theorem setBlock_block {h h' : Heap B} {q q' : BlockPtr} {b b' c : TensorBlock CArray} (hb : h.block q = some b)
    (ho : ∀ o, h'.object o = h.object o) (hq : h.block q' = some c) :
    (h'.setBlock b' q).block q' = some (if q' = q then b' else c) := by
  by_cases ht : target q' = target q
  · cases q with
    | null => cases hb
    | owned n =>
      cases q' with
      | null => cases ht
      | owned m =>
        cases ht
        simp [block, setBlock, setAt]
      | inside => cases ht
    | inside t v i =>
      cases q' with
      | null => cases ht
      | owned m => cases ht
      | inside t' v' j =>
        cases ht
        obtain ⟨T, h1, h2⟩ := block_inside.1 hb
        obtain ⟨T', h1', h2'⟩ := block_inside.1 hq
        rw [h1] at h1'
        cases h1'
        have h3 : h'.tensors t = some (T, v) := by rw [tensors_of_object (ho (.tensor t)), h1]
        rw [block_inside]
        refine ⟨{ T with blocks := T.blocks.set i b' }, ?_, ?_⟩
        · simp [setBlock, h3, setAt]
        · simp only [BlockPtr.inside.injEq, true_and]
          by_cases hij : j = i
          · subst hij
            rw [if_pos rfl, List.getElem?_set_self]
            exact (List.getElem?_eq_some_iff.1 h2).1
          · rw [if_neg hij, List.getElem?_set_ne (Ne.symm hij)]
            exact h2'
  · rw [block_of_object (h := h) ((setBlock_object_ne ht).trans (ho _)), hq, if_neg]
    rintro rfl
    exact ht rfl

/-! ### The invariant of the heap -/

/-- What holds for the heap between calls. -/
structure HeapInv (h : Heap B) (owner : Nat → Option Owner) : Prop where
  owned : Owned h owner
  destroy : ∀ o, ∀ c ∈ h.held o, c.destroy = true
  nodup : ∀ o, (ids (h.held o)).Nodup
  mem : ∀ o, o ≠ .program → ∀ a, a ∈ ids (h.held o) ↔ owner a = some o
  named : ∀ o, ∀ b ∈ h.blocksOf o, b.Named
  fresh : ∀ o, (h.object o).isSome → o.address < h.next

theorem held_program (h : Heap B) : h.held .program = [] := rfl

theorem held_of_object {h h' : Heap B} {o : Owner} (ho : h'.object o = h.object o) : h'.held o = h.held o := by
  simp only [held, blocksOf, ho]

theorem blocksOf_of_object {h h' : Heap B} {o : Owner} (ho : h'.object o = h.object o) :
    h'.blocksOf o = h.blocksOf o := by
  simp only [blocksOf, ho]

theorem blocksOf_none {h : Heap B} {o : Owner} (ho : h.object o = none) : h.blocksOf o = [] := by
  simp only [blocksOf, ho]

theorem held_none {h : Heap B} {o : Owner} (ho : h.object o = none) : h.held o = [] := by
  simp only [held, blocksOf_none ho, List.flatMap_nil]

theorem HeapInv.isHeld {h : Heap B} {owner : Nat → Option Owner} (hi : HeapInv h owner) (o : Owner) :
    Held owner (h.held o) := by
  refine ⟨hi.destroy o, hi.nodup o, fun a ha => ?_⟩
  by_cases hp : o = .program
  · subst hp; cases ha
  · rw [(hi.mem o hp a).1 ha]; rfl

theorem Held.append {owner : Nat → Option Owner} {l l' : List CArray} (h : Held owner l) (h' : Held owner l')
    (hd : ∀ a ∈ ids l, a ∉ ids l') : Held owner (l ++ l') := by
  refine ⟨?_, ?_, ?_⟩
  · intro c hc
    rcases List.mem_append.1 hc with hc | hc
    · exact h.destroy c hc
    · exact h'.destroy c hc
  · rw [ids_append]
    exact List.Nodup.append h.nodup h'.nodup (fun a h1 h2 => hd a h1 h2)
  · intro a ha
    rw [ids_append, List.mem_append] at ha
    rcases ha with ha | ha
    · exact h.owned a ha
    · exact h'.owned a ha

theorem Held.sublist {owner : Nat → Option Owner} {l l' : List CArray} (h : Held owner l) (hs : l'.Sublist l) :
    Held owner l' :=
  ⟨fun c hc => h.destroy c (hs.subset hc), h.nodup.sublist (hs.map _),
    fun a ha => h.owned a ((hs.map (·.ptr)).subset ha)⟩

theorem Held.single {owner : Nat → Option Owner} {c : CArray} (hd : c.destroy = true) (ho : (owner c.ptr).isSome) :
    Held owner [c] := by
  refine ⟨?_, by simp, ?_⟩
  · intro c' hc; rw [List.mem_singleton] at hc; rw [hc]; exact hd
  · intro a ha
    rw [ids_cons, ids_nil, List.mem_singleton] at ha
    rw [ha]; exact ho

/-- The owners after a Rust function. -/
theorem reown_eq {h h₁ : Heap B} {owner : Nat → Option Owner} (ho : Owned h owner) {before cs : List CArray}
    {ls : List (Live B)} (hc : Committed h h₁ before ls cs) (hkept : ∀ a ∈ kept ls, a ∈ ids before) {p o : Owner} (a : Nat) :
    reown owner before cs p a = some o ↔ (o = p ∧ a ∈ ids cs) ∨ (owner a = some o ∧ a ∉ ids before) := by
  unfold reown
  by_cases h1 : a ∈ ids cs
  · rw [if_pos h1]
    constructor
    · intro h2; cases h2; exact .inl ⟨rfl, h1⟩
    · rintro (⟨rfl, _⟩ | ⟨h2, h3⟩)
      · rfl
      · rcases (hc.mem a).1 h1 with h4 | h4
        · exact absurd (hkept a h4) h3
        · have := ho.lt (a := a) (by rw [h2]; rfl)
          omega
  · rw [if_neg h1]
    by_cases h2 : a ∈ ids before
    · rw [if_pos h2]
      constructor
      · intro h3; cases h3
      · rintro (⟨_, h3⟩ | ⟨_, h3⟩)
        · exact absurd h3 h1
        · exact absurd h2 h3
    · rw [if_neg h2]
      constructor
      · intro h3; exact .inr ⟨h3, h2⟩
      · rintro (⟨_, h3⟩ | ⟨h3, _⟩)
        · exact absurd h3 h1
        · exact h3

theorem kept_subset {before : List CArray} {ls : List (Live B)}
    (hm : ∀ a ∈ ls, ∀ c, a.handle = some c → c ∈ before) : ∀ a ∈ kept ls, a ∈ ids before := by
  intro a ha
  obtain ⟨l, hl, hp⟩ := List.mem_filterMap.1 ha
  obtain ⟨c, hc, rfl⟩ := Option.map_eq_some_iff.1 hp
  exact List.mem_map.2 ⟨c, hm l hl c hc, rfl⟩

/-- What remains to be shown for the object `p` which received arrays. -/
structure Received (h h₂ : Heap B) (before cs : List CArray) (p : Owner) : Prop where
  destroy : ∀ c ∈ h₂.held p, c.destroy = true
  nodup : (ids (h₂.held p)).Nodup
  mem : ∀ a, a ∈ ids (h₂.held p) ↔ a ∈ ids cs ∨ (a ∈ ids (h.held p) ∧ a ∉ ids before)
  named : ∀ b ∈ h₂.blocksOf p, b.Named
  fresh : (h₂.object p).isSome → p.address < h₂.next

/-- The heap after a call: the arrays `before` were taken from their owners, the arrays `cs` were given to
`p`. -/
theorem HeapInv.update {h h₁ h₂ : Heap B} {owner : Nat → Option Owner} (hi : HeapInv h owner)
    {before cs : List CArray} {ls : List (Live B)} {p : Owner}
    (hc : Committed h h₁ before ls cs) (ho : Owned h₁ (reown owner before cs p))
    (hkept : ∀ a ∈ kept ls, a ∈ ids before)
    (ha : h₂.arrays = h₁.arrays) (hcr : h₂.created = h₁.created) (hds : h₂.destroyed = h₁.destroyed)
    (hn : h₁.next ≤ h₂.next)
    (hothers : ∀ o, o ≠ p → o ≠ .program → (h₂.object o = h.object o ∧ ∀ a ∈ ids before, owner a ≠ some o) ∨
      (h₂.object o = none ∧ ∀ a, owner a = some o → a ∈ ids before))
    (hp : p ≠ .program → Received h h₂ before cs p) :
    HeapInv h₂ (reown owner before cs p) := by
  have hre := fun (o : Owner) a => reown_eq hi.owned hc hkept (p := p) (o := o) a
  have hnext : h.next ≤ h₂.next := Nat.le_trans hc.next hn
  have key : ∀ o, (∀ c ∈ h₂.held o, c.destroy = true) ∧ (ids (h₂.held o)).Nodup ∧
      (o ≠ .program → ∀ a, a ∈ ids (h₂.held o) ↔ reown owner before cs p a = some o) ∧
      (∀ b ∈ h₂.blocksOf o, b.Named) ∧ ((h₂.object o).isSome → o.address < h₂.next) := by
    intro o
    by_cases hprog : o = .program
    · subst hprog
      refine ⟨?_, ?_, fun h => absurd rfl h, ?_, ?_⟩
      · rw [held_program]; simp
      · rw [held_program]; simp
      · intro b hb; cases hb
      · intro hb; cases hb
    by_cases hop : o = p
    · subst hop
      have hr := hp hprog
      refine ⟨hr.destroy, hr.nodup, fun _ a => ?_, hr.named, hr.fresh⟩
      rw [hr.mem, hre, hi.mem o hprog]
      simp
    · rcases hothers o hop hprog with ⟨h1, h2⟩ | ⟨h1, h2⟩
      · rw [held_of_object h1, blocksOf_of_object h1, h1]
        refine ⟨hi.destroy o, hi.nodup o, fun _ a => ?_, hi.named o, fun h3 => ?_⟩
        · rw [hre, hi.mem o hprog]
          constructor
          · intro h3; exact .inr ⟨h3, fun h4 => h2 a h4 h3⟩
          · rintro (⟨h3, _⟩ | ⟨h3, _⟩)
            · exact absurd h3 hop
            · exact h3
        · have := hi.fresh o h3; omega
      · rw [held_none h1, blocksOf_none h1, h1]
        refine ⟨by simp, by simp, fun _ a => ?_, by simp, by simp⟩
        rw [hre]
        simp only [ids_nil, List.not_mem_nil, false_iff, not_or, not_and]
        exact ⟨fun h3 => absurd h3 hop, fun h3 => absurd (h2 a h3)⟩
  refine ⟨⟨?_, ?_, ?_, ?_, ?_, ?_⟩, fun o => (key o).1, fun o => (key o).2.1, fun o ho => (key o).2.2.1 ho,
    fun o => (key o).2.2.2.1, fun o => (key o).2.2.2.2⟩
  · intro a; rw [ha]; exact ho.alive a
  · intro a; rw [hcr, hds]; exact ho.created a
  · rw [hds]; exact ho.destroyed
  · rw [hds]; exact ho.nodup
  · rw [hcr]; exact ho.createdNodup
  · rw [hcr]; intro a h1; have := ho.fresh a h1; omega

/-! ### Thawing and committing -/

theorem HeapInv.thawBlock [Inhabited B] {h : Heap B} {owner : Nat → Option Owner} (hi : HeapInv h owner) {o : Owner}
    {b : TensorBlock CArray} (hb : b ∈ h.blocksOf o) :
    h.thawBlock b = some (b.mapData fun a => { handle := some a, content := (h.arrays a.ptr).getD default }) := by
  unfold Heap.thawBlock
  rw [if_pos]
  rw [List.all_eq_true]
  intro a ha
  exact (hi.owned.alive a.ptr).2 ((hi.isHeld o).owned a.ptr
    (List.mem_map.2 ⟨a, List.mem_flatMap.2 ⟨b, hb, ha⟩, rfl⟩))

theorem HeapInv.thawTensor [Inhabited B] {h : Heap B} {owner : Nat → Option Owner} (hi : HeapInv h owner) {n v : Nat}
    {t : TensorMap CArray} (ht : h.tensors n = some (t, v)) :
    h.thawTensor t = some (t.mapData fun a => { handle := some a, content := (h.arrays a.ptr).getD default }) := by
  unfold Heap.thawTensor
  rw [if_pos]
  rw [List.all_eq_true]
  intro a ha
  have : h.held (.tensor n) = t.arrays := by simp [held, blocksOf, object, ht, Object.blocks, TensorMap.arrays]
  exact (hi.owned.alive a.ptr).2 ((hi.isHeld (.tensor n)).owned a.ptr (List.mem_map.2 ⟨a, by rw [this]; exact ha, rfl⟩))

theorem commitBlock_spec {h : Heap B} {owner : Nat → Option Owner} (ho : Owned h owner) {before : List CArray}
    (hb : Held owner before) {b : TensorBlock (Live B)} (hk : (kept b.arrays).Nodup)
    (hm : ∀ a ∈ b.arrays, ∀ c, a.handle = some c → c ∈ before) (p : Owner) :
    ∃ h' b', h.commitBlock before b = some (h', b') ∧ Committed h h' before b.arrays b'.arrays ∧
      Owned h' (reown owner before b'.arrays p) ∧ b'.skeleton = b.skeleton := by
  obtain ⟨h', hd, hc, hw⟩ := commit ho hb hk hm p
  obtain ⟨h1, h2⟩ := TensorBlock.mapAccumData_eq settle h b
  refine ⟨h', (b.mapAccumData settle h).2, ?_, ?_, ?_, TensorBlock.skeleton_mapAccumData _ _ _⟩
  · unfold commitBlock
    simp only [h1, h2, hd]
  · rw [h2]; exact hc
  · rw [h2]; exact hw

theorem commitTensor_spec {h : Heap B} {owner : Nat → Option Owner} (ho : Owned h owner) {before : List CArray}
    (hb : Held owner before) {t : TensorMap (Live B)} (hk : (kept t.arrays).Nodup)
    (hm : ∀ a ∈ t.arrays, ∀ c, a.handle = some c → c ∈ before) (p : Owner) :
    ∃ h' t', h.commitTensor before t = some (h', t') ∧ Committed h h' before t.arrays t'.arrays ∧
      Owned h' (reown owner before t'.arrays p) ∧ t'.skeleton = t.skeleton := by
  obtain ⟨h', hd, hc, hw⟩ := commit ho hb hk hm p
  obtain ⟨h1, h2⟩ := TensorMap.mapAccumData_eq settle h t
  refine ⟨h', (t.mapAccumData settle h).2, ?_, ?_, ?_, TensorMap.skeleton_mapAccumData _ _ _⟩
  · unfold commitTensor
    simp only [h1, h2, hd]
  · rw [h2]; exact hc
  · rw [h2]; exact hw

theorem kept_eq (ls : List (Live B)) : kept ls = (ls.map (·.handle)).filterMap (Option.map (·.ptr)) := by
  rw [kept, List.filterMap_map]; rfl

theorem kept_handles {ls : List (Live B)} {cs : List CArray} (hh : ls.map (·.handle) = cs.map some) :
    kept ls = ids cs := by
  rw [kept_eq, hh, List.filterMap_map]
  simp [ids, Function.comp_def]

theorem kept_none {ls : List (Live B)} (hh : ∀ a ∈ ls, a.handle = none) : kept ls = [] := by
  rw [kept, List.filterMap_eq_nil_iff]
  intro a ha
  rw [hh a ha]; rfl

theorem handle_mem {ls : List (Live B)} {cs : List CArray} (hh : ls.map (·.handle) = cs.map some) :
    ∀ a ∈ ls, ∀ c, a.handle = some c → c ∈ cs := by
  intro a ha c hc
  have : some c ∈ cs.map some := by rw [← hh, ← hc]; exact List.mem_map_of_mem ha
  simpa using this

theorem Committed.same {h h' : Heap B} {before cs cs' : List CArray} {ls : List (Live B)}
    (hc : Committed h h' before ls cs) (hh : ls.map (·.handle) = cs'.map some) : cs = cs' := by
  apply List.ext_getElem
  · rw [← hc.content.length_eq]
    have := congrArg List.length hh
    simpa using this
  · intro i h1 h2
    have hlen := hc.content.length_eq
    have h3 := (hc.content.get (i := i) (by omega) h1).2
    have h4 : ls[i].handle = some cs'[i] := by
      have := List.getElem_of_eq hh (i := i) (by simp; omega)
      simpa using this
    exact h3 _ h4

end Heap
end Equistore
