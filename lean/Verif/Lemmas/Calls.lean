import Verif.Lemmas.Ownership

/-! Calls of the C API keep the ownership invariant. -/

namespace Equistore
namespace Heap
open Spec
variable {B : Type}

/-! ### The invariant of programs -/

/-- What holds for the heap and the knowledge of the program between calls. -/
structure Inv (h : Heap B) (l : Ledger) (owner : Nat → Option Owner) : Prop where
  heap : HeapInv h owner
  arrays : ∀ a, a ∈ l.arrays ↔ owner a = some .program
  blocks : ∀ n, n ∈ l.blocks ↔ (h.object (.block n)).isSome
  tensors : ∀ n, n ∈ l.tensors ↔ (h.object (.tensor n)).isSome
  interior : ∀ q ∈ l.interior, (∃ t v i, q = .inside t v i) ∧ (h.block q).isSome
  views : ∀ v ∈ l.views, ∃ b, h.block v.1 = some b ∧ v.2 ∈ ids b.arrays

/-- The changes of a call: the arrays `before` have changed owner or content, the program got the arrays
`new`. -/
structure Update (h h₂ : Heap B) (owner owner₂ : Nat → Option Owner) (before new : List Nat) : Prop where
  heap : HeapInv h₂ owner₂
  program : ∀ a, owner₂ a = some .program ↔ a ∈ new ∨ (owner a = some .program ∧ a ∉ before)
  frame : ∀ a, (owner a).isSome → a ∉ before → h₂.arrays a = h.arrays a

/-- The block behind this pointer still exists, with all its arrays. -/
def Stays (h h₂ : Heap B) (q : BlockPtr) : Prop :=
  ∀ b, h.block q = some b → ∃ b', h₂.block q = some b' ∧ ∀ a ∈ ids b.arrays, a ∈ ids b'.arrays

theorem Stays.of_object {h h₂ : Heap B} {q : BlockPtr} (ho : h₂.object (target q) = h.object (target q)) :
    Stays h h₂ q := fun b hb => ⟨b, by rw [block_of_object ho, hb], fun _ ha => ha⟩

theorem Inv.of_update {h h₂ : Heap B} {l l₂ : Ledger} {owner owner₂ : Nat → Option Owner} {before new : List Nat}
    (hi : Inv h l owner) (hu : Update h h₂ owner owner₂ before new)
    (harr : ∀ a, a ∈ l₂.arrays ↔ a ∈ new ∨ (a ∈ l.arrays ∧ a ∉ before))
    (hblocks : ∀ n, n ∈ l₂.blocks ↔ (h₂.object (.block n)).isSome)
    (htensors : ∀ n, n ∈ l₂.tensors ↔ (h₂.object (.tensor n)).isSome)
    (hinterior : ∀ q ∈ l₂.interior, q ∈ l.interior ∧ ((h.block q).isSome → Stays h h₂ q))
    (hviews : ∀ v ∈ l₂.views, v ∈ l.views ∧ ((h.block v.1).isSome → Stays h h₂ v.1)) :
    Inv h₂ l₂ owner₂ := by
  refine ⟨hu.heap, ?_, hblocks, htensors, ?_, ?_⟩
  · intro a; rw [harr, hu.program, hi.arrays]
  · intro q hq
    obtain ⟨h1, h2⟩ := hinterior q hq
    obtain ⟨h3, h4⟩ := hi.interior q h1
    obtain ⟨b, hb⟩ := Option.isSome_iff_exists.1 h4
    obtain ⟨b', hb', _⟩ := h2 h4 b hb
    exact ⟨h3, by rw [hb']; rfl⟩
  · intro v hv
    obtain ⟨h1, h2⟩ := hviews v hv
    obtain ⟨b, hb, ha⟩ := hi.views v h1
    obtain ⟨b', hb', hs⟩ := h2 (by rw [hb]; rfl) b hb
    exact ⟨b', hb', hs _ ha⟩

/-- The thing at an address. -/
def Owner.thing : Owner → Option Thing
  | .program => none
  | .block n => some (.block n)
  | .tensor n => some (.tensor n)

/-- The things which are not meant to change have not changed. -/
structure Framed (c : Call B) (h h₂ : Heap B) (owner : Nat → Option Owner) : Prop where
  object : ∀ o x, o.thing = some x → (h.object o).isSome → ¬c.changes x →
    h₂.object o = h.object o ∧ ∀ a, owner a = some o → h₂.arrays a = h.arrays a
  array : ∀ a, owner a = some .program → ¬c.changes (.array a) → h₂.arrays a = h.arrays a

theorem Framed.refl (c : Call B) (h : Heap B) (owner : Nat → Option Owner) : Framed c h h owner :=
  ⟨fun _ _ _ _ _ => ⟨rfl, fun _ _ => rfl⟩, fun _ _ _ => rfl⟩

theorem thing_ne_program {o : Owner} {x : Thing} (hx : o.thing = some x) : o ≠ .program := by
  rintro rfl; cases hx

theorem holder_target {q : BlockPtr} {o : Owner} {x : Thing} (hx : o.thing = some x) (ho : o = target q) :
    holder q = some x := by
  subst ho
  cases q <;> exact hx

section
variable [Inhabited B] [ArrayCallbacks B]

/-- This call is defined, and keeps everything in order. -/
def Good (p : Platform) (h : Heap B) (l : Ledger) (owner : Nat → Option Owner) (c : Call B) : Prop :=
  ∃ h₂ reply, c.run p h = some (h₂, reply) ∧ (∃ owner₂, Inv h₂ (l.record c reply) owner₂) ∧ Framed c h h₂ owner

/-! ### Using the rules -/

variable {h : Heap B} {l : Ledger} {owner : Nat → Option Owner}

theorem Inv.usable (hi : Inv h l owner) {q : BlockPtr} (hq : l.Usable q) (hn : q ≠ .null) :
    ∃ b, h.block q = some b := by
  rcases hq with hq | ⟨n, hm, rfl⟩ | hq
  · exact absurd hq hn
  · exact Option.isSome_iff_exists.1 (object_block_isSome.1 ((hi.blocks n).1 hm))
  · exact Option.isSome_iff_exists.1 (hi.interior q hq).2

theorem Inv.block (hi : Inv h l owner) {n : Nat} (hn : n ∈ l.blocks) : ∃ b, h.blocks n = some b :=
  Option.isSome_iff_exists.1 (object_block_isSome.1 ((hi.blocks n).1 hn))

theorem Inv.tensor (hi : Inv h l owner) {n : Nat} (hn : n ∈ l.tensors) : ∃ t v, h.tensors n = some (t, v) := by
  obtain ⟨⟨t, v⟩, ht⟩ := Option.isSome_iff_exists.1 (object_tensor_isSome.1 ((hi.tensors n).1 hn))
  exact ⟨t, v, ht⟩

theorem Inv.owns (hi : Inv h l owner) {a : CArray} (ha : l.Owns a) :
    owner a.ptr = some .program ∧ Held owner [a] := by
  have := (hi.arrays a.ptr).1 ha.2
  exact ⟨this, Held.single ha.1 (by rw [this]; rfl)⟩

/-- The owner of the arrays of a block. -/
theorem HeapInv.owner_block (hi : HeapInv h owner) {q : BlockPtr} {b : TensorBlock CArray} (hb : h.block q = some b) :
    ∀ a ∈ ids b.arrays, owner a = some (target q) := by
  intro a ha
  obtain ⟨pre, post, h1, _⟩ := block_split hb
  have hp : target q ≠ .program := by
    intro hq
    cases q with
    | null => cases hb
    | owned => cases hq
    | inside => cases hq
  rw [← hi.mem _ hp]
  simp only [held, h1, List.flatMap_append, List.flatMap_cons, ids_append, List.mem_append]
  exact .inr (.inl ha)

theorem HeapInv.mem_blocksOf {q : BlockPtr} {b : TensorBlock CArray} (hb : h.block q = some b) :
    b ∈ h.blocksOf (target q) := by
  obtain ⟨pre, post, h1, _⟩ := block_split hb
  rw [h1]; simp

theorem HeapInv.block_held (hi : HeapInv h owner) {q : BlockPtr} {b : TensorBlock CArray} (hb : h.block q = some b) :
    Held owner b.arrays := by
  obtain ⟨pre, post, h1, _⟩ := block_split hb
  refine (hi.isHeld (target q)).sublist ?_
  simp only [held, h1, List.flatMap_append, List.flatMap_cons]
  exact (List.sublist_append_left _ _).trans (List.sublist_append_right _ _)

/-- Calls which only look at things. -/
theorem good_read (p : Platform) {c : Call B} {reply : Reply} (hi : Inv h l owner) (hr : c.run p h = some (h, reply))
    (hl : l.record c reply = l) : Good p h l owner c :=
  ⟨h, reply, hr, ⟨owner, by rw [hl]; exact hi⟩, Framed.refl c h owner⟩

/-! ### Arrays of the program -/

theorem good_arrayNew (p : Platform) (hi : Inv h l owner) (content : B) : Good p h l owner (.arrayNew content) := by
  obtain ⟨h', hd, hc, hw⟩ := commit hi.heap.owned Held.nil (ls := [⟨none, content⟩]) (by simp [kept]) (by simp) .program
  have hcs : (mapAccum settle h [⟨none, content⟩]).2 = [(h.createArray content).2] := rfl
  have hh : h' = (h.createArray content).1 := by
    have : dropArrays [] (h.createArray content).1 = some h' := hd
    cases this; rfl
  subst hh
  rw [hcs] at hc hw
  have hheap := hi.heap.update hc hw (by simp [kept]) rfl rfl rfl (Nat.le_refl _)
    (fun o _ _ => .inl ⟨rfl, by simp⟩) (fun h => absurd rfl h)
  have hre := fun a => reown_eq hi.heap.owned hc (by simp [kept]) (p := .program) (o := .program) a
  have hframe : ∀ a, (owner a).isSome → (h.createArray content).1.arrays a = h.arrays a :=
    fun a ha => hc.frame a (by simp) (hi.heap.owned.lt ha)
  refine ⟨_, _, rfl, ⟨_, hi.of_update (before := []) (new := [h.next]) ⟨hheap, ?_, ?_⟩ ?_ ?_ ?_ ?_ ?_⟩, ?_⟩
  · intro a; rw [hre]; simp; rfl
  · intro a ha _; exact hframe a ha
  · intro a
    simp only [Ledger.record, List.mem_cons, List.not_mem_nil, or_false, not_false_eq_true, and_true]
    rfl
  · intro n; exact hi.blocks n
  · intro n; exact hi.tensors n
  · intro q hq; exact ⟨hq, fun _ => Stays.of_object rfl⟩
  · intro v hv; exact ⟨hv, fun _ => Stays.of_object rfl⟩
  · exact ⟨fun o x _ _ _ => ⟨rfl, fun a ha => hframe a (by rw [ha]; rfl)⟩, fun a ha _ => hframe a (by rw [ha]; rfl)⟩

/-- Dropping an array of the program. -/
theorem drop_single (hi : Inv h l owner) {a : CArray} (ha : l.Owns a) :
    ∃ h', dropArrays [a] h = some h' ∧ h'.blocks = h.blocks ∧ h'.tensors = h.tensors ∧
      Inv h' (l.dropArray a.ptr) (reown owner [a] [] .program) ∧
      (∀ x, (owner x).isSome → x ≠ a.ptr → h'.arrays x = h.arrays x) := by
  obtain ⟨hop, hheld⟩ := hi.owns ha
  obtain ⟨h', hd, hc, hw⟩ := drop_owned hi.heap.owned hheld .program
  have hobj := object_congr hc.blocks hc.tensors
  have hheap := hi.heap.update hc hw (by simp [kept]) rfl rfl rfl (Nat.le_refl _)
    (fun o h1 _ => .inl ⟨hobj o, fun x hx => by
      rw [ids_cons, ids_nil, List.mem_singleton] at hx
      rw [hx, hop]
      intro h2; cases h2; exact h1 rfl⟩) (fun h => absurd rfl h)
  have hre := fun a' => reown_eq hi.heap.owned hc (by simp [kept]) (p := .program) (o := .program) a'
  have hframe : ∀ x, (owner x).isSome → x ≠ a.ptr → h'.arrays x = h.arrays x :=
    fun x hx hn => hc.frame x (by simpa using hn) (hi.heap.owned.lt hx)
  refine ⟨h', hd, hc.blocks, hc.tensors, hi.of_update (before := [a.ptr]) (new := []) ⟨hheap, ?_, ?_⟩ ?_ ?_ ?_ ?_ ?_, hframe⟩
  · intro x; rw [hre]; simp
  · intro x hx hn; exact hframe x hx (by simpa using hn)
  · intro x; simp [Ledger.dropArray]
  · intro n; rw [hobj]; exact hi.blocks n
  · intro n; rw [hobj]; exact hi.tensors n
  · intro q hq; exact ⟨hq, fun _ => Stays.of_object (hobj _)⟩
  · intro v hv; exact ⟨hv, fun _ => Stays.of_object (hobj _)⟩

/-- A call which only drops an array of the program. -/
theorem good_drop (p : Platform) {c : Call B} {reply : Reply} (hi : Inv h l owner) {a : CArray} (ha : l.Owns a)
    (hr : c.run p h = (dropArrays [a] h).map fun h => (h, reply)) (hl : l.record c reply = l.dropArray a.ptr)
    (hc : c.changes (.array a.ptr)) : Good p h l owner c := by
  obtain ⟨h', hd, hb, ht, hinv, hframe⟩ := drop_single hi ha
  have hop := (hi.owns ha).1
  refine ⟨h', reply, by rw [hr, hd]; rfl, ⟨_, by rw [hl]; exact hinv⟩, ?_, ?_⟩
  · intro o x hx _ _
    refine ⟨object_congr hb ht o, fun y hy => hframe y (by rw [hy]; rfl) ?_⟩
    rintro rfl
    rw [hop] at hy
    cases hy
    cases hx
  · intro y hy hn
    refine hframe y (by rw [hy]; rfl) ?_
    rintro rfl
    exact hn hc

theorem dropArrays_single (a : CArray) : dropArrays [a] h = h.dropArray a := by
  simp only [dropArrays]
  cases h.dropArray a <;> rfl

theorem good_arrayDestroy (p : Platform) (hi : Inv h l owner) {a : CArray}
    (ha : (Call.arrayDestroy a : Call B).Allowed l) : Good p h l owner (.arrayDestroy a) := by
  rcases ha with ha | ha
  · exact good_drop p hi ha (reply := .other) (by rw [dropArrays_single]; rfl)
      (by simp [Ledger.record, ha.1]) rfl
  · exact good_read p hi (reply := .other) (by simp [Call.run, dropArray, ha]) (by simp [Ledger.record, ha])

/-- Changing the content of one array. -/
theorem write_inv (hi : Inv h l owner) {a : Nat} {x y : B} (hx : h.arrays a = some x) :
    Inv { h with arrays := setAt h.arrays a (some y) } l owner := by
  refine ⟨⟨⟨?_, hi.heap.owned.created, hi.heap.owned.destroyed, hi.heap.owned.nodup, hi.heap.owned.createdNodup,
    hi.heap.owned.fresh⟩, hi.heap.destroy, hi.heap.nodup, hi.heap.mem, hi.heap.named, hi.heap.fresh⟩, hi.arrays,
    hi.blocks, hi.tensors, hi.interior, hi.views⟩
  intro b
  rw [← hi.heap.owned.alive b]
  show (setAt h.arrays a (some y) b).isSome ↔ _
  unfold setAt
  split
  · rename_i heq; subst heq; rw [hx]; simp
  · rfl

theorem good_arrayWrite (p : Platform) (hi : Inv h l owner) {access : Access} {change : B → B}
    (ha : (Call.arrayWrite access change).Allowed l) : Good p h l owner (.arrayWrite access change) := by
  cases access with
  | own a =>
    have hop := (hi.arrays a).1 ha
    obtain ⟨x, hx⟩ := Option.isSome_iff_exists.1 ((hi.heap.owned.alive a).2 (by rw [hop]; rfl))
    refine ⟨_, .other, by simp only [Call.run, hx]; rfl, ⟨owner, write_inv hi hx⟩, ?_, ?_⟩
    · intro o y hy _ _
      refine ⟨rfl, fun b hb => if_neg ?_⟩
      rintro rfl
      rw [hop] at hb
      cases hb
      cases hy
    · intro b _ hn
      refine if_neg ?_
      rintro rfl
      exact hn rfl
  | view q a =>
    obtain ⟨b, hb, hm⟩ := hi.views _ ha
    have hop := hi.heap.owner_block hb a hm
    obtain ⟨x, hx⟩ := Option.isSome_iff_exists.1 ((hi.heap.owned.alive a).2 (by rw [hop]; rfl))
    refine ⟨_, .other, by simp only [Call.run, hx]; rfl, ⟨owner, write_inv hi hx⟩, ?_, ?_⟩
    · intro o y hy _ hn
      refine ⟨rfl, fun c hc => if_neg ?_⟩
      rintro rfl
      rw [hop, Option.some.injEq] at hc
      exact hn (holder_target hy hc.symm)
    · intro c hc _
      refine if_neg ?_
      rintro rfl
      rw [hop, Option.some.injEq] at hc
      cases q with
      | null => cases hb
      | owned => cases hc
      | inside => cases hc

end
end Heap
end Equistore
