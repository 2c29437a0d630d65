import Verif.Lemmas.Calls

/-! The functions of the C API for blocks keep the ownership invariant. -/

namespace Equistore
namespace Heap
open Spec
variable {B : Type} [Inhabited B] [ArrayCallbacks B] {h : Heap B} {l : Ledger} {owner : Nat → Option Owner}

/-- A new block at the end of the heap. -/
theorem put_block (hi : Inv h l owner) {before : List CArray} {ls : List (Live B)} {b : TensorBlock CArray}
    {h₁ : Heap B} (hc : Committed h h₁ before ls b.arrays) (hkept : ∀ a ∈ kept ls, a ∈ ids before)
    (hw : Owned h₁ (reown owner before b.arrays (.block h₁.next))) (hb : b.Named)
    (hprog : ∀ a ∈ ids before, owner a = some .program) {l₂ : Ledger}
    (harr : ∀ a, a ∈ l₂.arrays ↔ a ∈ l.arrays ∧ a ∉ ids before) (hbl : l₂.blocks = h₁.next :: l.blocks)
    (htn : l₂.tensors = l.tensors) (hint : l₂.interior = l.interior) (hvw : l₂.views = l.views) :
    (∃ owner₂, Inv (h₁.putBlock b).1 l₂ owner₂) ∧
    (∀ o, (h.object o).isSome → (h₁.putBlock b).1.object o = h.object o) ∧
    (∀ a, (owner a).isSome → a ∉ ids before → (h₁.putBlock b).1.arrays a = h.arrays a) := by
  have hobj₁ := object_congr hc.blocks hc.tensors
  have hnone : h.object (.block h₁.next) = none := by
    cases hx : h.object (.block h₁.next) with
    | none => rfl
    | some x =>
      have := hi.heap.fresh (.block h₁.next) (by rw [hx]; rfl)
      have h2 := hc.next
      simp only [Owner.address] at this
      omega
  have hobj : ∀ o, o ≠ .block h₁.next → (h₁.putBlock b).1.object o = h.object o := by
    intro o ho
    rw [← hobj₁ o]
    cases o with
    | block m =>
      have : m ≠ h₁.next := fun heq => ho (by rw [heq])
      simp [object, putBlock, setAt, this]
    | _ => rfl
  have hnew : (h₁.putBlock b).1.object (.block h₁.next) = some (.block b) := by
    simp [object, putBlock, setAt]
  have hheld : (h₁.putBlock b).1.held (.block h₁.next) = b.arrays := by
    simp [held, blocksOf, hnew, Object.blocks]
  have hheap := hi.heap.update (h₂ := (h₁.putBlock b).1) hc hw hkept rfl rfl rfl (Nat.le_succ _)
    (fun o h1 h2 => .inl ⟨hobj o h1, fun a ha => by
      rw [hprog a ha]; intro h3; cases h3; exact h2 rfl⟩)
    (fun _ => by
      refine ⟨?_, ?_, ?_, ?_, fun _ => Nat.lt_succ_self _⟩
      · rw [hheld]; exact hc.destroy
      · rw [hheld]; exact hc.nodup
      · intro a; rw [hheld, held_none hnone]; simp
      · intro b' hb'
        rw [blocksOf, hnew] at hb'
        simp only [Object.blocks, List.mem_singleton] at hb'
        rw [hb']; exact hb)
  have hsome : ∀ o, (h.object o).isSome → o ≠ .block h₁.next := by
    rintro o ho rfl
    rw [hnone] at ho; cases ho
  have hframe : ∀ a, (owner a).isSome → a ∉ ids before → (h₁.putBlock b).1.arrays a = h.arrays a :=
    fun a ha hn => hc.frame a hn (hi.heap.owned.lt ha)
  have hstay : ∀ q, (h.block q).isSome → Stays h (h₁.putBlock b).1 q := by
    intro q hq
    obtain ⟨c, hq⟩ := Option.isSome_iff_exists.1 hq
    exact Stays.of_object (hobj _ (hsome _ (block_isSome_object hq)))
  refine ⟨⟨_, hi.of_update (before := ids before) (new := []) ⟨hheap, ?_, hframe⟩ ?_ ?_ ?_ ?_ ?_⟩,
    fun o ho => hobj o (hsome o ho), hframe⟩
  · intro a
    rw [reown_eq hi.heap.owned hc hkept]
    simp
  · intro a; rw [harr]; simp
  · intro n
    rw [hbl, List.mem_cons, hi.blocks n]
    by_cases hn : n = h₁.next
    · subst hn; simp [hnew]
    · rw [hobj (.block n) (by simpa using hn)]; simp [hn]
  · intro n; rw [htn, hobj (.tensor n) (by simp)]; exact hi.tensors n
  · intro q hq; rw [hint] at hq; exact ⟨hq, hstay q⟩
  · intro v hv; rw [hvw] at hv; exact ⟨hv, hstay v.1⟩

theorem good_block (p : Platform) (hi : Inv h l owner) {data : CArray} {samples properties : CLabels}
    {components : List CLabels} (ha : l.Owns data) :
    Good p h l owner (.block data samples components properties) := by
  obtain ⟨hop, hheld⟩ := hi.owns ha
  obtain ⟨x, hx⟩ := Option.isSome_iff_exists.1 ((hi.heap.owned.alive data.ptr).2 (by rw [hop]; rfl))
  have hlive : h.live data = some ⟨some data, x⟩ := by simp [live, hx]
  cases hres : blockOfC (⟨some data, x⟩ : Live B) samples components properties with
  | err e =>
    refine good_drop p hi ha (reply := .block (.err e)) ?_ rfl rfl
    simp only [Call.run, eqsBlock, hlive, hres, Option.map_map]
    rfl
  | panic m =>
    refine good_drop p hi ha (reply := .block (.panic m)) ?_ rfl rfl
    simp only [Call.run, eqsBlock, hlive, hres, Option.map_map]
    rfl
  | ok block =>
    have hres' := hres
    simp only [blockOfC, Res.bind_eq_ok] at hres
    obtain ⟨_, _, _, _, _, _, hnew⟩ := hres
    obtain ⟨harrays, hnamed⟩ := TensorBlock.new_arrays hnew
    have hh : block.arrays.map (·.handle) = [data].map some := by rw [harrays]; rfl
    have hk : (kept block.arrays).Nodup := by rw [kept_handles hh]; exact hheld.nodup
    obtain ⟨h₁, b, hcb, hc, _, hsk⟩ := commitBlock_spec hi.heap.owned hheld hk (handle_mem hh) .program
    obtain ⟨h₁', b', hcb', hc', hw', hsk'⟩ := commitBlock_spec hi.heap.owned hheld hk (handle_mem hh) (.block h₁.next)
    rw [hcb] at hcb'
    cases hcb'
    have hput := put_block hi hc (kept_subset (handle_mem hh)) hw' (hnamed.of_skeleton hsk)
      (fun a ha => by
        rw [ids_cons, ids_nil, List.mem_singleton] at ha
        rw [ha]; exact hop)
      (l₂ := { l.dropArray data.ptr with blocks := h₁.next :: l.blocks })
      (fun a => by simp [Ledger.dropArray]) rfl rfl rfl rfl
    obtain ⟨hinv, hobj, hframe⟩ := hput
    refine ⟨(h₁.putBlock b).1, .block (.ok h₁.next), ?_, hinv, ?_, ?_⟩
    · simp only [Call.run, eqsBlock, hlive, hres', hcb]
      rfl
    · intro o y hy ho _
      refine ⟨hobj o ho, fun a ha => hframe a (by rw [ha]; rfl) ?_⟩
      rw [ids_cons, ids_nil, List.mem_singleton]
      rintro rfl
      rw [hop] at ha
      cases ha
      cases hy
    · intro a ha hn
      refine hframe a (by rw [ha]; rfl) ?_
      rw [ids_cons, ids_nil, List.mem_singleton]
      rintro rfl
      exact hn rfl

/-- Taking an object away, with all its arrays. -/
theorem remove_object (hi : Inv h l owner) (o : Owner) {h₁ h₂ : Heap B}
    (hc : Committed h h₁ (h.held o) [] []) (hw : Owned h₁ (reown owner (h.held o) [] .program))
    (harr : h₂.arrays = h₁.arrays) (hcr : h₂.created = h₁.created) (hds : h₂.destroyed = h₁.destroyed)
    (hn : h₁.next ≤ h₂.next) (hgone : h₂.object o = none) (hobj : ∀ o', o' ≠ o → h₂.object o' = h.object o')
    (hp : o ≠ .program) : Update h h₂ owner (reown owner (h.held o) [] .program) (ids (h.held o)) [] := by
  refine ⟨hi.heap.update hc hw (by simp [kept]) harr hcr hds hn ?_ (fun h => absurd rfl h), ?_, ?_⟩
  · intro o' _ hp'
    by_cases heq : o' = o
    · subst heq
      exact .inr ⟨hgone, fun a ha => (hi.heap.mem o' hp a).2 ha⟩
    · refine .inl ⟨hobj o' heq, fun a ha hx => ?_⟩
      rw [hi.heap.mem o hp, hx, Option.some.injEq] at ha
      exact heq ha
  · intro a
    rw [reown_eq hi.heap.owned hc (by simp [kept])]
    simp
  · intro a ha hn
    rw [harr]
    exact hc.frame a hn (hi.heap.owned.lt ha)

theorem good_blockFree (p : Platform) (hi : Inv h l owner) {q : BlockPtr}
    (ha : (Call.blockFree q : Call B).Allowed l) : Good p h l owner (.blockFree q) := by
  rcases ha with rfl | ⟨n, hn, rfl⟩
  · exact good_read p hi (reply := .done (.ok ())) rfl rfl
  · obtain ⟨b, hb⟩ := hi.block hn
    have hheld : h.held (.block n) = b.arrays := by simp [held, blocksOf, object, hb, Object.blocks]
    obtain ⟨h₁, hd, hc, hw⟩ := drop_owned hi.heap.owned (hi.heap.isHeld (.block n)) .program
    have hobj : ∀ o', o' ≠ .block n →
        ({ h₁ with blocks := setAt h₁.blocks n none } : Heap B).object o' = h.object o' := by
      intro o' ho
      rw [← object_congr hc.blocks hc.tensors o']
      cases o' with
      | block m =>
        have : m ≠ n := fun heq => ho (by rw [heq])
        simp [object, setAt, this]
      | _ => rfl
    have hgone : ({ h₁ with blocks := setAt h₁.blocks n none } : Heap B).object (.block n) = none := by
      simp [object, setAt]
    have hu := remove_object hi (.block n) (h₂ := { h₁ with blocks := setAt h₁.blocks n none }) hc hw rfl rfl rfl
      (Nat.le_refl _) hgone hobj (by simp)
    have hstay : ∀ q, q ≠ .owned n → Stays h { h₁ with blocks := setAt h₁.blocks n none } q := by
      intro q hq
      refine Stays.of_object (hobj _ ?_)
      intro ht
      cases q with
      | null => cases ht
      | owned m => cases ht; exact hq rfl
      | inside => cases ht
    refine ⟨_, .done (.ok ()), ?_, ⟨_, hi.of_update hu ?_ ?_ ?_ ?_ ?_⟩, ?_, ?_⟩
    · simp only [Call.run, eqsBlockFree, hb]
      rw [← hheld, hd]; rfl
    · intro a
      show a ∈ l.arrays ↔ _
      simp only [List.not_mem_nil, false_or]
      refine ⟨fun h1 => ⟨h1, fun h2 => ?_⟩, fun h1 => h1.1⟩
      rw [hi.heap.mem _ (by simp), (hi.arrays a).1 h1] at h2
      cases h2
    · intro m
      show m ∈ l.blocks.filter (· ≠ n) ↔ _
      by_cases hm : m = n
      · subst hm; simp [hgone]
      · rw [hobj (.block m) (by simpa using hm), List.mem_filter, hi.blocks]; simp [hm]
    · intro m; rw [hobj (.tensor m) (by simp)]; exact hi.tensors m
    · intro q hq
      refine ⟨hq, fun _ => hstay q ?_⟩
      rintro rfl
      obtain ⟨⟨t, v, i, h1⟩, _⟩ := hi.interior _ hq
      cases h1
    · intro v hv
      obtain ⟨h1, h2⟩ := List.mem_filter.1 (show v ∈ l.views.filter fun v => v.1 ≠ .owned n from hv)
      exact ⟨h1, fun _ => hstay v.1 (by simpa using h2)⟩
    · intro o x hx _ hnc
      have hne : o ≠ .block n := by
        rintro rfl
        cases hx
        exact hnc rfl
      refine ⟨hobj o hne, fun a ha => hu.frame a (by rw [ha]; rfl) fun h1 => ?_⟩
      rw [hi.heap.mem _ (by simp), ha, Option.some.injEq] at h1
      exact hne h1
    · intro a ha _
      refine hu.frame a (by rw [ha]; rfl) fun h1 => ?_
      rw [hi.heap.mem _ (by simp), ha] at h1
      cases h1

/-- The bytes of a block, as seen by Rust. -/
def thawed (h : Heap B) (a : CArray) : Live B := { handle := some a, content := (h.arrays a.ptr).getD default }

theorem thawed_handles (h : Heap B) (cs : List CArray) : (cs.map (thawed h)).map (·.handle) = cs.map some := by
  simp [thawed, Function.comp_def]

theorem HeapInv.block_named (hi : HeapInv h owner) {q : BlockPtr} {b : TensorBlock CArray}
    (hb : h.block q = some b) : b.Named := hi.named _ b (HeapInv.mem_blocksOf hb)

theorem good_blockCopy (p : Platform) (hi : Inv h l owner) {q : BlockPtr} (ha : l.Usable q) :
    Good p h l owner (.blockCopy q) := by
  by_cases hq : q = .null
  · subst hq
    exact good_read p hi (reply := .block nullBlock) rfl rfl
  obtain ⟨b, hb⟩ := hi.usable ha hq
  have hthaw : h.thawBlock b = some (b.mapData (thawed h)) := hi.heap.thawBlock (HeapInv.mem_blocksOf hb)
  cases hcl : cloneBlock (b.mapData (thawed h)) with
  | err e =>
    refine good_read p hi (reply := .block (.err e)) ?_ rfl
    simp [Call.run, eqsBlockCopy, hq, hb, hthaw, hcl]
  | panic m =>
    refine good_read p hi (reply := .block (.panic m)) ?_ rfl
    simp [Call.run, eqsBlockCopy, hq, hb, hthaw, hcl]
  | ok copy =>
    obtain ⟨hsk, hall⟩ := cloneBlock_ok hcl
    have hnone : ∀ a ∈ copy.arrays, a.handle = none := by
      intro a ha
      obtain ⟨i, hi, rfl⟩ := List.getElem_of_mem ha
      exact (hall.get (by rw [hall.length_eq]; exact hi) hi).1
    have hm : ∀ a ∈ copy.arrays, ∀ c, a.handle = some c → c ∈ ([] : List CArray) := by
      intro a ha c hc; rw [hnone a ha] at hc; cases hc
    have hk : (kept copy.arrays).Nodup := by rw [kept_none hnone]; exact List.nodup_nil
    obtain ⟨h₁, b', hcb, hc, _, hsk'⟩ := commitBlock_spec hi.heap.owned Held.nil hk hm .program
    obtain ⟨_, _, hcb', _, hw, _⟩ := commitBlock_spec hi.heap.owned Held.nil hk hm (.block h₁.next)
    rw [hcb] at hcb'
    cases hcb'
    have hnamed : b'.Named := (hi.heap.block_named hb).of_skeleton
      (by rw [hsk', hsk, TensorBlock.skeleton_mapData])
    obtain ⟨hinv, hobj, hframe⟩ := put_block hi hc (kept_subset hm) hw hnamed (by simp)
      (l₂ := { l with blocks := h₁.next :: l.blocks }) (by simp) rfl rfl rfl rfl
    refine ⟨(h₁.putBlock b').1, .block (.ok h₁.next), ?_, hinv, ?_, ?_⟩
    · simp only [Call.run, eqsBlockCopy, hq, hb, hthaw, hcl, hcb, if_false]
      rfl
    · intro o x _ ho _
      exact ⟨hobj o ho, fun a ha => hframe a (by rw [ha]; rfl) (by simp)⟩
    · intro a ha _
      exact hframe a (by rw [ha]; rfl) (by simp)

theorem good_blockLabels (p : Platform) (hi : Inv h l owner) {q : BlockPtr} {name : Bytes} {axis : Nat}
    (ha : l.Usable q) : Good p h l owner (.blockLabels q name axis) := by
  refine good_read p hi (reply := .other) ?_ rfl
  by_cases hq : q = .null
  · simp [Call.run, eqsBlockLabels, hq]
  · obtain ⟨b, hb⟩ := hi.usable ha hq
    simp [Call.run, eqsBlockLabels, hq, hb]

theorem good_blockGradientsList (p : Platform) (hi : Inv h l owner) {q : BlockPtr} (ha : l.Usable q) :
    Good p h l owner (.blockGradientsList q) := by
  refine good_read p hi (reply := .other) ?_ rfl
  by_cases hq : q = .null
  · simp [Call.run, eqsBlockGradientsList, hq]
  · obtain ⟨b, hb⟩ := hi.usable ha hq
    simp [Call.run, eqsBlockGradientsList, hq, hb]

theorem mem_of_lookup {α : Type} {l : List (String × α)} {k : String} {v : α} (hl : l.lookup k = some v) :
    (k, v) ∈ l := by
  induction l with
  | nil => cases hl
  | cons a l ih =>
    obtain ⟨k', v'⟩ := a
    rw [List.lookup_cons] at hl
    split at hl
    · rename_i heq
      cases hl
      rw [beq_iff_eq] at heq
      subst heq
      exact List.mem_cons_self
    · exact List.mem_cons_of_mem _ (ih hl)

theorem selectBasic_mem {b : TensorBlock CArray} {name : Bytes} {x : BasicBlock CArray}
    (hs : selectBasic b name = .ok x) : x.data ∈ b.arrays := by
  have key : x = b.values ∨ ∃ n, (n, x) ∈ b.gradients := by
    unfold selectBasic at hs
    simp only [Res.bind_eq_ok] at hs
    obtain ⟨n, _, hs⟩ := hs
    split at hs
    · cases hs; exact .inl rfl
    · rw [Res.okOr_eq_ok] at hs
      exact .inr ⟨_, mem_of_lookup hs⟩
  rcases key with rfl | ⟨n, hn⟩
  · exact List.mem_cons_self
  · exact List.mem_cons_of_mem _ (List.mem_map.2 ⟨_, hn, rfl⟩)

theorem good_blockData (p : Platform) (hi : Inv h l owner) {q : BlockPtr} {name : Bytes} {old : CArray}
    (ha : l.Usable q) (hold : old.destroy = false) : Good p h l owner (.blockData q name old) := by
  by_cases hq : q = .null
  · subst hq
    exact good_read p hi (reply := .array nullBlock) rfl rfl
  obtain ⟨b, hb⟩ := hi.usable ha hq
  cases hs : selectBasic b name with
  | err e =>
    refine good_read p hi (reply := .array (.err e)) ?_ rfl
    simp [Call.run, eqsBlockData, hq, hb, hs]
  | panic m =>
    refine good_read p hi (reply := .array (.panic m)) ?_ rfl
    simp [Call.run, eqsBlockData, hq, hb, hs]
  | ok x =>
    refine ⟨h, .array (.ok { ptr := x.data.ptr, destroy := false }), ?_, ⟨owner, ?_⟩, Framed.refl _ _ _⟩
    · simp [Call.run, eqsBlockData, hq, hb, hs, dropArray, hold]
    · refine ⟨hi.heap, hi.arrays, hi.blocks, hi.tensors, hi.interior, ?_⟩
      intro v hv
      rcases List.mem_cons.1 (show v ∈ (q, x.data.ptr) :: l.views from hv) with rfl | hv
      · exact ⟨b, hb, List.mem_map.2 ⟨_, selectBasic_mem hs, rfl⟩⟩
      · exact hi.views v hv

/-- A function which changes a block in place, and gets an array of the program. -/
theorem good_addGradient (p : Platform) (hi : Inv h l owner) {q : BlockPtr} {name : Option Bytes} {data : CArray}
    {samples : CLabels} {components : List CLabels} (ha : l.Usable q) (hd : l.Owns data) :
    Good p h l owner (.blockAddGradient q name data samples components) := by
  by_cases hq : q = .null
  · subst hq
    refine good_drop p hi hd (reply := .done nullBlock) ?_ rfl (.inr rfl)
    simp only [Call.run, eqsBlockAddGradient, if_true, Option.map_map]
    rfl
  obtain ⟨b, hb⟩ := hi.usable ha hq
  obtain ⟨hop, hdheld⟩ := hi.owns hd
  obtain ⟨x, hx⟩ := Option.isSome_iff_exists.1 ((hi.heap.owned.alive data.ptr).2 (by rw [hop]; rfl))
  have hlive : h.live data = some ⟨some data, x⟩ := by simp [live, hx]
  have hthaw : h.thawBlock b = some (b.mapData (thawed h)) := hi.heap.thawBlock (HeapInv.mem_blocksOf hb)
  have hbown := hi.heap.owner_block hb
  have htp : target q ≠ .program := by
    cases q with
    | null => exact absurd rfl hq
    | owned => simp [target]
    | inside => simp [target]
  have hdisj : ∀ a ∈ ids b.arrays, a ≠ data.ptr := by
    rintro a ha rfl
    have := hbown _ ha
    rw [hop, Option.some.injEq] at this
    exact htp this.symm
  have hheld : Held owner (b.arrays ++ [data]) := (hi.heap.block_held hb).append hdheld (by
    intro a ha
    rw [ids_cons, ids_nil, List.mem_singleton]
    exact hdisj a ha)
  have hprop : ∀ s : TensorBlock (Live B), ((addGradientOfC name ⟨some data, x⟩ samples components s).1.arrays = s.arrays ∨
      (addGradientOfC name ⟨some data, x⟩ samples components s).1.arrays = s.arrays ++ [⟨some data, x⟩]) ∧
      (s.Named → (addGradientOfC name ⟨some data, x⟩ samples components s).1.Named) := by
    intro s
    have hlift : ∀ {α : Type} (r : Res α) (f : α → Act (TensorBlock (Live B)) Unit) (s : TensorBlock (Live B)),
        (∀ a, ((f a s).1.arrays = s.arrays ∨ (f a s).1.arrays = s.arrays ++ [⟨some data, x⟩]) ∧
          (s.Named → (f a s).1.Named)) →
        (((Act.lift r >>= f) s).1.arrays = s.arrays ∨
          ((Act.lift r >>= f) s).1.arrays = s.arrays ++ [⟨some data, x⟩]) ∧ (s.Named → ((Act.lift r >>= f) s).1.Named) := by
      intro α r f s hf
      rw [Act.lift_bind]
      cases r with
      | ok a => exact hf a
      | err e => exact ⟨.inl rfl, id⟩
      | panic m => exact ⟨.inl rfl, id⟩
    refine hlift _ _ _ fun _ => hlift _ _ _ fun _ => hlift _ _ _ fun _ => hlift _ _ _ fun _ => ?_
    exact TensorBlock.addGradient_arrays s _ _ _ _
  obtain ⟨harrays, hnamed⟩ := hprop (b.mapData (thawed h))
  have hnamed := hnamed ((hi.heap.block_named hb).of_skeleton (TensorBlock.skeleton_mapData _ _))
  have hrun : eqsBlockAddGradient q name data samples components h =
      (match h.commitBlock (b.arrays ++ [data])
          (addGradientOfC name ⟨some data, x⟩ samples components (b.mapData (thawed h))).1 with
      | none => none
      | some (h₁, b₁) => some (h₁.setBlock b₁ q,
          (addGradientOfC name ⟨some data, x⟩ samples components (b.mapData (thawed h))).2)) := by
    simp only [eqsBlockAddGradient, if_neg hq, hb, hlive, hthaw]
    rfl
  generalize addGradientOfC name ⟨some data, x⟩ samples components (b.mapData (thawed h)) = result at *
  obtain ⟨cs, hcs, hsub⟩ : ∃ cs, result.1.arrays.map (·.handle) = cs.map some ∧
      (cs = b.arrays ∨ cs = b.arrays ++ [data]) := by
    rw [TensorBlock.arrays_mapData] at harrays
    rcases harrays with h1 | h1
    · exact ⟨b.arrays, by rw [h1, thawed_handles], .inl rfl⟩
    · exact ⟨b.arrays ++ [data], by rw [h1, List.map_append, thawed_handles]; simp, .inr rfl⟩
  have hcsub : ∀ c ∈ cs, c ∈ b.arrays ++ [data] := by
    rcases hsub with rfl | rfl
    · exact fun c hc => List.mem_append_left _ hc
    · exact fun c hc => hc
  have hcsnd : (ids cs).Nodup := by
    rcases hsub with rfl | rfl
    · exact (hi.heap.block_held hb).nodup
    · exact hheld.nodup
  have hbsub : ∀ a ∈ ids b.arrays, a ∈ ids cs := by
    rcases hsub with rfl | rfl
    · exact fun a ha => ha
    · intro a ha; rw [ids_append]; exact List.mem_append_left _ ha
  have hk : (kept result.1.arrays).Nodup := by rw [kept_handles hcs]; exact hcsnd
  have hm : ∀ a ∈ result.1.arrays, ∀ c, a.handle = some c → c ∈ b.arrays ++ [data] :=
    fun a ha c hc => hcsub c (handle_mem hcs a ha c hc)
  obtain ⟨h₁, b₁, hcb, hc, hw, hsk⟩ := commitBlock_spec hi.heap.owned hheld hk hm (target q)
  have hb₁ : b₁.arrays = cs := hc.same hcs
  rw [hb₁] at hc hw
  rw [hcb] at hrun
  have hobj₁ := object_congr hc.blocks hc.tensors
  have hobj : ∀ o, o ≠ target q → (h₁.setBlock b₁ q).object o = h.object o :=
    fun o ho => (setBlock_object_ne ho).trans (hobj₁ o)
  obtain ⟨pre, post, hpre, hset⟩ := block_split hb
  have hset := hset h₁ b₁ (hobj₁ _)
  obtain ⟨hf1, hf2, hf3, hf4⟩ := setBlock_fields (h := h₁) (q := q) (b := b₁)
  have hheldq : h.held (target q) = pre.flatMap TensorBlock.arrays ++ (b.arrays ++ post.flatMap TensorBlock.arrays) := by
    simp [held, hpre]
  have hheldq₂ : (h₁.setBlock b₁ q).held (target q) =
      pre.flatMap TensorBlock.arrays ++ (cs ++ post.flatMap TensorBlock.arrays) := by
    simp [held, hset, hb₁]
  have hids : ∀ a, a ∈ ids (b.arrays ++ [data]) ↔ a ∈ ids b.arrays ∨ a = data.ptr := by
    intro a; simp
  have hsome : (h.object (target q)).isSome := block_isSome_object hb
  have hheap := hi.heap.update (h₂ := h₁.setBlock b₁ q) hc hw (kept_subset hm) hf1 hf2 hf3 (by omega)
    (fun o h1 h2 => .inl ⟨hobj o h1, fun a ha heq => by
      rcases (hids a).1 ha with h3 | rfl
      · rw [hbown a h3, Option.some.injEq] at heq
        exact h1 heq.symm
      · rw [hop, Option.some.injEq] at heq
        exact h2 heq.symm⟩)
    (fun _ => by
      have hnd := hi.heap.nodup (target q)
      have hmem := hi.heap.mem (target q) htp
      rw [hheldq] at hnd
      rw [hheldq] at hmem
      have hdata : data.ptr ∉ ids (pre.flatMap TensorBlock.arrays ++ (b.arrays ++ post.flatMap TensorBlock.arrays)) := by
        rw [hmem, hop, Option.some.injEq]
        exact fun h => htp h.symm
      refine ⟨?_, ?_, ?_, ?_, fun _ => ?_⟩
      · rw [hheldq₂]
        have hdst := hi.heap.destroy (target q)
        rw [hheldq] at hdst
        intro c hc'
        simp only [List.mem_append] at hc' hdst
        rcases hc' with h1 | h1 | h1
        · exact hdst c (.inl h1)
        · exact hheld.destroy c (hcsub c h1)
        · exact hdst c (.inr (.inr h1))
      · rw [hheldq₂]
        rcases hsub with rfl | rfl
        · exact hnd
        · simp only [ids_append, ids_cons, ids_nil, List.mem_append, not_or, List.nodup_append'] at hnd hdata ⊢
          obtain ⟨hn1, ⟨hn2, hn3, hn4⟩, hn5⟩ := hnd
          obtain ⟨hd1, hd2, hd3⟩ := hdata
          refine ⟨hn1, ⟨⟨hn2, by simp, ?_⟩, hn3, ?_⟩, ?_⟩
          · intro a h1 h2
            rw [List.mem_singleton] at h2; subst h2; exact hd2 h1
          · intro a h1 h2
            rw [List.mem_append, List.mem_singleton] at h1
            rcases h1 with h1 | rfl
            · exact hn4 h1 h2
            · exact hd3 h2
          · intro a h1 h2
            simp only [List.mem_append, List.mem_singleton] at h2
            rcases h2 with (h2 | rfl) | h2
            · exact hn5 h1 (List.mem_append_left _ h2)
            · exact hd1 h1
            · exact hn5 h1 (List.mem_append_right _ h2)
      · intro a
        rw [hheldq₂, hheldq]
        simp only [ids_append, ids_cons, ids_nil, List.mem_append, List.mem_singleton, not_or] at hdata ⊢
        simp only [ids_append, List.nodup_append'] at hnd
        obtain ⟨hn1, ⟨hn2, hn3, hn4⟩, hn5⟩ := hnd
        constructor
        · rintro (h1 | h1 | h1)
          · refine .inr ⟨.inl h1, fun h2 => hn5 h1 (List.mem_append_left _ h2), ?_⟩
            rintro rfl; exact hdata.1 h1
          · exact .inl h1
          · refine .inr ⟨.inr (.inr h1), fun h2 => hn4 h2 h1, ?_⟩
            rintro rfl; exact hdata.2.2 h1
        · rintro (h1 | ⟨h1 | h1 | h1, h2, h3⟩)
          · exact .inr (.inl h1)
          · exact .inl h1
          · exact absurd h1 h2
          · exact .inr (.inr h1)
      · rw [hset]
        have hnm := hi.heap.named (target q)
        rw [hpre] at hnm
        intro b' hb'
        simp only [List.mem_append, List.mem_cons] at hb' hnm
        rcases hb' with h1 | rfl | h1
        · exact hnm b' (.inl h1)
        · exact hnamed.of_skeleton hsk
        · exact hnm b' (.inr (.inr h1))
      · have h1 := hi.heap.fresh _ hsome
        have h2 := hc.next
        omega)
  have hframe : ∀ a, (owner a).isSome → a ∉ ids (b.arrays ++ [data]) → (h₁.setBlock b₁ q).arrays a = h.arrays a := by
    intro a h1 h2
    rw [hf1]
    exact hc.frame a h2 (hi.heap.owned.lt h1)
  have hstay : ∀ q', (h.block q').isSome → Stays h (h₁.setBlock b₁ q) q' := by
    intro q' _ c hc'
    refine ⟨_, setBlock_block hb hobj₁ hc', ?_⟩
    split
    · rename_i heq
      subst heq
      rw [hb] at hc'
      cases hc'
      rw [hb₁]; exact hbsub
    · exact fun a ha => ha
  have hobjs : ∀ o, ((h₁.setBlock b₁ q).object o).isSome ↔ (h.object o).isSome := by
    intro o
    by_cases ho : o = target q
    · subst ho
      rw [iff_true_right hsome]
      exact block_isSome_object (setBlock_block hb hobj₁ hb)
    · rw [hobj o ho]
  refine ⟨h₁.setBlock b₁ q, .done result.2, by simp only [Call.run, hrun]; rfl,
    ⟨_, hi.of_update (before := ids (b.arrays ++ [data])) (new := []) ⟨hheap, ?_, hframe⟩ ?_ ?_ ?_ ?_ ?_⟩, ?_, ?_⟩
  · intro a
    rw [reown_eq hi.heap.owned hc (kept_subset hm)]
    simp [htp.symm]
  · intro a
    show a ∈ l.arrays.filter (· ≠ data.ptr) ↔ _
    rw [List.mem_filter, hids]
    simp only [ne_eq, decide_not, Bool.not_eq_eq_eq_not, Bool.not_true, decide_eq_false_iff_not, List.not_mem_nil,
      not_or, false_or]
    refine ⟨fun h1 => ⟨h1.1, fun h2 => ?_, h1.2⟩, fun h1 => ⟨h1.1, h1.2.2⟩⟩
    have h3 := hbown a h2
    rw [(hi.arrays a).1 h1.1, Option.some.injEq] at h3
    exact htp h3.symm
  · intro n; rw [hobjs]; exact hi.blocks n
  · intro n; rw [hobjs]; exact hi.tensors n
  · intro q' hq'; exact ⟨hq', hstay q'⟩
  · intro v hv; exact ⟨hv, hstay v.1⟩
  · intro o y hy ho hn
    have hne : o ≠ target q := fun heq => hn (.inl (holder_target hy heq))
    refine ⟨hobj o hne, fun a ha => hframe a (by rw [ha]; rfl) ?_⟩
    rw [hids]
    rintro (h1 | rfl)
    · rw [hbown a h1, Option.some.injEq] at ha
      exact hne ha.symm
    · rw [hop] at ha
      cases ha
      cases hy
  · intro a ha hn
    refine hframe a (by rw [ha]; rfl) ?_
    rw [hids]
    rintro (h1 | rfl)
    · rw [hbown a h1, Option.some.injEq] at ha
      exact htp ha
    · exact hn (.inr rfl)

end Heap
end Equistore
