import Verif.Lemmas.CallsModify

/-! Where the arrays of blocks and tensor maps come from, in the calls of the C API. -/

namespace Equistore
namespace Heap
open Spec
variable {B : Type}

/-- Only the arrays of the heap may differ. -/
structure SameObjects (h h' : Heap B) : Prop where
  blocks : h'.blocks = h.blocks
  tensors : h'.tensors = h.tensors
  next : h.next ≤ h'.next

theorem SameObjects.refl (h : Heap B) : SameObjects h h := ⟨rfl, rfl, Nat.le_refl _⟩

theorem SameObjects.trans {h h' h'' : Heap B} (h1 : SameObjects h h') (h2 : SameObjects h' h'') : SameObjects h h'' :=
  ⟨h2.blocks.trans h1.blocks, h2.tensors.trans h1.tensors, Nat.le_trans h1.next h2.next⟩

theorem dropArray_same {h h' : Heap B} {a : CArray} (hd : h.dropArray a = some h') : SameObjects h h' := by
  unfold dropArray at hd
  split at hd
  · cases hx : h.arrays a.ptr with
    | none => rw [hx] at hd; cases hd
    | some x => rw [hx] at hd; cases hd; exact ⟨rfl, rfl, Nat.le_refl _⟩
  · cases hd; exact .refl h

theorem dropArrays_same {l : List CArray} {h h' : Heap B} (hd : dropArrays l h = some h') : SameObjects h h' := by
  induction l generalizing h with
  | nil => cases hd; exact .refl _
  | cons a l ih =>
    simp only [dropArrays] at hd
    cases hx : h.dropArray a with
    | none => rw [hx] at hd; cases hd
    | some h₁ =>
      rw [hx] at hd
      exact (dropArray_same hx).trans (ih hd)

theorem settle_same (h : Heap B) (a : Live B) :
    SameObjects h (h.settle a).1 ∧ (a.handle = some (h.settle a).2 ∨ h.next ≤ (h.settle a).2.ptr) := by
  unfold settle
  cases hh : a.handle with
  | none => exact ⟨⟨rfl, rfl, Nat.le_succ _⟩, .inr (Nat.le_refl _)⟩
  | some c => exact ⟨⟨rfl, rfl, Nat.le_refl _⟩, .inl rfl⟩

theorem settle_all (h : Heap B) (ls : List (Live B)) :
    SameObjects h (mapAccum settle h ls).1 ∧
    ∀ c ∈ (mapAccum settle h ls).2, (∃ a ∈ ls, a.handle = some c) ∨ h.next ≤ c.ptr := by
  induction ls generalizing h with
  | nil => exact ⟨.refl h, by simp [mapAccum]⟩
  | cons a ls ih =>
    obtain ⟨h1, h2⟩ := settle_same h a
    obtain ⟨h3, h4⟩ := ih (h.settle a).1
    refine ⟨h1.trans h3, fun c hc => ?_⟩
    rcases List.mem_cons.1 (show c ∈ (h.settle a).2 :: (mapAccum settle (h.settle a).1 ls).2 from hc) with rfl | hc
    · rcases h2 with h2 | h2
      · exact .inl ⟨a, List.mem_cons_self, h2⟩
      · exact .inr h2
    · rcases h4 c hc with ⟨a', ha', h5⟩ | h5
      · exact .inl ⟨a', List.mem_cons_of_mem _ ha', h5⟩
      · exact .inr (Nat.le_trans h1.next h5)

theorem commitBlock_from {h h' : Heap B} {before : List CArray} {b : TensorBlock (Live B)} {b' : TensorBlock CArray}
    (hc : h.commitBlock before b = some (h', b')) :
    SameObjects h h' ∧ ∀ c ∈ b'.arrays, (∃ a ∈ b.arrays, a.handle = some c) ∨ h.next ≤ c.ptr := by
  obtain ⟨h1, h2⟩ := TensorBlock.mapAccumData_eq settle h b
  obtain ⟨h3, h4⟩ := settle_all h b.arrays
  unfold commitBlock at hc
  simp only at hc
  split at hc
  · cases hc
  · rename_i hd
    cases hc
    refine ⟨?_, ?_⟩
    · rw [h1] at hd
      exact h3.trans (dropArrays_same hd)
    · rw [h2]; exact h4

theorem commitTensor_from {h h' : Heap B} {before : List CArray} {t : TensorMap (Live B)} {t' : TensorMap CArray}
    (hc : h.commitTensor before t = some (h', t')) :
    SameObjects h h' ∧ ∀ c ∈ t'.arrays, (∃ a ∈ t.arrays, a.handle = some c) ∨ h.next ≤ c.ptr := by
  obtain ⟨h1, h2⟩ := TensorMap.mapAccumData_eq settle h t
  obtain ⟨h3, h4⟩ := settle_all h t.arrays
  unfold commitTensor at hc
  simp only at hc
  split at hc
  · cases hc
  · rename_i hd
    cases hc
    refine ⟨?_, ?_⟩
    · rw [h1] at hd
      exact h3.trans (dropArrays_same hd)
    · rw [h2]; exact h4

section
variable [Inhabited B] [ArrayCallbacks B]

theorem thawBlock_from {h : Heap B} {b : TensorBlock CArray} {b' : TensorBlock (Live B)} (ht : h.thawBlock b = some b') :
    b'.arrays.map (·.handle) = b.arrays.map some := by
  unfold thawBlock at ht
  split at ht
  · cases ht
    rw [TensorBlock.arrays_mapData]
    simp [Function.comp_def]
  · cases ht

theorem thawTensor_eq {h : Heap B} {t : TensorMap CArray} {t' : TensorMap (Live B)} (ht : h.thawTensor t = some t') :
    t' = t.mapData (thawed h) := by
  unfold thawTensor at ht
  split at ht
  · cases ht; rfl
  · cases ht

/-- `eqs_block`. -/
theorem block_from {p : Platform} {h h' : Heap B} {data : CArray} {samples properties : CLabels}
    {components : List CLabels} {reply : Reply}
    (hr : (Call.block data samples components properties : Call B).run p h = some (h', reply)) :
    h.next ≤ h'.next ∧ ∀ n, reply = .block (.ok n) → h.next ≤ n ∧
      ∀ b, h'.blocks n = some b → ∀ a ∈ ids b.arrays, a = data.ptr ∨ h.next ≤ a := by
  simp only [Call.run, Option.map_eq_some_iff, eqsBlock] at hr
  obtain ⟨⟨h₁, r⟩, hr, heq⟩ := hr
  cases heq
  cases hl : h.live data with
  | none => rw [hl] at hr; cases hr
  | some array =>
    simp only [hl] at hr
    have hhandle : array.handle = some data := by
      obtain ⟨x, _, rfl⟩ := Option.map_eq_some_iff.1 hl
      rfl
    cases hres : blockOfC array samples components properties with
    | err e =>
      rw [hres] at hr
      obtain ⟨h₂, hd, heq⟩ := Option.map_eq_some_iff.1 hr
      cases heq
      exact ⟨(dropArrays_same hd).next, fun n hn => by cases hn⟩
    | panic m =>
      rw [hres] at hr
      obtain ⟨h₂, hd, heq⟩ := Option.map_eq_some_iff.1 hr
      cases heq
      exact ⟨(dropArrays_same hd).next, fun n hn => by cases hn⟩
    | ok block =>
      simp only [hres] at hr
      cases hcb : h.commitBlock [data] block with
      | none => rw [hcb] at hr; cases hr
      | some x =>
        obtain ⟨h₂, b'⟩ := x
        simp only [hcb] at hr
        cases hr
        obtain ⟨hsame, hfrom⟩ := commitBlock_from hcb
        refine ⟨Nat.le_trans hsame.next (Nat.le_succ _), ?_⟩
        intro n hn
        cases hn
        refine ⟨hsame.next, ?_⟩
        intro b hb a ha
        have : b = b' := by
          have h1 : setAt h₂.blocks h₂.next (some b') h₂.next = some b := hb
          simpa [setAt] using h1.symm
        subst this
        simp only [blockOfC, Res.bind_eq_ok] at hres
        obtain ⟨_, _, _, _, _, _, hnew⟩ := hres
        obtain ⟨c, hc, rfl⟩ := List.mem_map.1 ha
        rcases hfrom c hc with ⟨x, hx, hxc⟩ | h1
        · rw [(TensorBlock.new_arrays hnew).1, List.mem_singleton] at hx
          rw [hx, hhandle] at hxc
          cases hxc
          exact .inl rfl
        · exact .inr h1

/-- `eqs_block_copy`. -/
theorem copy_from {p : Platform} {h h' : Heap B} {q : BlockPtr} {reply : Reply}
    (hr : (Call.blockCopy q : Call B).run p h = some (h', reply)) :
    h.next ≤ h'.next ∧ ∀ n, reply = .block (.ok n) → h.next ≤ n ∧
      ∀ b, h'.blocks n = some b → ∀ a ∈ ids b.arrays, h.next ≤ a := by
  simp only [Call.run, Option.map_eq_some_iff, eqsBlockCopy] at hr
  obtain ⟨⟨h₁, r⟩, hr, heq⟩ := hr
  cases heq
  by_cases hq : q = .null
  · rw [if_pos hq] at hr
    cases hr
    exact ⟨Nat.le_refl _, fun n hn => by cases hn⟩
  rw [if_neg hq] at hr
  cases hb : h.block q with
  | none => rw [hb] at hr; cases hr
  | some b =>
    simp only [hb] at hr
    cases ht : h.thawBlock b with
    | none => rw [ht] at hr; cases hr
    | some tb =>
      simp only [ht] at hr
      cases hcl : cloneBlock tb with
      | err e => rw [hcl] at hr; cases hr; exact ⟨Nat.le_refl _, fun n hn => by cases hn⟩
      | panic m => rw [hcl] at hr; cases hr; exact ⟨Nat.le_refl _, fun n hn => by cases hn⟩
      | ok copy =>
        simp only [hcl] at hr
        cases hcb : h.commitBlock [] copy with
        | none => rw [hcb] at hr; cases hr
        | some x =>
          obtain ⟨h₂, b'⟩ := x
          simp only [hcb] at hr
          cases hr
          obtain ⟨hsame, hfrom⟩ := commitBlock_from hcb
          refine ⟨Nat.le_trans hsame.next (Nat.le_succ _), ?_⟩
          intro n hn
          cases hn
          refine ⟨hsame.next, ?_⟩
          intro b₂ hb₂ a ha
          have : b₂ = b' := by
            have h1 : setAt h₂.blocks h₂.next (some b') h₂.next = some b₂ := hb₂
            simpa [setAt] using h1.symm
          subst this
          obtain ⟨c, hc, rfl⟩ := List.mem_map.1 ha
          rcases hfrom c hc with ⟨x, hx, hxc⟩ | h1
          · obtain ⟨_, hall⟩ := cloneBlock_ok hcl
            obtain ⟨i, hi, rfl⟩ := List.getElem_of_mem hx
            have := (hall.get (by rw [hall.length_eq]; exact hi) hi).1
            simp only [List.get_eq_getElem] at this
            rw [this] at hxc
            cases hxc
          · exact h1

theorem addGradientOfC_arrays (name : Option Bytes) (array : Live B) (samples : CLabels) (components : List CLabels)
    (s : TensorBlock (Live B)) :
    (addGradientOfC name array samples components s).1.arrays = s.arrays ∨
    (addGradientOfC name array samples components s).1.arrays = s.arrays ++ [array] := by
  have hlift : ∀ {α : Type} (r : Res α) (f : α → Act (TensorBlock (Live B)) Unit) (s : TensorBlock (Live B)),
      (∀ a, ((f a s).1.arrays = s.arrays ∨ (f a s).1.arrays = s.arrays ++ [array])) →
      (((Act.lift r >>= f) s).1.arrays = s.arrays ∨ ((Act.lift r >>= f) s).1.arrays = s.arrays ++ [array]) := by
    intro α r f s hf
    rw [Act.lift_bind]
    cases r with
    | ok a => exact hf a
    | err e => exact .inl rfl
    | panic m => exact .inl rfl
  refine hlift _ _ _ fun _ => hlift _ _ _ fun _ => hlift _ _ _ fun _ => hlift _ _ _ fun _ => ?_
  exact (TensorBlock.addGradient_arrays s _ _ _ _).1

/-- `eqs_block_add_gradient` on a block of the program. -/
theorem addGradient_from {p : Platform} {h h' : Heap B} {n : Nat} {name : Option Bytes} {data : CArray}
    {samples : CLabels} {components : List CLabels} {reply : Reply}
    (hr : (Call.blockAddGradient (.owned n) name data samples components : Call B).run p h = some (h', reply)) :
    h.next ≤ h'.next ∧ ∀ b', h'.blocks n = some b' → ∃ b, h.blocks n = some b ∧
      ∀ a ∈ ids b'.arrays, a = data.ptr ∨ a ∈ ids b.arrays ∨ h.next ≤ a := by
  simp only [Call.run, Option.map_eq_some_iff, eqsBlockAddGradient] at hr
  obtain ⟨⟨h₁, r⟩, hr, heq⟩ := hr
  cases heq
  rw [if_neg (by simp)] at hr
  cases hb : h.block (.owned n) with
  | none => rw [hb] at hr; cases hr
  | some b =>
    simp only [hb] at hr
    cases hl : h.live data with
    | none => rw [hl] at hr; cases hr
    | some array =>
      cases ht : h.thawBlock b with
      | none => rw [hl, ht] at hr; cases hr
      | some tb =>
        simp only [hl, ht] at hr
        have hhandle : array.handle = some data := by
          obtain ⟨x, _, rfl⟩ := Option.map_eq_some_iff.1 hl
          rfl
        have harr := addGradientOfC_arrays name array samples components tb
        generalize addGradientOfC name array samples components tb = result at hr harr
        cases hcb : h.commitBlock (b.arrays ++ [data]) result.1 with
        | none => rw [hcb] at hr; cases hr
        | some x =>
          obtain ⟨h₂, b₂⟩ := x
          simp only [hcb] at hr
          cases hr
          obtain ⟨hsame, hfrom⟩ := commitBlock_from hcb
          refine ⟨hsame.next, fun b' hb' => ⟨b, hb, fun a ha => ?_⟩⟩
          have : b' = b₂ := by
            have h1 : setAt h₂.blocks n (some b₂) n = some b' := hb'
            simpa [setAt] using h1.symm
          subst this
          have hth := thawBlock_from ht
          obtain ⟨c, hc, rfl⟩ := List.mem_map.1 ha
          rcases hfrom c hc with ⟨x, hx, hxc⟩ | h1
          · have key : x ∈ tb.arrays ∨ x = array := by
              rcases harr with h1 | h1 <;> rw [h1] at hx
              · exact .inl hx
              · simpa using hx
            rcases key with h1 | rfl
            · exact .inr (.inl (List.mem_map_of_mem (handle_mem hth x h1 c hxc)))
            · rw [hhandle] at hxc
              cases hxc
              exact .inl rfl
          · exact .inr (.inr h1)

theorem takeBlocks_from {blocks : List BlockPtr} {h h' : Heap B} {bs : List (TensorBlock CArray)}
    (ht : takeBlocks blocks h = some (h', bs)) :
    h'.next = h.next ∧ ∀ b ∈ bs, ∃ n, BlockPtr.owned n ∈ blocks ∧ h.blocks n = some b := by
  induction blocks generalizing h bs with
  | nil => cases ht; exact ⟨rfl, by simp⟩
  | cons q blocks ih =>
    cases q with
    | null => cases ht
    | inside => cases ht
    | owned n =>
      simp only [takeBlocks] at ht
      cases hb : h.blocks n with
      | none => rw [hb] at ht; cases ht
      | some b =>
        simp only [hb] at ht
        cases hrest : takeBlocks blocks { h with blocks := setAt h.blocks n none } with
        | none => rw [hrest] at ht; cases ht
        | some x =>
          obtain ⟨h₁, bs₁⟩ := x
          simp only [hrest] at ht
          cases ht
          obtain ⟨h1, h2⟩ := ih hrest
          refine ⟨h1, fun b' hb' => ?_⟩
          rcases List.mem_cons.1 hb' with rfl | hb'
          · exact ⟨n, List.mem_cons_self, hb⟩
          · obtain ⟨m, hm, hbm⟩ := h2 b' hb'
            refine ⟨m, List.mem_cons_of_mem _ hm, ?_⟩
            have hbm : setAt h.blocks n none m = some b' := hbm
            unfold setAt at hbm
            split at hbm
            · cases hbm
            · exact hbm

theorem mapM_thaw_from {h : Heap B} {bs : List (TensorBlock CArray)} {ls : List (TensorBlock (Live B))}
    (hm : bs.mapM h.thawBlock = some ls) : ∀ tb ∈ ls, ∃ b ∈ bs, h.thawBlock b = some tb := by
  induction bs generalizing ls with
  | nil =>
    have : ls = [] := by simpa using hm.symm
    subst this; simp
  | cons b bs ih =>
    rw [List.mapM_cons] at hm
    simp only [Option.bind_eq_bind, Option.bind_eq_some_iff, Option.pure_def, Option.some.injEq] at hm
    obtain ⟨x, hx, rest, hrest, rfl⟩ := hm
    intro tb htb
    rcases List.mem_cons.1 htb with rfl | htb
    · exact ⟨b, List.mem_cons_self, hx⟩
    · obtain ⟨b', hb', h1⟩ := ih hrest tb htb
      exact ⟨b', List.mem_cons_of_mem _ hb', h1⟩

/-- `eqs_tensormap`. -/
theorem tensormap_from {p : Platform} {h h' : Heap B} {keys : CLabels} {blocks : List BlockPtr} {reply : Reply}
    (hr : (Call.tensormap keys blocks : Call B).run p h = some (h', reply)) :
    h.next ≤ h'.next ∧ ∀ n after, reply = .newTensor (.ok n) after →
      h.next ≤ n ∧ after = blocks.map (fun _ => BlockPtr.null) ∧
      ∀ t v, h'.tensors n = some (t, v) → ∀ a ∈ ids t.arrays, h.next ≤ a ∨
        ∃ m b, BlockPtr.owned m ∈ blocks ∧ h.blocks m = some b ∧ a ∈ ids b.arrays := by
  simp only [Call.run, Option.map_eq_some_iff, eqsTensormap] at hr
  obtain ⟨⟨h₁, after, r⟩, hr, heq⟩ := hr
  cases heq
  cases hk : Labels.ofC keys with
  | err e => rw [hk] at hr; cases hr; exact ⟨Nat.le_refl _, fun n _ hn => by cases hn⟩
  | panic m => rw [hk] at hr; cases hr; exact ⟨Nat.le_refl _, fun n _ hn => by cases hn⟩
  | ok keys' =>
    simp only [hk] at hr
    by_cases hd : countDistinct blocks ≠ blocks.length
    · rw [if_pos hd] at hr
      cases hr
      exact ⟨Nat.le_refl _, fun n _ hn => by cases hn⟩
    rw [if_neg hd] at hr
    cases ht : takeBlocks blocks h with
    | none => rw [ht] at hr; cases hr
    | some x =>
      obtain ⟨h₂, moved⟩ := x
      obtain ⟨hnext, hmoved⟩ := takeBlocks_from ht
      simp only [ht] at hr
      cases hth : moved.mapM h₂.thawBlock with
      | none => rw [hth] at hr; cases hr
      | some live =>
        simp only [hth] at hr
        cases hnew : TensorMap.new p.hash keys' live with
        | err e =>
          rw [hnew] at hr
          obtain ⟨h₃, hdr, heq⟩ := Option.map_eq_some_iff.1 hr
          cases heq
          exact ⟨by have := (dropArrays_same hdr).next; show h.next ≤ h₁.next; omega, fun n _ hn => by cases hn⟩
        | panic m =>
          rw [hnew] at hr
          obtain ⟨h₃, hdr, heq⟩ := Option.map_eq_some_iff.1 hr
          cases heq
          exact ⟨by have := (dropArrays_same hdr).next; show h.next ≤ h₁.next; omega, fun n _ hn => by cases hn⟩
        | ok t =>
          simp only [hnew] at hr
          cases hct : h₂.commitTensor (moved.flatMap TensorBlock.arrays) t with
          | none => rw [hct] at hr; cases hr
          | some x =>
            obtain ⟨h₃, t'⟩ := x
            simp only [hct] at hr
            cases hr
            obtain ⟨hsame, hfrom⟩ := commitTensor_from hct
            have hle : h.next ≤ h₃.next := by have := hsame.next; omega
            refine ⟨Nat.le_trans hle (Nat.le_add_right _ _), ?_⟩
            intro n after hn
            cases hn
            refine ⟨hle, rfl, ?_⟩
            intro t₂ v ht₂ a ha
            have : t₂ = t' := by
              have h1 : setAt h₃.tensors h₃.next (some (t', h₃.next + 1)) h₃.next = some (t₂, v) := ht₂
              simp only [setAt, if_true, Option.some.injEq, Prod.mk.injEq] at h1
              exact h1.1.symm
            subst this
            obtain ⟨c, hc, rfl⟩ := List.mem_map.1 ha
            rcases hfrom c hc with ⟨x, hx, hxc⟩ | h1
            · obtain ⟨tb, htb, hx⟩ := List.mem_flatMap.1 hx
              rw [(TensorMap.new_blocks hnew).1] at htb
              obtain ⟨b, hb, hthb⟩ := mapM_thaw_from hth tb htb
              obtain ⟨m, hm, hbm⟩ := hmoved b hb
              exact .inr ⟨m, b, hm, hbm, List.mem_map_of_mem (handle_mem (thawBlock_from hthb) x hx c hxc)⟩
            · exact .inl (by omega)

/-- What `eqs_tensormap` does with the pointers to blocks. -/
theorem tensormap_after {p : Platform} {h h' : Heap B} {keys : CLabels} {blocks : List BlockPtr} {reply : Reply}
    (hr : (Call.tensormap keys blocks : Call B).run p h = some (h', reply)) :
    ∃ r after, reply = .newTensor r after ∧ (after = blocks ∨ after = blocks.map (fun _ => BlockPtr.null)) ∧
      ((∃ labels, Labels.ofC keys = .ok labels) → blocks.Nodup → after = blocks.map (fun _ => BlockPtr.null)) := by
  simp only [Call.run, Option.map_eq_some_iff, eqsTensormap] at hr
  obtain ⟨⟨h₁, after, r⟩, hr, heq⟩ := hr
  cases heq
  refine ⟨r, after, rfl, ?_⟩
  cases hk : Labels.ofC keys with
  | err e => rw [hk] at hr; cases hr; exact ⟨.inl rfl, fun h => by obtain ⟨_, h⟩ := h; cases h⟩
  | panic m => rw [hk] at hr; cases hr; exact ⟨.inl rfl, fun h => by obtain ⟨_, h⟩ := h; cases h⟩
  | ok keys' =>
    simp only [hk] at hr
    by_cases hd : countDistinct blocks ≠ blocks.length
    · rw [if_pos hd] at hr
      cases hr
      exact ⟨.inl rfl, fun _ hn => absurd (countDistinct_eq_length.2 hn) hd⟩
    rw [if_neg hd] at hr
    suffices h : after = blocks.map (fun _ => BlockPtr.null) from ⟨.inr h, fun _ _ => h⟩
    split at hr
    · cases hr
    · split at hr
      · cases hr
      · split at hr
        · split at hr <;> cases hr; rfl
        · obtain ⟨_, _, heq⟩ := Option.map_eq_some_iff.1 hr; cases heq; rfl
        · obtain ⟨_, _, heq⟩ := Option.map_eq_some_iff.1 hr; cases heq; rfl

/-- Functions changing a tensor map, which keep or replace all the arrays. -/
theorem modify_from {h h' : Heap B} {n : Nat} {replaces : Bool} {action : Act (TensorMap (Live B)) Unit} {r : Res Unit}
    (hnamed : ∀ t v, h.tensors n = some (t, v) → ∀ b ∈ t.blocks, b.Named)
    (haction : ∀ t : TensorMap (Live B), (∀ b ∈ t.blocks, b.Named) →
      (replaces = true ∧ (action t).2 = .ok () ∧ ∀ b ∈ (action t).1.blocks, b.New) ∨
      (¬(replaces = true ∧ (action t).2 = .ok ()) ∧ TensorMap.SameHandles t (action t).1))
    (hr : modifyTensor (some n) replaces action h = some (h', r)) :
    h.next ≤ h'.next ∧ ∀ t' v', h'.tensors n = some (t', v') → ∃ t v, h.tensors n = some (t, v) ∧
      ∀ a ∈ ids t'.arrays, a ∈ ids t.arrays ∨ h.next ≤ a := by
  simp only [modifyTensor] at hr
  cases ht : h.tensors n with
  | none => rw [ht] at hr; cases hr
  | some x =>
    obtain ⟨t, v⟩ := x
    simp only [ht] at hr
    cases hth : h.thawTensor t with
    | none => rw [hth] at hr; cases hr
    | some live =>
      simp only [hth] at hr
      have hlive := thawTensor_eq hth
      have hact := haction live (by
        intro b hb
        rw [hlive] at hb
        obtain ⟨b', hb', rfl⟩ := List.mem_map.1 hb
        exact TensorBlock.Named.of_skeleton (hnamed t v ht b' hb') (TensorBlock.skeleton_mapData _ _))
      generalize action live = result at hr hact
      cases hct : h.commitTensor t.arrays result.1 with
      | none => rw [hct] at hr; cases hr
      | some x =>
        obtain ⟨h₁, t₁⟩ := x
        simp only [hct] at hr
        obtain ⟨hsame, hfrom⟩ := commitTensor_from hct
        have hheap : h₁.next ≤ h'.next ∧ ∃ v, h'.tensors n = some (t₁, v) := by
          split at hr <;> cases hr
          · exact ⟨Nat.le_succ _, _, by simp [setTensor, setAt]; rfl⟩
          · exact ⟨Nat.le_refl _, _, by simp [setTensor, setAt]; rfl⟩
        refine ⟨Nat.le_trans hsame.next hheap.1, fun t' v' ht' => ⟨t, v, rfl, ?_⟩⟩
        obtain ⟨v₁, hv₁⟩ := hheap.2
        rw [ht'] at hv₁
        cases hv₁
        intro a ha
        obtain ⟨c, hc, rfl⟩ := List.mem_map.1 ha
        rcases hfrom c hc with ⟨x, hx, hxc⟩ | h1
        · left
          obtain ⟨b, hb, hx⟩ := List.mem_flatMap.1 hx
          rcases hact with ⟨_, _, hnew⟩ | ⟨_, hsh⟩
          · rw [(hnew b hb).1 x hx] at hxc
            cases hxc
          · obtain ⟨i, hi, rfl⟩ := List.getElem_of_mem hb
            have hi' : i < live.blocks.length := by rw [hsh.length_eq]; exact hi
            have h2 := (hsh.get hi' hi).1
            simp only [List.get_eq_getElem] at h2
            have h3 : some c ∈ live.blocks[i].handles := by
              rw [← h2, ← hxc]
              exact List.mem_map_of_mem hx
            obtain ⟨y, hy, hyc⟩ := List.mem_map.1 h3
            have h4 : y ∈ live.arrays := List.mem_flatMap.2 ⟨_, List.getElem_mem hi', hy⟩
            rw [hlive, TensorMap.arrays_mapData] at h4
            obtain ⟨c', hc', rfl⟩ := List.mem_map.1 h4
            cases hyc
            exact List.mem_map_of_mem hc'
        · exact .inr h1

/-- `eqs_tensormap_load`. -/
theorem load_from {p : Platform} {h h' : Heap B} {archive : Archive} {reply : Reply}
    (hr : (Call.load archive : Call B).run p h = some (h', reply)) :
    h.next ≤ h'.next ∧ ∀ n, reply = .tensor (.ok n) → h.next ≤ n ∧
      ∀ t v, h'.tensors n = some (t, v) → ∀ a ∈ ids t.arrays, h.next ≤ a := by
  simp only [Call.run, Option.map_eq_some_iff, eqsTensormapLoad] at hr
  obtain ⟨⟨h₁, r⟩, hr, heq⟩ := hr
  cases heq
  cases hl : load p.build p.py p.hash p.hash archive with
  | err e => rw [hl] at hr; cases hr; exact ⟨Nat.le_refl _, fun n hn => by cases hn⟩
  | panic m => rw [hl] at hr; cases hr; exact ⟨Nat.le_refl _, fun n hn => by cases hn⟩
  | ok t =>
    simp only [hl] at hr
    cases hct : h.commitTensor []
        (t.mapData fun a => ({ handle := none, content := ArrayCallbacks.ofNdArray a } : Live B)) with
    | none => rw [hct] at hr; cases hr
    | some x =>
      obtain ⟨h₂, t'⟩ := x
      simp only [hct] at hr
      cases hr
      obtain ⟨hsame, hfrom⟩ := commitTensor_from hct
      refine ⟨Nat.le_trans hsame.next (Nat.le_add_right _ _), ?_⟩
      intro n hn
      cases hn
      refine ⟨hsame.next, ?_⟩
      intro t₂ v ht₂ a ha
      have : t₂ = t' := by
        have h1 : setAt h₂.tensors h₂.next (some (t', h₂.next + 1)) h₂.next = some (t₂, v) := ht₂
        simp only [setAt, if_true, Option.some.injEq, Prod.mk.injEq] at h1
        exact h1.1.symm
      subst this
      obtain ⟨c, hc, rfl⟩ := List.mem_map.1 ha
      rcases hfrom c hc with ⟨x, hx, hxc⟩ | h1
      · rw [TensorMap.arrays_mapData] at hx
        obtain ⟨y, _, rfl⟩ := List.mem_map.1 hx
        cases hxc
      · exact h1

/-- `eqs_block_free` and `eqs_tensormap_free`. -/
theorem blockFree_next {p : Platform} {h h' : Heap B} {q : BlockPtr} {reply : Reply}
    (hr : (Call.blockFree q : Call B).run p h = some (h', reply)) : h.next ≤ h'.next := by
  simp only [Call.run, Option.map_eq_some_iff, eqsBlockFree] at hr
  obtain ⟨⟨h₁, r⟩, hr, heq⟩ := hr
  cases heq
  cases q with
  | null => cases hr; exact Nat.le_refl _
  | inside => cases hr
  | owned n =>
    simp only at hr
    cases hb : h.blocks n with
    | none => rw [hb] at hr; cases hr
    | some b =>
      rw [hb] at hr
      obtain ⟨h₂, hd, heq⟩ := Option.map_eq_some_iff.1 hr
      cases heq
      exact (dropArrays_same hd).next

theorem tensormapFree_next {p : Platform} {h h' : Heap B} {t : Option Nat} {reply : Reply}
    (hr : (Call.tensormapFree t : Call B).run p h = some (h', reply)) : h.next ≤ h'.next := by
  simp only [Call.run, Option.map_eq_some_iff, eqsTensormapFree] at hr
  obtain ⟨⟨h₁, r⟩, hr, heq⟩ := hr
  cases heq
  cases t with
  | none => cases hr; exact Nat.le_refl _
  | some n =>
    simp only at hr
    cases hb : h.tensors n with
    | none => rw [hb] at hr; cases hr
    | some b =>
      rw [hb] at hr
      obtain ⟨h₂, hd, heq⟩ := Option.map_eq_some_iff.1 hr
      cases heq
      exact (dropArrays_same hd).next

end
end Heap
end Equistore
