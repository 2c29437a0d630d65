import Verif.Lemmas.DataLifetimes
import Verif.Props.Lifetimes
import Verif.Props.CBlocks

/-!
# C70: arrays of blocks stay where they are, and nothing else writes into them
-/

namespace Equistore
open Spec Heap

variable {B : Type} [Inhabited B] [ArrayCallbacks B]

theorem Lives.data {except : Place → Call B → Prop} {place place' : Place} {h h' : Heap B} {l l' : Ledger}
    (hr : Run h l) (hl : Lives except place h l place' h' l') {b : TensorBlock CArray} (hb : place.block h = some b) :
    ∃ b', place'.block h' = some b' ∧ KeepsParts SameData b b' := by
  induction hl with
  | now => exact ⟨b, hb, keepsData_refl b⟩
  | step p hl ha hm hrun hafter ih =>
    obtain ⟨b₁, h1, h2⟩ := ih
    obtain ⟨⟨b₂, h3, h4⟩, _⟩ := data_step (Lives.run hr hl) ha hrun h1 hafter
    exact ⟨b₂, h3, h2.trans SameData.trans h4⟩

theorem selectBasic_arrays {A : Type} {b : TensorBlock A} {name : Bytes} {part : BasicBlock A}
    (h : selectBasic b name = .ok part) : part.data ∈ b.arrays := by
  rcases selectBasic_mem h with rfl | h
  · simp [TensorBlock.arrays]
  · obtain ⟨g, hg, rfl⟩ := List.mem_map.1 h
    exact List.mem_cons_of_mem _ (List.mem_map.2 ⟨g, hg, rfl⟩)

theorem Lives.contents {place place' : Place} {h h' : Heap B} {l l' : Ledger} (hr : Run h l)
    {b : TensorBlock CArray} (hb : place.block h = some b) {name : Bytes} {part : BasicBlock CArray}
    (hp : selectBasic b name = .ok part) (hl : Lives (ChangesData part.data.ptr) place h l place' h' l') :
    h'.arrays part.data.ptr = h.arrays part.data.ptr := by
  induction hl with
  | now => rfl
  | step p hl ha hm hrun hafter ih =>
    obtain ⟨b₁, h1, h2⟩ := Lives.data hr hl hb
    obtain ⟨part₁, h3, h4⟩ := h2.select hp
    obtain ⟨_, h5⟩ := data_step (Lives.run hr hl) ha hrun h1 hafter
    have h4 : part₁.data = part.data := h4
    rw [h5 part.data.ptr (List.mem_map.2 ⟨_, h4 ▸ selectBasic_arrays h3, rfl⟩) hm, ih]

/-- What `eqs_block_data` does for a pointer the program can use. -/
theorem eqsBlockData_of_place {h : Heap B} {l : Ledger} (hr : Run h l) {q : BlockPtr} {place : Place}
    (hq : l.Usable q) (hp : Place.of q = some place) {b : TensorBlock CArray} (hb : place.block h = some b)
    (name : Bytes) {old : CArray} (hold : old.destroy = false) :
    eqsBlockData q name old h =
      some (h, (selectBasic b name).map fun part => { ptr := part.data.ptr, destroy := false }) := by
  obtain ⟨b', h1, h2⟩ := block_of_place hr hq hp
  rw [hb] at h2
  cases h2
  have hn : q ≠ .null := by rintro rfl; cases hp
  have hdrop : h.dropArray old = some h := by simp [dropArray, hold]
  simp only [eqsBlockData, if_neg hn, h1, hdrop]
  cases selectBasic b name <;> rfl

omit [Inhabited B] [ArrayCallbacks B] in
/-- What a successful `eqs_block_add_gradient` stores in the block. -/
theorem addGradientOfC_added {A : Type} [ArrayLike A] {name : Bytes} {array : A} {samples : CLabels}
    {components : List CLabels} {b : TensorBlock A}
    (h : (addGradientOfC (some name) array samples components b).2 = .ok ()) :
    ∃ parameter part, cstrStr name = some parameter ∧ parameter ≠ "values" ∧
      (addGradientOfC (some name) array samples components b).1.gradients.lookup parameter = some part ∧
      part.data = array := by
  unfold addGradientOfC at h ⊢
  simp only [checkPointer, Res.okOr] at h ⊢
  rw [Act.lift_bind] at h ⊢
  simp only at h ⊢
  rw [Act.lift_bind] at h ⊢
  cases hn : cstrStr name with
  | none => rw [hn] at h; cases h
  | some parameter =>
    rw [hn] at h
    simp only [Res.expect] at h ⊢
    rw [Act.lift_bind] at h ⊢
    cases hs : Labels.ofC samples with
    | err e => rw [hs] at h; cases h
    | panic m => rw [hs] at h; cases h
    | ok s =>
      rw [hs] at h
      simp only at h ⊢
      rw [Act.lift_bind] at h ⊢
      cases hc : components.mapM Labels.ofC with
      | err e => rw [hc] at h; cases h
      | panic m => rw [hc] at h; cases h
      | ok c =>
        rw [hc] at h
        simp only [addGradient_eq] at h ⊢
        cases hk : TensorBlock.checkGradient b parameter array s c with
        | err e => rw [hk] at h; cases h
        | panic m => rw [hk] at h; cases h
        | ok u =>
          rw [hk] at h
          have hg := checkGradient_iff.1 hk
          simp only at h ⊢
          have hfresh : b.gradients.lookup parameter = none := hg.fresh
          split at h
          · cases h
          · rename_i hz
            rw [if_neg hz]
            exact ⟨parameter, b.gradientBlock array s c, rfl, hg.reserved, by rw [List.lookup_append, hfresh]; simp, rfl⟩

/-! ### The property -/

/-- **C70.** The array returned by `eqs_block_data` (for the values or any gradient) exists until the block
is destroyed, or the tensor map containing it is destroyed or its keys are moved; and `eqs_block_data` on any pointer to
this block (which may be in a tensor map now) returns the same array again. In between, anything can happen: gradients
are added, the block is moved into a tensor map, components are moved, and any function fails. -/
theorem C70_array (h : Heap B) (l : Ledger) (hr : Run h l) (q : BlockPtr) (name : Bytes) (old array : CArray)
    (hq : l.Usable q) (hold : old.destroy = false) (harray : eqsBlockData q name old h = some (h, .ok array))
    (place place' : Place) (h' : Heap B) (l' : Ledger) (hp : Place.of q = some place)
    (hlives : Lives Nothing place h l place' h' l') :
    (h'.arrays array.ptr).isSome ∧ ∀ q' old', l'.Usable q' → Place.of q' = some place' → old'.destroy = false →
      eqsBlockData q' name old' h' = some (h', .ok array) := by
  obtain ⟨b, _, hb⟩ := block_of_place hr hq hp
  rw [eqsBlockData_of_place hr hq hp hb name hold] at harray
  obtain ⟨b', hb', hk⟩ := Lives.data hr hlives hb
  have hr' := Lives.run hr hlives
  cases hs : selectBasic b name with
  | err e => rw [hs] at harray; cases harray
  | panic m => rw [hs] at harray; cases harray
  | ok part =>
    rw [hs] at harray
    cases harray
    obtain ⟨part', hs', hd⟩ := hk.select hs
    have hd : part'.data = part.data := hd
    obtain ⟨owner, hi⟩ := inv_run hr'
    refine ⟨?_, fun q' old' hq' hp' hold' => ?_⟩
    · refine (hi.heap.owned.alive _).2 ?_
      rw [hi.heap.place_alive hb' part.data.ptr (List.mem_map.2 ⟨_, hd ▸ selectBasic_arrays hs', rfl⟩)]
      rfl
    · rw [eqsBlockData_of_place hr' hq' hp' hb' name hold', hs']
      simp only [Res.map, hd]

/-- **C70.** The content of this array changes only when the program writes into this very array, or moves components
of the tensor map the block is in: nothing else the program does writes into it, whether or not it succeeds, and no matter
which other arrays and blocks it changes. -/
theorem C70_content (h : Heap B) (l : Ledger) (hr : Run h l) (q : BlockPtr) (name : Bytes) (old array : CArray)
    (hq : l.Usable q) (hold : old.destroy = false) (harray : eqsBlockData q name old h = some (h, .ok array))
    (place place' : Place) (h' : Heap B) (l' : Ledger) (hp : Place.of q = some place)
    (hlives : Lives (ChangesData array.ptr) place h l place' h' l') :
    h'.arrays array.ptr = h.arrays array.ptr := by
  obtain ⟨b, _, hb⟩ := block_of_place hr hq hp
  rw [eqsBlockData_of_place hr hq hp hb name hold] at harray
  cases hs : selectBasic b name with
  | err e => rw [hs] at harray; cases harray
  | panic m => rw [hs] at harray; cases harray
  | ok part =>
    rw [hs] at harray
    cases harray
    exact Lives.contents hr hb hs hlives

omit [Inhabited B] in
/-- **C70.** Right after `eqs_block`, `eqs_block_data` with the name `"values"` gives the array which was given to
`eqs_block`. -/
theorem C70_values (h h' : Heap B) (data : CArray) (samples : CLabels) (components : List CLabels)
    (properties : CLabels) (n : Nat) (hblock : eqsBlock data samples components properties h = some (h', .ok n))
    (name : Bytes) (hname : IsCString name "values") (old : CArray) (hold : old.destroy = false) :
    eqsBlockData (.owned n) name old h' = some (h', .ok { ptr := data.ptr, destroy := false }) := by
  unfold eqsBlock at hblock
  cases hlive : h.live data with
  | none => rw [hlive] at hblock; cases hblock
  | some array =>
    rw [hlive] at hblock
    simp only at hblock
    cases hb : blockOfC array samples components properties with
    | err e => rw [hb] at hblock; cases hd : h.dropArrays [data] <;> simp [hd] at hblock
    | panic m => rw [hb] at hblock; cases hd : h.dropArrays [data] <;> simp [hd] at hblock
    | ok block =>
      rw [hb] at hblock
      simp only at hblock
      cases hc : h.commitBlock [data] block with
      | none => rw [hc] at hblock; cases hblock
      | some r =>
        obtain ⟨h₁, b⟩ := r
        rw [hc] at hblock
        cases hblock
        simp only [blockOfC, Res.bind_eq_ok, TensorBlock.new_eq_ok] at hb
        obtain ⟨_, _, _, _, _, _, _, _, rfl⟩ := hb
        have hdata : b.values.data = data := (commitBlock_handles hc).1 _ (by
          obtain ⟨_, _, rfl⟩ := Option.map_eq_some_iff.1 hlive
          rfl)
        have hdrop : ∀ g : Heap B, g.dropArray old = some g := fun g => by simp [dropArray, hold]
        have hs : selectBasic b name = .ok b.values := by
          unfold selectBasic
          rw [hname.str]
          simp
        have hblock : (h₁.putBlock b).1.block (.owned (h₁.putBlock b).2) = some b := by
          simp [putBlock, block, setAt]
        simp only [eqsBlockData, hblock, hs, hdrop]
        simp [hdata]

/-- **C70.** Right after a gradient was added to a block with `eqs_block_add_gradient`, `eqs_block_data` with its name gives
the array which was given to `eqs_block_add_gradient`. -/
theorem C70_gradient (h h' : Heap B) (q : BlockPtr) (name : Bytes) (data : CArray) (samples : CLabels)
    (components : List CLabels)
    (hadd : eqsBlockAddGradient q (some name) data samples components h = some (h', .ok ()))
    (old : CArray) (hold : old.destroy = false) :
    eqsBlockData q name old h' = some (h', .ok { ptr := data.ptr, destroy := false }) := by
  unfold eqsBlockAddGradient at hadd
  by_cases hq : q = .null
  · rw [if_pos hq] at hadd
    cases hd : h.dropArrays [data] with
    | none => rw [hd] at hadd; cases hadd
    | some g => rw [hd] at hadd; cases hadd
  rw [if_neg hq] at hadd
  cases hb : h.block q with
  | none => rw [hb] at hadd; cases hadd
  | some b =>
    rw [hb] at hadd
    simp only at hadd
    cases hlive : h.live data with
    | none => rw [hlive] at hadd; cases hadd
    | some array =>
      cases hthaw : h.thawBlock b with
      | none => rw [hlive, hthaw] at hadd; cases hadd
      | some tb =>
        rw [hlive, hthaw] at hadd
        simp only at hadd
        cases hc : h.commitBlock (b.arrays ++ [data]) (addGradientOfC (some name) array samples components tb).1 with
        | none => rw [hc] at hadd; cases hadd
        | some r =>
          obtain ⟨h₁, b₁⟩ := r
          rw [hc] at hadd
          simp only [Option.some.injEq, Prod.mk.injEq] at hadd
          obtain ⟨rfl, hok⟩ := hadd
          obtain ⟨parameter, part, hparameter, hne, hlookup, hpart⟩ := addGradientOfC_added hok
          obtain ⟨part₁, hlookup₁, hpart₁⟩ := (commitBlock_handles hc).2 _ _ hlookup
          have hdata : part₁.data = data := hpart₁ _ (by
            rw [hpart]
            obtain ⟨_, _, rfl⟩ := Option.map_eq_some_iff.1 hlive
            rfl)
          have hs : selectBasic b₁ name = .ok part₁ := by
            unfold selectBasic
            rw [hparameter]
            simp [hne, hlookup₁, Res.okOr]
          have hsame := (commitBlock_from hc).1
          have hblock : (h₁.setBlock b₁ q).block q = some b₁ := by
            rw [setBlock_block hb (fun o => ?_) hb, if_pos rfl]
            cases o <;> simp [object, hsame.blocks, hsame.tensors]
          have hdrop : (h₁.setBlock b₁ q).dropArray old = some (h₁.setBlock b₁ q) := by simp [dropArray, hold]
          simp only [eqsBlockData, if_neg hq, hblock, hs, hdrop]
          simp [hdata]

/-! ### Running programs -/

namespace Spec

/-- None of these calls writes into an array or moves components. -/
def readsOnly (cs : List (Call B)) : Bool := cs.all fun c => match c with
  | .componentsToProperties _ _ => false
  | .arrayWrite _ _ => false
  | _ => true

theorem executeLives_contents {p : Platform} {array : Nat} {cs : List (Call B)} {place place₁ place' : Place} {h h₁ h' : Heap B}
    {l l₁ l' : Ledger} (hl : Lives (ChangesData array) place h l place₁ h₁ l₁) (hs : readsOnly cs = true)
    (he : executeLives p cs (place₁, h₁, l₁) = some (place', h', l')) :
    Lives (ChangesData array) place h l place' h' l' := by
  induction cs generalizing place₁ h₁ l₁ with
  | nil => cases he; exact hl
  | cons c cs ih =>
    simp only [executeLives] at he
    simp only [readsOnly, List.all_cons, Bool.and_eq_true] at hs
    split at he
    · rename_i hc
      split at he
      · cases he
      · rename_i h₂ reply hrun
        split at he
        · cases he
        · rename_i place₂ hafter
          refine ih (.step p hl (Call.check_sound hc) ?_ hrun hafter) hs.2 he
          rintro (hm | hm)
          · cases c <;> first | (cases hs.1; done) | (cases hm; done)
          · cases c <;> cases place₁ <;> first | (cases hs.1; done) | (cases hm; done)
    · cases he

end Spec

namespace DataLifetimes.Example
open Ownership.Example Lifetimes.Example

/-- What happens to the array with the values: whether it exists, whether `eqs_block_data` returns it again, and its
shape. -/
def history (rest : List (Call NdArray)) : Option (Bool × Bool × Option (List Nat)) :=
  match execute platform makeBlock (Heap.empty, Ledger.empty) with
  | none => none
  | some (h, l) =>
    match eqsBlockData (.owned 1) values ⟨0, false⟩ h with
    | some (_, .ok array) =>
      match executeLives platform (useBlock ++ rest) (.alone 1, h, l) with
      | none => none
      | some (_, h', _) =>
        some ((h'.arrays array.ptr).isSome,
          (match eqsBlockData (.inside 2 3 0) values ⟨0, false⟩ h' with
          | some (_, .ok again) => again = array
          | _ => false), (h'.arrays array.ptr).map (·.shape))
    | _ => none

/-- The block was moved into a tensor map, a gradient was added, and moving keys failed. -/
example : history [] = some (true, true, some [1, 2, 1]) := by decide +kernel

/-- Moving components gives this array a new shape, but it is still the same array. -/
example : history [.componentsToProperties (some 2) [some [99, 0]]] = some (true, true, some [1, 2]) := by
  decide +kernel

/-- The hypotheses of `C70_array` and `C70_content` hold for this program. -/
example : ∃ (h : Heap NdArray) (l : Ledger) (h' : Heap NdArray) (l' : Ledger),
    Run h l ∧ l.Usable (.owned 1) ∧ eqsBlockData (.owned 1) values ⟨0, false⟩ h = some (h, .ok ⟨0, false⟩) ∧
    Lives Nothing (.alone 1) h l (.inside 2 0) h' l' ∧ Lives (ChangesData 0) (.alone 1) h l (.inside 2 0) h' l' ∧
    l'.Usable (.inside 2 3 0) := by
  have key : ((execute platform makeBlock (Heap.empty, Ledger.empty)).bind fun s =>
      (executeLives platform useBlock (.alone 1, s)).map fun s' =>
        ((match eqsBlockData (.owned 1) values ⟨0, false⟩ s.1 with
          | some (_, .ok a) => decide (a = ⟨0, false⟩)
          | _ => false), s.2.blocks, s'.1, s'.2.2.interior)) =
      some (true, [1], .inside 2 0, [.inside 2 3 0]) := by decide +kernel
  obtain ⟨⟨h, l⟩, he, key⟩ := Option.bind_eq_some_iff.1 key
  obtain ⟨⟨place', h', l'⟩, he', key⟩ := Option.map_eq_some_iff.1 key
  simp only [Prod.mk.injEq] at key
  obtain ⟨h1, h2, rfl, h3⟩ := key
  have hr := execute_run .start he
  have hu : l.Usable (.owned 1) := .inr (.inl ⟨1, by rw [show l.blocks = [1] from h2]; simp, rfl⟩)
  obtain ⟨b, hb, hpb⟩ := block_of_place hr hu rfl
  have hL := eqsBlockData_of_place hr hu rfl hpb values (old := ⟨0, false⟩) rfl
  rw [show eqsBlockData (.owned 1) values ⟨0, false⟩ (h, l).1 = _ from hL] at h1
  cases hl : (selectBasic b values).map fun part => ({ ptr := part.data.ptr, destroy := false } : CArray) with
  | err e => rw [hl] at h1; cases h1
  | panic m => rw [hl] at h1; cases h1
  | ok a =>
    rw [hl] at h1 hL
    have ha : a = ⟨0, false⟩ := of_decide_eq_true h1
    subst ha
    exact ⟨h, l, h', l', hr, hu, hL, executeLives_sound .now he', executeLives_contents .now (by decide) he',
      .inr (.inr (by rw [show l'.interior = _ from h3]; simp))⟩

/-- A gradient added through a pointer into a tensor map has its own array, not the one of the values. The hypotheses of
`C70_values` and `C70_gradient` hold. -/
example : ((execute platform (makeBlock ++ useBlock.take 3) (Heap.empty, Ledger.empty)).bind fun s =>
    (eqsBlockAddGradient (.inside 2 3 0) (some [103, 0]) ⟨4, true⟩ (gradientSamples [0]) [component] s.1).bind fun r =>
      match r.2, eqsBlockData (.inside 2 3 0) [103, 0] ⟨0, false⟩ r.1,
        eqsBlockData (.inside 2 3 0) values ⟨0, false⟩ r.1 with
      | .ok (), some (_, .ok gradient), some (_, .ok array) => some (gradient, array)
      | _, _, _ => none) = some (⟨4, false⟩, ⟨0, false⟩) := by decide +kernel

example : ((eqsBlock ⟨0, true⟩ (labels [7]) [component] (properties [3])
    (Heap.empty.createArray (NdArray.build [1, 2, 1] fun _ => default)).1).map fun r => r.2) = some (.ok 1) := by
  decide +kernel

example : IsCString values "values" := ⟨by decide, [], by decide +kernel⟩

end DataLifetimes.Example
end Equistore
