import Verif.Lemmas.CResults
import Verif.Props.CBlocks
import Verif.Props.Ownership

/-!
# The C API does what the Rust functions do (C115)

All theorems are about programs following the rules of the C API (`Run`), at any point: what a call returns, and what the program
sees afterwards, in terms of what it saw before. Everything else stays the same by `C49_independent`.
-/

namespace Equistore
open Spec
variable {B : Type} [Inhabited B] [ArrayCallbacks B]

/-- **C115.** All the pointers a program may use have something behind them: nothing is missing in what a program sees. -/
theorem C115_visible (h : Heap B) (l : Ledger) (hr : Run h l) :
    (∀ n ∈ l.tensors, ∃ t, SeesTensor h n t) ∧ (∀ q, l.Usable q → q ≠ .null → ∃ b, SeesBlock h q b) ∧
    (∀ a, l.Owns a → ∃ content, SeesArray h a content) := by
  obtain ⟨owner, hi⟩ := Heap.inv_run hr
  refine ⟨fun n hn => ?_, fun q hq hne => ?_, fun a ha => ?_⟩
  · obtain ⟨t, v, ht⟩ := hi.tensor hn
    exact ⟨_, (hi.seesTensor ht).2 rfl⟩
  · obtain ⟨b, hb⟩ := hi.usable hq hne
    exact ⟨_, (hi.seesBlock hb).2 rfl⟩
  · obtain ⟨x, hx⟩ := Option.isSome_iff_exists.1 ((hi.heap.owned.alive a.ptr).2 (by rw [(hi.owns ha).1]; rfl))
    exact ⟨x, by simp [SeesArray, look, hx]⟩

theorem Heap.live_of_sees {h : Heap B} {data : CArray} {content : B} (hs : SeesArray h data content) :
    h.live data = some ⟨some data, content⟩ := by
  simp only [SeesArray, look, Option.map_eq_some_iff, Content.array.injEq, exists_eq_right] at hs
  simp [Heap.live, hs]

theorem mapM_means {components : List CLabels} {cs : List Labels} (hc : List.Forall₂ Means components cs) :
    components.mapM Labels.ofC = .ok cs := by
  induction hc with
  | nil => rfl
  | cons h1 _ ih => rw [List.mapM_cons, ih, show Labels.ofC _ = _ from h1]; rfl

/-- **C115.** `eqs_block` makes the block which Rust makes from the content of the array and the labels, or reports the same
error. -/
theorem C115_block (h : Heap B) (l : Ledger) (hr : Run h l) (data : CArray) (hd : l.Owns data) (content : B)
    (hs : SeesArray h data content) (samples properties : CLabels) (components : List CLabels) (s p : Labels) (cs : List Labels)
    (hsamples : Means samples s) (hcomponents : List.Forall₂ Means components cs) (hproperties : Means properties p) :
    ∃ h' r, eqsBlock data samples components properties h = some (h', r) ∧
      Makes (TensorBlock.new content s cs p) r fun n b => SeesBlock h' (.owned n) b := by
  obtain ⟨owner, hi⟩ := Heap.inv_run hr
  obtain ⟨hop, hheld⟩ := hi.owns hd
  have hlive := Heap.live_of_sees hs
  have hof : blockOfC (⟨some data, content⟩ : Live B) samples components properties =
      TensorBlock.new ⟨some data, content⟩ s cs p := by
    unfold blockOfC
    rw [show Labels.ofC samples = _ from hsamples, show Labels.ofC properties = _ from hproperties, mapM_means hcomponents]
    rfl
  have hsame : TensorBlock.new content s cs p = _ :=
    Heap.sameCallbacks_live.toSameViews.newBlock (⟨some data, content⟩ : Live B) s cs p
  rw [hsame]
  obtain ⟨h₀, hdrop, _⟩ := Heap.drop_owned hi.heap.owned hheld .program
  unfold eqsBlock
  simp only [hlive, hof]
  cases hnew : TensorBlock.new (⟨some data, content⟩ : Live B) s cs p with
  | err e => exact ⟨h₀, .err e, by simp [hdrop], rfl⟩
  | panic m => exact ⟨h₀, .panic m, by simp [hdrop], rfl⟩
  | ok block =>
    obtain ⟨harrays, _⟩ := TensorBlock.new_arrays hnew
    have hh : block.arrays.map (·.handle) = [data].map some := by rw [harrays]; rfl
    have hk : (Heap.kept block.arrays).Nodup := by rw [Heap.kept_handles hh]; exact hheld.nodup
    obtain ⟨h₁, b, hcb, hc, _, hsk⟩ := Heap.commitBlock_spec hi.heap.owned hheld hk (Heap.handle_mem hh) .program
    simp only [hcb]
    refine ⟨_, _, rfl, h₁.next, rfl, ?_⟩
    have := Heap.Committed.block hc hsk
    simp only [SeesBlock, look, Heap.putBlock, setAt, if_true, Option.map_some, this]

theorem failure_bind {α β : Type} (r : Res Empty) (f : α → Res β) : (failure r >>= f) = failure r := by
  cases r with
  | ok x => exact x.elim
  | err e => rfl
  | panic m => rfl

theorem mapM_invalid {r : Res Empty} (last : CLabels) : ∀ cs : List CLabels, FirstInvalid r (cs ++ [last]) →
    cs.mapM Labels.ofC = failure r ∨ (∃ ls, List.Forall₂ Means cs ls) ∧ Invalid last r := by
  intro cs hcs
  induction cs with
  | nil =>
    cases hcs with
    | here h3 => exact .inr ⟨⟨[], .nil⟩, h3⟩
    | later _ h3 => cases h3
  | cons c cs ih =>
    rw [List.cons_append] at hcs
    rw [List.mapM_cons]
    cases hcs with
    | here h3 => rw [show Labels.ofC c = _ from h3, failure_bind]; exact .inl rfl
    | later h3 h4 =>
      rw [show Labels.ofC c = _ from h3]
      rcases ih h4 with h5 | ⟨⟨ls, h5⟩, h6⟩
      · rw [h5, Res.ok_bind, failure_bind]; exact .inl rfl
      · exact .inr ⟨⟨_, .cons h3 h5⟩, h6⟩

/-- **C115.** If the labels given to `eqs_block` are not valid, the first of them gives the error. -/
theorem C115_block_invalid (h : Heap B) (l : Ledger) (hr : Run h l) (data : CArray) (hd : l.Owns data)
    (samples properties : CLabels) (components : List CLabels) (r : Res Empty)
    (hbad : FirstInvalid r (samples :: components ++ [properties])) :
    ∃ h', eqsBlock data samples components properties h = some (h', failure r) := by
  obtain ⟨owner, hi⟩ := Heap.inv_run hr
  obtain ⟨content, hs⟩ := (C115_visible h l hr).2.2 data hd
  obtain ⟨hop, hheld⟩ := hi.owns hd
  obtain ⟨h₀, hdrop, _⟩ := Heap.drop_owned hi.heap.owned hheld .program
  have hof : blockOfC (⟨some data, content⟩ : Live B) samples components properties = failure r := by
    unfold blockOfC
    rw [List.cons_append] at hbad
    cases hbad with
    | here h1 => rw [show Labels.ofC samples = _ from h1, failure_bind]
    | later h1 h2 =>
      rw [show Labels.ofC samples = _ from h1, Res.ok_bind]
      rcases mapM_invalid properties components h2 with h3 | ⟨⟨ls, h3⟩, h4⟩
      · rw [h3, failure_bind]
      · rw [mapM_means h3, show Labels.ofC properties = _ from h4, Res.ok_bind, failure_bind]
  refine ⟨h₀, ?_⟩
  unfold eqsBlock
  simp only [Heap.live_of_sees hs, hof, hdrop]
  cases r with
  | ok x => exact x.elim
  | err e => rfl
  | panic m => rfl

theorem Heap.setBlock_sees {h : Heap B} {l : Ledger} {owner : Nat → Option Heap.Owner} (hi : Heap.Inv h l owner) {q : BlockPtr}
    {b : TensorBlock CArray} (hb : h.block q = some b) {before : List CArray} {ls : List (Live B)} {h₁ : Heap B} {b₁ : TensorBlock CArray}
    (hc : Heap.Committed h h₁ before ls b₁.arrays) (hbefore : ∀ a ∈ Heap.ids before, a ∈ Heap.ids b.arrays ∨ owner a = some .program)
    {u : TensorBlock B} (hu : b₁.mapData (fun a => h₁.arrays a.ptr) = u.mapData some) :
    SeesBlock (h₁.setBlock b₁ q) q u ∧
    ∀ n v i t, q = .inside n v i → SeesTensor h n t →
      SeesTensor (h₁.setBlock b₁ q) n { t with blocks := t.blocks.set i u } := by
  cases q with
  | null => cases hb
  | owned n =>
    refine ⟨?_, fun n v i t hq => by cases hq⟩
    simp only [SeesBlock, look, Heap.setBlock, setAt, if_true, Option.map_some, hu]
  | inside n v i =>
    have hb' := hb
    simp only [Heap.block] at hb'
    split at hb'
    · cases hb'
    rename_i t v' ht
    split at hb'
    case isFalse => cases hb'
    have ht₁ : h₁.tensors n = some (t, v') := by rw [hc.tensors, ht]
    obtain ⟨hlt, hget⟩ := List.getElem?_eq_some_iff.1 hb'
    have key : ∀ s, SeesTensor h n s →
        SeesTensor (h₁.setBlock b₁ (.inside n v i)) n { s with blocks := s.blocks.set i u } := by
      intro s hs
      simp only [SeesTensor, look, ht, Option.map_some, Option.some.injEq, Content.tensor.injEq] at hs
      have hk : t.keys = s.keys := congrArg TensorMap.keys hs
      have hbl : t.blocks.map (TensorBlock.mapData fun a => h.arrays a.ptr) = s.blocks.map (TensorBlock.mapData some) :=
        congrArg TensorMap.blocks hs
      simp only [SeesTensor, look, Heap.setBlock, ht₁, setAt, if_true, Option.map_some, Option.some.injEq, Content.tensor.injEq,
        TensorMap.mapData, TensorMap.mk.injEq]
      refine ⟨hk, ?_⟩
      rw [List.map_set, List.map_set, ← hbl, hu]
      refine List.ext_getElem? fun j => ?_
      rw [List.getElem?_set, List.getElem?_set]
      simp only [List.length_map]
      by_cases hij : i = j
      · simp [hij]
      rw [if_neg hij, if_neg hij, List.getElem?_map, List.getElem?_map]
      cases hj : t.blocks[j]? with
      | none => rfl
      | some c =>
        simp only [Option.map_some, Option.some.injEq]
        refine TensorBlock.mapData_congr fun a ha => ?_
        obtain ⟨hjlt, hjget⟩ := List.getElem?_eq_some_iff.1 hj
        have hcmem : c ∈ h.blocksOf (.tensor n) := by
          simp only [Heap.blocksOf, Heap.object, ht, Option.map_some, Heap.Object.blocks]
          rw [← hjget]; exact List.getElem_mem hjlt
        have hown : owner a.ptr = some (.tensor n) :=
          (hi.heap.mem (.tensor n) (by simp) a.ptr).1
            (List.mem_map.2 ⟨a, List.mem_flatMap.2 ⟨c, hcmem, ha⟩, rfl⟩)
        refine hc.frame a.ptr (fun hbad => ?_) (hi.heap.owned.lt (by rw [hown]; rfl))
        rcases hbefore _ hbad with h1 | h1
        · have hnd := hi.heap.nodup (.tensor n)
          rw [Heap.held_tensor ht] at hnd
          have : (t.blocks.flatMap fun b => Heap.ids b.arrays).Nodup := by
            have h2 : Heap.ids t.arrays = t.blocks.flatMap fun b => Heap.ids b.arrays := by
              simp [Heap.ids, TensorMap.arrays, List.map_flatMap]
            rw [← h2]; exact hnd
          rw [List.nodup_flatMap] at this
          have hpair := List.pairwise_iff_getElem.1 this.2
          have h3 : a.ptr ∈ Heap.ids c.arrays := List.mem_map.2 ⟨a, ha, rfl⟩
          rcases Nat.lt_or_gt_of_ne hij with h4 | h4
          · have := hpair i j hlt hjlt h4
            rw [hget, hjget] at this
            exact this h1 h3
          · have := hpair j i hjlt hlt h4
            rw [hget, hjget] at this
            exact this h3 h1
        · rw [hown] at h1; cases h1
    refine ⟨?_, ?_⟩
    · obtain ⟨s, hs⟩ : ∃ s, SeesTensor h n s := ⟨_, (hi.seesTensor ht).2 rfl⟩
      refine ⟨_, key s hs, ?_⟩
      have hlen : i < s.blocks.length := by
        simp only [SeesTensor, look, ht, Option.map_some, Option.some.injEq, Content.tensor.injEq] at hs
        have := congrArg (fun x => x.blocks.length) hs
        simp only [TensorMap.mapData, List.length_map] at this
        omega
      rw [List.getElem?_set]
      simp [hlen]
    · intro n' v'' i' s hq hs
      cases hq
      exact key s hs

theorem lift_failure {σ α β : Type} (r : Res Empty) (f : α → Act σ β) (s : σ) : (Act.lift (failure r) >>= f) s = (s, failure r) := by
  cases r with
  | ok x => exact x.elim
  | err e => rfl
  | panic m => rfl

theorem mapM_firstInvalid {r : Res Empty} {cs : List CLabels} (hcs : FirstInvalid r cs) : cs.mapM Labels.ofC = failure r := by
  induction hcs with
  | here h3 => rw [List.mapM_cons, show Labels.ofC _ = _ from h3, failure_bind]
  | later h3 _ ih => rw [List.mapM_cons, show Labels.ofC _ = _ from h3, ih, Res.ok_bind, failure_bind]

/-- What `eqs_block_add_gradient` leaves behind. -/
theorem Heap.addGradient_sees {h : Heap B} {l : Ledger} {owner : Nat → Option Heap.Owner} (hi : Heap.Inv h l owner) {q : BlockPtr}
    {c : TensorBlock CArray} (hc : h.block q = some c) {data : CArray} (hd : l.Owns data) {content : B} (hs : SeesArray h data content)
    {name : Option Bytes} {samples : CLabels} {components : List CLabels} {result : TensorBlock (Live B) × Res Unit}
    (hof : addGradientOfC name (⟨some data, content⟩ : Live B) samples components (c.mapData (Heap.thawed h)) = result)
    (harrays : result.1.arrays = (c.mapData (Heap.thawed h)).arrays ∨
      result.1.arrays = (c.mapData (Heap.thawed h)).arrays ++ [⟨some data, content⟩]) :
    ∃ h', eqsBlockAddGradient q name data samples components h = some (h', result.2) ∧
      SeesBlock h' q (result.1.mapData Live.content) ∧
      ∀ n v i t, q = .inside n v i → SeesTensor h n t →
        SeesTensor h' n { t with blocks := t.blocks.set i (result.1.mapData Live.content) } := by
  have hne : q ≠ .null := by rintro rfl; cases hc
  obtain ⟨hop, hdheld⟩ := hi.owns hd
  have hlive := Heap.live_of_sees hs
  have hthaw : h.thawBlock c = some (c.mapData (Heap.thawed h)) := hi.heap.thawBlock (Heap.HeapInv.mem_blocksOf hc)
  have hbown := hi.heap.owner_block hc
  have htp : Heap.target q ≠ .program := by
    cases q with
    | null => exact absurd rfl hne
    | owned => simp [Heap.target]
    | inside => simp [Heap.target]
  have hheld : Heap.Held owner (c.arrays ++ [data]) := (hi.heap.block_held hc).append hdheld (by
    intro a ha
    rw [Heap.ids_cons, Heap.ids_nil, List.mem_singleton]
    rintro rfl
    have := hbown _ ha
    rw [hop, Option.some.injEq] at this
    exact htp this.symm)
  have hrun : eqsBlockAddGradient q name data samples components h =
      (match h.commitBlock (c.arrays ++ [data]) result.1 with
      | none => none
      | some (h₁, b₁) => some (h₁.setBlock b₁ q, result.2)) := by
    simp only [eqsBlockAddGradient, if_neg hne, hc, hlive, hthaw, hof]
    rfl
  obtain ⟨as, has, hsub⟩ : ∃ as, result.1.arrays.map (·.handle) = as.map some ∧
      (as = c.arrays ∨ as = c.arrays ++ [data]) := by
    rw [TensorBlock.arrays_mapData] at harrays
    rcases harrays with h1 | h1
    · exact ⟨c.arrays, by rw [h1, Heap.thawed_handles], .inl rfl⟩
    · exact ⟨c.arrays ++ [data], by rw [h1, List.map_append, Heap.thawed_handles]; simp, .inr rfl⟩
  have hasub : ∀ x ∈ as, x ∈ c.arrays ++ [data] := by
    rcases hsub with rfl | rfl
    · exact fun x hx => List.mem_append_left _ hx
    · exact fun x hx => hx
  have hasnd : (Heap.ids as).Nodup := by
    rcases hsub with rfl | rfl
    · exact (hi.heap.block_held hc).nodup
    · exact hheld.nodup
  have hk : (Heap.kept result.1.arrays).Nodup := by rw [Heap.kept_handles has]; exact hasnd
  have hm : ∀ a ∈ result.1.arrays, ∀ x, a.handle = some x → x ∈ c.arrays ++ [data] :=
    fun a ha x hx => hasub x (Heap.handle_mem has a ha x hx)
  obtain ⟨h₁, b₁, hcb, hcm, _, hsk⟩ := Heap.commitBlock_spec hi.heap.owned hheld hk hm (Heap.target q)
  rw [hcb] at hrun
  refine ⟨_, hrun, ?_⟩
  refine Heap.setBlock_sees hi hc hcm (fun a ha => ?_) (Heap.Committed.block hcm hsk)
  rw [Heap.ids_append, Heap.ids_cons, Heap.ids_nil, List.mem_append, List.mem_singleton] at ha
  rcases ha with h1 | rfl
  · exact .inl h1
  · exact .inr hop

/-- **C115.** `eqs_block_add_gradient` changes the block the way Rust does, and returns what Rust returns. If the block is part
of a tensor map, this tensor map contains the changed block, and is the same otherwise. -/
theorem C115_add_gradient (h : Heap B) (l : Ledger) (hr : Run h l) (q : BlockPtr) (hq : l.Usable q) (b : TensorBlock B)
    (hb : SeesBlock h q b) (name : Bytes) (parameter : String) (hname : IsCString name parameter)
    (data : CArray) (hd : l.Owns data) (content : B) (hs : SeesArray h data content) (samples : CLabels) (components : List CLabels)
    (s : Labels) (cs : List Labels) (hsamples : Means samples s) (hcomponents : List.Forall₂ Means components cs) :
    ∃ h', eqsBlockAddGradient q (some name) data samples components h =
        some (h', (TensorBlock.addGradient parameter content s cs b).2) ∧
      SeesBlock h' q (TensorBlock.addGradient parameter content s cs b).1 ∧
      ∀ n v i t, q = .inside n v i → SeesTensor h n t →
        SeesTensor h' n { t with blocks := t.blocks.set i (TensorBlock.addGradient parameter content s cs b).1 } := by
  obtain ⟨owner, hi⟩ := Heap.inv_run hr
  have hne : q ≠ .null := by rintro rfl; exact hb
  obtain ⟨c, hc⟩ := hi.usable hq hne
  rw [hi.seesBlock hc] at hb
  subst hb
  have hof : addGradientOfC (some name) (⟨some data, content⟩ : Live B) samples components (c.mapData (Heap.thawed h)) =
      TensorBlock.addGradient parameter ⟨some data, content⟩ s cs (c.mapData (Heap.thawed h)) := by
    unfold addGradientOfC
    rw [show Labels.ofC samples = _ from hsamples, mapM_means hcomponents]
    change (Act.lift (Res.expect (cstrStr name) "called `Result::unwrap()` on an `Err` value") >>= _) _ = _
    rw [hname.str]
    rfl
  have hsame : TensorBlock.addGradient parameter content s cs ((c.mapData (Heap.thawed h)).mapData Live.content) = _ :=
    Heap.sameCallbacks_live.toSameViews.addGradient parameter (⟨some data, content⟩ : Live B) s cs (c.mapData (Heap.thawed h))
  rw [hsame]
  exact Heap.addGradient_sees hi hc hd hs hof
    (TensorBlock.addGradient_arrays (c.mapData (Heap.thawed h)) parameter (⟨some data, content⟩ : Live B) s cs).1

/-- **C115.** If the labels given to `eqs_block_add_gradient` are not valid, the first of them gives the error, and the block is
the same as before. -/
theorem C115_add_gradient_invalid (h : Heap B) (l : Ledger) (hr : Run h l) (q : BlockPtr) (hq : l.Usable q) (b : TensorBlock B)
    (hb : SeesBlock h q b) (name : Bytes) (parameter : String) (hname : IsCString name parameter)
    (data : CArray) (hd : l.Owns data) (samples : CLabels) (components : List CLabels) (r : Res Empty)
    (hbad : FirstInvalid r (samples :: components)) :
    ∃ h', eqsBlockAddGradient q (some name) data samples components h = some (h', failure r) ∧ SeesBlock h' q b := by
  obtain ⟨owner, hi⟩ := Heap.inv_run hr
  obtain ⟨content, hs⟩ := (C115_visible h l hr).2.2 data hd
  have hne : q ≠ .null := by rintro rfl; exact hb
  obtain ⟨c, hc⟩ := hi.usable hq hne
  rw [hi.seesBlock hc] at hb
  subst hb
  have hof : addGradientOfC (some name) (⟨some data, content⟩ : Live B) samples components (c.mapData (Heap.thawed h)) =
      (c.mapData (Heap.thawed h), failure r) := by
    unfold addGradientOfC
    change (Act.lift (Res.expect (cstrStr name) "called `Result::unwrap()` on an `Err` value") >>= _) _ = _
    rw [hname.str]
    change (Act.lift (Labels.ofC samples) >>= _) _ = _
    cases hbad with
    | here h1 =>
      rw [show Labels.ofC samples = _ from h1]
      exact lift_failure r _ _
    | later h1 h2 =>
      rw [show Labels.ofC samples = _ from h1]
      change (Act.lift (components.mapM Labels.ofC) >>= _) _ = _
      rw [mapM_firstInvalid h2]
      exact lift_failure r _ _
  obtain ⟨h', h1, h2, _⟩ := Heap.addGradient_sees hi hc hd hs hof (.inl rfl)
  exact ⟨h', h1, h2⟩

/-- **C115.** `eqs_tensormap` makes the tensor map which Rust makes from these keys and blocks, or reports the same error. -/
theorem C115_tensormap (h : Heap B) (l : Ledger) (hr : Run h l) (hash : HashOrder) (hh : OrderByName hash) (keys : CLabels)
    (k : Labels) (hkeys : Means keys k) (ns : List Nat) (hn : ns.Nodup) (hns : ∀ n ∈ ns, n ∈ l.blocks)
    (bs : List (TensorBlock B)) (hbs : List.Forall₂ (fun n b => SeesBlock h (.owned n) b) ns bs) :
    ∃ h' pointers r, eqsTensormap hash keys (ns.map .owned) h = some (h', pointers, r) ∧
      Makes (TensorMap.new hash k bs) r fun n t => SeesTensor h' n t := by
  obtain ⟨owner, hi⟩ := Heap.inv_run hr
  obtain ⟨h', r, cs, hrun, hcs, _, _, _, hok, _, hout⟩ := C48_taken h l hr hash keys k hkeys ns hn hns
  have hbs' : bs = (cs.map (TensorBlock.mapData (Heap.thawed h))).map (TensorBlock.mapData Live.content) := by
    have key : ∀ (ns : List Nat) (bs : List (TensorBlock B)) (cs : List (TensorBlock CArray)),
        List.Forall₂ (fun n b => SeesBlock h (.owned n) b) ns bs → List.Forall₂ (fun n b => h.blocks n = some b) ns cs →
        bs = (cs.map (TensorBlock.mapData (Heap.thawed h))).map (TensorBlock.mapData Live.content) := by
      intro ns bs cs h1 h2
      induction h1 generalizing cs with
      | nil => cases h2; rfl
      | cons h1 _ ih =>
        cases h2 with
        | cons h2 h3 => rw [List.map_cons, List.map_cons, ← ih _ h3, (hi.seesBlock (q := .owned _) h2).1 h1]
    exact key ns bs cs hbs hcs
  refine ⟨h', _, r, hrun, ?_⟩
  have hsame := TensorMap.new_mapData Live.content hh k (cs.map (TensorBlock.mapData (Heap.thawed h)))
  rw [hbs', hsame]
  cases hnew : TensorMap.new hash k (cs.map (TensorBlock.mapData (Heap.thawed h))) with
  | err e => rw [hnew] at hout; exact hout
  | panic m => rw [hnew] at hout; exact hout
  | ok t =>
    rw [hnew] at hout
    obtain ⟨n, rfl⟩ := hout
    refine ⟨n, rfl, ?_⟩
    obtain ⟨⟨v, ht⟩, _, _, _, hkeep⟩ := hok n rfl
    have htt : t = { keys := k, blocks := cs.map (TensorBlock.mapData (Heap.thawed h)) } := by
      unfold TensorMap.new at hnew
      simp only [Res.bind_eq_ok] at hnew
      obtain ⟨_, _, _, _, hnew⟩ := hnew
      split at hnew
      · cases hnew; rfl
      · simp only [Res.bind_eq_ok] at hnew
        obtain ⟨_, _, hnew⟩ := hnew
        cases hnew; rfl
    subst htt
    simp only [SeesTensor, look, ht, Option.map_some, Option.some.injEq, Content.tensor.injEq, TensorMap.mapData,
      TensorMap.mk.injEq, true_and]
    rw [List.map_map, List.map_map]
    refine List.map_congr_left fun c hc => ?_
    obtain ⟨i, hlt, rfl⟩ := List.getElem_of_mem hc
    have hlt' : i < ns.length := by rw [hcs.length_eq]; exact hlt
    have hci : h.blocks ns[i] = some cs[i] := hcs.get hlt' hlt
    rw [Function.comp_apply, Function.comp_apply, ← hi.block_content (o := .block ns[i])
      (by simp [Heap.blocksOf, Heap.object, hci, Heap.Object.blocks])]
    refine TensorBlock.mapData_congr fun a ha => hkeep _ ?_
    exact List.mem_map.2 ⟨a, List.mem_flatMap.2 ⟨_, hc, ha⟩, rfl⟩

/-- **C115.** `eqs_tensormap_keys_to_properties` changes the tensor map the way Rust does, and returns what Rust returns. If
`keys_to_move` is not valid it is an error, and nothing changes. -/
theorem C115_keys_to_properties (h : Heap B) (l : Ledger) (hr : Run h l) (build : Build) (hash : HashOrder) (hh : OrderByName hash)
    (n : Nat) (hn : n ∈ l.tensors) (t : TensorMap B) (ht : SeesTensor h n t) (keysToMove : CLabels) (sort : Bool) :
    (∀ k, Means keysToMove k → ∃ h', eqsKeysToProperties build hash (some n) keysToMove sort h =
        some (h', (t.keysToProperties build hash k sort).2) ∧ SeesTensor h' n (t.keysToProperties build hash k sort).1) ∧
    (∀ r, Invalid keysToMove r → ∃ h', eqsKeysToProperties build hash (some n) keysToMove sort h = some (h', failure r) ∧
      SeesTensor h' n t) := by
  obtain ⟨owner, hi⟩ := Heap.inv_run hr
  obtain ⟨c, v, hc⟩ := hi.tensor hn
  rw [hi.seesTensor hc] at ht
  subst ht
  have hlook := Heap.modify_look hi hc (replaces := true) (action := (do
      let keysToMove ← Act.lift (Labels.ofC keysToMove)
      TensorMap.keysToProperties build hash keysToMove sort))
    (fun t _ => Heap.newOrUnchanged_action (NewOrUnchanged.lift_bind _ fun keys => keysToProperties_new _ _ keys _) t)
  obtain ⟨h', h1, h2⟩ := hlook
  refine ⟨fun k hk => ⟨h', ?_, ?_⟩, fun r hbad => ⟨h', ?_, ?_⟩⟩
  · have hsame := Heap.sameCallbacks_live.keysToProperties (B := B) (build := build) hh (keysToMove := k) (sort := sort)
      (t := c.mapData (Heap.thawed h))
    rw [hsame]
    refine h1.trans ?_
    rw [Act.lift_bind, show Labels.ofC keysToMove = _ from hk]
  · have hsame := Heap.sameCallbacks_live.keysToProperties (B := B) (build := build) hh (keysToMove := k) (sort := sort)
      (t := c.mapData (Heap.thawed h))
    rw [hsame]
    rw [Act.lift_bind, show Labels.ofC keysToMove = _ from hk] at h2
    exact h2
  · refine h1.trans ?_
    rw [Act.lift_bind, show Labels.ofC keysToMove = _ from hbad]
    cases r with
    | ok x => exact x.elim
    | err e => rfl
    | panic m => rfl
  · rw [Act.lift_bind, show Labels.ofC keysToMove = _ from hbad] at h2
    cases r with
    | ok x => exact x.elim
    | err e => exact h2
    | panic m => exact h2

/-- **C115.** `eqs_tensormap_keys_to_samples` changes the tensor map the way Rust does, and returns what Rust returns. If
`keys_to_move` is not valid it is an error, and nothing changes. -/
theorem C115_keys_to_samples (h : Heap B) (l : Ledger) (hr : Run h l) (build : Build) (hash : HashOrder) (hh : OrderByName hash)
    (n : Nat) (hn : n ∈ l.tensors) (t : TensorMap B) (ht : SeesTensor h n t) (keysToMove : CLabels) (sort : Bool) :
    (∀ k, Means keysToMove k → ∃ h', eqsKeysToSamples build hash (some n) keysToMove sort h =
        some (h', (t.keysToSamples build hash k sort).2) ∧ SeesTensor h' n (t.keysToSamples build hash k sort).1) ∧
    (∀ r, Invalid keysToMove r → ∃ h', eqsKeysToSamples build hash (some n) keysToMove sort h = some (h', failure r) ∧
      SeesTensor h' n t) := by
  obtain ⟨owner, hi⟩ := Heap.inv_run hr
  obtain ⟨c, v, hc⟩ := hi.tensor hn
  rw [hi.seesTensor hc] at ht
  subst ht
  have hlook := Heap.modify_look hi hc (replaces := true) (action := (do
      let keysToMove ← Act.lift (Labels.ofC keysToMove)
      TensorMap.keysToSamples build hash keysToMove sort))
    (fun t _ => Heap.newOrUnchanged_action (NewOrUnchanged.lift_bind _ fun keys => keysToSamples_new _ _ keys _) t)
  obtain ⟨h', h1, h2⟩ := hlook
  refine ⟨fun k hk => ⟨h', ?_, ?_⟩, fun r hbad => ⟨h', ?_, ?_⟩⟩
  · have hsame := Heap.sameCallbacks_live.keysToSamples (B := B) (build := build) hh (keysToMove := k) (sort := sort)
      (t := c.mapData (Heap.thawed h))
    rw [hsame]
    refine h1.trans ?_
    rw [Act.lift_bind, show Labels.ofC keysToMove = _ from hk]
  · have hsame := Heap.sameCallbacks_live.keysToSamples (B := B) (build := build) hh (keysToMove := k) (sort := sort)
      (t := c.mapData (Heap.thawed h))
    rw [hsame]
    rw [Act.lift_bind, show Labels.ofC keysToMove = _ from hk] at h2
    exact h2
  · refine h1.trans ?_
    rw [Act.lift_bind, show Labels.ofC keysToMove = _ from hbad]
    cases r with
    | ok x => exact x.elim
    | err e => rfl
    | panic m => rfl
  · rw [Act.lift_bind, show Labels.ofC keysToMove = _ from hbad] at h2
    cases r with
    | ok x => exact x.elim
    | err e => exact h2
    | panic m => exact h2

/-- **C115.** `eqs_tensormap_components_to_properties` with these names changes the tensor map the way Rust does, and returns what
Rust returns. -/
theorem C115_components_to_properties (h : Heap B) (l : Ledger) (hr : Run h l) (hash : HashOrder) (hh : OrderByName hash)
    (n : Nat) (hn : n ∈ l.tensors) (t : TensorMap B) (ht : SeesTensor h n t) (pointers : List Bytes) (names : List String)
    (hnames : List.Forall₂ IsCString pointers names) :
    ∃ h', eqsComponentsToProperties hash (some n) (pointers.map some) h = some (h', (t.componentsToProperties hash names).2) ∧
      SeesTensor h' n (t.componentsToProperties hash names).1 := by
  obtain ⟨owner, hi⟩ := Heap.inv_run hr
  obtain ⟨c, v, hc⟩ := hi.tensor hn
  rw [hi.seesTensor hc] at ht
  subst ht
  have hm : (pointers.map some).mapM variableName = .ok names := by
    clear hn hc
    induction hnames with
    | nil => rfl
    | @cons memory name _ _ h1 _ ih =>
      have h2 : variableName (some memory) = .ok name := by
        change Res.expect (cstrStr _) "invalid utf8" = _
        rw [h1.str]; rfl
      rw [List.map_cons, List.mapM_cons, ih, h2]; rfl
  have hlook := Heap.modify_look hi hc (replaces := false) (action := (do
      let names ← Act.lift ((pointers.map some).mapM variableName)
      TensorMap.componentsToProperties hash names)) (fun t ht => .inr ⟨by simp, by
        rw [Act.lift_bind, hm]
        exact TensorMap.componentsToProperties_handles _ _ _ ht⟩)
  obtain ⟨h', h1, h2⟩ := hlook
  have hsame := Heap.sameCallbacks_live.toSameViews.componentsToProperties (B := B) hh (vars := names)
    (t := c.mapData (Heap.thawed h))
  rw [hsame]
  rw [Act.lift_bind, hm] at h2
  exact ⟨h', h1.trans (by rw [Act.lift_bind, hm]), h2⟩

/-- **C115.** `eqs_tensormap_blocks_matching`, `eqs_tensormap_keys` and `eqs_tensormap_block_by_id` return what Rust returns, and
change nothing: the positions of the matching blocks, the keys, and a pointer to this block. -/
theorem C115_read_tensor (h : Heap B) (l : Ledger) (hr : Run h l) (n : Nat) (hn : n ∈ l.tensors) (t : TensorMap B)
    (ht : SeesTensor h n t) :
    (∀ selection s, Means selection s → eqsBlocksMatching (some n) selection h = some (h, t.blocksMatching s)) ∧
    (∀ selection r, Invalid selection r → eqsBlocksMatching (some n) selection h = some (h, failure r)) ∧
    eqsTensormapKeys (some n) h = some (h, t.keys.toC) ∧
    (∀ i b, t.blocks[i]? = some b → ∃ q, eqsTensormapBlockById (some n) i h = some (h, .ok q) ∧ SeesBlock h q b) ∧
    (∀ i, t.blocks[i]? = none → eqsTensormapBlockById (some n) i h = some (h, .panic "index out of bounds")) := by
  obtain ⟨owner, hi⟩ := Heap.inv_run hr
  obtain ⟨c, v, hc⟩ := hi.tensor hn
  have ht' := ht
  rw [hi.seesTensor hc] at ht
  subst ht
  have hthaw : h.thawTensor c = some (c.mapData (Heap.thawed h)) := hi.heap.thawTensor hc
  have hlen : ((c.mapData (Heap.thawed h)).mapData Live.content).blocks.length = c.blocks.length := by
    simp [TensorMap.mapData]
  refine ⟨fun selection s hs => ?_, fun selection r hbad => ?_, ?_, fun i b hb => ?_, fun i hb => ?_⟩
  · simp only [eqsBlocksMatching, hc, hthaw, show Labels.ofC selection = _ from hs, Res.ok_bind]
    exact congrArg (fun r => some (h, r)) (SameCallbacks.blocksMatching_map (A := Live B) Live.content _ _).symm
  · simp only [eqsBlocksMatching, hc, hthaw, show Labels.ofC selection = _ from hbad, failure_bind]
  · simp only [eqsTensormapKeys, hc]
    rfl
  · have hlt := (List.getElem?_eq_some_iff.1 hb).1
    rw [hlen] at hlt
    refine ⟨.inside n v i, ?_, _, ht', hb⟩
    simp only [eqsTensormapBlockById, hc, if_pos hlt]
  · rw [List.getElem?_eq_none_iff, hlen] at hb
    simp only [eqsTensormapBlockById, hc, if_neg (Nat.not_lt.2 hb)]

/-- **C115.** `eqs_block_labels`, `eqs_block_data` and `eqs_block_gradients_list` return what is in the block, and change nothing:
the labels of this axis of the values or of this gradient, a pointer to the array with the values or this gradient (which the program does
not own), and the names of the gradients. Without a gradient with this name, it is an error. -/
theorem C115_read_block (h : Heap B) (l : Ledger) (hr : Run h l) (q : BlockPtr) (hq : l.Usable q) (b : TensorBlock B)
    (hb : SeesBlock h q b) :
    (∀ name s part, IsCString name s → BlockPart b s part →
      (∀ axis, match (allLabels part)[axis]? with
        | some labels => eqsBlockLabels q name axis h = some (h, labels.toC)
        | none => ∃ m, eqsBlockLabels q name axis h = some (h, .err (.invalidParameter m))) ∧
      (∀ old, old.destroy = false →
        ∃ a, eqsBlockData q name old h = some (h, .ok a) ∧ a.destroy = false ∧ SeesArray h a part.data)) ∧
    (∀ name s, IsCString name s → (∀ part, ¬BlockPart b s part) →
      (∀ axis, ∃ m, eqsBlockLabels q name axis h = some (h, .err (.invalidParameter m))) ∧
      (∀ old, ∃ m, eqsBlockData q name old h = some (h, .err (.invalidParameter m)))) ∧
    (∃ memory, eqsBlockGradientsList q h =
        some (h, .ok (if b.gradientParameters = [] then none else some memory, b.gradientParameters.length)) ∧
      ((∀ p ∈ b.gradientParameters, '\x00' ∉ p.toList) → List.Forall₂ IsCString memory b.gradientParameters)) := by
  obtain ⟨owner, hi⟩ := Heap.inv_run hr
  have hne : q ≠ .null := by rintro rfl; exact hb
  obtain ⟨c, hc⟩ := hi.usable hq hne
  rw [hi.seesBlock hc] at hb
  subst hb
  rw [TensorBlock.mapData_mapData]
  generalize hf : (Live.content ∘ Heap.thawed h) = f
  have hcontent : ∀ a ∈ c.arrays, h.arrays a.ptr = some (f a) := by
    intro a ha
    rw [← hf]
    exact Heap.thawed_content h (hi.alive (Heap.HeapInv.mem_blocksOf hc) ha)
  have hnamed : (c.gradients.map Prod.fst).Nodup := hi.heap.block_named hc
  have hpart : ∀ s part, BlockPart (c.mapData f) s part → ∃ part', BlockPart c s part' ∧ part = part'.withData (f part'.data) := by
    rintro s part (⟨rfl, rfl⟩ | ⟨hs, hm⟩)
    · exact ⟨c.values, .inl ⟨rfl, rfl⟩, rfl⟩
    · simp only [TensorBlock.mapData, List.mem_map, Prod.mk.injEq] at hm
      obtain ⟨⟨p, g⟩, hm, rfl, rfl⟩ := hm
      exact ⟨g, .inr ⟨hs, hm⟩, rfl⟩
  have hsel : ∀ name s part, IsCString name s → BlockPart c s part → selectBasic c name = .ok part ∧ part.data ∈ c.arrays := by
    rintro name s part hn hp
    have : selectBasic c name = .ok part := by
      unfold selectBasic
      rw [hn.str]
      rcases hp with ⟨rfl, rfl⟩ | ⟨hs, hm⟩
      · simp
      · simp [hs, lookup_of_mem hnamed hm, Res.okOr]
    exact ⟨this, Heap.selectBasic_mem this⟩
  refine ⟨fun name s part hn hp => ?_, fun name s hn hnone => ?_, ?_⟩
  · obtain ⟨part, hp', rfl⟩ := hpart s part hp
    obtain ⟨h1, h2⟩ := hsel name s part hn hp'
    refine ⟨fun axis => ?_, fun old hold => ?_⟩
    · have hx : match (allLabels part)[axis]? with
          | some l => axisLabels part axis = .ok l
          | none => ∃ m, axisLabels part axis = .err (.invalidParameter m) :=
        axisLabels_eq (part.withData (f part.data)) axis
      have hl : allLabels (part.withData (f part.data)) = allLabels part := rfl
      rw [hl]
      simp only [eqsBlockLabels, if_neg hne, hc, blockLabels, h1, Res.ok_bind]
      cases hy : (allLabels part)[axis]? with
      | some labels =>
        rw [hy] at hx
        dsimp only at hx ⊢
        rw [hx]; rfl
      | none =>
        rw [hy] at hx
        obtain ⟨m, hx⟩ := hx
        exact ⟨m, by rw [hx]; rfl⟩
    · refine ⟨⟨part.data.ptr, false⟩, ?_, rfl, ?_⟩
      · simp [eqsBlockData, if_neg hne, hc, h1, Heap.dropArray, hold]
      · simp [SeesArray, look, hcontent _ h2, BasicBlock.withData]
  · have hsn : s ≠ "values" := fun h1 => hnone _ (.inl ⟨h1, rfl⟩)
    have hl : c.gradients.lookup s = none := by
      rw [List.lookup_eq_none_iff]
      rintro ⟨k, v⟩ hm
      rw [bne_iff_ne]
      rintro rfl
      exact hnone _ (.inr ⟨hsn, List.mem_map.2 ⟨_, hm, rfl⟩⟩)
    have hsel : selectBasic c name = .err (.invalidParameter s!"can not find gradients with respect to '{s}' in this block") := by
      simp only [selectBasic, hn.str, hsn, hl, Res.expect_some, Res.ok_bind, if_false, Res.okOr]
    refine ⟨fun axis => ⟨s!"can not find gradients with respect to '{s}' in this block", ?_⟩,
      fun old => ⟨s!"can not find gradients with respect to '{s}' in this block", ?_⟩⟩
    · simp only [eqsBlockLabels, if_neg hne, hc, blockLabels, hsel, Res.err_bind]
    · simp only [eqsBlockData, if_neg hne, hc, hsel]
  · refine ⟨c.gradientParameters.map cstring, ?_, fun hnul => ?_⟩
    · simp only [eqsBlockGradientsList, if_neg hne, hc, blockGradientsList, TensorBlock.mapData]
      by_cases hg : c.gradientParameters = [] <;> simp [hg]
    · change List.Forall₂ IsCString _ c.gradientParameters
      rw [List.forall₂_map_left_iff, List.forall₂_same]
      exact fun p hp => isCString_cstring (hnul p hp)

/-- **C115.** `eqs_tensormap_save` writes what Rust writes for this tensor map, and changes nothing. -/
theorem C115_save (h : Heap B) (l : Ledger) (hr : Run h l) (build : Build) (py : PyLiteral) (native : Endian) (hash : HashOrder)
    (hh : OrderByName hash) (n : Nat) (hn : n ∈ l.tensors) (t : TensorMap B) (ht : SeesTensor h n t) :
    eqsTensormapSave build py native hash (some n) h = some (h, save build py native hash t) := by
  obtain ⟨owner, hi⟩ := Heap.inv_run hr
  obtain ⟨c, v, hc⟩ := hi.tensor hn
  rw [hi.seesTensor hc] at ht
  subst ht
  have hthaw : h.thawTensor c = some (c.mapData (Heap.thawed h)) := hi.heap.thawTensor hc
  simp only [eqsTensormapSave, hc, hthaw]
  rw [save_mapData Live.content (fun _ => rfl) (fun _ => rfl) _ _ _ _ hh]

/-- **C115.** `eqs_tensormap_load` makes the tensor map which Rust reads from the file, or reports the same error. -/
theorem C115_load (h : Heap B) (l : Ledger) (hr : Run h l) (build : Build) (py : PyLiteral) (hash hash' : HashOrder)
    (archive : Archive) :
    ∃ h' r, eqsTensormapLoad build py hash hash' archive h = some (h', r) ∧
      Makes (load build py hash hash' archive) r fun n t => SeesTensor h' n (t.mapData ArrayCallbacks.ofNdArray) := by
  obtain ⟨owner, hi⟩ := Heap.inv_run hr
  unfold eqsTensormapLoad
  cases hl : load build py hash hash' archive with
  | err e => exact ⟨h, _, rfl, rfl⟩
  | panic m => exact ⟨h, _, rfl, rfl⟩
  | ok t =>
    have hnone : ∀ a ∈ (t.mapData fun a => (⟨none, ArrayCallbacks.ofNdArray a⟩ : Live B)).arrays, a.handle = none := by
      intro a ha
      rw [TensorMap.arrays_mapData] at ha
      obtain ⟨_, _, rfl⟩ := List.mem_map.1 ha
      rfl
    obtain ⟨h₁, t₁, hct, hc, _, hsk⟩ := Heap.commitTensor_spec hi.heap.owned Heap.Held.nil
      (by rw [Heap.kept_none hnone]; exact List.nodup_nil)
      (fun a ha c hc => by rw [hnone a ha] at hc; cases hc) .program
    simp only [hct]
    refine ⟨_, _, rfl, h₁.next, rfl, ?_⟩
    have := Heap.Committed.tensor hc hsk
    simp only [SeesTensor, look, Heap.putTensor, setAt, if_true, Option.map_some, this]
    rw [TensorMap.mapData_mapData (f := fun a => (⟨none, ArrayCallbacks.ofNdArray a⟩ : Live B))]
    rfl

/-- **C115.** `NULL` instead of a block or a tensor map is an error of the parameters in all functions, and they change nothing. -/
theorem C115_null (h : Heap B) (build : Build) (py : PyLiteral) (native : Endian) (hash : HashOrder) :
    (eqsBlockCopy .null h = some (h, .err (.invalidParameter "got invalid NULL pointer for block")) ∧
      (∀ name axis, eqsBlockLabels .null name axis h = some (h, .err (.invalidParameter "got invalid NULL pointer for block"))) ∧
      (∀ name old, eqsBlockData .null name old h = some (h, .err (.invalidParameter "got invalid NULL pointer for block"))) ∧
      eqsBlockGradientsList .null h = some (h, .err (.invalidParameter "got invalid NULL pointer for block"))) ∧
    eqsTensormapKeys none h = some (h, .err (.invalidParameter "got invalid NULL pointer for tensor")) ∧
    (∀ i, eqsTensormapBlockById none i h = some (h, .err (.invalidParameter "got invalid NULL pointer for tensor"))) ∧
    (∀ selection, eqsBlocksMatching none selection h = some (h, .err (.invalidParameter "got invalid NULL pointer for tensor"))) ∧
    (∀ keysToMove sort, eqsKeysToProperties build hash none keysToMove sort h =
      some (h, .err (.invalidParameter "got invalid NULL pointer for tensor"))) ∧
    (∀ keysToMove sort, eqsKeysToSamples build hash none keysToMove sort h =
      some (h, .err (.invalidParameter "got invalid NULL pointer for tensor"))) ∧
    (∀ names, eqsComponentsToProperties hash none names h =
      some (h, .err (.invalidParameter "got invalid NULL pointer for tensor"))) ∧
    eqsTensormapSave build py native hash none h = some (h, .err (.invalidParameter "got invalid NULL pointer for tensor")) :=
  ⟨⟨rfl, fun _ _ => rfl, fun _ _ => rfl, rfl⟩, rfl, fun _ => rfl, fun _ => rfl, fun _ _ => rfl, fun _ _ => rfl, fun _ => rfl, rfl⟩

/-- **C115.** `eqs_block_add_gradient` with `NULL` for the block or for the name is an error of the parameters. The array is
destroyed, and if there is a block it is the same as before. -/
theorem C115_add_gradient_null (h : Heap B) (l : Ledger) (hr : Run h l) (data : CArray) (hd : l.Owns data) (samples : CLabels)
    (components : List CLabels) :
    (∀ name, ∃ h', eqsBlockAddGradient .null name data samples components h =
        some (h', .err (.invalidParameter "got invalid NULL pointer for block")) ∧ h'.arrays data.ptr = none) ∧
    (∀ q b, l.Usable q → SeesBlock h q b → ∃ h', eqsBlockAddGradient q none data samples components h =
        some (h', .err (.invalidParameter "got invalid NULL pointer for parameter")) ∧ SeesBlock h' q b) := by
  obtain ⟨owner, hi⟩ := Heap.inv_run hr
  obtain ⟨content, hs⟩ := (C115_visible h l hr).2.2 data hd
  refine ⟨fun name => ?_, fun q b hq hb => ?_⟩
  · have hx : h.arrays data.ptr = some content := by
      simpa [SeesArray, look] using hs
    refine ⟨_, by simp only [eqsBlockAddGradient, if_true, Heap.dropArrays, Heap.dropArray, hd.1, hx]; rfl, ?_⟩
    simp [setAt]
  · have hne : q ≠ .null := by rintro rfl; exact hb
    obtain ⟨c, hc⟩ := hi.usable hq hne
    rw [hi.seesBlock hc] at hb
    subst hb
    have hof : addGradientOfC none (⟨some data, content⟩ : Live B) samples components (c.mapData (Heap.thawed h)) =
        (c.mapData (Heap.thawed h), .err (.invalidParameter "got invalid NULL pointer for parameter")) := rfl
    obtain ⟨h', h1, h2, _⟩ := Heap.addGradient_sees hi hc hd hs hof (.inl rfl)
    exact ⟨h', h1, h2⟩

/-! ### Non-vacuity -/

namespace CResults.Example
open Ownership.Example

/-- A program which has an array left, a block, and a tensor map with another block with a gradient. -/
def program : List (Call NdArray) :=
  [.arrayNew array, .block ⟨0, true⟩ (labels [1, 2]) [] (properties [0]),
   .arrayNew array, .blockAddGradient (.owned 1) (some [103, 0]) ⟨2, true⟩ (gradientSamples [0, 1]) [],
   .blockCopy (.owned 1), .tensormap (labels [0]) [.owned 1], .tensormapBlockById (some 6) 0, .arrayNew array]

/-- The rules are followed, and what the program has: an array, a block, a tensor map and a pointer to its block. -/
example : ∃ s, execute platform program (Heap.empty, Ledger.empty) = some s ∧ Run s.1 s.2 ∧ s.2.Owns ⟨8, true⟩ ∧
    5 ∈ s.2.blocks ∧ 6 ∈ s.2.tensors ∧ s.2.Usable (.inside 6 7 0) ∧ s.2.Usable (.owned 5) := by
  have h : ((execute platform program (Heap.empty, Ledger.empty)).map fun s =>
      (s.2.arrays, s.2.blocks, s.2.tensors, s.2.interior)) = some ([8], [5], [6], [.inside 6 7 0]) := by decide +kernel
  obtain ⟨s, hs, heq⟩ := Option.map_eq_some_iff.1 h
  simp only [Prod.mk.injEq] at heq
  obtain ⟨h1, h2, h3, h4⟩ := heq
  exact ⟨s, hs, execute_run .start hs, ⟨rfl, by rw [h1]; simp⟩, by rw [h2]; simp, by rw [h3]; simp,
    .inr (.inr (by rw [h4]; simp)), .inr (.inl ⟨5, by rw [h2]; simp, rfl⟩)⟩

/-- Labels which stand for something, labels which do not, and names. -/
example : Means (labels [1, 2]) (Labels.mk' ["a"] [[1], [2]]) ∧
    (∃ r, FirstInvalid r (labels [1, 2] :: [labels [1, 1]] ++ [properties [0]])) ∧ IsCString [103, 0] "g" := by
  refine ⟨show Labels.ofC _ = _ by decide +kernel,
    ⟨.panic "can not have the same label value multiple time: [1] is already present at position 0", ?_⟩,
    by decide, [], by decide +kernel⟩
  refine .later (labels := Labels.mk' ["a"] [[1], [2]]) (show Labels.ofC _ = _ by decide +kernel) (.here ?_)
  show Labels.ofC _ = _
  decide +kernel

/-- A tensor map with two blocks. -/
def twoBlocks : List (Call NdArray) :=
  [.arrayNew array, .block ⟨0, true⟩ (labels [1, 2]) [] (properties [0]),
   .arrayNew array, .block ⟨2, true⟩ (labels [2, 0]) [] (properties [0]),
   .tensormap (labels [4, 3]) [.owned 1, .owned 3]]

/-- The samples of the only block after moving the keys to the properties. -/
def samplesAfter (sort : Bool) : Option (List (List (List LabelValue))) :=
  (execute platform (twoBlocks ++ [.keysToProperties (some 4) { labels [] with values := none } sort])
    (Heap.empty, Ledger.empty)).bind fun s => (s.1.tensors 4).map fun t => t.1.blocks.map fun b => b.values.samples.rows

example : ((execute platform twoBlocks (Heap.empty, Ledger.empty)).map fun s => s.2.tensors) = some [4] := by decide +kernel

/-- Sorting makes a difference. -/
example : samplesAfter true = some [[[0], [1], [2]]] ∧ samplesAfter false = some [[[1], [2], [0]]] := by decide +kernel

end CResults.Example

end Equistore
