import Verif.Lemmas.CallsBlocks
import Verif.Lemmas.Load

/-! The functions of the C API for tensor maps keep the ownership invariant. -/

namespace Equistore
namespace Heap
open Spec
variable {B : Type} [Inhabited B] [ArrayCallbacks B] {h : Heap B} {l : Ledger} {owner : Nat → Option Owner}

theorem held_tensor {n v : Nat} {t : TensorMap CArray} (ht : h.tensors n = some (t, v)) :
    h.held (.tensor n) = t.arrays := by
  simp [held, blocksOf, object, ht, Object.blocks, TensorMap.arrays]

theorem held_block {n : Nat} {b : TensorBlock CArray} (hb : h.blocks n = some b) : h.held (.block n) = b.arrays := by
  simp [held, blocksOf, object, hb, Object.blocks]

/-! ### Creating tensor maps -/

/-- The heap without some blocks. -/
def without (h : Heap B) (ns : List Nat) : Heap B :=
  { h with blocks := fun n => if n ∈ ns then none else h.blocks n }

theorem Committed.rebase {h₁ : Heap B} {ns : List Nat} {before cs : List CArray} {ls : List (Live B)}
    (hc : Committed (h.without ns) h₁ before ls cs) : Committed h { h₁ with blocks := h.blocks } before ls cs :=
  ⟨rfl, hc.tensors, hc.next, hc.destroy, hc.nodup, hc.mem, hc.destroyed, hc.frame, hc.content⟩

theorem Owned.without (ho : Owned h owner) (ns : List Nat) : Owned (h.without ns) owner :=
  ⟨ho.alive, ho.created, ho.destroyed, ho.nodup, ho.createdNodup, ho.fresh⟩

/-- Blocks which are taken away from the program, and end up in a tensor map or are freed. -/
theorem take_update (hi : Inv h l owner) {ns : List Nat} {before cs : List CArray} {ls : List (Live B)}
    {h₁ h₂ : Heap B} {p : Owner} (hc : Committed (h.without ns) h₁ before ls cs) (hkept : ∀ a ∈ kept ls, a ∈ ids before)
    (hw : Owned h₁ (reown owner before cs p))
    (hbefore : ∀ a, a ∈ ids before ↔ ∃ n ∈ ns, owner a = some (.block n))
    (harr : h₂.arrays = h₁.arrays) (hcr : h₂.created = h₁.created) (hds : h₂.destroyed = h₁.destroyed)
    (hn : h₁.next ≤ h₂.next) (hgone : ∀ n ∈ ns, h₂.object (.block n) = none)
    (hobj : ∀ o, o ≠ p → (∀ n ∈ ns, o ≠ .block n) → h₂.object o = h.object o)
    (hpns : ∀ n ∈ ns, p ≠ .block n)
    (hp : p ≠ .program → Received h h₂ before cs p) (hcs : p = .program → cs = []) :
    Update h h₂ owner (reown owner before cs p) (ids before) [] := by
  have hc' := hc.rebase
  refine ⟨hi.heap.update (h₁ := { h₁ with blocks := h.blocks }) hc'
    ⟨hw.alive, hw.created, hw.destroyed, hw.nodup, hw.createdNodup, hw.fresh⟩ hkept harr hcr hds hn ?_ hp, ?_, ?_⟩
  · intro o h1 h2
    by_cases ho : ∃ n ∈ ns, o = .block n
    · obtain ⟨n, hn, rfl⟩ := ho
      exact .inr ⟨hgone n hn, fun a ha => (hbefore a).2 ⟨n, hn, ha⟩⟩
    · have ho : ∀ n ∈ ns, o ≠ .block n := fun n hn heq => ho ⟨n, hn, heq⟩
      refine .inl ⟨hobj o h1 ho, fun a ha heq => ?_⟩
      obtain ⟨n, hn, h3⟩ := (hbefore a).1 ha
      rw [h3, Option.some.injEq] at heq
      exact ho n hn heq.symm
  · intro a
    rw [reown_eq hi.heap.owned hc' hkept]
    simp only [List.not_mem_nil, false_or]
    refine ⟨fun h1 => h1.resolve_left ?_, .inr⟩
    rintro ⟨h2, h3⟩
    rw [hcs h2.symm] at h3
    cases h3
  · intro a ha hnb
    rw [harr]
    exact hc.frame a hnb (hi.heap.owned.lt ha)

theorem program_not_taken (hi : Inv h l owner) {ns : List Nat} {before : List CArray}
    (hbefore : ∀ a, a ∈ ids before ↔ ∃ n ∈ ns, owner a = some (.block n)) (a : Nat) :
    a ∈ l.arrays ↔ a ∈ ([] : List Nat) ∨ (a ∈ l.arrays ∧ a ∉ ids before) := by
  simp only [List.not_mem_nil, false_or]
  refine ⟨fun h1 => ⟨h1, fun h2 => ?_⟩, fun h1 => h1.1⟩
  obtain ⟨n, _, h3⟩ := (hbefore a).1 h2
  rw [(hi.arrays a).1 h1] at h3
  cases h3

theorem owned_target {q : BlockPtr} {n : Nat} (hq : target q = .block n) : q = .owned n := by
  cases q with
  | null => cases hq
  | owned m => cases hq; rfl
  | inside => cases hq

/-- A new tensor map at the end of the heap, made of some of the blocks of the program. -/
theorem put_tensor (hi : Inv h l owner) {ns : List Nat} {before : List CArray} {ls : List (Live B)}
    {t : TensorMap CArray} {h₁ : Heap B} (hc : Committed (h.without ns) h₁ before ls t.arrays)
    (hkept : ∀ a ∈ kept ls, a ∈ ids before)
    (hw : Owned h₁ (reown owner before t.arrays (.tensor h₁.next)))
    (hbefore : ∀ a, a ∈ ids before ↔ ∃ n ∈ ns, owner a = some (.block n))
    (hnamed : ∀ b ∈ t.blocks, b.Named) {l₂ : Ledger}
    (harr : l₂.arrays = l.arrays) (hbl : ∀ n, n ∈ l₂.blocks ↔ n ∈ l.blocks ∧ n ∉ ns)
    (htn : l₂.tensors = h₁.next :: l.tensors) (hint : l₂.interior = l.interior)
    (hvw : ∀ v, v ∈ l₂.views → v ∈ l.views ∧ ∀ n ∈ ns, v.1 ≠ .owned n) :
    (∃ owner₂, Inv (h₁.putTensor t).1 l₂ owner₂) ∧
    (∀ o, (h.object o).isSome → (∀ n ∈ ns, o ≠ .block n) → (h₁.putTensor t).1.object o = h.object o) ∧
    (∀ a, (owner a).isSome → a ∉ ids before → (h₁.putTensor t).1.arrays a = h.arrays a) := by
  have hnone : h.object (.tensor h₁.next) = none := by
    cases hx : h.object (.tensor h₁.next) with
    | none => rfl
    | some x =>
      have := hi.heap.fresh (.tensor h₁.next) (by rw [hx]; rfl)
      have h2 : h.next ≤ h₁.next := hc.next
      simp only [Owner.address] at this
      omega
  have hgone : ∀ n ∈ ns, (h₁.putTensor t).1.object (.block n) = none := by
    intro n hn
    show (h₁.blocks n).map _ = none
    rw [hc.blocks]
    simp [without, hn]
  have hobj : ∀ o, o ≠ .tensor h₁.next → (∀ n ∈ ns, o ≠ .block n) → (h₁.putTensor t).1.object o = h.object o := by
    intro o ho hns
    cases o with
    | program => rfl
    | block m =>
      have hm : m ∉ ns := fun hm => hns m hm rfl
      show (h₁.blocks m).map _ = _
      rw [hc.blocks]
      simp [without, hm, object]
    | tensor m =>
      have : m ≠ h₁.next := fun heq => ho (by rw [heq])
      show (setAt h₁.tensors h₁.next _ m).map _ = _
      rw [hc.tensors, setAt, if_neg this]
      rfl
  have hnew : (h₁.putTensor t).1.object (.tensor h₁.next) = some (.tensor t (h₁.next + 1)) := by
    simp [object, putTensor, setAt]
  have hheld : (h₁.putTensor t).1.held (.tensor h₁.next) = t.arrays := by
    simp [held, blocksOf, hnew, Object.blocks, TensorMap.arrays]
  have hu := take_update hi (h₂ := (h₁.putTensor t).1) (p := .tensor h₁.next) hc hkept hw hbefore rfl rfl rfl
    (Nat.le_add_right _ _) hgone hobj (by simp)
    (fun _ => by
      refine ⟨?_, ?_, ?_, ?_, fun _ => Nat.lt_add_of_pos_right (by decide)⟩
      · rw [hheld]; exact hc.destroy
      · rw [hheld]; exact hc.nodup
      · intro a; rw [hheld, held_none hnone]; simp
      · intro b' hb'
        rw [blocksOf, hnew] at hb'
        exact hnamed b' hb') (by simp)
  have hsome : ∀ o, (h.object o).isSome → o ≠ .tensor h₁.next := by
    rintro o ho rfl
    rw [hnone] at ho; cases ho
  have hstay : ∀ q, (∀ n ∈ ns, q ≠ .owned n) → (h.block q).isSome → Stays h (h₁.putTensor t).1 q := by
    intro q hqn hq
    obtain ⟨c, hq⟩ := Option.isSome_iff_exists.1 hq
    refine Stays.of_object (hobj _ (hsome _ (block_isSome_object hq)) fun n hn heq => ?_)
    exact hqn n hn (owned_target heq)
  refine ⟨⟨_, hi.of_update hu ?_ ?_ ?_ ?_ ?_⟩, fun o ho hns => hobj o (hsome o ho) hns, hu.frame⟩
  · intro a; rw [harr]; exact program_not_taken hi hbefore a
  · intro n
    rw [hbl]
    by_cases hn : n ∈ ns
    · simp [hgone n hn, hn]
    · rw [hobj (.block n) (by simp) (fun m hm => by rintro h1; cases h1; exact hn hm), hi.blocks n]
      simp [hn]
  · intro n
    rw [htn, List.mem_cons, hi.tensors n]
    by_cases hn : n = h₁.next
    · subst hn; simp [hnew]
    · rw [hobj (.tensor n) (by simpa using hn) (by simp)]; simp [hn]
  · intro q hq
    rw [hint] at hq
    refine ⟨hq, hstay q fun n _ heq => ?_⟩
    obtain ⟨⟨t, v, i, h1⟩, _⟩ := hi.interior q hq
    rw [h1] at heq; cases heq
  · intro v hv
    obtain ⟨h1, h2⟩ := hvw v hv
    exact ⟨h1, hstay v.1 h2⟩

theorem takeBlocks_spec (ns : List Nat) (hn : ns.Nodup) (h : Heap B) (hs : ∀ n ∈ ns, ∃ b, h.blocks n = some b) :
    ∃ bs, takeBlocks (ns.map .owned) h = some (h.without ns, bs) ∧
      List.Forall₂ (fun n b => h.blocks n = some b) ns bs := by
  induction ns generalizing h with
  | nil => exact ⟨[], by simp [takeBlocks, without], .nil⟩
  | cons n ns ih =>
    rw [List.nodup_cons] at hn
    obtain ⟨b, hb⟩ := hs n List.mem_cons_self
    have hne : ∀ m ∈ ns, m ≠ n := by rintro m hm rfl; exact hn.1 hm
    obtain ⟨bs, h1, h2⟩ := ih hn.2 { h with blocks := setAt h.blocks n none } (by
      intro m hm
      obtain ⟨c, hc⟩ := hs m (List.mem_cons_of_mem _ hm)
      exact ⟨c, by simp [setAt, hne m hm, hc]⟩)
    refine ⟨b :: bs, ?_, .cons hb ?_⟩
    · simp only [List.map_cons, takeBlocks, hb, h1]
      congr 2
      simp only [without, Heap.mk.injEq, and_true, true_and]
      funext m
      simp only [setAt, List.mem_cons]
      by_cases hm : m = n
      · subst hm; simp
      · simp [hm]
    · rw [List.forall₂_iff_get] at h2 ⊢
      refine ⟨h2.1, fun i hi₁ hi₂ => ?_⟩
      have := h2.2 i hi₁ hi₂
      simp only [setAt] at this
      rw [if_neg (hne _ (List.get_mem ns ⟨i, hi₁⟩))] at this
      exact this

theorem owned_list {l : Ledger} {blocks : List BlockPtr} (ha : ∀ b ∈ blocks, ∃ n ∈ l.blocks, b = .owned n) :
    ∃ ns : List Nat, blocks = ns.map .owned ∧ ∀ n ∈ ns, n ∈ l.blocks := by
  induction blocks with
  | nil => exact ⟨[], rfl, by simp⟩
  | cons b blocks ih =>
    obtain ⟨n, hn, rfl⟩ := ha b List.mem_cons_self
    obtain ⟨ns, rfl, h2⟩ := ih fun b hb => ha b (List.mem_cons_of_mem _ hb)
    exact ⟨n :: ns, rfl, by simpa using ⟨hn, h2⟩⟩

theorem takenBlocks_same (l : Ledger) (ns : List Nat) :
    l.takenBlocks ((ns.map BlockPtr.owned).zip (ns.map BlockPtr.owned)) = l := by
  induction ns with
  | nil => rfl
  | cons n ns ih => exact ih

theorem takenBlocks_null (l : Ledger) (ns : List Nat) :
    (l.takenBlocks ((ns.map BlockPtr.owned).zip (ns.map fun _ => BlockPtr.null))).arrays = l.arrays ∧
    (l.takenBlocks ((ns.map BlockPtr.owned).zip (ns.map fun _ => BlockPtr.null))).tensors = l.tensors ∧
    (l.takenBlocks ((ns.map BlockPtr.owned).zip (ns.map fun _ => BlockPtr.null))).interior = l.interior ∧
    (∀ n, n ∈ (l.takenBlocks ((ns.map BlockPtr.owned).zip (ns.map fun _ => BlockPtr.null))).blocks ↔
      n ∈ l.blocks ∧ n ∉ ns) ∧
    (∀ v, v ∈ (l.takenBlocks ((ns.map BlockPtr.owned).zip (ns.map fun _ => BlockPtr.null))).views →
      v ∈ l.views ∧ ∀ n ∈ ns, v.1 ≠ .owned n) := by
  induction ns generalizing l with
  | nil => exact ⟨rfl, rfl, rfl, by simp [Ledger.takenBlocks], by simp [Ledger.takenBlocks]⟩
  | cons n ns ih =>
    obtain ⟨h1, h2, h3, h4, h5⟩ := ih (l.dropBlock n)
    have heq : l.takenBlocks (((n :: ns).map BlockPtr.owned).zip ((n :: ns).map fun _ => BlockPtr.null)) =
        (l.dropBlock n).takenBlocks ((ns.map BlockPtr.owned).zip (ns.map fun _ => BlockPtr.null)) := rfl
    rw [heq]
    refine ⟨h1, h2, h3, ?_, ?_⟩
    · intro m
      rw [h4]
      simp only [Ledger.dropBlock, List.mem_filter, List.mem_cons, not_or, ne_eq, decide_not, Bool.not_eq_eq_eq_not,
        Bool.not_true, decide_eq_false_iff_not, and_assoc]
    · intro v hv
      obtain ⟨h6, h7⟩ := h5 v hv
      simp only [Ledger.dropBlock, List.mem_filter, ne_eq, decide_not, Bool.not_eq_eq_eq_not,
        Bool.not_true, decide_eq_false_iff_not] at h6
      refine ⟨h6.1, ?_⟩
      intro m hm
      rcases List.mem_cons.1 hm with rfl | hm
      · exact h6.2
      · exact h7 m hm

theorem option_mapM_eq {α β : Type} {f : α → Option β} {g : α → β} {l : List α} (hf : ∀ a ∈ l, f a = some (g a)) :
    l.mapM f = some (l.map g) := by
  induction l with
  | nil => rfl
  | cons a l ih =>
    rw [List.mapM_cons, hf a List.mem_cons_self, ih fun a ha => hf a (List.mem_cons_of_mem _ ha)]
    rfl

theorem TensorMap.new_blocks {A : Type} {hash : HashOrder} {keys : Labels} {blocks : List (TensorBlock A)}
    {t : TensorMap A} [ArrayLike A] (hn : TensorMap.new hash keys blocks = .ok t) : t.blocks = blocks ∧ t.keys = keys := by
  simp only [TensorMap.new, Res.bind_eq_ok, Res.pure_eq] at hn
  obtain ⟨_, _, _, _, hn⟩ := hn
  cases blocks with
  | nil => cases hn; exact ⟨rfl, rfl⟩
  | cons b blocks =>
    simp only [Res.bind_eq_ok, Res.ok.injEq] at hn
    obtain ⟨_, _, rfl⟩ := hn
    exact ⟨rfl, rfl⟩

/-- The blocks taken by `eqs_tensormap`, with their arrays. -/
theorem taken_arrays (hi : HeapInv h owner) {ns : List Nat} (hn : ns.Nodup) {bs : List (TensorBlock CArray)}
    (hbs : List.Forall₂ (fun n b => h.blocks n = some b) ns bs) :
    Held owner (bs.flatMap TensorBlock.arrays) ∧
    (∀ a, a ∈ ids (bs.flatMap TensorBlock.arrays) ↔ ∃ n ∈ ns, owner a = some (.block n)) := by
  induction hbs with
  | nil => exact ⟨Held.nil, by simp⟩
  | @cons n b ns bs hb _ ih =>
    rw [List.nodup_cons] at hn
    obtain ⟨h1, h2⟩ := ih hn.2
    have hmem : ∀ a, a ∈ ids b.arrays ↔ owner a = some (.block n) := by
      intro a
      rw [← hi.mem (.block n) (by simp), held_block hb]
    refine ⟨?_, ?_⟩
    · rw [List.flatMap_cons]
      refine Held.append ?_ h1 ?_
      · rw [← held_block hb]; exact hi.isHeld (.block n)
      · intro a ha h3
        obtain ⟨m, hm, h4⟩ := (h2 a).1 h3
        rw [hmem] at ha
        rw [ha] at h4
        cases h4
        exact hn.1 hm
    · intro a
      rw [List.flatMap_cons, ids_append, List.mem_append, hmem, h2]
      simp

theorem good_tensormap (p : Platform) (hi : Inv h l owner) {keys : CLabels} {blocks : List BlockPtr}
    (ha : ∀ b ∈ blocks, ∃ n ∈ l.blocks, b = .owned n) : Good p h l owner (.tensormap keys blocks) := by
  obtain ⟨ns, rfl, hns⟩ := owned_list ha
  cases hk : Labels.ofC keys with
  | err e =>
    exact good_read p hi (reply := .newTensor (.err e) (ns.map .owned)) (by simp [Call.run, eqsTensormap, hk])
      (takenBlocks_same l ns)
  | panic m =>
    exact good_read p hi (reply := .newTensor (.panic m) (ns.map .owned)) (by simp [Call.run, eqsTensormap, hk])
      (takenBlocks_same l ns)
  | ok keys' =>
    by_cases hd : countDistinct (ns.map BlockPtr.owned) ≠ (ns.map BlockPtr.owned).length
    · refine good_read p hi (reply := .newTensor (.err (.invalidParameter
        "got the same block more than once when constructing a tensor map")) (ns.map .owned)) ?_
        (takenBlocks_same l ns)
      simp only [Call.run, eqsTensormap, hk, if_pos hd]
      rfl
    have hnd : ns.Nodup := by
      rw [not_not, countDistinct_eq_length] at hd
      exact hd.of_map _
    obtain ⟨bs, htake, hbs⟩ := takeBlocks_spec ns hnd h fun n hn => hi.block (hns n hn)
    obtain ⟨hheld, hbefore⟩ := taken_arrays hi.heap hnd hbs
    have hmem : ∀ b ∈ bs, ∃ n ∈ ns, h.blocks n = some b := by
      intro b hb
      obtain ⟨i, hi₁, rfl⟩ := List.getElem_of_mem hb
      have hi₂ : i < ns.length := by rw [hbs.length_eq]; exact hi₁
      exact ⟨_, List.getElem_mem hi₂, hbs.get hi₂ hi₁⟩
    have hbo : ∀ b ∈ bs, ∃ n, b ∈ h.blocksOf (.block n) := by
      intro b hb
      obtain ⟨n, _, h1⟩ := hmem b hb
      exact ⟨n, by simp [blocksOf, object, h1, Object.blocks]⟩
    have hthaw : bs.mapM (h.without ns).thawBlock = some (bs.map (TensorBlock.mapData (thawed h))) := by
      refine option_mapM_eq fun b hb => ?_
      obtain ⟨n, hn⟩ := hbo b hb
      exact hi.heap.thawBlock hn
    obtain ⟨hl1, hl2, hl3, hl4, hl5⟩ := takenBlocks_null l ns
    have hnulls : (ns.map BlockPtr.owned).map (fun _ => BlockPtr.null) = ns.map fun _ => BlockPtr.null := by
      rw [List.map_map]; rfl
    have hfail : ∀ r : Res Nat, (∀ n, r ≠ .ok n) →
        ((Call.tensormap keys (ns.map .owned) : Call B).run p h =
          ((h.without ns).dropArrays (bs.flatMap TensorBlock.arrays)).map
            fun h => (h, .newTensor r (ns.map fun _ => BlockPtr.null))) →
        Good p h l owner (.tensormap keys (ns.map .owned)) := by
      intro r hr hrun
      obtain ⟨h₁, hdr, hc, hw⟩ := drop_owned (hi.heap.owned.without ns) hheld .program
      have hobj : ∀ o, o ≠ .program → (∀ n ∈ ns, o ≠ .block n) → h₁.object o = h.object o := by
        intro o _ hns
        rw [object_congr hc.blocks hc.tensors]
        cases o with
        | block m =>
          have hm : m ∉ ns := fun hm => hns m hm rfl
          simp [object, without, hm]
        | _ => rfl
      have hgone : ∀ n ∈ ns, h₁.object (.block n) = none := by
        intro n hn
        rw [object_congr hc.blocks hc.tensors]
        simp [object, without, hn]
      have hu := take_update hi hc (by simp [kept]) hw hbefore rfl rfl rfl (Nat.le_refl _) hgone hobj (by simp)
        (fun h => absurd rfl h) (fun _ => rfl)
      have hstay : ∀ q, (∀ n ∈ ns, q ≠ .owned n) → (h.block q).isSome → Stays h h₁ q := by
        intro q hqn hq
        refine Stays.of_object (hobj _ ?_ fun n hn heq => hqn n hn (owned_target heq))
        intro hq'
        cases q with
        | null => cases hq
        | owned => cases hq'
        | inside => cases hq'
      have hrec : l.record (Call.tensormap keys (ns.map .owned) : Call B) (.newTensor r (ns.map fun _ => BlockPtr.null)) =
          l.takenBlocks ((ns.map BlockPtr.owned).zip (ns.map fun _ => BlockPtr.null)) := by
        cases r with
        | ok n => exact absurd rfl (hr n)
        | err e => rfl
        | panic m => rfl
      refine ⟨h₁, _, by rw [hrun, hdr]; rfl, ?_, ?_, ?_⟩
      · rw [hrec]
        refine ⟨_, hi.of_update hu ?_ ?_ ?_ ?_ ?_⟩
        · intro a; rw [hl1]; exact program_not_taken hi hbefore a
        · intro n
          rw [hl4]
          by_cases hn : n ∈ ns
          · simp [hgone n hn, hn]
          · rw [hobj (.block n) (by simp) (fun m hm => by rintro h1; cases h1; exact hn hm), hi.blocks n]
            simp [hn]
        · intro n; rw [hl2, hobj (.tensor n) (by simp) (by simp)]; exact hi.tensors n
        · intro q hq
          rw [hl3] at hq
          refine ⟨hq, hstay q fun n _ heq => ?_⟩
          obtain ⟨⟨t, v, i, h1⟩, _⟩ := hi.interior q hq
          rw [h1] at heq; cases heq
        · intro v hv
          obtain ⟨h1, h2⟩ := hl5 v hv
          exact ⟨h1, hstay v.1 h2⟩
      · intro o x hx ho hnc
        have hne : ∀ n ∈ ns, o ≠ .block n := by
          rintro n hn rfl
          cases hx
          exact hnc ⟨.owned n, List.mem_map_of_mem hn, rfl⟩
        refine ⟨hobj o (thing_ne_program hx) hne, fun a ha => hu.frame a (by rw [ha]; rfl) fun h1 => ?_⟩
        obtain ⟨n, hn, h2⟩ := (hbefore a).1 h1
        rw [ha, Option.some.injEq] at h2
        exact hne n hn h2
      · intro a ha _
        refine hu.frame a (by rw [ha]; rfl) fun h1 => ?_
        obtain ⟨n, hn, h2⟩ := (hbefore a).1 h1
        rw [ha] at h2
        cases h2
    cases hnew : TensorMap.new p.hash keys' (bs.map (TensorBlock.mapData (thawed h))) with
    | err e =>
      refine hfail (.err e) (by simp) ?_
      simp only [Call.run, eqsTensormap, hk, if_neg hd, htake, hthaw, hnew, hnulls, Option.map_map]
      rfl
    | panic m =>
      refine hfail (.panic m) (by simp) ?_
      simp only [Call.run, eqsTensormap, hk, if_neg hd, htake, hthaw, hnew, hnulls, Option.map_map]
      rfl
    | ok t =>
      obtain ⟨htb, htk⟩ := TensorMap.new_blocks hnew
      have htarr : t.arrays = (bs.flatMap TensorBlock.arrays).map (thawed h) := by
        rw [TensorMap.arrays, htb, List.flatMap_map, List.map_flatMap]
        exact List.flatMap_congr fun b _ => TensorBlock.arrays_mapData _ _
      have hh : t.arrays.map (·.handle) = (bs.flatMap TensorBlock.arrays).map some := by
        rw [htarr, thawed_handles]
      have hkn : (kept t.arrays).Nodup := by rw [kept_handles hh]; exact hheld.nodup
      obtain ⟨h₁, t₁, hct, hc, _, hsk⟩ :=
        commitTensor_spec (hi.heap.owned.without ns) hheld hkn (handle_mem hh) .program
      obtain ⟨_, _, hct', _, hw, _⟩ :=
        commitTensor_spec (hi.heap.owned.without ns) hheld hkn (handle_mem hh) (.tensor h₁.next)
      rw [hct] at hct'
      cases hct'
      have hnamed : ∀ b ∈ t₁.blocks, b.Named := by
        have hsk' : t₁.blocks.map TensorBlock.skeleton = t.blocks.map TensorBlock.skeleton :=
          congrArg TensorMap.blocks hsk
        rw [htb, List.map_map] at hsk'
        have hsk'' : t₁.blocks.map TensorBlock.skeleton = bs.map TensorBlock.skeleton := by
          rw [hsk']
          exact List.map_congr_left fun b _ => TensorBlock.skeleton_mapData _ _
        intro b hb
        have : b.skeleton ∈ bs.map TensorBlock.skeleton := by rw [← hsk'']; exact List.mem_map_of_mem hb
        obtain ⟨b', hb', heq⟩ := List.mem_map.1 this
        obtain ⟨n, hn⟩ := hbo b' hb'
        exact (hi.heap.named _ b' hn).of_skeleton heq.symm
      obtain ⟨hinv, hobj, hframe⟩ := put_tensor hi hc (kept_subset (handle_mem hh)) hw hbefore hnamed
        (l₂ := { l.takenBlocks ((ns.map BlockPtr.owned).zip (ns.map fun _ => BlockPtr.null)) with
          tensors := h₁.next :: (l.takenBlocks ((ns.map BlockPtr.owned).zip (ns.map fun _ => BlockPtr.null))).tensors })
        hl1 hl4 (by simp only [hl2]) hl3 hl5
      refine ⟨(h₁.putTensor t₁).1, .newTensor (.ok h₁.next) (ns.map fun _ => BlockPtr.null), ?_, hinv, ?_, ?_⟩
      · simp only [Call.run, eqsTensormap, hk, if_neg hd, htake, hthaw, hnew, hct, hnulls]
        rfl
      · intro o x hx ho hnc
        have hne : ∀ n ∈ ns, o ≠ .block n := by
          rintro n hn rfl
          cases hx
          exact hnc ⟨.owned n, List.mem_map_of_mem hn, rfl⟩
        refine ⟨hobj o ho hne, fun a ha => hframe a (by rw [ha]; rfl) fun h1 => ?_⟩
        obtain ⟨n, hn, h2⟩ := (hbefore a).1 h1
        rw [ha, Option.some.injEq] at h2
        exact hne n hn h2
      · intro a ha _
        refine hframe a (by rw [ha]; rfl) fun h1 => ?_
        obtain ⟨n, hn, h2⟩ := (hbefore a).1 h1
        rw [ha] at h2
        cases h2

theorem good_load (p : Platform) (hi : Inv h l owner) (archive : Archive) : Good p h l owner (.load archive) := by
  cases hl : load p.build p.py p.hash p.hash archive with
  | err e => exact good_read p hi (reply := .tensor (.err e)) (by simp [Call.run, eqsTensormapLoad, hl]) rfl
  | panic m => exact good_read p hi (reply := .tensor (.panic m)) (by simp [Call.run, eqsTensormapLoad, hl]) rfl
  | ok t =>
    have hvalid := (load_ok hl).1
    have hwo : h.without [] = h := by simp [without]
    generalize ht' : t.mapData (fun a => ({ handle := none, content := ArrayCallbacks.ofNdArray a } : Live B)) = t'
    have hnone : ∀ a ∈ t'.arrays, a.handle = none := by
      rw [← ht', TensorMap.arrays_mapData]
      intro a ha
      obtain ⟨b, _, rfl⟩ := List.mem_map.1 ha
      rfl
    have hm : ∀ a ∈ t'.arrays, ∀ c, a.handle = some c → c ∈ ([] : List CArray) := by
      intro a ha c hc; rw [hnone a ha] at hc; cases hc
    have hk : (kept t'.arrays).Nodup := by rw [kept_none hnone]; exact List.nodup_nil
    obtain ⟨h₁, t₁, hct, hc, _, hsk⟩ := commitTensor_spec hi.heap.owned Held.nil hk hm .program
    obtain ⟨_, _, hct', _, hw, _⟩ := commitTensor_spec hi.heap.owned Held.nil hk hm (.tensor h₁.next)
    rw [hct] at hct'
    cases hct'
    have hnamed : ∀ b ∈ t₁.blocks, b.Named := by
      rw [← ht', TensorMap.skeleton_mapData] at hsk
      have hsk' : t₁.blocks.map TensorBlock.skeleton = t.blocks.map TensorBlock.skeleton := congrArg TensorMap.blocks hsk
      intro b hb
      have : b.skeleton ∈ t.blocks.map TensorBlock.skeleton := by rw [← hsk']; exact List.mem_map_of_mem hb
      obtain ⟨b', hb', heq⟩ := List.mem_map.1 this
      have hn : b'.Named := (hvalid.blocks b' hb').names
      exact hn.of_skeleton heq.symm
    obtain ⟨hinv, hobj, hframe⟩ := put_tensor hi (ns := []) (by rw [hwo]; exact hc) (kept_subset hm) hw (by simp) hnamed
      (l₂ := { l with tensors := h₁.next :: l.tensors }) rfl (by simp) rfl rfl (by simp)
    refine ⟨(h₁.putTensor t₁).1, .tensor (.ok h₁.next), ?_, hinv, ?_, ?_⟩
    · simp only [Call.run, eqsTensormapLoad, hl, ht', hct]
      rfl
    · intro o x _ ho _
      exact ⟨hobj o ho (by simp), fun a ha => hframe a (by rw [ha]; rfl) (by simp)⟩
    · intro a ha _
      exact hframe a (by rw [ha]; rfl) (by simp)

/-! ### Reading and freeing tensor maps -/

theorem good_tensormapKeys (p : Platform) (hi : Inv h l owner) {tensor : Option Nat} (ha : l.UsableTensor tensor) :
    Good p h l owner (.tensormapKeys tensor) := by
  refine good_read p hi (reply := .other) ?_ rfl
  cases tensor with
  | none => rfl
  | some n =>
    obtain ⟨t, v, ht⟩ := hi.tensor (ha n rfl)
    simp [Call.run, eqsTensormapKeys, ht]

theorem good_blocksMatching (p : Platform) (hi : Inv h l owner) {tensor : Option Nat} {selection : CLabels}
    (ha : l.UsableTensor tensor) : Good p h l owner (.tensormapBlocksMatching tensor selection) := by
  refine good_read p hi (reply := .other) ?_ rfl
  cases tensor with
  | none => rfl
  | some n =>
    obtain ⟨t, v, ht⟩ := hi.tensor (ha n rfl)
    simp [Call.run, eqsBlocksMatching, ht, hi.heap.thawTensor ht]

theorem good_save (p : Platform) (hi : Inv h l owner) {tensor : Option Nat} (ha : l.UsableTensor tensor) :
    Good p h l owner (.save tensor) := by
  refine good_read p hi (reply := .other) ?_ rfl
  cases tensor with
  | none => rfl
  | some n =>
    obtain ⟨t, v, ht⟩ := hi.tensor (ha n rfl)
    simp [Call.run, eqsTensormapSave, ht, hi.heap.thawTensor ht]

theorem good_blockById (p : Platform) (hi : Inv h l owner) {tensor : Option Nat} {index : Nat}
    (ha : l.UsableTensor tensor) : Good p h l owner (.tensormapBlockById tensor index) := by
  cases tensor with
  | none => exact good_read p hi (reply := .blockPtr nullTensor) rfl rfl
  | some n =>
    obtain ⟨t, v, ht⟩ := hi.tensor (ha n rfl)
    by_cases hindex : index < t.blocks.length
    · refine ⟨h, .blockPtr (.ok (.inside n v index)), by simp [Call.run, eqsTensormapBlockById, ht, hindex],
        ⟨owner, hi.heap, hi.arrays, hi.blocks, hi.tensors, ?_, hi.views⟩, Framed.refl _ _ _⟩
      intro q hq
      rcases List.mem_cons.1 (show q ∈ .inside n v index :: l.interior from hq) with rfl | hq
      · exact ⟨⟨n, v, index, rfl⟩, by
          rw [block_inside.2 ⟨t, ht, List.getElem?_eq_getElem hindex⟩]; rfl⟩
      · exact hi.interior q hq
    · exact good_read p hi (reply := .blockPtr (.panic "index out of bounds"))
        (by simp [Call.run, eqsTensormapBlockById, ht, hindex]) rfl

theorem insideOf_target {q : BlockPtr} {n : Nat} : insideOf n q = true ↔ target q = .tensor n := by
  cases q <;> simp [insideOf, target]

theorem good_tensormapFree (p : Platform) (hi : Inv h l owner) {tensor : Option Nat} (ha : l.UsableTensor tensor) :
    Good p h l owner (.tensormapFree tensor) := by
  cases tensor with
  | none => exact good_read p hi (reply := .done (.ok ())) rfl rfl
  | some n =>
    obtain ⟨t, v, ht⟩ := hi.tensor (ha n rfl)
    obtain ⟨h₁, hd, hc, hw⟩ := drop_owned hi.heap.owned (hi.heap.isHeld (.tensor n)) .program
    have hobj : ∀ o', o' ≠ .tensor n →
        ({ h₁ with tensors := setAt h₁.tensors n none } : Heap B).object o' = h.object o' := by
      intro o' ho
      rw [← object_congr hc.blocks hc.tensors o']
      cases o' with
      | tensor m =>
        have : m ≠ n := fun heq => ho (by rw [heq])
        simp [object, setAt, this]
      | _ => rfl
    have hgone : ({ h₁ with tensors := setAt h₁.tensors n none } : Heap B).object (.tensor n) = none := by
      simp [object, setAt]
    have hu := remove_object hi (.tensor n) (h₂ := { h₁ with tensors := setAt h₁.tensors n none }) hc hw rfl rfl rfl
      (Nat.le_refl _) hgone hobj (by simp)
    have hstay : ∀ q, (!insideOf n q) = true → Stays h { h₁ with tensors := setAt h₁.tensors n none } q := by
      intro q hq
      refine Stays.of_object (hobj _ fun heq => ?_)
      rw [insideOf_target.2 heq] at hq
      cases hq
    refine ⟨_, .done (.ok ()), ?_, ⟨_, hi.of_update hu ?_ ?_ ?_ ?_ ?_⟩, ?_, ?_⟩
    · simp only [Call.run, eqsTensormapFree, ht]
      rw [← held_tensor ht, hd]; rfl
    · intro a
      show a ∈ l.arrays ↔ _
      simp only [List.not_mem_nil, false_or]
      refine ⟨fun h1 => ⟨h1, fun h2 => ?_⟩, fun h1 => h1.1⟩
      rw [hi.heap.mem _ (by simp), (hi.arrays a).1 h1] at h2
      cases h2
    · intro m; rw [hobj (.block m) (by simp)]; exact hi.blocks m
    · intro m
      show m ∈ l.tensors.filter (· ≠ n) ↔ _
      by_cases hm : m = n
      · subst hm; simp [hgone]
      · rw [hobj (.tensor m) (by simpa using hm), List.mem_filter, hi.tensors]; simp [hm]
    · intro q hq
      obtain ⟨h1, h2⟩ := List.mem_filter.1 (show q ∈ l.interior.filter fun b => !insideOf n b from hq)
      exact ⟨h1, fun _ => hstay q h2⟩
    · intro v hv
      obtain ⟨h1, h2⟩ := List.mem_filter.1 (show v ∈ l.views.filter fun v => !insideOf n v.1 from hv)
      exact ⟨h1, fun _ => hstay v.1 h2⟩
    · intro o x hx _ hnc
      have hne : o ≠ .tensor n := by
        rintro rfl
        cases hx
        exact hnc ⟨n, rfl, rfl⟩
      refine ⟨hobj o hne, fun a ha => hu.frame a (by rw [ha]; rfl) fun h1 => ?_⟩
      rw [hi.heap.mem _ (by simp), ha, Option.some.injEq] at h1
      exact hne h1
    · intro a ha _
      refine hu.frame a (by rw [ha]; rfl) fun h1 => ?_
      rw [hi.heap.mem _ (by simp), ha] at h1
      cases h1

end Heap
end Equistore
