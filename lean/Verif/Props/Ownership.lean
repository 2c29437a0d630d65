import Verif.Lemmas.CallsModify

/-!
# Ownership in the C API (C47, C48, C49)

See `Verif/Spec/Ownership.lean` for the rules for using pointers, and for the programs which follow
them.
-/

namespace Equistore
open Spec
variable {B : Type} [Inhabited B] [ArrayCallbacks B]

/-! ### C47: each array is released exactly once -/

/-- **C47.** In a program following the rules, no call accesses or frees something which does not exist. -/
theorem C47_defined (h : Heap B) (l : Ledger) (hr : Run h l) (c : Call B) (ha : c.Allowed l) (p : Platform) :
    ∃ h' reply, c.run p h = some (h', reply) := by
  obtain ⟨owner, hi⟩ := Heap.inv_run hr
  obtain ⟨h', reply, h1, _⟩ := Heap.good p hi ha
  exact ⟨h', reply, h1⟩

/-- **C47.** Each array is destroyed at most once, whatever the outcome of the calls. -/
theorem C47_at_most_once (h : Heap B) (l : Ledger) (hr : Run h l) :
    h.destroyed.Nodup ∧ ∀ a ∈ h.destroyed, a ∈ h.created := by
  obtain ⟨owner, hi⟩ := Heap.inv_run hr
  exact ⟨hi.heap.owned.nodup, fun a ha => (hi.heap.owned.created a).2 (.inr ha)⟩

/-- **C47.** An array used by a block or by a tensor map which exists has not been destroyed; neither have the
arrays which still belong to the program, and those which the program can access through a valid pointer to a
block. -/
theorem C47_not_in_use (h : Heap B) (l : Ledger) (hr : Run h l) (a : Nat)
    (ha : InUse h a ∨ a ∈ l.arrays ∨ ∃ b, (b, a) ∈ l.views) : a ∉ h.destroyed ∧ (h.arrays a).isSome := by
  obtain ⟨owner, hi⟩ := Heap.inv_run hr
  have hs : (owner a).isSome := by
    rcases ha with (⟨n, b, hb, hm⟩ | ⟨n, t, v, ht, hm⟩) | ha | ⟨q, hq⟩
    · have := hi.heap.mem (.block n) (by simp) a
      rw [Heap.held_block hb] at this
      rw [this.1 hm]; rfl
    · have := hi.heap.mem (.tensor n) (by simp) a
      rw [Heap.held_tensor ht] at this
      rw [this.1 hm]; rfl
    · rw [(hi.arrays a).1 ha]; rfl
    · obtain ⟨b, hb, hm⟩ := hi.views _ hq
      rw [hi.heap.owner_block hb a hm]; rfl
  refine ⟨fun hd => ?_, (hi.heap.owned.alive a).2 hs⟩
  rw [hi.heap.owned.destroyed a hd] at hs
  cases hs

/-- **C47.** Two blocks, two tensor maps, or a block and a tensor map, never use the same array, and a block or
tensor map never uses the same array twice. -/
theorem C47_not_shared (h : Heap B) (l : Ledger) (hr : Run h l) :
    (∀ n b, h.blocks n = some b → (b.arrays.map (·.ptr)).Nodup) ∧
    (∀ n t v, h.tensors n = some (t, v) → (t.arrays.map (·.ptr)).Nodup) ∧
    (∀ n m b b', n ≠ m → h.blocks n = some b → h.blocks m = some b' →
      ∀ a ∈ b.arrays.map (·.ptr), a ∉ b'.arrays.map (·.ptr)) ∧
    (∀ n m t t' v v', n ≠ m → h.tensors n = some (t, v) → h.tensors m = some (t', v') →
      ∀ a ∈ t.arrays.map (·.ptr), a ∉ t'.arrays.map (·.ptr)) ∧
    (∀ n m b t v, h.blocks n = some b → h.tensors m = some (t, v) →
      ∀ a ∈ b.arrays.map (·.ptr), a ∉ t.arrays.map (·.ptr)) := by
  obtain ⟨owner, hi⟩ := Heap.inv_run hr
  have hb : ∀ n b, h.blocks n = some b → ∀ a, a ∈ b.arrays.map (·.ptr) ↔ owner a = some (.block n) := by
    intro n b hb a
    rw [← hi.heap.mem (.block n) (by simp), Heap.held_block hb]; rfl
  have ht : ∀ n t v, h.tensors n = some (t, v) → ∀ a, a ∈ t.arrays.map (·.ptr) ↔ owner a = some (.tensor n) := by
    intro n t v ht a
    rw [← hi.heap.mem (.tensor n) (by simp), Heap.held_tensor ht]; rfl
  refine ⟨?_, ?_, ?_, ?_, ?_⟩
  · intro n b h1
    have := hi.heap.nodup (.block n)
    rw [Heap.held_block h1] at this
    exact this
  · intro n t v h1
    have := hi.heap.nodup (.tensor n)
    rw [Heap.held_tensor h1] at this
    exact this
  · intro n m b b' hne h1 h2 a h3 h4
    rw [hb n b h1] at h3
    rw [hb m b' h2, h3] at h4
    cases h4
    exact hne rfl
  · intro n m t t' v v' hne h1 h2 a h3 h4
    rw [ht n t v h1] at h3
    rw [ht m t' v' h2, h3] at h4
    cases h4
    exact hne rfl
  · intro n m b t v h1 h2 a h3 h4
    rw [hb n b h1] at h3
    rw [ht m t v h2, h3] at h4
    cases h4

/-- **C47.** Each array which was created either was destroyed, or still belongs to the program, or to a block or
tensor map the program still has to free: no array is lost. -/
theorem C47_not_lost (h : Heap B) (l : Ledger) (hr : Run h l) (a : Nat) (ha : a ∈ h.created) :
    a ∈ h.destroyed ∨ a ∈ l.arrays ∨
    (∃ n ∈ l.blocks, ∃ b, h.blocks n = some b ∧ a ∈ b.arrays.map (·.ptr)) ∨
    (∃ n ∈ l.tensors, ∃ t v, h.tensors n = some (t, v) ∧ a ∈ t.arrays.map (·.ptr)) := by
  obtain ⟨owner, hi⟩ := Heap.inv_run hr
  rcases (hi.heap.owned.created a).1 ha with hs | hd
  · obtain ⟨o, ho⟩ := Option.isSome_iff_exists.1 hs
    cases o with
    | program => exact .inr (.inl ((hi.arrays a).2 ho))
    | block n =>
      have hm := (hi.heap.mem (.block n) (by simp) a).2 ho
      cases hb : h.blocks n with
      | none =>
        rw [Heap.held_none (by simp [Heap.object, hb])] at hm
        cases hm
      | some b =>
        rw [Heap.held_block hb] at hm
        exact .inr (.inr (.inl ⟨n, (hi.blocks n).2 (by simp [Heap.object, hb]), b, hb, hm⟩))
    | tensor n =>
      have hm := (hi.heap.mem (.tensor n) (by simp) a).2 ho
      cases ht : h.tensors n with
      | none =>
        rw [Heap.held_none (by simp [Heap.object, ht])] at hm
        cases hm
      | some x =>
        obtain ⟨t, v⟩ := x
        rw [Heap.held_tensor ht] at hm
        exact .inr (.inr (.inr ⟨n, (hi.tensors n).2 (by simp [Heap.object, ht]), t, v, ht, hm⟩))
  · exact .inl hd

/-- **C47.** When a program has freed all its blocks and tensor maps, and destroyed all the arrays it did not give
away, then each array which was ever created has been destroyed exactly once. -/
theorem C47_all_released (h : Heap B) (l : Ledger) (hr : Run h l) (hc : l.Clean) : h.destroyed.Perm h.created := by
  obtain ⟨owner, hi⟩ := Heap.inv_run hr
  rw [List.perm_ext_iff_of_nodup hi.heap.owned.nodup hi.heap.owned.createdNodup]
  intro a
  refine ⟨fun ha => (hi.heap.owned.created a).2 (.inr ha), fun ha => ?_⟩
  obtain ⟨h1, h2, h3⟩ := hc
  rcases C47_not_lost h l hr a ha with h4 | h4 | ⟨n, h4, _⟩ | ⟨n, h4, _⟩
  · exact h4
  · rw [h1] at h4; cases h4
  · rw [h2] at h4; cases h4
  · rw [h3] at h4; cases h4

/-! ### C48: `eqs_tensormap` takes each block exactly once -/

theorem Heap.dropArrays_created {cs : List CArray} {h h' : Heap B} (hd : Heap.dropArrays cs h = some h') :
    h'.created = h.created := by
  induction cs generalizing h with
  | nil => cases hd; rfl
  | cons c cs ih =>
    simp only [Heap.dropArrays] at hd
    split at hd
    · cases hd
    · rename_i h₁ h1
      rw [ih hd]
      simp only [Heap.dropArray] at h1
      split at h1
      · split at h1
        · cases h1
        · cases h1; rfl
      · cases h1; rfl

theorem Heap.settle_created (h : Heap B) (ls : List (Live B)) (hs : ∀ a ∈ ls, a.handle.isSome) :
    (mapAccum Heap.settle h ls).1.created = h.created := by
  induction ls generalizing h with
  | nil => rfl
  | cons a ls ih =>
    obtain ⟨c, hc⟩ := Option.isSome_iff_exists.1 (hs a List.mem_cons_self)
    show (mapAccum Heap.settle (Heap.settle h a).1 ls).1.created = _
    rw [ih _ fun a ha => hs a (List.mem_cons_of_mem _ ha)]
    simp [Heap.settle, hc]

/-- **C48.** If the same pointer appears more than once, or the keys are not valid labels, `eqs_tensormap` fails,
and nothing happens: all pointers and everything behind them stay the same. This holds for any pointers. -/
theorem C48_rejected (hash : HashOrder) (keys : CLabels) (blocks : List BlockPtr) (h : Heap B)
    (hbad : ¬blocks.Nodup ∨ ∀ k, Labels.ofC keys ≠ .ok k) :
    ∃ r, eqsTensormap hash keys blocks h = some (h, blocks, r) ∧ (∀ n, r ≠ .ok n) ∧
      (¬blocks.Nodup → (∃ k, Labels.ofC keys = .ok k) → ∃ m, r = .err (.invalidParameter m)) := by
  unfold eqsTensormap
  cases hk : Labels.ofC keys with
  | err e => exact ⟨_, rfl, by simp, fun _ ⟨k, hx⟩ => by cases hx⟩
  | panic m => exact ⟨_, rfl, by simp, fun _ ⟨k, hx⟩ => by cases hx⟩
  | ok k =>
    rcases hbad with hbad | hbad
    · have : countDistinct blocks ≠ blocks.length := fun heq => hbad (countDistinct_eq_length.1 heq)
      simp only [if_pos this]
      exact ⟨_, rfl, by simp, fun _ _ => ⟨_, rfl⟩⟩
    · exact absurd hk (hbad k)

/-- **C48.** Otherwise all pointers are set to `NULL` and none of the blocks exists on its own any more: on success
they are the blocks of a new tensor map, in the same order and with the same arrays and content; on failure all their
arrays are destroyed. Nothing else changes. The outcome is the one of the constructor of tensor maps. -/
theorem C48_taken (h : Heap B) (l : Ledger) (hr : Run h l) (hash : HashOrder) (keys : CLabels) (k : Labels)
    (hk : Labels.ofC keys = .ok k) (ns : List Nat) (hn : ns.Nodup) (hns : ∀ n ∈ ns, n ∈ l.blocks) :
    ∃ h' r bs, eqsTensormap hash keys (ns.map .owned) h = some (h', ns.map (fun _ => .null), r) ∧
      List.Forall₂ (fun n b => h.blocks n = some b) ns bs ∧
      (∀ n, h'.blocks n = if n ∈ ns then none else h.blocks n) ∧
      (∀ a ∈ h.created, a ∉ (bs.flatMap TensorBlock.arrays).map (·.ptr) → h'.arrays a = h.arrays a) ∧
      h'.created = h.created ∧
      (∀ t, r = .ok t → (∃ v, h'.tensors t = some ({ keys := k, blocks := bs }, v)) ∧ h.tensors t = none ∧
        (∀ m, m ≠ t → h'.tensors m = h.tensors m) ∧ h'.destroyed = h.destroyed ∧
        ∀ a ∈ (bs.flatMap TensorBlock.arrays).map (·.ptr), h'.arrays a = h.arrays a) ∧
      ((∀ t, r ≠ .ok t) → h'.tensors = h.tensors ∧
        h'.destroyed = h.destroyed ++ (bs.flatMap TensorBlock.arrays).map (·.ptr)) ∧
      (match TensorMap.new hash k (bs.map (TensorBlock.mapData (Heap.thawed h))) with
        | .ok _ => ∃ t, r = .ok t
        | .err e => r = .err e
        | .panic m => r = .panic m) := by
  obtain ⟨owner, hi⟩ := Heap.inv_run hr
  have hd : ¬countDistinct (ns.map BlockPtr.owned) ≠ (ns.map BlockPtr.owned).length := by
    rw [not_not, countDistinct_eq_length]
    exact hn.map fun a b hab => by cases hab; rfl
  obtain ⟨bs, htake, hbs⟩ := Heap.takeBlocks_spec ns hn h fun n hx => hi.block (hns n hx)
  obtain ⟨hheld, hbefore⟩ := Heap.taken_arrays hi.heap hn hbs
  have hbo : ∀ b ∈ bs, ∃ n, b ∈ h.blocksOf (.block n) := by
    intro b hb
    obtain ⟨i, hi₁, rfl⟩ := List.getElem_of_mem hb
    have hi₂ : i < ns.length := by rw [hbs.length_eq]; exact hi₁
    have h1 : h.blocks ns[i] = some bs[i] := hbs.get hi₂ hi₁
    exact ⟨ns[i], by simp [Heap.blocksOf, Heap.object, h1, Heap.Object.blocks]⟩
  have hthaw : bs.mapM (h.without ns).thawBlock = some (bs.map (TensorBlock.mapData (Heap.thawed h))) := by
    refine Heap.option_mapM_eq fun b hb => ?_
    obtain ⟨n, hx⟩ := hbo b hb
    exact hi.heap.thawBlock hx
  have hnulls : (ns.map BlockPtr.owned).map (fun _ => BlockPtr.null) = ns.map fun _ => BlockPtr.null := by
    rw [List.map_map]; rfl
  have hfail : ∀ r : Res Nat, (∀ n, r ≠ .ok n) →
      (eqsTensormap hash keys (ns.map .owned) h =
        ((h.without ns).dropArrays (bs.flatMap TensorBlock.arrays)).map fun h => (h, ns.map (fun _ => .null), r)) →
      ∃ h', eqsTensormap hash keys (ns.map .owned) h = some (h', ns.map (fun _ => .null), r) ∧
      (∀ n, h'.blocks n = if n ∈ ns then none else h.blocks n) ∧
      (∀ a ∈ h.created, a ∉ (bs.flatMap TensorBlock.arrays).map (·.ptr) → h'.arrays a = h.arrays a) ∧
      h'.created = h.created ∧ h'.tensors = h.tensors ∧
        h'.destroyed = h.destroyed ++ (bs.flatMap TensorBlock.arrays).map (·.ptr) := by
    intro r _ hrun
    obtain ⟨h₁, hdr, hc, hw⟩ := Heap.drop_owned (hi.heap.owned.without ns) hheld .program
    refine ⟨h₁, by rw [hrun, hdr]; rfl, fun n => by rw [hc.blocks]; rfl, fun a ha hna => ?_, ?_, hc.tensors, ?_⟩
    · exact hc.frame a hna (hi.heap.owned.fresh a ha)
    · rw [Heap.dropArrays_created hdr]; rfl
    · rw [hc.destroyed]
      simp [Heap.without, Heap.ids]
  cases hnew : TensorMap.new hash k (bs.map (TensorBlock.mapData (Heap.thawed h))) with
  | err e =>
    obtain ⟨h', h1, h2, h3, h4, h5, h6⟩ := hfail (.err e) (by simp) (by
      simp only [eqsTensormap, hk, if_neg hd, htake, hthaw, hnew, hnulls])
    exact ⟨h', _, bs, h1, hbs, h2, h3, h4, by simp, fun _ => ⟨h5, h6⟩, by rw [hnew]⟩
  | panic m =>
    obtain ⟨h', h1, h2, h3, h4, h5, h6⟩ := hfail (.panic m) (by simp) (by
      simp only [eqsTensormap, hk, if_neg hd, htake, hthaw, hnew, hnulls])
    exact ⟨h', _, bs, h1, hbs, h2, h3, h4, by simp, fun _ => ⟨h5, h6⟩, by rw [hnew]⟩
  | ok t =>
    obtain ⟨htb, htk⟩ := Heap.TensorMap.new_blocks hnew
    have htarr : t.arrays = (bs.flatMap TensorBlock.arrays).map (Heap.thawed h) := by
      rw [TensorMap.arrays, htb, List.flatMap_map, List.map_flatMap]
      exact List.flatMap_congr fun b _ => TensorBlock.arrays_mapData _ _
    have hh : t.arrays.map (·.handle) = (bs.flatMap TensorBlock.arrays).map some := by
      rw [htarr, Heap.thawed_handles]
    have hkn : (Heap.kept t.arrays).Nodup := by rw [Heap.kept_handles hh]; exact hheld.nodup
    obtain ⟨h₁, t₁, hct, hc, hw, hsk⟩ :=
      Heap.commitTensor_spec (hi.heap.owned.without ns) hheld hkn (Heap.handle_mem hh) .program
    have hsame : t₁.arrays = bs.flatMap TensorBlock.arrays := hc.same hh
    have ht₁ : t₁ = { keys := k, blocks := bs } := by
      refine TensorMap.ext_skeleton ?_ hsame
      rw [hsk, ← htk]
      show ({ keys := t.keys, blocks := t.blocks.map TensorBlock.skeleton } : TensorMap Unit) = _
      have : bs.map (TensorBlock.skeleton ∘ TensorBlock.mapData (Heap.thawed h)) = bs.map TensorBlock.skeleton :=
        List.map_congr_left fun b _ => TensorBlock.skeleton_mapData (Heap.thawed h) b
      rw [htb, List.map_map, this]
      rfl
    have hkeep : ∀ a ∈ (bs.flatMap TensorBlock.arrays).map (·.ptr), h₁.arrays a = h.arrays a := by
      intro a ha
      obtain ⟨c, hcm, rfl⟩ := List.mem_map.1 ha
      obtain ⟨i, hi₁, rfl⟩ := List.getElem_of_mem hcm
      have hi₂ : i < t.arrays.length := by rw [htarr, List.length_map]; exact hi₁
      have hi₃ : i < t₁.arrays.length := by rw [hsame]; exact hi₁
      have h1 := (hc.content.get hi₂ hi₃).1
      simp only [List.get_eq_getElem, hsame, htarr, List.getElem_map] at h1
      rw [h1]
      have h2 : (h.arrays (bs.flatMap TensorBlock.arrays)[i].ptr).isSome :=
        (hi.heap.owned.alive _).2 (hheld.owned _ (List.mem_map_of_mem hcm))
      obtain ⟨x, hx⟩ := Option.isSome_iff_exists.1 h2
      simp [Heap.thawed, hx]
    refine ⟨(h₁.putTensor t₁).1, .ok h₁.next, bs, ?_, hbs, ?_, ?_, ?_, ?_, by simp, by rw [hnew]; exact ⟨_, rfl⟩⟩
    · simp only [eqsTensormap, hk, if_neg hd, htake, hthaw, hnew, hct, hnulls]
      rfl
    · intro n
      show h₁.blocks n = _
      rw [hc.blocks]; rfl
    · intro a ha hna
      exact hc.frame a hna (hi.heap.owned.fresh a ha)
    · show h₁.created = h.created
      simp only [Heap.commitTensor] at hct
      split at hct
      · cases hct
      · rename_i hdr
        cases hct
        rw [Heap.dropArrays_created hdr, (TensorMap.mapAccumData_eq Heap.settle (h.without ns) t).1,
          Heap.settle_created]
        · rfl
        · rw [htarr]
          intro a ha
          obtain ⟨c, _, rfl⟩ := List.mem_map.1 ha
          rfl
    · rintro n hn'
      cases hn'
      refine ⟨⟨h₁.next + 1, by simp [Heap.putTensor, setAt, ht₁]⟩, ?_, ?_, ?_, hkeep⟩
      · cases hx : h.tensors h₁.next with
        | none => rfl
        | some x =>
          have := hi.heap.fresh (.tensor h₁.next) (by simp [Heap.object, hx])
          have h2 : h.next ≤ h₁.next := hc.next
          simp only [Heap.Owner.address] at this
          omega
      · intro m hm
        simp only [Heap.putTensor, setAt, if_neg hm]
        rw [hc.tensors]; rfl
      · show h₁.destroyed = _
        rw [hc.destroyed, hsame]
        have : (bs.flatMap TensorBlock.arrays).filter (fun a => a ∉ bs.flatMap TensorBlock.arrays) = [] := by
          rw [List.filter_eq_nil_iff]; simp
        rw [this]
        simp [Heap.without, Heap.ids]

theorem TensorBlock.mapData_congr {A A' : Type} {f g : A → A'} {b : TensorBlock A} (hfg : ∀ a ∈ b.arrays, f a = g a) :
    b.mapData f = b.mapData g := by
  simp only [TensorBlock.arrays, List.forall_mem_cons, List.forall_mem_map] at hfg
  simp only [TensorBlock.mapData, hfg.1, TensorBlock.mk.injEq, true_and, and_true]
  exact List.map_congr_left fun x hx => by rw [hfg.2 x hx]

theorem TensorMap.mapData_congr {A A' : Type} {f g : A → A'} {t : TensorMap A} (hfg : ∀ a ∈ t.arrays, f a = g a) :
    t.mapData f = t.mapData g := by
  simp only [TensorMap.mapData, TensorMap.mk.injEq, true_and]
  exact List.map_congr_left fun b hb => TensorBlock.mapData_congr fun a ha =>
    hfg a (List.mem_flatMap.2 ⟨b, hb, ha⟩)

/-! ### C49: copies of blocks are equal and independent -/

/-- **C49.** A successful copy is a new block with the same labels and gradients. Its arrays are new, with the result
of the callback for copies of each array. Nothing else changes. -/
theorem C49_copy (h : Heap B) (l : Ledger) (hr : Run h l) (q : BlockPtr) (hq : l.Usable q) (h₁ : Heap B) (n : Nat)
    (hc : eqsBlockCopy q h = some (h₁, .ok n)) :
    ∃ b b', h.block q = some b ∧ h₁.blocks n = some b' ∧
      b'.mapData (fun _ => ()) = b.mapData (fun _ => ()) ∧
      List.Forall₂ (fun a a' => ∃ x y, h.arrays a.ptr = some x ∧ ArrayCallbacks.copy x = some y ∧
        h₁.arrays a'.ptr = some y ∧ a'.ptr ∉ h.created) b.arrays b'.arrays ∧
      h.blocks n = none ∧ (∀ m, m ≠ n → h₁.blocks m = h.blocks m) ∧ h₁.tensors = h.tensors ∧
      h₁.destroyed = h.destroyed ∧ ∀ a ∈ h.created, h₁.arrays a = h.arrays a := by
  obtain ⟨owner, hi⟩ := Heap.inv_run hr
  have hne : q ≠ .null := by
    rintro rfl
    simp [eqsBlockCopy, nullBlock, checkPointer] at hc
  obtain ⟨b, hb⟩ := hi.usable hq hne
  have hthaw : h.thawBlock b = some (b.mapData (Heap.thawed h)) := hi.heap.thawBlock (Heap.HeapInv.mem_blocksOf hb)
  simp only [eqsBlockCopy, if_neg hne, hb, hthaw] at hc
  cases hcl : cloneBlock (b.mapData (Heap.thawed h)) with
  | err e => simp [hcl] at hc
  | panic m => simp [hcl] at hc
  | ok copy =>
    obtain ⟨hsk, hall⟩ := cloneBlock_ok hcl
    have hnone : ∀ a ∈ copy.arrays, a.handle = none := by
      intro a ha
      obtain ⟨i, hi, rfl⟩ := List.getElem_of_mem ha
      exact (hall.get (by rw [hall.length_eq]; exact hi) hi).1
    have hm : ∀ a ∈ copy.arrays, ∀ c, a.handle = some c → c ∈ ([] : List CArray) := by
      intro a ha c hc; rw [hnone a ha] at hc; cases hc
    have hk : (Heap.kept copy.arrays).Nodup := by rw [Heap.kept_none hnone]; exact List.nodup_nil
    obtain ⟨h₂, b', hcb, hcm, _, hsk'⟩ := Heap.commitBlock_spec hi.heap.owned Heap.Held.nil hk hm .program
    simp only [hcl, hcb, Option.some.injEq, Prod.mk.injEq, Res.ok.injEq] at hc
    obtain ⟨rfl, rfl⟩ := hc
    refine ⟨b, b', hb, by simp [Heap.putBlock, setAt], ?_, ?_, ?_, ?_, hcm.tensors, ?_, ?_⟩
    · show b'.skeleton = b.skeleton
      rw [hsk', hsk, TensorBlock.skeleton_mapData]
    · have hlen : b.arrays.length = copy.arrays.length := by
        rw [← hall.length_eq, TensorBlock.arrays_mapData, List.length_map]
      rw [List.forall₂_iff_get]
      refine ⟨hlen.trans hcm.content.length_eq, fun i h1 h2 => ?_⟩
      have h3 : i < copy.arrays.length := hlen ▸ h1
      have h4 := (hall.get (by rw [hall.length_eq]; exact h3) h3).2
      have h5 := (hcm.content.get h3 h2).1
      simp only [List.get_eq_getElem, TensorBlock.arrays_mapData, List.getElem_map] at h4 h5 ⊢
      have hh : b.arrays[i] ∈ b.arrays := List.getElem_mem h1
      have h6 : (h.arrays b.arrays[i].ptr).isSome :=
        (hi.heap.owned.alive _).2 ((hi.heap.block_held hb).owned _ (List.mem_map_of_mem hh))
      obtain ⟨x, hx⟩ := Option.isSome_iff_exists.1 h6
      refine ⟨x, _, hx, ?_, h5, ?_⟩
      · simpa [Heap.thawed, hx] using h4
      · intro hcr
        have h7 : b'.arrays[i].ptr ∈ Heap.ids b'.arrays := List.mem_map_of_mem (List.getElem_mem h2)
        rcases (hcm.mem _).1 h7 with h8 | h8
        · rw [Heap.kept_none hnone] at h8; cases h8
        · have := hi.heap.owned.fresh _ hcr
          omega
    · cases hx : h.blocks (h₂.putBlock b').2 with
      | none => rfl
      | some x =>
        have := hi.heap.fresh (.block h₂.next) (by
          have : h.blocks h₂.next = some x := hx
          simp [Heap.object, this])
        have h2 : h.next ≤ h₂.next := hcm.next
        simp only [Heap.Owner.address] at this
        omega
    · intro m hm
      have : m ≠ h₂.next := hm
      simp only [Heap.putBlock, setAt, if_neg this, hcm.blocks]
    · show h₂.destroyed = _
      rw [hcm.destroyed]; simp [Heap.ids]
    · intro a ha
      exact hcm.frame a (by simp) (hi.heap.owned.fresh a ha)

/-- **C49.** If the callback returns equal arrays, the copy looks the same as the original. -/
theorem C49_equal (hlawful : ∀ x y : B, ArrayCallbacks.copy x = some y → y = x)
    (h : Heap B) (l : Ledger) (hr : Run h l) (q : BlockPtr) (hq : l.Usable q) (h₁ : Heap B) (n : Nat)
    (hc : eqsBlockCopy q h = some (h₁, .ok n)) :
    ∃ b, h.block q = some b ∧ look h₁ (.block n) = some (.block (b.mapData fun a => h.arrays a.ptr)) := by
  obtain ⟨b, b', hb, hb', hsk, hall, _⟩ := C49_copy h l hr q hq h₁ n hc
  refine ⟨b, hb, ?_⟩
  simp only [look, hb', Option.map_some, Option.some.injEq, Content.block.injEq]
  refine TensorBlock.ext_skeleton ?_ ?_
  · rw [TensorBlock.skeleton_mapData, TensorBlock.skeleton_mapData]; exact hsk
  · rw [TensorBlock.arrays_mapData, TensorBlock.arrays_mapData]
    clear hsk hb hb'
    generalize b.arrays = as at hall ⊢
    generalize b'.arrays = as' at hall ⊢
    induction hall with
    | nil => rfl
    | cons hx _ ih =>
      obtain ⟨x, y, h1, h2, h3, _⟩ := hx
      rw [List.map_cons, List.map_cons, ih, h1, h3, hlawful x y h2]

theorem cloneBlock_outcome (b : TensorBlock (Live B)) :
    if ∀ a ∈ b.arrays, (ArrayCallbacks.copy a.content).isSome then ∃ c, cloneBlock b = .ok c
    else ∃ m, cloneBlock b = .panic m := by
  obtain ⟨⟨d, s, c, p⟩, gs, ps⟩ := b
  have hone : ∀ a : Live B, if (ArrayCallbacks.copy a.content).isSome then ∃ c, cloneArray a = .ok c
      else ∃ m, cloneArray a = .panic m := by
    intro a
    cases hc : ArrayCallbacks.copy a.content <;> simp [cloneArray, hc, Res.expect, Res.pure_eq]
  have hgs : ∀ gs : List (String × BasicBlock (Live B)),
      if ∀ g ∈ gs, (ArrayCallbacks.copy g.2.data.content).isSome then
        ∃ r, (gs.mapM fun g => do
          let data ← cloneArray g.2.data
          return (g.1, g.2.withData data) : Res (List (String × BasicBlock (Live B)))) = .ok r
      else ∃ m, (gs.mapM fun g => do
          let data ← cloneArray g.2.data
          return (g.1, g.2.withData data) : Res (List (String × BasicBlock (Live B)))) = .panic m := by
    intro gs
    induction gs with
    | nil => simp [Res.pure_eq]
    | cons g gs ih =>
      have hg := hone g.2.data
      simp only [List.forall_mem_cons, List.mapM_cons]
      by_cases h1 : (ArrayCallbacks.copy g.2.data.content).isSome
      · rw [if_pos h1] at hg
        obtain ⟨c, hc⟩ := hg
        rw [hc]
        by_cases h2 : ∀ g ∈ gs, (ArrayCallbacks.copy g.2.data.content).isSome
        · rw [if_pos h2] at ih
          obtain ⟨r, hr⟩ := ih
          rw [if_pos ⟨h1, h2⟩, hr]
          exact ⟨_, rfl⟩
        · rw [if_neg h2] at ih
          obtain ⟨r, hr⟩ := ih
          rw [if_neg fun h => h2 h.2, hr]
          exact ⟨_, rfl⟩
      · rw [if_neg h1] at hg
        obtain ⟨c, hc⟩ := hg
        rw [if_neg fun h => h1 h.1, hc]
        exact ⟨_, rfl⟩
  have hd := hone d
  have hg := hgs gs
  simp only [TensorBlock.arrays, List.forall_mem_cons, List.forall_mem_map, cloneBlock]
  by_cases h1 : (ArrayCallbacks.copy d.content).isSome
  · rw [if_pos h1] at hd
    obtain ⟨c, hc⟩ := hd
    rw [hc]
    by_cases h2 : ∀ g ∈ gs, (ArrayCallbacks.copy g.2.data.content).isSome
    · rw [if_pos h2] at hg
      obtain ⟨r, hr⟩ := hg
      rw [if_pos ⟨h1, h2⟩]
      exact ⟨_, by rw [Res.ok_bind, hr]; rfl⟩
    · rw [if_neg h2] at hg
      obtain ⟨r, hr⟩ := hg
      rw [if_neg fun h => h2 h.2]
      exact ⟨_, by rw [Res.ok_bind, hr]; rfl⟩
  · rw [if_neg h1] at hd
    obtain ⟨c, hc⟩ := hd
    rw [if_neg fun h => h1 h.1, hc]
    exact ⟨_, rfl⟩

/-- **C49.** A copy succeeds when the callbacks of all the arrays of the block succeed, otherwise it fails, and
nothing has changed. -/
theorem C49_outcome (h : Heap B) (l : Ledger) (hr : Run h l) (q : BlockPtr) (hq : l.Usable q) (hne : q ≠ .null) :
    ∃ b h₁ r, h.block q = some b ∧ eqsBlockCopy q h = some (h₁, r) ∧
      ((∃ n, r = .ok n) ↔ ∀ a ∈ b.arrays, ∃ x, h.arrays a.ptr = some x ∧ (ArrayCallbacks.copy x).isSome) ∧
      ((∀ n, r ≠ .ok n) → h₁ = h) := by
  obtain ⟨owner, hi⟩ := Heap.inv_run hr
  obtain ⟨b, hb⟩ := hi.usable hq hne
  have hthaw : h.thawBlock b = some (b.mapData (Heap.thawed h)) := hi.heap.thawBlock (Heap.HeapInv.mem_blocksOf hb)
  have hiff : (∀ a ∈ (b.mapData (Heap.thawed h)).arrays, (ArrayCallbacks.copy a.content).isSome) ↔
      ∀ a ∈ b.arrays, ∃ x, h.arrays a.ptr = some x ∧ (ArrayCallbacks.copy x).isSome := by
    rw [TensorBlock.arrays_mapData, List.forall_mem_map]
    refine forall_congr' fun a => forall_congr' fun ha => ?_
    have h6 : (h.arrays a.ptr).isSome :=
      (hi.heap.owned.alive _).2 ((hi.heap.block_held hb).owned _ (List.mem_map_of_mem ha))
    obtain ⟨x, hx⟩ := Option.isSome_iff_exists.1 h6
    simp [Heap.thawed, hx]
  have hout := cloneBlock_outcome (b.mapData (Heap.thawed h))
  by_cases hall : ∀ a ∈ (b.mapData (Heap.thawed h)).arrays, (ArrayCallbacks.copy a.content).isSome
  · rw [if_pos hall] at hout
    obtain ⟨copy, hcl⟩ := hout
    obtain ⟨h₁, reply, hrun⟩ := C47_defined h l hr (.blockCopy q) hq ⟨⟨true⟩, .insertion, ⟨fun _ => none, fun _ => none⟩, .little⟩
    simp only [Call.run, eqsBlockCopy, if_neg hne, hb, hthaw, hcl] at hrun
    simp only [eqsBlockCopy, if_neg hne, hb, hthaw, hcl]
    split at hrun
    · cases hrun
    · exact ⟨b, _, _, rfl, rfl, ⟨fun _ => hiff.1 hall, fun _ => ⟨_, rfl⟩⟩, fun hx => absurd rfl (hx _)⟩
  · rw [if_neg hall] at hout
    obtain ⟨m, hcl⟩ := hout
    refine ⟨b, h, .panic m, hb, by simp only [eqsBlockCopy, if_neg hne, hb, hthaw, hcl], ⟨?_, ?_⟩, fun _ => rfl⟩
    · rintro ⟨n, hn⟩; cases hn
    · intro hx; exact absurd (hiff.2 hx) hall

theorem Since.run {h h' : Heap B} {l l' : Ledger} {x : Thing} (hr : Run h l) (hs : Since x h l h' l') : Run h' l' := by
  induction hs with
  | now => exact hr
  | step p _ ha _ hrun ih => exact .step p ih ha hrun

theorem Ledger.takenBlocks_arrays (l : Ledger) (ps : List (BlockPtr × BlockPtr)) :
    (l.takenBlocks ps).arrays = l.arrays := by
  induction ps generalizing l with
  | nil => rfl
  | cons q ps ih =>
    obtain ⟨a, b⟩ := q
    cases a <;> cases b <;> simp only [Ledger.takenBlocks, ih] <;> rfl

theorem Ledger.record_arrays {l : Ledger} {c : Call B} {a : Nat} (ha : a ∈ l.arrays) (hn : ¬c.changes (.array a))
    (reply : Reply) : a ∈ (l.record c reply).arrays := by
  have hdrop : ∀ (d : Nat), Thing.array a ≠ .array d → a ∈ (l.dropArray d).arrays := by
    intro d hd
    have : a ≠ d := fun heq => hd (by rw [heq])
    simp [Ledger.dropArray, ha, this]
  cases c <;> simp only [Call.changes] at hn <;> unfold Ledger.record <;>
    (try split) <;> (try split) <;>
    simp_all [Ledger.dropBlock, Ledger.invalidate, Ledger.takenBlocks_arrays]

/-- **C49.** A block, a tensor map or an array of the program does not change as long as no call is made which is meant
to change it. With the previous theorems: whatever is done with the original does not affect a copy, and whatever is
done with a copy does not affect the original. -/
theorem C49_independent (h : Heap B) (l : Ledger) (hr : Run h l) (x : Thing) (hx : ∀ a, x = .array a → a ∈ l.arrays)
    (hsome : (look h x).isSome) (h' : Heap B) (l' : Ledger) (hs : Since x h l h' l') :
    look h' x = look h x := by
  have key : look h' x = look h x ∧ ∀ a, x = .array a → a ∈ l'.arrays := by
    induction hs with
    | now => exact ⟨rfl, hx⟩
    | @step h₁ h₂ l₁ c reply p hs ha hnc hrun ih =>
      obtain ⟨ih, iha⟩ := ih
      rw [← ih] at hsome ⊢
      clear ih
      obtain ⟨owner, hi⟩ := Heap.inv_run (Since.run hr hs)
      obtain ⟨h₂', reply', hrun', _, hf⟩ := Heap.good p hi ha
      rw [hrun] at hrun'
      cases hrun'
      cases x with
      | array a =>
        have ham := iha a rfl
        refine ⟨?_, fun a' ha' => ?_⟩
        · simp only [look, hf.array a ((hi.arrays a).1 ham) hnc]
        · cases ha'
          exact Ledger.record_arrays ham hnc reply
      | block n =>
        refine ⟨?_, fun a' ha' => by cases ha'⟩
        cases hb : h₁.blocks n with
        | none => simp [look, hb] at hsome
        | some b =>
          obtain ⟨h1, h2⟩ := hf.object (.block n) _ rfl (by simp [Heap.object, hb]) hnc
          simp only [look, Heap.blocks_of_object h1, hb, Option.map_some, Option.some.injEq, Content.block.injEq]
          refine TensorBlock.mapData_congr fun a ha => h2 a.ptr ?_
          exact hi.heap.owner_block (q := .owned n) hb _ (List.mem_map_of_mem ha)
      | tensor n =>
        refine ⟨?_, fun a' ha' => by cases ha'⟩
        cases hb : h₁.tensors n with
        | none => simp [look, hb] at hsome
        | some t =>
          obtain ⟨t, v⟩ := t
          obtain ⟨h1, h2⟩ := hf.object (.tensor n) _ rfl (by simp [Heap.object, hb]) hnc
          simp only [look, Heap.tensors_of_object h1, hb, Option.map_some, Option.some.injEq, Content.tensor.injEq]
          refine TensorMap.mapData_congr fun a ha => h2 a.ptr ?_
          rw [← hi.heap.mem (.tensor n) (by simp), Heap.held_tensor hb]
          exact List.mem_map_of_mem ha
  exact key.1

/-! ### These programs exist -/

namespace Spec

/-- Check the rules. -/
def Call.check (l : Ledger) : Call B → Bool
  | .arrayNew _ => true
  | .arrayDestroy a => (a.destroy && l.arrays.contains a.ptr) || !a.destroy
  | .arrayWrite (.own a) _ => l.arrays.contains a
  | .arrayWrite (.view b a) _ => decide ((b, a) ∈ l.views)
  | .block data _ _ _ => data.destroy && l.arrays.contains data.ptr
  | .blockFree b => ownedOrNull b
  | .blockCopy b => usable b
  | .blockLabels b _ _ => usable b
  | .blockData b _ old => usable b && !old.destroy
  | .blockAddGradient b _ data _ _ => usable b && (data.destroy && l.arrays.contains data.ptr)
  | .blockGradientsList b => usable b
  | .tensormap _ blocks => blocks.all fun b => b ≠ .null && ownedOrNull b
  | .load _ => true
  | .tensormapFree tensor | .tensormapKeys tensor | .tensormapBlockById tensor _ | .tensormapBlocksMatching tensor _
  | .keysToProperties tensor _ _ | .keysToSamples tensor _ _ | .componentsToProperties tensor _ | .save tensor =>
    match tensor with
    | none => true
    | some n => l.tensors.contains n
where
  /-- Can be given to `eqs_block_free`. -/
  ownedOrNull : BlockPtr → Bool
    | .null => true
    | .owned n => l.blocks.contains n
    | .inside _ _ _ => false
  /-- Can be given to functions accessing a block. -/
  usable (b : BlockPtr) : Bool := ownedOrNull b || decide (b ∈ l.interior)

theorem Call.ownedOrNull_sound {l : Ledger} {b : BlockPtr} (h : Call.check.ownedOrNull l b = true) :
    b = .null ∨ ∃ n ∈ l.blocks, b = .owned n := by
  cases b with
  | null => exact .inl rfl
  | owned n => exact .inr ⟨n, by simpa [Call.check.ownedOrNull] using h, rfl⟩
  | inside => cases h

theorem Call.usable_sound {l : Ledger} {b : BlockPtr} (h : Call.check.usable l b = true) : l.Usable b := by
  simp only [Call.check.usable, Bool.or_eq_true, decide_eq_true_eq] at h
  rcases h with h | h
  · rcases Call.ownedOrNull_sound h with h | h
    · exact .inl h
    · exact .inr (.inl h)
  · exact .inr (.inr h)

theorem Call.check_sound {l : Ledger} {c : Call B} (h : c.check l = true) : c.Allowed l := by
  cases c <;> simp only [Call.check, Call.Allowed, Ledger.Owns, Ledger.UsableTensor] at h ⊢
  case arrayDestroy a => cases hd : a.destroy <;> simp_all
  case arrayWrite access change => cases access <;> simpa [Call.check, Call.Allowed] using h
  case block => simpa using h
  case blockFree => exact Call.ownedOrNull_sound h
  case blockCopy => exact Call.usable_sound h
  case blockLabels => exact Call.usable_sound h
  case blockData => simp only [Bool.and_eq_true] at h; exact ⟨Call.usable_sound h.1, by simpa using h.2⟩
  case blockAddGradient => simp only [Bool.and_eq_true] at h; exact ⟨Call.usable_sound h.1, by simpa using h.2⟩
  case blockGradientsList => exact Call.usable_sound h
  case tensormap =>
    intro b hb
    have := List.all_eq_true.1 h b hb
    simp only [Bool.and_eq_true, decide_eq_true_eq] at this
    exact (Call.ownedOrNull_sound this.2).resolve_left this.1
  all_goals
    rintro n rfl
    simpa using h

/-- Run a program. -/
def execute (p : Platform) : List (Call B) → Heap B × Ledger → Option (Heap B × Ledger)
  | [], s => some s
  | c :: cs, s =>
    if c.check s.2 then
      match c.run p s.1 with
      | none => none
      | some (h, reply) => execute p cs (h, s.2.record c reply)
    else
      none

theorem execute_run {p : Platform} {cs : List (Call B)} {s s' : Heap B × Ledger} (hs : Run s.1 s.2)
    (h : execute p cs s = some s') : Run s'.1 s'.2 := by
  induction cs generalizing s with
  | nil => cases h; exact hs
  | cons c cs ih =>
    simp only [execute] at h
    split at h
    · rename_i hc
      split at h
      · cases h
      · rename_i h₁ reply hrun
        exact ih (s := (h₁, s.2.record c reply)) (.step p hs (Call.check_sound hc) hrun) h
    · cases h

end Spec

namespace Ownership.Example

instance : Inhabited NdArray := ⟨⟨[], []⟩⟩

/-- A platform. -/
def platform : Platform := ⟨⟨true⟩, .insertion, ⟨fun _ => none, fun _ => none⟩, .little⟩

/-- Labels with one name `a` and some values. -/
def labels (values : List Int32) : CLabels :=
  { labelsPtr := none, names := some [[97, 0]], values := some values, size := 1, count := values.length }

/-- Labels with one name `p` and some values. -/
def properties (values : List Int32) : CLabels :=
  { labelsPtr := none, names := some [[112, 0]], values := some values, size := 1, count := values.length }

/-- Labels named `sample`. -/
def gradientSamples (values : List Int32) : CLabels :=
  { labelsPtr := none, names := some [[115, 97, 109, 112, 108, 101, 0]], values := some values, size := 1,
    count := values.length }

/-- An array with two rows and one column. -/
def array : NdArray := NdArray.build [2, 1] fun _ => default

/-- A program: two arrays, a block with a gradient, a copy of the block, and a change of the data of the copy. -/
def makeBlocks : List (Call NdArray) :=
  [.arrayNew array, .block ⟨0, true⟩ (labels [1, 2]) [] (properties [0]),
   .arrayNew array, .blockAddGradient (.owned 1) (some [103, 0]) ⟨2, true⟩ (gradientSamples [0, 1]) [],
   .blockCopy (.owned 1), .blockData (.owned 5) [118, 97, 108, 117, 101, 115, 0] ⟨0, false⟩,
   .arrayWrite (.view (.owned 5) 3) (fun a => { a with shape := [1, 2] })]

/-- After this: a tensor map with the first block, where a pointer to the first block is used to add another gradient (which
fails, since it has the same name), and everything is freed. -/
def restOfProgram : List (Call NdArray) :=
  [.tensormap (labels [0]) [.owned 1], .tensormapBlockById (some 6) 0, .arrayNew array,
   .blockAddGradient (.inside 6 7 0) (some [103, 0]) ⟨8, true⟩ (gradientSamples [0, 1]) [],
   .keysToProperties (some 6) (labels []) true,
   .blockFree (.owned 5), .tensormapFree (some 6)]

example : ((execute platform makeBlocks (Heap.empty, Ledger.empty)).map fun s =>
    (s.1.created, s.1.destroyed, s.2.arrays, s.2.blocks, s.2.tensors)) =
    some ([0, 2, 3, 4], [], [], [5, 1], []) := by
  decide +kernel

/-- The copy had the same content; after the change it does not, and the original is the same. -/
example : ((execute platform makeBlocks (Heap.empty, Ledger.empty)).map fun s =>
    (s.1.arrays 0, s.1.arrays 2, s.1.arrays 3, s.1.arrays 4)) =
    some (some array, some array, some { array with shape := [1, 2] }, some array) := by
  decide +kernel

example : ((execute platform (makeBlocks ++ restOfProgram) (Heap.empty, Ledger.empty)).map fun s =>
    (s.1.created, s.1.destroyed, s.2.arrays, s.2.blocks, s.2.tensors)) =
    some ([0, 2, 3, 4, 8, 9, 10], [8, 0, 2, 3, 4, 9, 10], [], [], []) := by
  decide +kernel

/-- The state after the first part of the program is one the theorems talk about, and so is the final one. -/
example : ∃ s, execute platform makeBlocks (Heap.empty, Ledger.empty) = some s ∧ Run s.1 s.2 ∧ s.2.blocks = [5, 1] ∧
    s.1.created = [0, 2, 3, 4] := by
  have h : ((execute platform makeBlocks (Heap.empty, Ledger.empty)).map fun s => (s.2.blocks, s.1.created)) =
      some ([5, 1], [0, 2, 3, 4]) := by decide +kernel
  obtain ⟨s, hs, heq⟩ := Option.map_eq_some_iff.1 h
  simp only [Prod.mk.injEq] at heq
  exact ⟨s, hs, execute_run .start hs, heq.1, heq.2⟩

example : ∃ s, execute platform (makeBlocks ++ restOfProgram) (Heap.empty, Ledger.empty) = some s ∧ Run s.1 s.2 ∧
    s.2.Clean ∧ s.1.created ≠ [] := by
  have h : ((execute platform (makeBlocks ++ restOfProgram) (Heap.empty, Ledger.empty)).map fun s =>
      (s.2.arrays, s.2.blocks, s.2.tensors, s.1.created)) = some ([], [], [], [0, 2, 3, 4, 8, 9, 10]) := by
    decide +kernel
  obtain ⟨s, hs, heq⟩ := Option.map_eq_some_iff.1 h
  simp only [Prod.mk.injEq] at heq
  exact ⟨s, hs, execute_run .start hs, ⟨heq.1, heq.2.1, heq.2.2.1⟩, by rw [heq.2.2.2]; simp⟩

/-- `C48`: twice the same block, keys which do not match (one block, two keys), and success. -/
example : (eqsTensormap (B := NdArray) .insertion (labels [0, 1])
    [.owned 1, .owned 1] Heap.empty).map (·.2) =
    some ([.owned 1, .owned 1],
      .err (.invalidParameter "got the same block more than once when constructing a tensor map")) := by
  decide +kernel

example : ((execute platform (makeBlocks ++ [.tensormap (labels [0, 1]) [.owned 1]]) (Heap.empty, Ledger.empty)).map fun s =>
    (s.1.destroyed, s.2.blocks, s.2.tensors)) = some ([0, 2], [5], []) := by
  decide +kernel

end Ownership.Example

end Equistore
