import Verif.Lemmas.CallsTensors

/-! Moving keys and components keeps the ownership invariant; all calls together. -/

namespace Equistore
namespace Heap
open Spec
variable {B : Type} [Inhabited B] [ArrayCallbacks B] {h : Heap B} {l : Ledger} {owner : Nat → Option Owner}

/-- Parts of the same lengths of equal lists are equal. -/
theorem forall₂_of_flatMap {α β γ : Type} {f : α → List γ} {g : β → List γ} {l : List α} {l' : List β}
    (hlen : List.Forall₂ (fun a b => (f a).length = (g b).length) l l') (heq : l.flatMap f = l'.flatMap g) :
    List.Forall₂ (fun a b => f a = g b) l l' := by
  induction hlen with
  | nil => exact .nil
  | cons h1 _ ih =>
    rw [List.flatMap_cons, List.flatMap_cons] at heq
    obtain ⟨h2, h3⟩ := List.append_inj heq h1
    exact .cons h2 (ih h3)

theorem skeleton_length {A A' : Type} {b : TensorBlock A} {b' : TensorBlock A'} (hs : b'.skeleton = b.skeleton) :
    b'.arrays.length = b.arrays.length := by
  have h1 := congrArg (fun x : TensorBlock Unit => x.arrays.length) hs
  simpa [TensorBlock.skeleton, TensorBlock.arrays_mapData] using h1

theorem skeleton_forall₂ {A A' : Type} {t : TensorMap A} {t' : TensorMap A'} (hs : t'.skeleton = t.skeleton) :
    List.Forall₂ (fun b b' => b'.skeleton = b.skeleton) t.blocks t'.blocks := by
  have h1 : t'.blocks.map TensorBlock.skeleton = t.blocks.map TensorBlock.skeleton := congrArg TensorMap.blocks hs
  have h2 := congrArg List.length h1
  simp only [List.length_map] at h2
  rw [List.forall₂_iff_get]
  refine ⟨h2.symm, fun i h3 h4 => ?_⟩
  have := List.getElem_of_eq h1 (i := i) (by simpa using h4)
  simpa using this

/-- The arrays of a tensor map, in place or replaced. -/
theorem setTensor_object {h₁ : Heap B} {n v : Nat} {t : TensorMap CArray} {k : Nat} :
    ({ h₁.setTensor t n v with next := k } : Heap B).object (.tensor n) = some (.tensor t v) := by
  simp [object, setTensor, setAt]

theorem setTensor_object_ne {h₁ : Heap B} {n v : Nat} {t : TensorMap CArray} {k : Nat} {o : Owner} (ho : o ≠ .tensor n) :
    ({ h₁.setTensor t n v with next := k } : Heap B).object o = h₁.object o := by
  cases o with
  | tensor m =>
    have : m ≠ n := fun heq => ho (by rw [heq])
    simp [object, setTensor, setAt, this]
  | _ => rfl

/-- Replacing the arrays of a tensor map. -/
theorem modify_update (hi : Inv h l owner) {n v v' k : Nat} {t t₁ : TensorMap CArray} (ht : h.tensors n = some (t, v))
    {h₁ : Heap B} {ls : List (Live B)} (hc : Committed h h₁ t.arrays ls t₁.arrays)
    (hkept : ∀ a ∈ kept ls, a ∈ ids t.arrays) (hw : Owned h₁ (reown owner t.arrays t₁.arrays (.tensor n)))
    (hnamed : ∀ b ∈ t₁.blocks, b.Named) (hk : h₁.next ≤ k) :
    Update h { h₁.setTensor t₁ n v' with next := k } owner (reown owner t.arrays t₁.arrays (.tensor n))
      (ids t.arrays) [] := by
  have hsome : (h.object (.tensor n)).isSome := object_tensor_isSome.2 (by rw [ht]; rfl)
  have hobj : ∀ o, o ≠ .tensor n → ({ h₁.setTensor t₁ n v' with next := k } : Heap B).object o = h.object o :=
    fun o ho => (setTensor_object_ne ho).trans (object_congr hc.blocks hc.tensors o)
  have hheld : ({ h₁.setTensor t₁ n v' with next := k } : Heap B).held (.tensor n) = t₁.arrays := by
    rw [held, blocksOf, setTensor_object]; rfl
  have hmem : ∀ a, a ∈ ids t.arrays ↔ owner a = some (.tensor n) := by
    intro a; rw [← held_tensor ht]; exact hi.heap.mem _ (by simp) a
  refine ⟨hi.heap.update (h₂ := { h₁.setTensor t₁ n v' with next := k }) hc hw hkept rfl rfl rfl hk
    (fun o h1 h2 => .inl ⟨hobj o h1, fun a ha heq => ?_⟩) (fun _ => ?_), ?_, ?_⟩
  · rw [(hmem a).1 ha, Option.some.injEq] at heq
    exact h1 heq.symm
  · refine ⟨?_, ?_, ?_, ?_, fun _ => ?_⟩
    · rw [hheld]; exact hc.destroy
    · rw [hheld]; exact hc.nodup
    · intro a
      rw [hheld, held_tensor ht]
      simp
    · intro b hb
      rw [blocksOf, setTensor_object] at hb
      exact hnamed b hb
    · have h1 := hi.heap.fresh _ hsome
      have h2 := hc.next
      show n < k
      simp only [Owner.address] at h1
      omega
  · intro a
    rw [reown_eq hi.heap.owned hc hkept]
    simp
  · intro a ha hn
    exact hc.frame a hn (hi.heap.owned.lt ha)

theorem modify_arrays (hi : Inv h l owner) {n v : Nat} {t : TensorMap CArray} (ht : h.tensors n = some (t, v)) (a : Nat) :
    a ∈ l.arrays ↔ a ∈ ([] : List Nat) ∨ (a ∈ l.arrays ∧ a ∉ ids t.arrays) := by
  simp only [List.not_mem_nil, false_or]
  refine ⟨fun h1 => ⟨h1, fun h2 => ?_⟩, fun h1 => h1.1⟩
  rw [← held_tensor ht, hi.heap.mem _ (by simp), (hi.arrays a).1 h1] at h2
  cases h2

/-- A function which changes a tensor map. -/
theorem good_modify (p : Platform) (hi : Inv h l owner) {tensor : Option Nat} (ha : l.UsableTensor tensor)
    {replaces : Bool} {action : Act (TensorMap (Live B)) Unit} {c : Call B}
    (hrun : c.run p h = (modifyTensor tensor replaces action h).map fun (h, r) => (h, .done r))
    (haction : ∀ t : TensorMap (Live B), (∀ b ∈ t.blocks, b.Named) →
      (replaces = true ∧ (action t).2 = .ok () ∧ ∀ b ∈ (action t).1.blocks, b.New) ∨
      (¬(replaces = true ∧ (action t).2 = .ok ()) ∧ TensorMap.SameHandles t (action t).1))
    (hrec : ∀ r, l.record c (.done r) = match tensor with
      | some n => if replaces = true ∧ r = .ok () then l.invalidate n else l
      | none => l)
    (hch : ∀ n, tensor = some n → c.changes (.tensor n)) : Good p h l owner c := by
  cases tensor with
  | none =>
    exact good_read p hi (reply := .done nullTensor) hrun (hrec _)
  | some n =>
    obtain ⟨t, v, ht⟩ := hi.tensor (ha n rfl)
    have hthaw : h.thawTensor t = some (t.mapData (thawed h)) := hi.heap.thawTensor ht
    have hheld : Held owner t.arrays := by rw [← held_tensor ht]; exact hi.heap.isHeld (.tensor n)
    have hnamedt : ∀ b ∈ (t.mapData (thawed h)).blocks, b.Named := by
      intro b hb
      obtain ⟨b', hb', rfl⟩ := List.mem_map.1 hb
      refine TensorBlock.Named.of_skeleton (hi.heap.named (.tensor n) b' ?_) (TensorBlock.skeleton_mapData _ _)
      simpa [blocksOf, object, ht, Object.blocks] using hb'
    have hact := haction _ hnamedt
    have hmod : modifyTensor (some n) replaces action h =
        (match h.commitTensor t.arrays (action (t.mapData (thawed h))).1 with
        | none => none
        | some (h₁, t₁) =>
          if replaces = true ∧ (action (t.mapData (thawed h))).2 = .ok () then
            some ({ h₁.setTensor t₁ n h₁.next with next := h₁.next + 1 }, (action (t.mapData (thawed h))).2)
          else
            some (h₁.setTensor t₁ n v, (action (t.mapData (thawed h))).2)) := by
      simp only [modifyTensor, ht, hthaw]
      rfl
    generalize action (t.mapData (thawed h)) = result at *
    have hmem : ∀ a, a ∈ ids t.arrays ↔ owner a = some (.tensor n) := by
      intro a; rw [← held_tensor ht]; exact hi.heap.mem _ (by simp) a
    have hframed : ∀ {h₂ : Heap B} {owner₂ : Nat → Option Owner}, Update h h₂ owner owner₂ (ids t.arrays) [] →
        (∀ o, o ≠ .tensor n → h₂.object o = h.object o) → Framed c h h₂ owner := by
      intro h₂ owner₂ hu hobj
      refine ⟨?_, ?_⟩
      · intro o x hx ho hnc
        have hne : o ≠ .tensor n := by
          rintro rfl
          cases hx
          exact hnc (hch n rfl)
        refine ⟨hobj o hne, fun a ha => hu.frame a (by rw [ha]; rfl) fun h1 => ?_⟩
        rw [hmem, ha, Option.some.injEq] at h1
        exact hne h1
      · intro a ha _
        refine hu.frame a (by rw [ha]; rfl) fun h1 => ?_
        rw [hmem, ha] at h1
        cases h1
    rcases hact with ⟨hrep, hok, hnew⟩ | ⟨hnot, hsame⟩
    · have hnone : ∀ a ∈ result.1.arrays, a.handle = none := by
        intro a ha
        obtain ⟨b, hb, ha⟩ := List.mem_flatMap.1 ha
        exact (hnew b hb).1 a ha
      have hm : ∀ a ∈ result.1.arrays, ∀ c, a.handle = some c → c ∈ t.arrays := by
        intro a ha c hc; rw [hnone a ha] at hc; cases hc
      have hk : (kept result.1.arrays).Nodup := by rw [kept_none hnone]; exact List.nodup_nil
      obtain ⟨h₁, t₁, hct, hc, hw, hsk⟩ := commitTensor_spec hi.heap.owned hheld hk hm (.tensor n)
      have hnamed : ∀ b ∈ t₁.blocks, b.Named := by
        intro b hb
        have hf := skeleton_forall₂ hsk
        obtain ⟨i, hi₁, rfl⟩ := List.getElem_of_mem hb
        have hi₂ : i < result.1.blocks.length := by rw [hf.length_eq]; exact hi₁
        exact (hnew _ (List.getElem_mem hi₂)).2.of_skeleton (hf.get hi₂ hi₁)
      have hu := modify_update hi ht (v' := h₁.next) (k := h₁.next + 1) hc (kept_subset hm) hw hnamed (Nat.le_succ _)
      have hobj : ∀ o, o ≠ .tensor n →
          ({ h₁.setTensor t₁ n h₁.next with next := h₁.next + 1 } : Heap B).object o = h.object o :=
        fun o ho => (setTensor_object_ne ho).trans (object_congr hc.blocks hc.tensors o)
      have hstay : ∀ q, (!insideOf n q) = true →
          Stays h { h₁.setTensor t₁ n h₁.next with next := h₁.next + 1 } q := by
        intro q hq
        refine Stays.of_object (hobj _ fun heq => ?_)
        rw [insideOf_target.2 heq] at hq
        cases hq
      refine ⟨_, .done result.2, ?_, ?_, hframed hu hobj⟩
      · rw [hrun, hmod, hct]
        simp only [if_pos (And.intro hrep hok)]
        rfl
      · rw [hrec]
        simp only [if_pos (And.intro hrep hok)]
        refine ⟨_, hi.of_update hu (modify_arrays hi ht) ?_ ?_ ?_ ?_⟩
        · intro m; rw [hobj (.block m) (by simp)]; exact hi.blocks m
        · intro m
          by_cases hm : m = n
          · subst hm
            rw [setTensor_object]
            exact ⟨fun _ => rfl, fun _ => ha m rfl⟩
          · rw [hobj (.tensor m) (by simpa using hm)]; exact hi.tensors m
        · intro q hq
          obtain ⟨h1, h2⟩ := List.mem_filter.1 (show q ∈ l.interior.filter fun b => !insideOf n b from hq)
          exact ⟨h1, fun _ => hstay q h2⟩
        · intro v hv
          obtain ⟨h1, h2⟩ := List.mem_filter.1 (show v ∈ l.views.filter fun v => !insideOf n v.1 from hv)
          exact ⟨h1, fun _ => hstay v.1 h2⟩
    · have hbh : List.Forall₂ (fun (b : TensorBlock CArray) (b' : TensorBlock (Live B)) =>
          b'.handles = b.arrays.map some ∧ (b.Named → b'.Named)) t.blocks result.1.blocks := by
        have h1 : List.Forall₂ (fun b b' : TensorBlock (Live B) => b'.handles = b.handles ∧ (b.Named → b'.Named))
          (t.blocks.map (TensorBlock.mapData (thawed h))) result.1.blocks := hsame
        rw [List.forall₂_map_left_iff] at h1
        refine h1.imp fun b b' h2 => ⟨?_, fun h3 => h2.2 (h3.of_skeleton (TensorBlock.skeleton_mapData _ _))⟩
        rw [h2.1, TensorBlock.handles, TensorBlock.arrays_mapData, thawed_handles]
      have hh : result.1.arrays.map (·.handle) = t.arrays.map some := by
        have h1 : List.Forall₂ (fun (b : TensorBlock CArray) (b' : TensorBlock (Live B)) =>
          b'.handles = b.arrays.map some) t.blocks result.1.blocks := hbh.imp fun _ _ h => h.1
        simp only [TensorMap.arrays, List.map_flatMap]
        generalize t.blocks = bs at h1
        generalize result.1.blocks = bs' at h1
        induction h1 with
        | nil => rfl
        | cons h2 _ ih => rw [List.flatMap_cons, List.flatMap_cons, ih, ← h2]; rfl
      have hk : (kept result.1.arrays).Nodup := by rw [kept_handles hh]; exact hheld.nodup
      obtain ⟨h₁, t₁, hct, hc, hw, hsk⟩ := commitTensor_spec hi.heap.owned hheld hk (handle_mem hh) (.tensor n)
      have harrays : t₁.arrays = t.arrays := hc.same hh
      have hf := skeleton_forall₂ hsk
      have hlen : t₁.blocks.length = t.blocks.length := by rw [← hf.length_eq, ← hbh.length_eq]
      have hblk : List.Forall₂ (fun b b' : TensorBlock CArray => b'.arrays = b.arrays) t.blocks t₁.blocks := by
        have : List.Forall₂ (fun b' b : TensorBlock CArray => b'.arrays = b.arrays) t₁.blocks t.blocks := by
          refine forall₂_of_flatMap ?_ harrays
          rw [List.forall₂_iff_get]
          refine ⟨hlen, fun i h1 h2 => ?_⟩
          have h3 : i < result.1.blocks.length := by rw [← hbh.length_eq]; exact h2
          have h4 := (hbh.get h2 h3).1
          have h5 := skeleton_length (hf.get h3 h1)
          have h6 := congrArg List.length h4
          simp only [TensorBlock.handles, List.length_map] at h6
          rw [h5]; exact h6
        exact this.flip
      have hnamed : ∀ b ∈ t₁.blocks, b.Named := by
        intro b hb
        obtain ⟨i, hi₁, rfl⟩ := List.getElem_of_mem hb
        have h2 : i < t.blocks.length := by rw [← hlen]; exact hi₁
        have h3 : i < result.1.blocks.length := by rw [← hbh.length_eq]; exact h2
        refine ((hbh.get h2 h3).2 (hi.heap.named (.tensor n) _ ?_)).of_skeleton (hf.get h3 hi₁)
        have hmem : t.blocks[i] ∈ t.blocks := List.getElem_mem h2
        simpa [blocksOf, object, ht, Object.blocks] using hmem
      have hu := modify_update hi ht (v' := v) (k := h₁.next) hc (kept_subset (handle_mem hh)) hw hnamed (Nat.le_refl _)
      have hobj : ∀ o, o ≠ .tensor n →
          ({ h₁.setTensor t₁ n v with next := h₁.next } : Heap B).object o = h.object o :=
        fun o ho => (setTensor_object_ne ho).trans (object_congr hc.blocks hc.tensors o)
      have hstay : ∀ q, (h.block q).isSome → Stays h { h₁.setTensor t₁ n v with next := h₁.next } q := by
        intro q _
        by_cases hq : target q = .tensor n
        · cases q with
          | null => cases hq
          | owned => cases hq
          | inside m w i =>
            cases hq
            intro b hb
            obtain ⟨T, h1, h2⟩ := block_inside.1 hb
            rw [ht] at h1
            cases h1
            obtain ⟨h3, h4⟩ := List.getElem?_eq_some_iff.1 h2
            have h5 : i < t₁.blocks.length := by rw [hlen]; exact h3
            refine ⟨t₁.blocks[i], block_inside.2 ⟨t₁, by simp [setTensor, setAt], List.getElem?_eq_getElem h5⟩, ?_⟩
            have h6 := hblk.get h3 h5
            simp only [List.get_eq_getElem] at h6
            rw [h6, h4]
            exact fun a ha => ha
        · exact Stays.of_object (hobj _ hq)
      refine ⟨_, .done result.2, ?_, ?_, hframed hu hobj⟩
      · rw [hrun, hmod, hct]
        simp only [if_neg hnot]
        rfl
      · rw [hrec]
        simp only [if_neg hnot]
        refine ⟨_, hi.of_update hu (modify_arrays hi ht) ?_ ?_ ?_ ?_⟩
        · intro m; rw [hobj (.block m) (by simp)]; exact hi.blocks m
        · intro m
          by_cases hm : m = n
          · subst hm
            rw [setTensor_object]
            exact ⟨fun _ => rfl, fun _ => ha m rfl⟩
          · rw [hobj (.tensor m) (by simpa using hm)]; exact hi.tensors m
        · intro q hq; exact ⟨hq, hstay q⟩
        · intro v hv; exact ⟨hv, hstay v.1⟩

theorem newOrUnchanged_action {x : Act (TensorMap (Live B)) Unit} (hx : NewOrUnchanged x) (t : TensorMap (Live B)) :
    (true = true ∧ (x t).2 = .ok () ∧ ∀ b ∈ (x t).1.blocks, b.New) ∨
      (¬(true = true ∧ (x t).2 = .ok ()) ∧ TensorMap.SameHandles t (x t).1) := by
  rcases hx t with ⟨h1, h2⟩ | ⟨h1, h2⟩
  · exact .inl ⟨rfl, h1, h2⟩
  · exact .inr ⟨fun h => h1 h.2, by rw [h2]; exact TensorMap.SameHandles.refl t⟩

theorem good_keysToProperties (p : Platform) (hi : Inv h l owner) {tensor : Option Nat} {keysToMove : CLabels}
    {sort : Bool} (ha : l.UsableTensor tensor) : Good p h l owner (.keysToProperties tensor keysToMove sort) := by
  refine good_modify p hi ha (replaces := true) rfl
    (fun t _ => newOrUnchanged_action (NewOrUnchanged.lift_bind _ fun keys => keysToProperties_new _ _ keys _) t) ?_
    (fun n hn => ⟨n, hn, rfl⟩)
  intro r
  cases tensor with
  | none => rfl
  | some n => cases r <;> simp [Ledger.record]

theorem good_keysToSamples (p : Platform) (hi : Inv h l owner) {tensor : Option Nat} {keysToMove : CLabels}
    {sort : Bool} (ha : l.UsableTensor tensor) : Good p h l owner (.keysToSamples tensor keysToMove sort) := by
  refine good_modify p hi ha (replaces := true) rfl
    (fun t _ => newOrUnchanged_action (NewOrUnchanged.lift_bind _ fun keys => keysToSamples_new _ _ keys _) t) ?_
    (fun n hn => ⟨n, hn, rfl⟩)
  intro r
  cases tensor with
  | none => rfl
  | some n => cases r <;> simp [Ledger.record]

theorem good_componentsToProperties (p : Platform) (hi : Inv h l owner) {tensor : Option Nat}
    {names : List (Option Bytes)} (ha : l.UsableTensor tensor) :
    Good p h l owner (.componentsToProperties tensor names) := by
  refine good_modify p hi ha (replaces := false) rfl (fun t ht => .inr ⟨by simp, ?_⟩) ?_ (fun n hn => ⟨n, hn, rfl⟩)
  · rw [Act.lift_bind]
    cases names.mapM variableName with
    | ok vars => exact TensorMap.componentsToProperties_handles p.hash vars t ht
    | err e => exact TensorMap.SameHandles.refl t
    | panic m => exact TensorMap.SameHandles.refl t
  · intro r
    cases tensor with
    | none => rfl
    | some n => simp [Ledger.record]

/-- All calls following the rules are defined and keep everything in order. -/
theorem good (p : Platform) (hi : Inv h l owner) {c : Call B} (ha : c.Allowed l) : Good p h l owner c := by
  cases c with
  | arrayNew content => exact good_arrayNew p hi content
  | arrayDestroy a => exact good_arrayDestroy p hi ha
  | arrayWrite access change => exact good_arrayWrite p hi ha
  | block data samples components properties => exact good_block p hi ha
  | blockFree b => exact good_blockFree p hi ha
  | blockCopy b => exact good_blockCopy p hi ha
  | blockLabels b name axis => exact good_blockLabels p hi ha
  | blockData b name old => exact good_blockData p hi ha.1 ha.2
  | blockAddGradient b name data samples components => exact good_addGradient p hi ha.1 ha.2
  | blockGradientsList b => exact good_blockGradientsList p hi ha
  | tensormap keys blocks => exact good_tensormap p hi ha
  | tensormapFree tensor => exact good_tensormapFree p hi ha
  | tensormapKeys tensor => exact good_tensormapKeys p hi ha
  | tensormapBlockById tensor index => exact good_blockById p hi ha
  | tensormapBlocksMatching tensor selection => exact good_blocksMatching p hi ha
  | keysToProperties tensor keysToMove sort => exact good_keysToProperties p hi ha
  | keysToSamples tensor keysToMove sort => exact good_keysToSamples p hi ha
  | componentsToProperties tensor names => exact good_componentsToProperties p hi ha
  | load archive => exact good_load p hi archive
  | save tensor => exact good_save p hi ha

theorem inv_empty : Inv (Heap.empty : Heap B) Ledger.empty (fun _ => none) := by
  refine ⟨⟨⟨by simp [Heap.empty], by simp [Heap.empty], by simp, by simp [Heap.empty], by simp [Heap.empty],
    by simp [Heap.empty]⟩, ?_, ?_, ?_, ?_, ?_⟩, by simp [Ledger.empty], ?_, ?_, by simp [Ledger.empty],
    by simp [Ledger.empty]⟩
  · intro o c hc; cases o <;> cases hc
  · intro o; cases o <;> exact List.nodup_nil
  · intro o _ a; cases o <;> simp [held, blocksOf, object, Heap.empty]
  · intro o b hb; cases o <;> cases hb
  · intro o hb; cases o <;> cases hb
  · intro n; simp [Ledger.empty, object, Heap.empty]
  · intro n; simp [Ledger.empty, object, Heap.empty]

theorem inv_run (hr : Run h l) : ∃ owner, Inv h l owner := by
  induction hr with
  | start => exact ⟨_, inv_empty⟩
  | step p _ ha hrun ih =>
    obtain ⟨owner, hi⟩ := ih
    obtain ⟨h₂, reply, h1, h2, _⟩ := good p hi ha
    rw [hrun] at h1
    cases h1
    exact h2

end Heap
end Equistore
