import Verif.Lemmas.PyStatements

/-! The statements of Python programs keep everything in order. -/

namespace Equistore
namespace Python
open Spec Heap
variable {B : Type} [Inhabited B] [ArrayCallbacks B] {s : PyState B} {l : PyLedger} {all : Prop}

theorem mem_blocks {h : Heap B} {lc : Ledger} (hr : Run h lc) {n : Nat} :
    n ∈ lc.blocks ↔ ∃ b, h.blocks n = some b := by
  obtain ⟨owner, hi⟩ := inv_run hr
  rw [hi.blocks n, object_block_isSome, Option.isSome_iff_exists]

theorem mem_tensors {h : Heap B} {lc : Ledger} (hr : Run h lc) {n : Nat} :
    n ∈ lc.tensors ↔ ∃ t v, h.tensors n = some (t, v) := by
  obtain ⟨owner, hi⟩ := inv_run hr
  rw [hi.tensors n, object_tensor_isSome, Option.isSome_iff_exists]
  simp

/-- A block which did not change. -/
theorem frame_block {h h' : Heap B} {lc : Ledger} (hr : Run h lc) {n : Nat} (hn : n ∈ lc.blocks)
    {blk : TensorBlock CArray} (hf : ∀ b, h.blocks n = some b → h'.blocks n = some b)
    (hb : h'.blocks n = some blk) : h.blocks n = some blk ∧ ∀ a ∈ ids blk.arrays, a < h.next := by
  obtain ⟨b, h1⟩ := (mem_blocks hr).1 hn
  have := hf b h1
  rw [hb] at this
  cases this
  exact ⟨h1, (lt_next hr h1).2⟩

/-- A tensor map which did not change. -/
theorem frame_tensor {h h' : Heap B} {lc : Ledger} (hr : Run h lc) {n : Nat} (hn : n ∈ lc.tensors)
    {x : TensorMap CArray × Nat} (hf : ∀ x, h.tensors n = some x → h'.tensors n = some x)
    (ht : h'.tensors n = some x) : h.tensors n = some x ∧ ∀ a ∈ ids x.1.arrays, a < h.next := by
  obtain ⟨t, v, h1⟩ := (mem_tensors hr).1 hn
  have := hf (t, v) h1
  rw [ht] at this
  cases this
  exact ⟨h1, (lt_next_tensor hr h1).2⟩

/-! ### Lists and the garbage collector -/

theorem good_newList (p : Platform) (hi : PyInv all s l) (blocks : List Nat) : PyGood p all s l (.newList blocks) := by
  obtain ⟨lc, hr, harr, hobj, halive⟩ := hi
  refine ⟨_, _, rfl, lc, hr, harr, hobj.setLists ?_, ?_⟩
  · intro L hL b hb
    rcases List.mem_append.1 hL with hL | hL
    · exact hobj.members L hL b hb
    · rw [List.mem_singleton] at hL
      subst hL
      exact (List.mem_filter.1 hb).2
  · refine halive.step (Nat.le_refl _) (fun _ _ => rfl) halive.empty (fun a _ => halive.bound a)
      (fun b o h1 x hx => .inr ⟨b, o, h1, hx⟩) (fun b o n blk h1 h2 h3 a h4 => .inl (halive.block b o n blk h1 h2 h3 a h4)) ?_
    intro t T n tm v h1 h2 h3 a h4
    left
    rcases halive.tensor t T n tm v h1 h2 h3 a h4 with h5 | ⟨x, hx, b, hb, h6⟩
    · exact .inl h5
    · refine .inr ⟨x, hx, b, ?_, h6⟩
      by_cases hlt : T.blocks < s.lists.length
      · rw [List.getD_eq_getElem?_getD, List.getElem?_append_left hlt, ← List.getD_eq_getElem?_getD]
        exact hb
      · rw [List.getD_eq_getElem?_getD, List.getElem?_eq_none (by omega)] at hb
        cases hb

theorem good_setList (p : Platform) (hi : PyInv all s l) {i : Nat} (hl : ∀ t o, s.tensors t = some o → o.blocks ≠ i)
    (blocks : List Nat) : PyGood p all s l (.setList i blocks) := by
  obtain ⟨lc, hr, harr, hobj, halive⟩ := hi
  refine ⟨_, _, rfl, lc, hr, harr, hobj.setLists ?_, ?_⟩
  · intro L hL b hb
    rcases List.mem_or_eq_of_mem_set hL with hL | hL
    · exact hobj.members L hL b hb
    · subst hL
      exact (List.mem_filter.1 hb).2
  · refine halive.step (Nat.le_refl _) (fun _ _ => rfl) halive.empty (fun a _ => halive.bound a)
      (fun b o h1 x hx => .inr ⟨b, o, h1, hx⟩) (fun b o n blk h1 h2 h3 a h4 => .inl (halive.block b o n blk h1 h2 h3 a h4)) ?_
    intro t T n tm v h1 h2 h3 a h4
    left
    rcases halive.tensor t T n tm v h1 h2 h3 a h4 with h5 | ⟨x, hx, b, hb, h6⟩
    · exact .inl h5
    · refine .inr ⟨x, hx, b, ?_, h6⟩
      rw [List.getD_eq_getElem?_getD, List.getElem?_set_ne (fun h => hl t T h1 h.symm), ← List.getD_eq_getElem?_getD]
      exact hb

theorem good_collect (p : Platform) (hi : PyInv all s l) (choice : Nat → Bool) :
    PyGood p all s l (.collect choice) := by
  obtain ⟨lc, hr, harr, hobj, halive⟩ := hi
  refine ⟨_, _, rfl, lc, hr, harr, hobj, halive.empty, halive.bound, halive.block, halive.tensor, ?_⟩
  intro a ha
  rcases List.mem_append.1 ha with ha | ha
  · exact halive.collected a ha
  · obtain ⟨h1, h2⟩ := List.mem_filter.1 ha
    simp only [Bool.and_eq_true, Bool.not_eq_eq_eq_not, Bool.not_true, List.isEmpty_eq_false_iff] at h2
    refine ⟨List.mem_range.1 h1, h2.1.2, ?_⟩
    intro b o hbo x hx hxo
    have h3 := h2.2
    have h4 : s.reachable a = true := by
      unfold PyState.reachable
      simp only [List.any_eq_true, List.mem_range]
      refine ⟨x, hx, b, ?_, ?_⟩
      · by_contra hlt
        rw [(hobj.fresh b (by omega)).1] at hbo
        cases hbo
      · rw [hbo]; simpa using hxo
    rw [h4] at h3
    cases h3

/-! ### Blocks -/

theorem good_pyBlock (p : Platform) (hi : PyInv all s l) (t index : Nat) : PyGood p all s l (.block t index) := by
  obtain ⟨lc, hr, harr, hobj, halive⟩ := hi
  cases hT : s.tensors t with
  | none => exact ⟨s, .raised, by simp [PyCall.run, hT], lc, hr, harr, hobj, halive⟩
  | some T =>
    obtain ⟨n, hn, hp⟩ := hobj.tensor t T hT
    have hallowed : (Call.tensormapBlockById T.ptr index : Call B).Allowed lc := by
      intro m hm; rw [hp] at hm; cases hm; exact hn
    obtain ⟨reply, h1, h2⟩ := call_read hr p hallowed (halive.tensor_free hT) (fun _ _ h => (byId_read h).1)
    have hrun : Run s.heap (lc.record (.tensormapBlockById T.ptr index : Call B) reply) := .step p hr hallowed h2
    have hraised : PyInv all s l := ⟨lc, hr, harr, hobj, halive⟩
    cases reply with
    | blockPtr r =>
      cases r with
      | ok q =>
        obtain ⟨n', h3, h4⟩ := (byId_read h2).2 q rfl
        rw [hp] at h3; cases h3
        refine ⟨(s.putBlock { ptr := q, owning := false, parent := some t, arrays := [] }).1, .block s.next,
          by simp only [PyCall.run, hT, h1, Option.bind_eq_bind, Option.bind_some]; rfl,
          _, hrun, harr, 
          hobj.putView (lc' := { lc with interior := q :: lc.interior }) hT hp h4 rfl rfl rfl [], ?_⟩
        refine halive.step (Nat.le_refl _) (fun _ _ => rfl) halive.empty (fun a _ => halive.bound a) ?_ ?_ ?_
        · intro b o hb x hx
          rcases setAt_some hb with ⟨_, h5⟩ | ⟨_, h5⟩
          · cases h5; cases hx
          · exact .inr ⟨b, o, h5, hx⟩
        · intro b o m blk hb hm hblk a ha
          rcases setAt_some hb with ⟨_, h5⟩ | ⟨_, h5⟩
          · cases h5; simp only at hm; subst hm; cases h4
          · exact .inl (halive.block b o m blk h5 hm hblk a ha)
        · intro t' T' m tm v h5 h6 h7 a h8
          left
          rcases halive.tensor t' T' m tm v h5 h6 h7 a h8 with h9 | ⟨x, hx, b, hb, o, ho, hxo⟩
          · exact .inl h9
          · refine .inr ⟨x, hx, b, hb, o, ?_, hxo⟩
            show setAt s.blocks s.next _ b = _
            rw [setAt_ne]
            · exact ho
            · rintro rfl
              rw [(hobj.fresh _ (Nat.le_refl _)).1] at ho; cases ho
      | err e =>
        exact ⟨s, .raised, by simp only [PyCall.run, hT, h1, Option.bind_eq_bind, Option.bind_some]; rfl, hraised⟩
      | panic m =>
        exact ⟨s, .raised, by simp only [PyCall.run, hT, h1, Option.bind_eq_bind, Option.bind_some]; rfl, hraised⟩
    | _ => exact ⟨s, .raised, by simp only [PyCall.run, hT, h1, Option.bind_eq_bind, Option.bind_some]; rfl, hraised⟩

theorem inList_false {b : Nat} (h : s.inList b = false) : ∀ L ∈ s.lists, b ∉ L := by
  intro L hL hb
  have : s.inList b = true := by
    simp only [PyState.inList, List.any_eq_true]
    exact ⟨L, hL, by simpa using hb⟩
  rw [h] at this; cases this

theorem good_deleteBlock (p : Platform) (hi : PyInv all s l) (b : Nat) : PyGood p all s l (.deleteBlock b) := by
  obtain ⟨lc, hr, harr, hobj, halive⟩ := hi
  cases hbo : s.blocks b with
  | none => exact ⟨s, .raised, by simp [PyCall.run, hbo], lc, hr, harr, hobj, halive⟩
  | some o =>
    cases hin : s.inList b with
    | true => exact ⟨s, .done, by simp [PyCall.run, hbo, hin], lc, hr, harr, hobj, halive⟩
    | false =>
      have hlist := inList_false hin
      -- the objects which are left
      have hal : ∀ h' : Heap B, s.heap.next ≤ h'.next →
          (∀ n blk, s.heap.blocks n = some blk → o.ptr ≠ .owned n → h'.blocks n = some blk) →
          (∀ n x, s.heap.tensors n = some x → h'.tensors n = some x) →
          Alive h' (setAt s.blocks b none) s.tensors s.lists s.keepers s.collected := by
        intro h' hnext hfb hft
        refine halive.step hnext (fun _ _ => rfl) (fun a ha => halive.empty a (by omega))
          (fun a ha x hx => Nat.lt_of_lt_of_le (halive.bound a x hx) hnext) ?_ ?_ ?_
        · intro b' o' hb' x hx
          rcases setAt_some hb' with ⟨_, h1⟩ | ⟨_, h1⟩
          · cases h1
          · exact .inr ⟨b', o', h1, hx⟩
        · intro b' o' m blk hb' hm hblk a ha
          rcases setAt_some hb' with ⟨_, h1⟩ | ⟨hne, h1⟩
          · cases h1
          · obtain ⟨h2, h3⟩ := frame_block hr (hobj.ptr h1 hm).2
              (fun x hx => hfb m x hx (fun h => hne (hobj.once b' o' b o m h1 hbo hm h))) hblk
            exact .inr ⟨h3 a ha, o', blk, h1, hm, h2, ha, fun _ h => h⟩
        · intro t T m tm v h5 h6 h7 a h8
          obtain ⟨k, hk, hk'⟩ := hobj.tensor t T h5
          rw [h6] at hk'; cases hk'
          obtain ⟨h2, h3⟩ := frame_tensor hr hk (hft m) h7
          refine .inr ⟨h3 a h8, T, tm, v, h5, h6, h2, h8, fun b' hb' o' ho' => ⟨o', hb', ?_, fun _ h => h⟩⟩
          rw [setAt_ne]
          · exact ho'
          · rintro rfl
            by_cases hlt : T.blocks < s.lists.length
            · exact hlist _ (List.getElem_mem hlt) (by rwa [List.getD_eq_getElem?_getD, List.getElem?_eq_getElem hlt] at hb')
            · rw [List.getD_eq_getElem?_getD, List.getElem?_eq_none (by omega)] at hb'; cases hb'
      cases hown : o.owning with
      | false =>
        refine ⟨{ s with blocks := setAt s.blocks b none }, .done, by simp [PyCall.run, hbo, hin, hown], lc, hr, harr,
          hobj.deleteBlock hbo hlist ?_ rfl rfl, hal s.heap (Nat.le_refl _) (fun _ _ h _ => h) (fun _ _ h => h)⟩
        intro n
        refine ⟨fun h => ⟨h, fun h1 => ?_⟩, fun h => h.1⟩
        rw [(hobj.ptr hbo h1).1] at hown; cases hown
      | true =>
        have hptr := (hobj.owning b o hbo hown).2
        have hallowed : (Call.blockFree o.ptr : Call B).Allowed lc := hptr
        obtain ⟨h', reply, h1, h2, h3, h4, h5⟩ := call_step
          (s := { s with blocks := setAt s.blocks b none }) hr p hallowed (halive.block_free hobj hbo)
        refine ⟨{ s with blocks := setAt s.blocks b none, heap := h' }, .done,
          by simp [PyCall.run, hbo, hin, hown, h1], _, h3, ?_, ?_, ?_⟩
        · rcases hptr with hp | ⟨n, _, hp⟩ <;> rw [hp] <;> exact harr
        · rcases hptr with hp | ⟨n, _, hp⟩
          · refine hobj.deleteBlock hbo hlist ?_ (by rw [hp]; rfl) (by rw [hp]; rfl)
            intro n
            rw [hp]; exact ⟨fun h => ⟨h, by simp⟩, fun h => h.1⟩
          · refine hobj.deleteBlock hbo hlist ?_ (by rw [hp]; rfl) (by rw [hp]; rfl)
            intro m
            rw [hp]
            simp only [Ledger.record, Ledger.dropBlock, List.mem_filter, ne_eq, decide_not,
              Bool.not_eq_eq_eq_not, Bool.not_true, decide_eq_false_iff_not, BlockPtr.owned.injEq]
            exact ⟨fun h => ⟨h.1, fun h' => h.2 h'.symm⟩, fun h => ⟨h.1, fun h' => h.2 h'.symm⟩⟩
        · refine hal h' (blockFree_next h2) ?_ ?_
          · intro n blk hn hne
            refine h4 n blk hn fun hch => ?_
            rcases hptr with hp | ⟨m, _, hp⟩ <;> rw [hp] at hch hne <;> cases hch
            exact hne rfl
          · intro n x hx
            refine h5 n x hx fun hch => ?_
            rcases hptr with hp | ⟨m, _, hp⟩ <;> rw [hp] at hch <;> cases hch

theorem isParent_false {t : Nat} (hobj : ∀ i, s.next ≤ i → s.blocks i = none) (h : s.isParent t = false) :
    ∀ b o, s.blocks b = some o → o.parent ≠ some t := by
  intro b o hb hp
  have : s.isParent t = true := by
    simp only [PyState.isParent, List.any_eq_true, List.mem_range]
    refine ⟨b, ?_, by rw [hb]; simpa using hp⟩
    by_contra hlt
    rw [hobj b (by omega)] at hb
    cases hb
  rw [h] at this; cases this

theorem good_deleteTensor (p : Platform) (hi : PyInv all s l) (t : Nat) : PyGood p all s l (.deleteTensor t) := by
  obtain ⟨lc, hr, harr, hobj, halive⟩ := hi
  cases hT : s.tensors t with
  | none => exact ⟨s, .raised, by simp [PyCall.run, hT], lc, hr, harr, hobj, halive⟩
  | some T =>
    cases hin : s.isParent t with
    | true => exact ⟨s, .done, by simp [PyCall.run, hT, hin], lc, hr, harr, hobj, halive⟩
    | false =>
      have hparent := isParent_false (fun i hi => (hobj.fresh i hi).1) hin
      obtain ⟨n, hn, hp⟩ := hobj.tensor t T hT
      have hallowed : (Call.tensormapFree T.ptr : Call B).Allowed lc := by
        intro m hm; rw [hp] at hm; cases hm; exact hn
      obtain ⟨h', reply, h1, h2, h3, h4, h5⟩ := call_step
        (s := { s with tensors := setAt s.tensors t none }) hr p hallowed (halive.tensor_free hT)
      refine ⟨{ s with tensors := setAt s.tensors t none, heap := h' }, .done,
        by simp [PyCall.run, hT, hin, h1], _, h3, ?_, ?_, ?_⟩
      · rw [hp]; exact harr
      · refine hobj.deleteTensor hT hp hparent (by rw [hp]; rfl) ?_ ?_
        · intro m
          rw [hp]
          simp [Ledger.record, Ledger.invalidate]
        · intro q hq hqn
          rw [hp]
          exact List.mem_filter.2 ⟨hq, by simp [hqn]⟩
      · have hnext := tensormapFree_next h2
        refine halive.step hnext (fun _ _ => rfl) (fun a ha => halive.empty a (Nat.le_trans hnext ha))
          (fun a ha x hx => Nat.lt_of_lt_of_le (halive.bound a x hx) hnext)
          (fun b o hb x hx => .inr ⟨b, o, hb, hx⟩) ?_ ?_
        · intro b o m blk hb hm hblk a ha
          obtain ⟨h6, h7⟩ := frame_block hr (hobj.ptr hb hm).2
            (fun x hx => h4 m x hx (fun ⟨_, _, h⟩ => by cases h)) hblk
          exact .inr ⟨h7 a ha, o, blk, hb, hm, h6, ha, fun _ h => h⟩
        · intro t' T' m tm v hT' hm htm a ha
          rcases setAt_some hT' with ⟨_, h6⟩ | ⟨hne, h6⟩
          · cases h6
          · obtain ⟨k, hk, hk'⟩ := hobj.tensor t' T' h6
            rw [hm] at hk'; cases hk'
            obtain ⟨h7, h8⟩ := frame_tensor hr hk (fun x hx => h5 m x hx (by
              rintro ⟨m', h9, h10⟩
              rw [hp] at h9; cases h9; cases h10
              exact hne (hobj.tensorOnce t' T' t T _ h6 hT hm hp))) htm
            exact .inr ⟨h8 a ha, T', tm, v, h6, hm, h7, ha, fun b hb o ho => ⟨o, hb, ho, fun _ h => h⟩⟩

/-! ### New arrays -/

theorem call_arrayNew (p : Platform) (s : PyState B) (content : B) :
    s.call p (.arrayNew content) =
      some ({ s with heap := (s.heap.createArray content).1 }, .array (.ok { ptr := s.heap.next, destroy := true })) := rfl

theorem run_arrayNew (p : Platform) {lc : Ledger} (hr : Run s.heap lc) (content : B) :
    Run (s.heap.createArray content).1 { lc with arrays := s.heap.next :: lc.arrays } :=
  .step p hr trivial (c := .arrayNew content) (reply := .array (.ok { ptr := s.heap.next, destroy := true })) rfl

theorem keep_lt {a b : Nat} (h : b < a) (k : Nat → List Nat) : (if b = a then [a] else k b) = k b := by
  rw [if_neg (by omega)]

theorem good_newBlock (p : Platform) (hi : PyInv all s l) (values : B) (samples : CLabels) (components : List CLabels)
    (properties : CLabels) : PyGood p all s l (.newBlock values samples components properties) := by
  obtain ⟨lc, hr, harr, hobj, halive⟩ := hi
  have hr1 := run_arrayNew p hr values
  have hallowed : (Call.block { ptr := s.heap.next, destroy := true } samples components properties : Call B).Allowed
      { lc with arrays := s.heap.next :: lc.arrays } := ⟨rfl, List.mem_cons_self⟩
  obtain ⟨h', reply, h1, h2, h3, h4, h5⟩ := call_step
    (s := ({ s with heap := (s.heap.createArray values).1 } : PyState B).keep s.heap.next []) hr1 p hallowed (by
      intro a ha hc
      have : a = s.heap.next := by simpa [touched] using ha
      exact absurd (halive.collected a hc).1 (by omega))
  have hnext : s.heap.next + 1 ≤ h'.next := (block_from h2).1
  have hempty : ({ lc with arrays := s.heap.next :: lc.arrays }.dropArray s.heap.next).arrays = [] := by
    simp [Ledger.dropArray, harr]
  have hk0 : ∀ a, h'.next ≤ a → (if a = s.heap.next then [s.heap.next] else s.keepers a) = [] := by
    intro a ha
    rw [if_neg (by omega)]
    exact halive.empty a (by omega)
  have hk1 : ∀ a, s.heap.next ≤ a → ∀ x ∈ (if a = s.heap.next then [s.heap.next] else s.keepers a), x < h'.next := by
    intro a ha x hx
    split at hx
    · rw [List.mem_singleton] at hx; omega
    · have := halive.bound a x hx; omega
  have hfail : ∀ lc', Run h' lc' → lc'.arrays = [] → lc'.blocks = lc.blocks → lc'.tensors = lc.tensors →
      lc'.interior = lc.interior →
      PyInv all { ({ s with heap := (s.heap.createArray values).1 } : PyState B).keep s.heap.next [] with heap := h' } l := by
    intro lc' hr' ha' hb' ht' hi'
    refine ⟨lc', hr', ha', hobj.ledger hb' ht' hi', ?_⟩
    refine halive.step (by show s.heap.next ≤ h'.next; omega) (fun a ha => keep_lt ha _) hk0 hk1
      (fun b o hb x hx => .inr ⟨b, o, hb, hx⟩) ?_ ?_
    · intro b o m blk hb hm hblk a ha
      obtain ⟨h6, h7⟩ := frame_block hr (hobj.ptr hb hm).2 (fun x hx => h4 m x hx (by simp [Call.changes])) hblk
      exact .inr ⟨h7 a ha, o, blk, hb, hm, h6, ha, fun _ h => h⟩
    · intro t T m tm v hT hm htm a ha
      obtain ⟨k, hk, hk'⟩ := hobj.tensor t T hT
      rw [hm] at hk'; cases hk'
      obtain ⟨h7, h8⟩ := frame_tensor hr hk (fun x hx => h5 m x hx (by simp [Call.changes])) htm
      exact .inr ⟨h8 a ha, T, tm, v, hT, hm, h7, ha, fun b hb o ho => ⟨o, hb, ho, fun _ h => h⟩⟩
  have hform : ∃ r, reply = .block r := by
    simp only [Call.run, Option.map_eq_some_iff] at h2
    obtain ⟨⟨_, r⟩, _, h⟩ := h2
    cases h; exact ⟨r, rfl⟩
  obtain ⟨r, rfl⟩ := hform
  cases r with
  | err e =>
    exact ⟨_, .raised, by
      simp only [PyCall.run, call_arrayNew, h1, Option.bind_eq_bind, Option.bind_some]; rfl, hfail _ h3 hempty rfl rfl rfl⟩
  | panic m =>
    exact ⟨_, .raised, by
      simp only [PyCall.run, call_arrayNew, h1, Option.bind_eq_bind, Option.bind_some]; rfl, hfail _ h3 hempty rfl rfl rfl⟩
  | ok n =>
    obtain ⟨hn, hids⟩ := (block_from h2).2 n rfl
    have hn : s.heap.next + 1 ≤ n := hn
    refine ⟨(PyState.putBlock { ({ s with heap := (s.heap.createArray values).1 } : PyState B).keep s.heap.next [] with
      heap := h' } { ptr := .owned n, owning := true, parent := none, arrays := [s.heap.next] }).1, .block s.next, by
      simp only [PyCall.run, call_arrayNew, h1, Option.bind_eq_bind, Option.bind_some]; rfl, _, h3, ?_, ?_, ?_⟩
    · exact hempty
    · refine hobj.putOwned (lc' := Ledger.record _ _ (.block (.ok n))) ?_ rfl rfl rfl [s.heap.next]
      intro hm
      obtain ⟨blk, hblk⟩ := (mem_blocks hr).1 hm
      have := (lt_next hr hblk).1
      omega
    · refine halive.step (by show s.heap.next ≤ h'.next; omega) (fun a ha => keep_lt ha _) hk0 hk1 ?_ ?_ ?_
      · intro b o hb x hx
        rcases setAt_some hb with ⟨_, h6⟩ | ⟨_, h6⟩
        · cases h6
          rw [List.mem_singleton] at hx
          exact .inl (by omega)
        · exact .inr ⟨b, o, h6, hx⟩
      · intro b o m blk hb hm hblk a ha
        rcases setAt_some hb with ⟨_, h6⟩ | ⟨_, h6⟩
        · cases h6
          cases hm
          left
          rcases hids blk hblk a ha with h7 | h7
          · right
            have h7 : a = s.heap.next := h7
            refine ⟨a, ?_, by rw [h7]; exact List.mem_singleton.2 rfl⟩
            show a ∈ if a = s.heap.next then [s.heap.next] else s.keepers a
            rw [if_pos h7, h7]; exact List.mem_singleton.2 rfl
          · left
            have h7 : s.heap.next + 1 ≤ a := h7
            show (if a = s.heap.next then [s.heap.next] else s.keepers a) = []
            rw [if_neg (by omega)]
            exact halive.empty a (by omega)
        · obtain ⟨h7, h8⟩ := frame_block hr (hobj.ptr h6 hm).2 (fun x hx => h4 m x hx (by simp [Call.changes])) hblk
          exact .inr ⟨h8 a ha, o, blk, h6, hm, h7, ha, fun _ h => h⟩
      · intro t T m tm v hT hm htm a ha
        obtain ⟨k, hk, hk'⟩ := hobj.tensor t T hT
        rw [hm] at hk'; cases hk'
        obtain ⟨h7, h8⟩ := frame_tensor hr hk (fun x hx => h5 m x hx (by simp [Call.changes])) htm
        refine .inr ⟨h8 a ha, T, tm, v, hT, hm, h7, ha, fun b hb o ho => ⟨o, hb, ?_, fun _ h => h⟩⟩
        show setAt s.blocks s.next _ b = _
        rw [setAt_ne]
        · exact ho
        · rintro rfl
          rw [(hobj.fresh _ (Nat.le_refl _)).1] at ho; cases ho

end Python
end Equistore
