import Verif.Lemmas.PyCalls

/-! The statements of Python programs keep everything in order: changes of blocks and tensor maps. -/

namespace Equistore
namespace Python
open Spec Heap
variable {B : Type} [Inhabited B] [ArrayCallbacks B] {s : PyState B} {l : PyLedger} {all : Prop}

/-! ### Copies -/

/-- Who keeps the arrays of a copy alive. -/
def copyKeepers (k : Nat → List Nat) (before arrays : List Nat) (x : Nat) : List Nat :=
  match (before.zip arrays).find? (fun y : Nat × Nat => y.2 = x) with
  | none => k x
  | some y => if k y.1 = [] then [] else [x]

theorem copyKeepers_cases (k : Nat → List Nat) (before arrays : List Nat) (x : Nat) :
    copyKeepers k before arrays x = k x ∨
    (x ∈ arrays ∧ (copyKeepers k before arrays x = [] ∨ copyKeepers k before arrays x = [x])) := by
  unfold copyKeepers
  cases hf : (before.zip arrays).find? (fun y : Nat × Nat => y.2 = x) with
  | none => exact .inl rfl
  | some y =>
    right
    have h1 : y.2 = x := by simpa using List.find?_some hf
    have h2 : y.2 ∈ arrays := List.of_mem_zip (List.mem_of_find?_eq_some hf) |>.2
    refine ⟨h1 ▸ h2, ?_⟩
    by_cases h3 : k y.1 = []
    · exact .inl (by simp [h3])
    · exact .inr (by simp [h3])

theorem good_copyBlock (p : Platform) (hi : PyInv all s l) {b : Nat} (hb : b ∉ l.stale) :
    PyGood p all s l (.copyBlock b) := by
  obtain ⟨lc, hr, harr, hobj, halive⟩ := hi
  cases hbo : s.blocks b with
  | none => exact ⟨s, .raised, by simp [PyCall.run, hbo], lc, hr, harr, hobj, halive⟩
  | some o =>
    have hallowed : (Call.blockCopy o.ptr : Call B).Allowed lc := hobj.usable hbo hb
    obtain ⟨h', reply, h1, h2, h3, h4, h5⟩ := call_step hr p hallowed (halive.block_free hobj hbo)
    obtain ⟨hnext, hnew⟩ := copy_from h2
    have hform : ∃ r, reply = .block r := by
      simp only [Call.run, Option.map_eq_some_iff] at h2
      obtain ⟨⟨_, r⟩, _, h⟩ := h2
      cases h; exact ⟨r, rfl⟩
    obtain ⟨r, rfl⟩ := hform
    have hfail : (∀ n, r ≠ .ok n) → PyInv all { s with heap := h', gcEnabled := false } l := by
      intro hne
      refine ⟨lc, ?_, harr, hobj, ?_⟩
      · have : lc.record (Call.blockCopy o.ptr : Call B) (.block r) = lc := by
          cases r with
          | ok n => exact absurd rfl (hne n)
          | _ => rfl
        rw [this] at h3; exact h3
      · refine halive.step hnext (fun _ _ => rfl) (fun a ha => halive.empty a (Nat.le_trans hnext ha))
          (fun a _ x hx => Nat.lt_of_lt_of_le (halive.bound a x hx) hnext)
          (fun b o hb x hx => .inr ⟨b, o, hb, hx⟩) ?_ ?_
        · intro b o m blk hb hm hblk a ha
          obtain ⟨h6, h7⟩ := frame_block hr (hobj.ptr hb hm).2 (fun x hx => h4 m x hx (by simp [Call.changes])) hblk
          exact .inr ⟨h7 a ha, o, blk, hb, hm, h6, ha, fun _ h => h⟩
        · intro t T m tm v hT hm htm a ha
          obtain ⟨k, hk, hk'⟩ := hobj.tensor t T hT
          rw [hm] at hk'; cases hk'
          obtain ⟨h7, h8⟩ := frame_tensor hr hk (fun x hx => h5 m x hx (by simp [Call.changes])) htm
          exact .inr ⟨h8 a ha, T, tm, v, hT, hm, h7, ha, fun b hb o ho => ⟨o, hb, ho, fun _ h => h⟩⟩
    cases r with
    | err e =>
      exact ⟨_, .raised, by simp only [PyCall.run, hbo, h1, Option.bind_eq_bind, Option.bind_some]; rfl, hfail (by simp)⟩
    | panic m =>
      exact ⟨_, .raised, by simp only [PyCall.run, hbo, h1, Option.bind_eq_bind, Option.bind_some]; rfl, hfail (by simp)⟩
    | ok n =>
      obtain ⟨hn, hids⟩ := hnew n rfl
      obtain ⟨blk', hblk'⟩ := (mem_blocks h3).1 (show n ∈ n :: lc.blocks from List.mem_cons_self)
      have hblk'' : h'.block (.owned n) = some blk' := hblk'
      have harrays : blockIds h' (.owned n) = ids blk'.arrays := by simp only [blockIds, hblk'']; rfl
      have hfresh : ∀ a ∈ blockIds h' (.owned n), s.heap.next ≤ a ∧ a < h'.next := by
        rw [harrays]
        exact fun a ha => ⟨hids blk' hblk' a ha, (lt_next h3 hblk').2 a ha⟩
      refine ⟨(PyState.putBlock { s with
          heap := h'
          keepers := copyKeepers s.keepers (blockIds s.heap o.ptr) (blockIds h' (.owned n))
          gcEnabled := s.gcEnabled }
          { ptr := .owned n, owning := true, parent := none, arrays := blockIds h' (.owned n) }).1, .block s.next,
          by simp only [PyCall.run, hbo, h1, Option.bind_eq_bind, Option.bind_some]; rfl, _, h3, ?_, ?_, ?_⟩
      · exact harr
      · refine hobj.putOwned (lc' := { lc with blocks := n :: lc.blocks }) ?_ rfl rfl rfl _
        intro hm
        obtain ⟨blk, hblk⟩ := (mem_blocks hr).1 hm
        have := (lt_next hr hblk).1
        omega
      · refine halive.step hnext ?_ ?_ ?_ ?_ ?_ ?_
        · intro a ha
          rcases copyKeepers_cases s.keepers (blockIds s.heap o.ptr) (blockIds h' (.owned n)) a with h6 | ⟨h6, _⟩
          · exact h6
          · have := (hfresh a h6).1; omega
        · intro a ha
          have ha : h'.next ≤ a := ha
          rcases copyKeepers_cases s.keepers (blockIds s.heap o.ptr) (blockIds h' (.owned n)) a with h6 | ⟨h6, _⟩
          · exact h6.trans (halive.empty a (by omega))
          · have := (hfresh a h6).2; omega
        · intro a ha x hx
          show x < h'.next
          have hx : x ∈ copyKeepers s.keepers (blockIds s.heap o.ptr) (blockIds h' (.owned n)) a := hx
          rcases copyKeepers_cases s.keepers (blockIds s.heap o.ptr) (blockIds h' (.owned n)) a with h6 | ⟨h6, h7 | h7⟩
          · rw [h6] at hx
            exact Nat.lt_of_lt_of_le (halive.bound a x hx) hnext
          · rw [h7] at hx; cases hx
          · rw [h7, List.mem_singleton] at hx
            rw [hx]; exact (hfresh a h6).2
        · intro b' o' hb' x hx
          rcases setAt_some hb' with ⟨_, h6⟩ | ⟨_, h6⟩
          · cases h6
            exact .inl (hfresh x hx).1
          · exact .inr ⟨b', o', h6, hx⟩
        · intro b' o' m blk hb' hm hblk a ha
          rcases setAt_some hb' with ⟨_, h6⟩ | ⟨_, h6⟩
          · cases h6
            cases hm
            left
            have hblk : h'.blocks n = some blk := hblk
            rw [hblk'] at hblk; cases hblk
            show copyKeepers s.keepers _ _ a = [] ∨ ∃ x ∈ copyKeepers s.keepers _ _ a, _
            have ha' : a ∈ blockIds h' (.owned n) := by rw [harrays]; exact ha
            rcases copyKeepers_cases s.keepers (blockIds s.heap o.ptr) (blockIds h' (.owned n)) a with h6 | ⟨_, h7 | h7⟩
            · exact .inl (h6.trans (halive.empty a (hfresh a ha').1))
            · exact .inl h7
            · exact .inr ⟨a, by rw [h7]; exact List.mem_singleton.2 rfl, ha'⟩
          · obtain ⟨h7, h8⟩ := frame_block hr (hobj.ptr h6 hm).2 (fun x hx => h4 m x hx (by simp [Call.changes])) hblk
            exact .inr ⟨h8 a ha, o', blk, h6, hm, h7, ha, fun _ h => h⟩
        · intro t T m tm v hT hm htm a ha
          obtain ⟨k, hk, hk'⟩ := hobj.tensor t T hT
          rw [hm] at hk'; cases hk'
          obtain ⟨h7, h8⟩ := frame_tensor hr hk (fun x hx => h5 m x hx (by simp [Call.changes])) htm
          refine .inr ⟨h8 a ha, T, tm, v, hT, hm, h7, ha, fun b hb o ho => ⟨o, hb, ?_, fun _ h => h⟩⟩
          show setAt s.blocks s.next _ b = _
          rw [setAt_ne]
          · exact ho
          · rintro rfl
            rw [(hobj.fresh _ (Nat.le_refl _)).1] at ho; cases ho

/-! ### Gradients -/

theorem addGradient_null {p : Platform} {h h' : Heap B} {name : Option Bytes} {data : CArray}
    {samples : CLabels} {components : List CLabels} {reply : Reply}
    (hr : (Call.blockAddGradient .null name data samples components : Call B).run p h = some (h', reply)) :
    h.next ≤ h'.next := by
  simp only [Call.run, Option.map_eq_some_iff, eqsBlockAddGradient] at hr
  obtain ⟨⟨h₁, r⟩, hr, heq⟩ := hr
  cases heq
  rw [if_pos trivial] at hr
  obtain ⟨h₂, hd, heq⟩ := Option.map_eq_some_iff.1 hr
  cases heq
  exact (dropArrays_same hd).next

theorem good_pyAddGradient (p : Platform) (hi : PyInv all s l) {b : Nat} (hb : b ∉ l.stale)
    (hv : ∀ t, (b, t) ∉ l.views) (parameter : Bytes) (content : B) (samples : CLabels) (components : List CLabels) :
    PyGood p all s l (.addGradient b parameter content samples components) := by
  obtain ⟨lc, hr, harr, hobj, halive⟩ := hi
  cases hbo : s.blocks b with
  | none => exact ⟨s, .raised, by simp [PyCall.run, hbo], lc, hr, harr, hobj, halive⟩
  | some o =>
    have hown : o.owning = true := by
      cases h : o.owning with
      | true => rfl
      | false =>
        obtain ⟨t, _, _, _, _, _, _, h1, _⟩ := hobj.viewing b o hbo h
        exact absurd h1 (hv t)
    have hptr := (hobj.owning b o hbo hown).2
    have hr1 := run_arrayNew p hr content
    have hallowed : (Call.blockAddGradient o.ptr (some parameter) { ptr := s.heap.next, destroy := true } samples
        components : Call B).Allowed { lc with arrays := s.heap.next :: lc.arrays } :=
      ⟨hobj.usable hbo hb, rfl, List.mem_cons_self⟩
    obtain ⟨h', reply, h1, h2, h3, h4, h5⟩ := call_step
      (s := { ({ s with heap := (s.heap.createArray content).1 } : PyState B).keep s.heap.next [] with
        blocks := setAt s.blocks b (some { o with arrays := o.arrays ++ [s.heap.next] }) }) hr1 p hallowed (by
        intro a ha hc
        rcases List.mem_cons.1 ha with ha | ha
        · have := (halive.collected a hc).1
          simp only at ha
          omega
        · refine halive.block_free hobj hbo a ?_ hc
          have : blockIds (s.heap.createArray content).1 o.ptr = blockIds s.heap o.ptr := by
            rcases hptr with hp | ⟨n, _, hp⟩ <;> rw [hp] <;> rfl
          rw [← this]; exact ha)
    have hnext : s.heap.next + 1 ≤ h'.next := by
      rcases hptr with hp | ⟨n, _, hp⟩ <;> rw [hp] at h2
      · exact addGradient_null h2
      · exact (addGradient_from h2).1
    have hinv : PyInv all { ({ s with heap := (s.heap.createArray content).1 } : PyState B).keep s.heap.next [] with
        blocks := setAt s.blocks b (some { o with arrays := o.arrays ++ [s.heap.next] }), heap := h' } l := by
      refine ⟨_, h3, by simp [Ledger.record, Ledger.dropArray, harr], ?_, ?_⟩
      · exact (hobj.setArrays hbo _).ledger rfl rfl rfl
      · refine halive.step (by show s.heap.next ≤ h'.next; omega) (fun a ha => keep_lt ha _) ?_ ?_ ?_ ?_ ?_
        · intro a ha
          have ha : h'.next ≤ a := ha
          show (if a = s.heap.next then [s.heap.next] else s.keepers a) = []
          rw [if_neg (by omega)]
          exact halive.empty a (by omega)
        · intro a ha x hx
          have hx : x ∈ (if a = s.heap.next then [s.heap.next] else s.keepers a) := hx
          show x < h'.next
          split at hx
          · rw [List.mem_singleton] at hx; omega
          · have := halive.bound a x hx; omega
        · intro b' o' hb' x hx
          rcases setAt_some hb' with ⟨_, h6⟩ | ⟨_, h6⟩
          · cases h6
            rcases List.mem_append.1 hx with hx | hx
            · exact .inr ⟨b, o, hbo, hx⟩
            · rw [List.mem_singleton] at hx
              exact .inl (by omega)
          · exact .inr ⟨b', o', h6, hx⟩
        · intro b' o' m blk hb' hm hblk a ha
          rcases setAt_some hb' with ⟨heq, h6⟩ | ⟨hne, h6⟩
          · cases h6
            subst heq
            have hm : o.ptr = .owned m := hm
            rw [hm] at h2
            obtain ⟨blk₀, h7, h8⟩ := (addGradient_from h2).2 blk hblk
            have h7 : s.heap.blocks m = some blk₀ := h7
            rcases h8 a ha with h9 | h9 | h9
            · left; right
              have h9 : a = s.heap.next := h9
              refine ⟨a, ?_, List.mem_append_right _ (by rw [h9]; exact List.mem_singleton.2 rfl)⟩
              show a ∈ if a = s.heap.next then [s.heap.next] else s.keepers a
              rw [if_pos h9, h9]; exact List.mem_singleton.2 rfl
            · exact .inr ⟨(lt_next hr h7).2 a h9, o, blk₀, hbo, hm, h7, h9, fun x hx => List.mem_append_left _ hx⟩
            · left; left
              have h9 : s.heap.next + 1 ≤ a := h9
              show (if a = s.heap.next then [s.heap.next] else s.keepers a) = []
              rw [if_neg (by omega)]
              exact halive.empty a (by omega)
          · obtain ⟨h7, h8⟩ := frame_block hr (hobj.ptr h6 hm).2 (fun x hx => h4 m x hx (by
              rintro (h9 | h9)
              · rcases hptr with hp | ⟨n, _, hp⟩ <;> rw [hp] at h9 <;> cases h9
                exact hne (hobj.once b' o' b o _ h6 hbo hm hp)
              · cases h9)) hblk
            exact .inr ⟨h8 a ha, o', blk, h6, hm, h7, ha, fun _ h => h⟩
        · intro t T m tm v hT hm htm a ha
          obtain ⟨k, hk, hk'⟩ := hobj.tensor t T hT
          rw [hm] at hk'; cases hk'
          obtain ⟨h7, h8⟩ := frame_tensor hr hk (fun x hx => h5 m x hx (by
              rintro (h9 | h9)
              · rcases hptr with hp | ⟨n, _, hp⟩ <;> rw [hp] at h9 <;> cases h9
              · cases h9)) htm
          refine .inr ⟨h8 a ha, T, tm, v, hT, hm, h7, ha, fun b' hb' o' ho' => ?_⟩
          by_cases hbb : b' = b
          · subst hbb
            rw [hbo] at ho'; cases ho'
            exact ⟨_, hb', setAt_self _ _ _, fun x hx => List.mem_append_left _ hx⟩
          · exact ⟨o', hb', by show setAt s.blocks b _ b' = _; rw [setAt_ne _ _ hbb]; exact ho', fun _ h => h⟩
    have hform : ∃ r, reply = .done r := by
      simp only [Call.run, Option.map_eq_some_iff] at h2
      obtain ⟨⟨_, r⟩, _, h⟩ := h2
      cases h; exact ⟨r, rfl⟩
    obtain ⟨r, rfl⟩ := hform
    cases r with
    | ok u =>
      exact ⟨_, .done, by
        simp only [PyCall.run, hbo, call_arrayNew, Option.bind_eq_bind, Option.bind_some]; erw [h1]; rfl, hinv⟩
    | err e =>
      exact ⟨_, .raised, by
        simp only [PyCall.run, hbo, call_arrayNew, Option.bind_eq_bind, Option.bind_some]; erw [h1]; rfl, hinv⟩
    | panic e =>
      exact ⟨_, .raised, by
        simp only [PyCall.run, hbo, call_arrayNew, Option.bind_eq_bind, Option.bind_some]; erw [h1]; rfl, hinv⟩

/-! ### Files -/

theorem good_pyLoad (p : Platform) (hi : PyInv all s l) (archive : Archive) : PyGood p all s l (.load archive) := by
  obtain ⟨lc, hr, harr, hobj, halive⟩ := hi
  obtain ⟨h', reply, h1, h2, h3, h4, h5⟩ := call_step hr p (c := .load archive) trivial (by simp [touched])
  obtain ⟨hnext, hnew⟩ := load_from h2
  have hform : ∃ r, reply = .tensor r := by
    simp only [Call.run, Option.map_eq_some_iff] at h2
    obtain ⟨⟨_, r⟩, _, h⟩ := h2
    cases h; exact ⟨r, rfl⟩
  obtain ⟨r, rfl⟩ := hform
  have hfail : (∀ n, r ≠ .ok n) → PyInv all { s with heap := h' } l := by
    intro hne
    refine ⟨lc, ?_, harr, hobj, ?_⟩
    · have : lc.record (Call.load archive : Call B) (.tensor r) = lc := by
        cases r with
        | ok n => exact absurd rfl (hne n)
        | _ => rfl
      rw [this] at h3; exact h3
    · refine halive.step hnext (fun _ _ => rfl) (fun a ha => halive.empty a (Nat.le_trans hnext ha))
        (fun a _ x hx => Nat.lt_of_lt_of_le (halive.bound a x hx) hnext)
        (fun b o hb x hx => .inr ⟨b, o, hb, hx⟩) ?_ ?_
      · intro b o m blk hb hm hblk a ha
        obtain ⟨h6, h7⟩ := frame_block hr (hobj.ptr hb hm).2 (fun x hx => h4 m x hx (by simp [Call.changes])) hblk
        exact .inr ⟨h7 a ha, o, blk, hb, hm, h6, ha, fun _ h => h⟩
      · intro t T m tm v hT hm htm a ha
        obtain ⟨k, hk, hk'⟩ := hobj.tensor t T hT
        rw [hm] at hk'; cases hk'
        obtain ⟨h7, h8⟩ := frame_tensor hr hk (fun x hx => h5 m x hx (by simp [Call.changes])) htm
        exact .inr ⟨h8 a ha, T, tm, v, hT, hm, h7, ha, fun b hb o ho => ⟨o, hb, ho, fun _ h => h⟩⟩
  cases r with
  | err e =>
    exact ⟨_, .raised, by simp only [PyCall.run, h1, Option.bind_eq_bind, Option.bind_some]; rfl, hfail (by simp)⟩
  | panic m =>
    exact ⟨_, .raised, by simp only [PyCall.run, h1, Option.bind_eq_bind, Option.bind_some]; rfl, hfail (by simp)⟩
  | ok n =>
    obtain ⟨hn, hids⟩ := hnew n rfl
    refine ⟨(PyState.putTensor { s with heap := h', lists := s.lists ++ [[]] }
      { ptr := some n, blocks := s.lists.length }).1, .tensor s.next,
      by simp only [PyCall.run, h1, Option.bind_eq_bind, Option.bind_some]; rfl, _, h3, harr, ?_, ?_⟩
    · refine Objects.putTensor (lc := lc) (lc' := { lc with tensors := n :: lc.tensors }) (hobj.setLists ?_) ?_ rfl rfl rfl _
      · intro L hL b hb
        rcases List.mem_append.1 hL with hL | hL
        · exact hobj.members L hL b hb
        · rw [List.mem_singleton] at hL
          subst hL; cases hb
      · intro hm
        obtain ⟨t, v, ht⟩ := (mem_tensors hr).1 hm
        have := (lt_next_tensor hr ht).1
        omega
    · refine halive.step hnext (fun _ _ => rfl) (fun a ha => halive.empty a (Nat.le_trans hnext ha))
        (fun a _ x hx => Nat.lt_of_lt_of_le (halive.bound a x hx) hnext)
        (fun b o hb x hx => .inr ⟨b, o, hb, hx⟩) ?_ ?_
      · intro b o m blk hb hm hblk a ha
        obtain ⟨h6, h7⟩ := frame_block hr (hobj.ptr hb hm).2 (fun x hx => h4 m x hx (by simp [Call.changes])) hblk
        exact .inr ⟨h7 a ha, o, blk, hb, hm, h6, ha, fun _ h => h⟩
      · intro t T m tm v hT hm htm a ha
        rcases setAt_some hT with ⟨_, h6⟩ | ⟨_, h6⟩
        · cases h6
          cases hm
          exact .inl (.inl (halive.empty a (hids tm v htm a ha)))
        · obtain ⟨k, hk, hk'⟩ := hobj.tensor t T h6
          rw [hm] at hk'; cases hk'
          obtain ⟨h7, h8⟩ := frame_tensor hr hk (fun x hx => h5 m x hx (by simp [Call.changes])) htm
          refine .inr ⟨h8 a ha, T, tm, v, h6, hm, h7, ha, fun b hb o ho => ⟨o, ?_, ho, fun _ h => h⟩⟩
          show b ∈ (s.lists ++ [[]]).getD T.blocks []
          by_cases hlt : T.blocks < s.lists.length
          · rw [List.getD_eq_getElem?_getD, List.getElem?_append_left hlt, ← List.getD_eq_getElem?_getD]
            exact hb
          · rw [List.getD_eq_getElem?_getD, List.getElem?_eq_none (by omega)] at hb
            cases hb

/-! ### Changing tensor maps -/

theorem good_pyModify (p : Platform) (hi : PyInv all s l) {t : Nat} (parents : Nat → Nat) {c : Option Nat → Call B}
    {l' : PyReply → PyLedger}
    (hallowed : ∀ lc q, Ledger.UsableTensor lc q → (c q).Allowed lc)
    (htouched : ∀ q, touched s.heap (c q) = tensorIds s.heap q)
    (hfrom : ∀ n h' reply, (∀ t v, s.heap.tensors n = some (t, v) → ∀ b ∈ t.blocks, b.Named) →
      (c (some n)).run p s.heap = some (h', reply) → s.heap.next ≤ h'.next ∧
      ∀ t' v', h'.tensors n = some (t', v') → ∃ t v, s.heap.tensors n = some (t, v) ∧
        ∀ a ∈ ids t'.arrays, a ∈ ids t.arrays ∨ s.heap.next ≤ a)
    (hform : ∀ n h' reply, (c (some n)).run p s.heap = some (h', reply) → ∃ r, reply = .done r)
    (hchanges : ∀ n x, (c (some n)).changes x → x = .tensor n)
    (hraised : l' .raised = l)
    (hledger : ∀ lc n T r, Objects all s.next s.blocks s.tensors s.lists l lc → s.tensors t = some T → T.ptr = some n →
      lc.arrays = [] → (lc.record (c (some n)) (.done r)).arrays = [] ∧
      Objects all s.next s.blocks s.tensors s.lists (l' (if r = .ok () then .done else .raised))
        (lc.record (c (some n)) (.done r))) :
    ∃ s' reply, s.modify p parents t c = some (s', reply) ∧ PyInv all s' (l' reply) := by
  obtain ⟨lc, hr, harr, hobj, halive⟩ := hi
  cases hT : s.tensors t with
  | none => exact ⟨s, .raised, by simp [PyState.modify, hT], lc, hr, harr, by rw [hraised]; exact hobj, halive⟩
  | some T =>
    obtain ⟨n, hn, hp⟩ := hobj.tensor t T hT
    obtain ⟨h', reply, h1, h2, h3, h4, h5⟩ := call_step hr p
      (hallowed lc (some n) (by intro m hm; cases hm; exact hn))
      (by rw [htouched, ← hp]; exact halive.tensor_free hT)
    obtain ⟨hnext, hids⟩ := hfrom n h' reply (by
      obtain ⟨owner, hinv⟩ := inv_run hr
      intro tm v htm b hb
      refine hinv.heap.named (.tensor n) b ?_
      simp only [blocksOf, object, htm]
      exact hb) h2
    obtain ⟨r, rfl⟩ := hform n h' reply h2
    obtain ⟨harr', hobj'⟩ := hledger lc n T r hobj hT hp harr
    have hafter : ∀ a ∈ tensorIds h' (some n), a < h'.next ∧ (a ∈ tensorIds s.heap (some n) ∨ s.heap.next ≤ a) := by
      intro a ha
      cases htm' : h'.tensors n with
      | none => simp only [tensorIds, htm'] at ha; cases ha
      | some x =>
        obtain ⟨tm', v'⟩ := x
        simp only [tensorIds, htm'] at ha
        obtain ⟨tm, v, h6, h7⟩ := hids tm' v' htm'
        refine ⟨(lt_next_tensor h3 htm').2 a ha, ?_⟩
        simp only [tensorIds, h6]
        exact h7 a ha
    have hbefore : ∀ a ∈ tensorIds s.heap (some n), s.keepers a = [] ∨
        ∃ x ∈ s.keepers a, ∃ b ∈ s.lists.getD T.blocks [], ∃ o, s.blocks b = some o ∧ x ∈ o.arrays := by
      intro a ha
      cases htm : s.heap.tensors n with
      | none => simp only [tensorIds, htm] at ha; cases ha
      | some x =>
        obtain ⟨tm, v⟩ := x
        simp only [tensorIds, htm] at ha
        exact halive.tensor t T n tm v hT hp htm a ha
    have hkeep : ∀ a, (({ s with heap := h' } : PyState B).adopt parents (tensorIds s.heap (some n))
          (tensorIds h' (some n))).keepers a = s.keepers a ∨
        (a ∈ tensorIds h' (some n) ∧ s.heap.next ≤ a ∧
          ((({ s with heap := h' } : PyState B).adopt parents (tensorIds s.heap (some n))
            (tensorIds h' (some n))).keepers a = [] ∨
          ∃ q ∈ tensorIds s.heap (some n), s.keepers q ≠ [] ∧
            (({ s with heap := h' } : PyState B).adopt parents (tensorIds s.heap (some n))
              (tensorIds h' (some n))).keepers a = a :: s.keepers q)) := by
      intro a
      unfold PyState.adopt
      simp only
      by_cases hc : a ∈ tensorIds h' (some n) ∧ a ∉ tensorIds s.heap (some n)
      · right
        rw [if_pos hc]
        refine ⟨hc.1, ((hafter a hc.1).2).resolve_left hc.2, ?_⟩
        have hq : ∀ q, (if parents a ∈ tensorIds s.heap (some n) then some (parents a)
            else (tensorIds s.heap (some n)).head?) = some q → q ∈ tensorIds s.heap (some n) := by
          intro q hq
          split at hq
          · cases hq; assumption
          · exact List.mem_of_head? hq
        generalize (if parents a ∈ tensorIds s.heap (some n) then some (parents a)
            else (tensorIds s.heap (some n)).head?) = x at hq
        cases x with
        | none => exact .inl rfl
        | some q =>
          by_cases h6 : s.keepers q = []
          · exact .inl (by simp [h6])
          · exact .inr ⟨q, hq q rfl, h6, by simp [h6]⟩
      · left; rw [if_neg hc]
    have hinv : PyInv all (({ s with heap := h' } : PyState B).adopt parents (tensorIds s.heap (some n))
        (tensorIds h' (some n))) (l' (if r = .ok () then .done else .raised)) := by
      refine ⟨_, h3, harr', hobj', ?_⟩
      refine halive.step hnext ?_ ?_ ?_ (fun b o hb x hx => .inr ⟨b, o, hb, hx⟩) ?_ ?_
      · intro a ha
        rcases hkeep a with h6 | ⟨_, h6, _⟩
        · exact h6
        · omega
      · intro a ha
        have ha : h'.next ≤ a := ha
        rcases hkeep a with h6 | ⟨h6, _⟩
        · rw [h6]; exact halive.empty a (by omega)
        · have := (hafter a h6).1; omega
      · intro a ha x hx
        show x < h'.next
        rcases hkeep a with h6 | ⟨h6, _, h7 | ⟨q, _, _, h7⟩⟩
        · rw [h6] at hx; exact Nat.lt_of_lt_of_le (halive.bound a x hx) hnext
        · rw [h7] at hx; cases hx
        · rw [h7] at hx
          rcases List.mem_cons.1 hx with rfl | hx
          · exact (hafter x h6).1
          · exact Nat.lt_of_lt_of_le (halive.bound q x hx) hnext
      · intro b o m blk hb hm hblk a ha
        obtain ⟨h6, h7⟩ := frame_block hr (hobj.ptr hb hm).2
          (fun x hx => h4 m x hx (fun h => by cases hchanges n _ h)) hblk
        exact .inr ⟨h7 a ha, o, blk, hb, hm, h6, ha, fun _ h => h⟩
      · intro t' T' m tm v hT' hm htm a ha
        replace hT' : s.tensors t' = some T' := hT'
        by_cases hmn : m = n
        · subst hmn
          have := hobj.tensorOnce t' T' t T m hT' hT hm hp
          subst this
          rw [hT] at hT'; cases hT'
          have hmem : a ∈ tensorIds h' (some m) := by
            have htm : h'.tensors m = some (tm, v) := htm
            simp only [tensorIds, htm]; exact ha
          rcases hkeep a with h6 | ⟨_, _, h7 | ⟨q, hq, hne, h7⟩⟩
          · rw [h6]
            rcases (hafter a hmem).2 with h8 | h8
            · exact .inl (hbefore a h8)
            · exact .inl (.inl (halive.empty a h8))
          · exact .inl (.inl h7)
          · left; right
            rcases hbefore q hq with h8 | ⟨x, hx, h8⟩
            · exact absurd h8 hne
            · exact ⟨x, by rw [h7]; exact List.mem_cons_of_mem _ hx, h8⟩
        · obtain ⟨k, hk, hk'⟩ := hobj.tensor t' T' hT'
          rw [hm] at hk'; cases hk'
          obtain ⟨h7, h8⟩ := frame_tensor hr hk (fun x hx => h5 m x hx (fun h => by
            cases hchanges n _ h; exact hmn rfl)) htm
          exact .inr ⟨h8 a ha, T', tm, v, hT', hm, h7, ha, fun b hb o ho => ⟨o, hb, ho, fun _ h => h⟩⟩
    cases r with
    | ok u =>
      refine ⟨_, .done, by simp only [PyState.modify, hT, hp, h1, Option.bind_eq_bind, Option.bind_some]; rfl, ?_⟩
      simpa using hinv
    | err e =>
      refine ⟨_, .raised, by simp only [PyState.modify, hT, hp, h1, Option.bind_eq_bind, Option.bind_some]; rfl, ?_⟩
      simpa using hinv
    | panic m =>
      refine ⟨_, .raised, by simp only [PyState.modify, hT, hp, h1, Option.bind_eq_bind, Option.bind_some]; rfl, ?_⟩
      simpa using hinv

theorem reply_done {h : Heap B} {x : Option (Heap B × Res Unit)} {h' : Heap B} {reply : Reply}
    (hr : x.map (fun y => (y.1, Reply.done y.2)) = some (h', reply)) : ∃ r, reply = .done r := by
  obtain ⟨⟨_, r⟩, _, h⟩ := Option.map_eq_some_iff.1 hr
  cases h; exact ⟨r, rfl⟩

theorem modify_done {n : Nat} {p : Platform} {h : Heap B} {action : Act (TensorMap (Live B)) Unit} {replaces : Bool}
    {h' : Heap B} {reply : Reply}
    (hr : (modifyTensor (some n) replaces action h).map (fun y => (y.1, Reply.done y.2)) = some (h', reply)) :
    ∃ r, modifyTensor (some n) replaces action h = some (h', r) := by
  obtain ⟨⟨_, r⟩, h1, h2⟩ := Option.map_eq_some_iff.1 hr
  cases h2; exact ⟨r, h1⟩

theorem good_pyKeysToProperties (p : Platform) (hi : PyInv all s l) (t : Nat) (keysToMove : CLabels) (sort : Bool)
    (parents : Nat → Nat) : PyGood p all s l (.keysToProperties t keysToMove sort parents) := by
  refine good_pyModify p hi parents (c := (.keysToProperties · keysToMove sort))
    (l' := fun reply => l.record s (.keysToProperties t keysToMove sort parents) reply)
    (fun _ _ h => h) (fun _ => rfl) ?_ (fun _ _ _ h => reply_done (h := s.heap) h) ?_ rfl ?_
  · intro n h' reply hnamed hrun
    obtain ⟨r, hr⟩ := modify_done (p := p) hrun
    exact modify_from hnamed (fun t _ => newOrUnchanged_action
      (NewOrUnchanged.lift_bind _ fun keys => keysToProperties_new _ _ keys _) t) hr
  · rintro n x ⟨m, h1, h2⟩
    cases h1; exact h2
  · intro lc n T r hobj hT hp harr
    cases r with
    | ok u =>
      refine ⟨harr, ?_⟩
      simp only [if_true]
      exact hobj.stale hT hp rfl rfl fun q hq hin => List.mem_filter.2 ⟨hq, by simp [hin]⟩
    | err e => exact ⟨harr, hobj⟩
    | panic m => exact ⟨harr, hobj⟩

theorem good_pyKeysToSamples (p : Platform) (hi : PyInv all s l) (t : Nat) (keysToMove : CLabels) (sort : Bool)
    (parents : Nat → Nat) : PyGood p all s l (.keysToSamples t keysToMove sort parents) := by
  refine good_pyModify p hi parents (c := (.keysToSamples · keysToMove sort))
    (l' := fun reply => l.record s (.keysToSamples t keysToMove sort parents) reply)
    (fun _ _ h => h) (fun _ => rfl) ?_ (fun _ _ _ h => reply_done (h := s.heap) h) ?_ rfl ?_
  · intro n h' reply hnamed hrun
    obtain ⟨r, hr⟩ := modify_done (p := p) hrun
    exact modify_from hnamed (fun t _ => newOrUnchanged_action
      (NewOrUnchanged.lift_bind _ fun keys => keysToSamples_new _ _ keys _) t) hr
  · rintro n x ⟨m, h1, h2⟩
    cases h1; exact h2
  · intro lc n T r hobj hT hp harr
    cases r with
    | ok u =>
      refine ⟨harr, ?_⟩
      simp only [if_true]
      exact hobj.stale hT hp rfl rfl fun q hq hin => List.mem_filter.2 ⟨hq, by simp [hin]⟩
    | err e => exact ⟨harr, hobj⟩
    | panic m => exact ⟨harr, hobj⟩

theorem good_pyComponentsToProperties (p : Platform) (hi : PyInv all s l) (t : Nat) (names : List (Option Bytes))
    (parents : Nat → Nat) : PyGood p all s l (.componentsToProperties t names parents) := by
  refine good_pyModify p hi parents (c := (.componentsToProperties · names))
    (l' := fun reply => l.record s (.componentsToProperties t names parents) reply)
    (fun _ _ h => h) (fun _ => rfl) ?_ (fun _ _ _ h => reply_done (h := s.heap) h) ?_ rfl ?_
  · intro n h' reply hnamed hrun
    obtain ⟨r, hr⟩ := modify_done (p := p) hrun
    refine modify_from hnamed (fun t ht => .inr ⟨by simp, ?_⟩) hr
    rw [Act.lift_bind]
    cases names.mapM variableName with
    | ok vars => exact TensorMap.componentsToProperties_handles p.hash vars t ht
    | err e => exact TensorMap.SameHandles.refl t
    | panic m => exact TensorMap.SameHandles.refl t
  · rintro n x ⟨m, h1, h2⟩
    cases h1; exact h2
  · intro lc n T r hobj hT hp harr
    cases r <;> exact ⟨harr, hobj⟩

end Python
end Equistore
