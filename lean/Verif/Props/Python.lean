import Verif.Props.Ownership
import Verif.Lemmas.PyGrows

/-! Python programs using blocks and tensor maps: C55 to C58. -/

namespace Equistore
open Spec

variable {B : Type} [Inhabited B] [ArrayCallbacks B]

/-! ### C55: safe Python programs -/

/-- **C55**, in full: no Python program has undefined behaviour, whatever it does with its objects. -/
def C55_full_statement : Prop :=
  ∀ (B : Type) [Inhabited B] [ArrayCallbacks B] (s : PyState B) (l : PyLedger), PyRun (fun _ => False) s l →
    ∀ (p : Platform) (c : PyCall B), ∃ s' reply, c.run p s = some (s', reply)

/-- **C55**, partial: a Python program has no undefined behaviour if it follows the rules `moved`, `stale`,
`gradients` and `lists`. Missing: these rules should not be needed, but they are (`C55_rules_needed`). -/
theorem C55_safe_partial {rules : PyRule → Prop} (h1 : rules .moved) (h2 : rules .stale) (h3 : rules .gradients)
    (h4 : rules .lists) (s : PyState B) (l : PyLedger) (hr : PyRun rules s l) (c : PyCall B)
    (hc : PyCall.Careful rules s l c) (p : Platform) : ∃ s' reply, c.run p s = some (s', reply) := by
  obtain ⟨s', reply, h, _⟩ := Python.py_good p h1 h2 h3 h4 (Python.py_inv h1 h2 h3 h4 hr) hc
  exact ⟨s', reply, h⟩

/-- **C55.** In a program which follows the rules, no `ArrayWrapper` is collected as long as a block or tensor map
which some Python object will free uses it. -/
theorem C55_arrays_alive_partial {rules : PyRule → Prop} (h1 : rules .moved) (h2 : rules .stale) (h3 : rules .gradients)
    (h4 : rules .lists) (s : PyState B) (l : PyLedger) (hr : PyRun rules s l) (a : Nat) (ha : PyState.Holds s a) :
    a ∉ s.collected ∧ a ∉ s.heap.destroyed ∧ (s.heap.arrays a).isSome := by
  obtain ⟨lc, hrun, harr, hobj, halive⟩ := Python.py_inv h1 h2 h3 h4 hr
  have huse : InUse s.heap a := by
    rcases ha with ⟨b, o, n, blk, _, _, _, h5, h6⟩ | ⟨t, o, n, tm, v, _, _, h5, h6⟩
    · exact .inl ⟨n, blk, h5, h6⟩
    · exact .inr ⟨n, tm, v, h5, h6⟩
  refine ⟨fun hcol => ?_, C47_not_in_use s.heap lc hrun a (.inl huse)⟩
  obtain ⟨_, h5, h6⟩ := halive.collected a hcol
  rcases ha with ⟨b, o, n, blk, h7, _, h8, h9, h10⟩ | ⟨t, o, n, tm, v, h7, h8, h9, h10⟩
  · rcases halive.block b o n blk h7 h8 h9 a h10 with h11 | ⟨x, hx, h11⟩
    · exact h5 h11
    · exact h6 b o h7 x hx h11
  · rcases halive.tensor t o n tm v h7 h8 h9 a h10 with h11 | ⟨x, hx, b, _, o', h11, h12⟩
    · exact h5 h11
    · exact h6 b o' h11 x hx h12

/-! ### C56: no leaks -/

/-- **C56**, in full: in a program without undefined behaviour every array is destroyed or belongs to an
object, and if all objects have been deleted all arrays have been destroyed, exactly once. -/
def C56_full_statement : Prop :=
  ∀ (B : Type) [Inhabited B] [ArrayCallbacks B] (s : PyState B) (l : PyLedger), PyRun (· ≠ .accepted) s l →
    (∀ a ∈ s.heap.created, a ∈ s.heap.destroyed ∨ PyState.Holds s a) ∧
    (PyState.Deleted s → s.heap.destroyed.Perm s.heap.created)

/-- **C56**, partial: this is true if `TensorMap()` gets valid keys, and a list without repetition of blocks which
do not come from a tensor map. Missing: with other arguments `TensorMap()` loses the blocks
(`C56_counterexample`). -/
theorem C56_not_lost_partial (s : PyState B) (l : PyLedger) (hr : PyRun (fun _ => True) s l) (a : Nat)
    (ha : a ∈ s.heap.created) : a ∈ s.heap.destroyed ∨ PyState.Holds s a := by
  obtain ⟨lc, hrun, harr, hobj, _⟩ := Python.py_inv trivial trivial trivial trivial hr
  rcases C47_not_lost s.heap lc hrun a ha with h1 | h1 | ⟨n, h1, b, h2, h3⟩ | ⟨n, h1, t, v, h2, h3⟩
  · exact .inl h1
  · rw [harr] at h1; cases h1
  · obtain ⟨i, o, h4, h5⟩ := (hobj.complete trivial).1 n h1
    exact .inr (.inl ⟨i, o, n, b, h4, (hobj.ptr h4 h5).1, h5, h2, h3⟩)
  · obtain ⟨i, o, h4, h5⟩ := (hobj.complete trivial).2 n h1
    exact .inr (.inr ⟨i, o, n, t, v, h4, h5, h2, h3⟩)

theorem C56_all_released_partial (s : PyState B) (l : PyLedger) (hr : PyRun (fun _ => True) s l) (hd : PyState.Deleted s) :
    s.heap.destroyed.Perm s.heap.created := by
  obtain ⟨lc, hrun, harr, hobj, _⟩ := Python.py_inv trivial trivial trivial trivial hr
  refine C47_all_released s.heap lc hrun ⟨harr, ?_, ?_⟩
  · rw [List.eq_nil_iff_forall_not_mem]
    intro n hn
    obtain ⟨b, o, h1, _⟩ := (hobj.complete trivial).1 n hn
    rw [hd.1 b] at h1; cases h1
  · rw [List.eq_nil_iff_forall_not_mem]
    intro n hn
    obtain ⟨t, o, h1, _⟩ := (hobj.complete trivial).2 n hn
    rw [hd.2 t] at h1; cases h1

/-- **C56.** Also in programs which do not follow the rule `accepted`, no array is destroyed twice, and no array
used by an object is destroyed. -/
theorem C56_at_most_once {rules : PyRule → Prop} (h1 : rules .moved) (h2 : rules .stale) (h3 : rules .gradients)
    (h4 : rules .lists) (s : PyState B) (l : PyLedger) (hr : PyRun rules s l) :
    s.heap.destroyed.Nodup ∧ (∀ a ∈ s.heap.destroyed, a ∈ s.heap.created) ∧ ∀ a, PyState.Holds s a → a ∉ s.heap.destroyed := by
  obtain ⟨lc, hrun, harr, hobj, halive⟩ := Python.py_inv h1 h2 h3 h4 hr
  obtain ⟨h5, h6⟩ := C47_at_most_once s.heap lc hrun
  exact ⟨h5, h6, fun a ha => (C55_arrays_alive_partial h1 h2 h3 h4 s l hr a ha).2.1⟩

/-! ### C57: the garbage collector -/

/-- **C57**, in full: methods leave the garbage collector of Python as it was. -/
def C57_full_statement : Prop :=
  ∀ (B : Type) [Inhabited B] [ArrayCallbacks B] (s : PyState B) (l : PyLedger), PyRun (fun _ => True) s l →
    ∀ (p : Platform) (c : PyCall B) (s' : PyState B) (reply : PyReply), PyCall.Careful (fun _ => True) s l c →
      c.run p s = some (s', reply) → s'.gcEnabled = s.gcEnabled

/-- **C57**, partial: this is true for all statements, except for copies of blocks which raise an exception. -/
theorem C57_gc_partial (p : Platform) (s s' : PyState B) (c : PyCall B) (reply : PyReply)
    (hrun : c.run p s = some (s', reply)) (hc : ∀ b, c = .copyBlock b → reply ≠ .raised) :
    s'.gcEnabled = s.gcEnabled := by
  rcases (Python.run_grows hrun).2 with h1 | ⟨b, h1, h2, _⟩
  · exact h1
  · exact absurd h2 (hc b h1)

/-- **C57.** After a copy of an existing block raised an exception, the garbage collector is disabled. -/
theorem C57_disabled (p : Platform) (s s' : PyState B) (b : Nat) (hb : (s.blocks b).isSome)
    (hrun : (PyCall.copyBlock b : PyCall B).run p s = some (s', .raised)) : s'.gcEnabled = false := by
  obtain ⟨o, ho⟩ := Option.isSome_iff_exists.1 hb
  simp only [PyCall.run, ho] at hrun
  obtain ⟨⟨s₁, r⟩, _, h2⟩ := Option.bind_eq_some_iff.1 hrun
  simp only at h2
  split at h2 <;> cases h2
  rfl

/-- **C57.** When copies succeed: if the block has not been given to `TensorMap()`, and all the arrays can be
copied. -/
theorem C57_copy_succeeds (hcopy : ∀ x : B, (ArrayCallbacks.copy x).isSome) {rules : PyRule → Prop} (h1 : rules .moved)
    (h2 : rules .stale) (h3 : rules .gradients) (h4 : rules .lists) (s : PyState B) (l : PyLedger)
    (hr : PyRun rules s l) (b : Nat) (hb : (s.blocks b).isSome) (hs : b ∉ l.stale) (hm : b ∉ l.moved) (p : Platform) :
    ∃ s', (PyCall.copyBlock b : PyCall B).run p s = some (s', .block s.next) ∧ s'.gcEnabled = s.gcEnabled := by
  obtain ⟨o, ho⟩ := Option.isSome_iff_exists.1 hb
  obtain ⟨s', reply, h5⟩ := C55_safe_partial h1 h2 h3 h4 s l hr (.copyBlock b) (fun _ => hs) p
  obtain ⟨lc, hrun, harr, hobj, halive⟩ := Python.py_inv h1 h2 h3 h4 hr
  obtain ⟨blk, h₁, r, hblk, hc, hiff, _⟩ := C49_outcome s.heap lc hrun o.ptr (hobj.usable ho hs) (hobj.moved b o ho hm)
  obtain ⟨n, rfl⟩ := hiff.2 (by
    intro a ha
    obtain ⟨owner, hi⟩ := Heap.inv_run hrun
    have h6 : (s.heap.arrays a.ptr).isSome :=
      (hi.heap.owned.alive _).2 ((hi.heap.block_held hblk).owned _ (List.mem_map_of_mem ha))
    obtain ⟨x, hx⟩ := Option.isSome_iff_exists.1 h6
    exact ⟨x, hx, hcopy x⟩)
  have h6 := h5
  simp only [PyCall.run, ho] at h6
  obtain ⟨⟨s₁, r⟩, h7, h8⟩ := Option.bind_eq_some_iff.1 h6
  obtain ⟨h9, h10⟩ := Python.call_only h7
  simp only [Call.run, hc, Option.map_some, Option.some.injEq, Prod.mk.injEq] at h10
  rw [← h10.2] at h8
  simp only at h8
  have hn : s₁.next = s.next := by rw [h9]
  have h11 : reply = .block s₁.next ∧ s'.gcEnabled = s.gcEnabled := by cases h8; exact ⟨rfl, rfl⟩
  exact ⟨s', by rw [h5, h11.1, hn], h11.2⟩

/-! ### C58: blocks which were given to a tensor map -/

/-- **C58.** After `TensorMap()` returned, the blocks which were in the list can not be used any more: all methods
raise an exception, and do not change any block, tensor map or array; the array given to `add_gradient` is
destroyed. This needs no rules. -/
theorem C58_given {rules : PyRule → Prop} (s : PyState B) (l : PyLedger) (hr : PyRun rules s l) (b : Nat)
    (hb : b ∈ l.given) (hsome : (s.blocks b).isSome) (p : Platform) :
    (∀ name axis, (PyCall.labels b name axis : PyCall B).run p s = some (s, .raised)) ∧
    (∀ name, (PyCall.data b name : PyCall B).run p s = some (s, .raised)) ∧
    ((PyCall.gradientsList b : PyCall B).run p s = some (s, .raised)) ∧
    (PyCall.copyBlock b : PyCall B).run p s = some ({ s with gcEnabled := false }, .raised) ∧
    (∀ parameter data samples components s' reply,
      (PyCall.addGradient b parameter data samples components : PyCall B).run p s = some (s', reply) →
        reply = .raised ∧ s'.heap.blocks = s.heap.blocks ∧ s'.heap.tensors = s.heap.tensors ∧
        (∀ a, a ≠ s.heap.next → s'.heap.arrays a = s.heap.arrays a) ∧ s'.heap.arrays s.heap.next = none) := by
  obtain ⟨_, hnull⟩ := Python.py_given hr b hb
  obtain ⟨o, ho⟩ := Option.isSome_iff_exists.1 hsome
  have hp := hnull o ho
  have hids : blockIds s.heap .null = [] := rfl
  refine ⟨?_, ?_, ?_, ?_, ?_⟩
  · intro name axis
    simp [PyCall.run, PyCall.readBlock, ho, hp, PyState.call, touched, hids, Call.run, eqsBlockLabels]
  · intro name
    simp [PyCall.run, PyCall.readBlock, ho, hp, PyState.call, touched, hids, Call.run, eqsBlockData]
    rfl
  · simp [PyCall.run, PyCall.readBlock, ho, hp, PyState.call, touched, hids, Call.run, eqsBlockGradientsList]
  · simp [PyCall.run, ho, hp, PyState.call, touched, hids, Call.run, eqsBlockCopy, nullBlock, checkPointer]
  · intro parameter data samples components s' reply h
    simp only [PyCall.run, ho, hp, Python.call_arrayNew, Option.bind_eq_bind, Option.bind_some] at h
    obtain ⟨⟨s₁, r⟩, h1, h2⟩ := Option.bind_eq_some_iff.1 h
    obtain ⟨_, h3⟩ := Python.call_only h1
    have h4 : (Call.blockAddGradient .null (some parameter) { ptr := s.heap.next, destroy := true } samples components :
        Call B).run p (s.heap.createArray data).1 = some
          ({ (s.heap.createArray data).1 with
              arrays := setAt (s.heap.createArray data).1.arrays s.heap.next none,
              destroyed := s.heap.destroyed ++ [s.heap.next] }, .done nullBlock) := by
      simp only [Call.run, eqsBlockAddGradient, if_pos, Heap.dropArrays, Heap.dropArray]
      simp [Heap.createArray, setAt]
    have h5 : some (s₁.heap, r) = some
          ({ (s.heap.createArray data).1 with
              arrays := setAt (s.heap.createArray data).1.arrays s.heap.next none,
              destroyed := s.heap.destroyed ++ [s.heap.next] }, Reply.done nullBlock) := h3.symm.trans h4
    simp only [Option.some.injEq, Prod.mk.injEq] at h5
    obtain ⟨h5, rfl⟩ := h5
    simp only [nullBlock, checkPointer] at h2
    cases h2
    rw [h5]
    refine ⟨rfl, rfl, rfl, fun a ha => ?_, ?_⟩
    · show setAt (setAt s.heap.arrays s.heap.next _) s.heap.next none a = _
      rw [Python.setAt_ne _ _ ha, Python.setAt_ne _ _ ha]
    · exact Python.setAt_self _ _ _

/-! ### Programs -/

namespace Spec

/-- A decidable version of `PyCall.Careful`. -/
def PyCall.check (rules : PyRule → Bool) (s : PyState B) (l : PyLedger) : PyCall B → Bool
  | .newTensor keys i =>
    (!rules .moved || (s.lists.getD i []).all fun b => !l.moved.contains b) &&
    (!rules .accepted || ((match Labels.ofC keys with | .ok _ => true | _ => false) &&
      decide (s.lists.getD i []).Nodup && (s.lists.getD i []).all fun b => l.views.all fun v => v.1 != b))
  | .setList i _ => !rules .lists || (List.range s.next).all fun t =>
      match s.tensors t with | none => true | some o => o.blocks != i
  | .addGradient b _ _ _ _ =>
    (!rules .stale || !l.stale.contains b) && (!rules .gradients || l.views.all fun v => v.1 != b)
  | .labels b _ _ | .data b _ | .gradientsList b | .copyBlock b => !rules .stale || !l.stale.contains b
  | _ => true

theorem PyCall.check_sound {rules : PyRule → Bool} {s : PyState B} {l : PyLedger} {c : PyCall B}
    (hf : ∀ i, s.next ≤ i → s.blocks i = none ∧ s.tensors i = none) (h : PyCall.check rules s l c = true) :
    PyCall.Careful (fun r => rules r = true) s l c := by
  have hstale : ∀ b, (!rules .stale || !l.stale.contains b) = true → rules .stale = true → b ∉ l.stale := by
    intro b h hr
    simpa [hr] using h
  cases c <;> try exact trivial
  case newTensor keys i =>
    simp only [PyCall.check, Bool.and_eq_true] at h
    refine ⟨fun hr => ?_, fun hr => ?_⟩
    · simpa [hr] using h.1
    · have h2 := h.2
      simp only [hr, Bool.not_true, Bool.false_or, Bool.and_eq_true, decide_eq_true_eq] at h2
      refine ⟨?_, h2.1.2, ?_⟩
      · cases hk : Labels.ofC keys with
        | ok labels => exact ⟨labels, rfl⟩
        | err e => simp [hk] at h2
        | panic m => simp [hk] at h2
      · intro b hb t hv
        have h3 := List.all_eq_true.1 (List.all_eq_true.1 h2.2 b hb) _ hv
        simp at h3
  case setList i blocks =>
    intro hr t o ho heq
    simp only [PyCall.check, hr, Bool.not_true, Bool.false_or, List.all_eq_true, List.mem_range] at h
    have hlt : t < s.next := by
      by_contra hlt
      rw [(hf t (by omega)).2] at ho; cases ho
    have h1 := h t hlt
    rw [ho] at h1
    simp [heq] at h1
  case addGradient b _ _ _ _ =>
    simp only [PyCall.check, Bool.and_eq_true] at h
    refine ⟨hstale b h.1, fun hr t hv => ?_⟩
    have h2 := h.2
    simp only [hr, Bool.not_true, Bool.false_or] at h2
    simpa using List.all_eq_true.1 h2 _ hv
  case labels b _ _ => exact hstale b h
  case data b _ => exact hstale b h
  case gradientsList b => exact hstale b h
  case copyBlock b => exact hstale b h

/-- Run a program which follows some rules. -/
def pyExecute (rules : PyRule → Bool) (p : Platform) :
    List (PyCall B) → PyState B × PyLedger → Option (PyState B × PyLedger)
  | [], s => some s
  | c :: cs, s =>
    if PyCall.check rules s.1 s.2 c then
      match c.run p s.1 with
      | none => none
      | some (s', reply) => pyExecute rules p cs (s', s.2.record s.1 c reply)
    else
      none

theorem pyExecute_run {rules : PyRule → Bool} {p : Platform} {cs : List (PyCall B)} {s s' : PyState B × PyLedger}
    (hs : PyRun (fun r => rules r = true) s.1 s.2) (h : pyExecute rules p cs s = some s') :
    PyRun (fun r => rules r = true) s'.1 s'.2 := by
  induction cs generalizing s with
  | nil => cases h; exact hs
  | cons c cs ih =>
    simp only [pyExecute] at h
    split at h
    · rename_i hc
      split at h
      · cases h
      · rename_i s₁ reply hrun
        exact ih (s := (s₁, s.2.record s.1 c reply))
          (.step p hs (PyCall.check_sound (Python.py_fresh hs) hc) hrun) h
    · cases h

/-- More programs follow fewer rules. -/
theorem PyRun.mono {rules rules' : PyRule → Prop} (hrules : ∀ r, rules' r → rules r) {s : PyState B} {l : PyLedger}
    (hr : PyRun rules s l) : PyRun rules' s l := by
  induction hr with
  | start => exact .start
  | @step s s' l c reply p _ hc hrun ih =>
    refine .step p ih ?_ hrun
    revert hc
    cases c <;> try exact id
    case newTensor => exact fun hc => ⟨fun h => hc.1 (hrules _ h), fun h => hc.2 (hrules _ h)⟩
    case addGradient => exact fun hc => ⟨fun h => hc.1 (hrules _ h), fun h => hc.2 (hrules _ h)⟩
    all_goals exact fun hc h => hc (hrules _ h)

end Spec

namespace Python.Example
open Ownership.Example

/-- `block = TensorBlock(...)`, which is the object 0 of the program. -/
def newBlock : PyCall NdArray := .newBlock array (labels [1, 2]) [] (properties [0])

/-- `blocks = [block]; tensor = TensorMap(keys, blocks)`, which is the object 1 of the program. -/
def newTensor : List (PyCall NdArray) := [newBlock, .newList [0], .newTensor (labels [0]) 0]

/-- A program which follows all the rules except for one, and then the statement with undefined behaviour. -/
def unsafeProgram : PyRule → List (PyCall NdArray) × PyCall NdArray
  -- TensorMap(keys, blocks)
  | .moved => (newTensor, .newTensor (labels [0]) 0)
  -- b = tensor.block(0); tensor.keys_to_properties(...); b.samples
  | .stale => (newTensor ++ [.block 1 0, .keysToProperties 1 (labels []) true id], .labels 2 [118, 97, 108, 117, 101, 115, 0] 0)
  -- b = tensor.block(0); b.add_gradient(...); del b; gc.collect(); del tensor
  | .gradients => (newTensor ++ [.block 1 0, .addGradient 2 [103, 0] array (gradientSamples [0, 1]) [], .deleteBlock 2,
      .collect fun _ => true], .deleteTensor 1)
  -- blocks.clear(); del block; gc.collect(); del tensor
  | .lists => (newTensor ++ [.setList 0 [], .deleteBlock 0, .collect fun _ => true], .deleteTensor 1)
  | .accepted => ([], .newList [])

/-- What happens when the program runs, and then the statement. -/
def outcome (r : PyRule) : Bool × Bool × Bool :=
  let rules := fun r' => decide (r' ≠ r)
  match pyExecute rules platform (unsafeProgram r).1 (PyState.empty, PyLedger.empty) with
  | none => (false, false, false)
  | some s => (true, PyCall.check rules s.1 s.2 (unsafeProgram r).2, ((unsafeProgram r).2.run platform s.1).isNone)

theorem outcome_eq (r : PyRule) (h : r ≠ .accepted) : outcome r = (true, true, true) := by
  cases r
  case accepted => exact absurd rfl h
  all_goals decide +kernel

end Python.Example

/-- **C55.** None of the rules can be left out: for each of them there is a program which follows all the other
rules and has undefined behaviour. -/
theorem C55_rules_needed (r : PyRule) (hr : r ≠ .accepted) :
    ∃ (s : PyState NdArray) (l : PyLedger) (c : PyCall NdArray), PyRun (· ≠ r) s l ∧ PyCall.Careful (· ≠ r) s l c ∧
      ∃ p, c.run p s = none := by
  have h := Python.Example.outcome_eq r hr
  simp only [Python.Example.outcome] at h
  split at h
  · cases h
  · rename_i s hs
    simp only [Prod.mk.injEq, true_and] at h
    have h1 := pyExecute_run (s := (PyState.empty, PyLedger.empty)) .start hs
    have h2 := PyCall.check_sound (Python.py_fresh h1) h.1
    simp only [decide_eq_true_eq] at h1 h2
    exact ⟨s.1, s.2, _, h1, h2, Ownership.Example.platform, by simpa using h.2⟩

theorem C55_counterexample : ¬ C55_full_statement := by
  intro h
  obtain ⟨s, l, c, h1, _, p, h3⟩ := C55_rules_needed .moved (by decide)
  obtain ⟨s', reply, h4⟩ := h NdArray s l (h1.mono fun _ h => h.elim) p c
  rw [h3] at h4
  cases h4

namespace Python.Example
open Ownership.Example

/-- `block = TensorBlock(...); blocks = [block]; TensorMap(keys, blocks)` with two identical keys, which raises an exception;
`blocks.clear(); del block`. -/
def leak : List (PyCall NdArray) :=
  [newBlock, .newList [0], .newTensor (labels [0, 0]) 0, .setList 0 [], .deleteBlock 0]

/-- A program which follows all the rules: blocks with gradients, a copy, two tensor maps, one of them changed, and
everything deleted at the end. -/
def program : List (PyCall NdArray) :=
  [newBlock, .addGradient 0 [103, 0] array (gradientSamples [0, 1]) [], .copyBlock 0, .collect fun _ => true,
   .newList [0], .newTensor (labels [0]) 0, .block 2 0, .labels 3 [118, 97, 108, 117, 101, 115, 0] 0, .data 3 [103, 0],
   .deleteBlock 3, .keysToProperties 2 (labels []) true id, .collect fun _ => true, .block 2 0, .gradientsList 4]

def rest : List (PyCall NdArray) :=
  [.newList [1], .newTensor (labels [5]) 1, .componentsToProperties 5 [] id, .keys 5, .deleteBlock 4,
   .deleteTensor 2, .setList 0 [], .deleteBlock 0, .collect fun _ => true, .deleteTensor 5, .setList 1 [],
   .deleteBlock 1, .collect fun _ => true]

def summary (s : PyState NdArray × PyLedger) : List (List Nat) × List Bool :=
  ([s.1.heap.created, s.1.heap.destroyed, s.1.collected, s.2.moved, s.2.given, s.2.stale],
   (List.range s.1.next).map fun i => (s.1.blocks i).isSome || (s.1.tensors i).isSome)

example : (pyExecute (fun _ => true) platform program (PyState.empty, PyLedger.empty)).map summary =
    some ([[0, 2, 3, 4, 8, 9], [0, 2], [], [0], [0], [3]], [true, true, true, false, true]) := by decide +kernel

example : (pyExecute (fun _ => true) platform (program ++ rest) (PyState.empty, PyLedger.empty)).map summary =
    some ([[0, 2, 3, 4, 8, 9], [0, 2, 8, 9, 3, 4], [0, 2, 8, 9, 0, 2, 3, 4, 8, 9], [1, 0], [1, 0], [3]],
      [false, false, false, false, false, false]) := by decide +kernel

theorem deleted_of_fresh {s : PyState NdArray} (hf : ∀ i, s.next ≤ i → s.blocks i = none ∧ s.tensors i = none)
    (h : (List.range s.next).all (fun i => (s.blocks i).isNone && (s.tensors i).isNone) = true) : PyState.Deleted s := by
  simp only [List.all_eq_true, List.mem_range, Bool.and_eq_true, Option.isNone_iff_eq_none] at h
  have hall : ∀ i, s.blocks i = none ∧ s.tensors i = none := by
    intro i
    by_cases hlt : i < s.next
    · exact h i hlt
    · exact hf i (by omega)
  exact ⟨fun b => (hall b).1, fun t => (hall t).2⟩

/-- The program is one the theorems talk about: in the middle the block 0 was given to a tensor map, which
exists and has two arrays, the tensor map has been changed, and there is a copy of the block; at the end everything
has been deleted. -/
example : ∃ (s : PyState NdArray) (l : PyLedger), PyRun (fun _ => True) s l ∧ 0 ∈ l.given ∧ (s.blocks 0).isSome ∧ PyState.Holds s 8 ∧
    (s.blocks 1).isSome ∧ 1 ∉ l.stale ∧ 1 ∉ l.moved := by
  have h1 : (pyExecute (fun _ => true) platform program (PyState.empty, PyLedger.empty)).map (fun s =>
      ([s.2.given, s.2.moved, s.2.stale], [(s.1.blocks 0).isSome, (s.1.blocks 1).isSome])) =
      some ([[0], [0], [3]], [true, true]) := by decide +kernel
  have h2 : (pyExecute (fun _ => true) platform program (PyState.empty, PyLedger.empty)).map (fun s =>
      (s.1.tensors 2).map (·.ptr)) = some (some (some 6)) := by decide +kernel
  have h3 : (pyExecute (fun _ => true) platform program (PyState.empty, PyLedger.empty)).map (fun s =>
      (s.1.heap.tensors 6).map fun t => t.1.arrays.map (·.ptr)) = some (some [8, 9]) := by decide +kernel
  obtain ⟨s, hs, heq⟩ := Option.map_eq_some_iff.1 h1
  rw [hs, Option.map_some, Option.some.injEq] at h2 h3
  simp only [Prod.mk.injEq, List.cons.injEq, and_true] at heq
  obtain ⟨⟨h4, h5, h6⟩, h7, h8⟩ := heq
  obtain ⟨o, h9, h10⟩ := Option.map_eq_some_iff.1 h2
  obtain ⟨t, h11, h12⟩ := Option.map_eq_some_iff.1 h3
  exact ⟨s.1, s.2, (pyExecute_run .start hs).mono fun _ _ => rfl, by simp [h4], h7,
    .inr ⟨2, o, 6, t.1, t.2, h9, h10, h11, by rw [h12]; decide⟩, h8, by simp [h6], by simp [h5]⟩

example : ∃ (s : PyState NdArray) (l : PyLedger), PyRun (fun _ => True) s l ∧ PyState.Deleted s ∧ s.heap.created = [0, 2, 3, 4, 8, 9] ∧
    s.heap.destroyed ≠ s.heap.created := by
  have h : (pyExecute (fun _ => true) platform (program ++ rest) (PyState.empty, PyLedger.empty)).map (fun s =>
      (s.1.heap.created, s.1.heap.destroyed,
        (List.range s.1.next).all fun i => (s.1.blocks i).isNone && (s.1.tensors i).isNone)) =
      some ([0, 2, 3, 4, 8, 9], [0, 2, 8, 9, 3, 4], true) := by decide +kernel
  obtain ⟨s, hs, heq⟩ := Option.map_eq_some_iff.1 h
  simp only [Prod.mk.injEq] at heq
  have hrun := pyExecute_run .start hs
  exact ⟨s.1, s.2, hrun.mono fun _ _ => rfl, deleted_of_fresh (py_fresh hrun) heq.2.2, heq.1, by
    rw [heq.1, heq.2.1]; decide⟩

end Python.Example

theorem C56_counterexample : ¬ C56_full_statement := by
  intro h
  have h1 : (pyExecute (fun r => decide (r ≠ .accepted)) Ownership.Example.platform Python.Example.leak
      (PyState.empty, PyLedger.empty)).map (fun s => (s.1.heap.created, s.1.heap.destroyed,
        (List.range s.1.next).all fun i => (s.1.blocks i).isNone && (s.1.tensors i).isNone)) =
      some ([0], [], true) := by decide +kernel
  obtain ⟨s, hs, heq⟩ := Option.map_eq_some_iff.1 h1
  simp only [Prod.mk.injEq] at heq
  have hrun := pyExecute_run .start hs
  have h2 := (h NdArray s.1 s.2 (hrun.mono fun _ h => decide_eq_true h)).2
    (Python.Example.deleted_of_fresh (Python.py_fresh hrun) heq.2.2)
  rw [heq.1, heq.2.1] at h2
  simpa using h2.length_eq

/-- **C57** is false: `copy.deepcopy(block)` after `TensorMap(keys, [block])` raises an exception, and leaves the
garbage collector disabled. -/
theorem C57_counterexample : ¬ C57_full_statement := by
  intro h
  have h1 : (pyExecute (fun _ => true) Ownership.Example.platform Python.Example.newTensor
      (PyState.empty, PyLedger.empty)).map (fun s => (s.1.gcEnabled, s.2.given, s.2.stale, (s.1.blocks 0).isSome)) =
      some (true, [0], [], true) := by decide +kernel
  obtain ⟨s, hs, heq⟩ := Option.map_eq_some_iff.1 h1
  simp only [Prod.mk.injEq] at heq
  have hrun := (pyExecute_run .start hs).mono (rules' := fun _ => True) fun _ _ => rfl
  have h2 := (C58_given s.1 s.2 hrun 0 (by rw [heq.2.1]; exact List.mem_singleton.2 rfl) heq.2.2.2
    Ownership.Example.platform).2.2.2.1
  have h3 := h NdArray s.1 s.2 hrun Ownership.Example.platform (.copyBlock 0) _ _
    (fun _ => by rw [heq.2.2.1]; exact List.not_mem_nil) h2
  rw [heq.1] at h3
  cases h3

end Equistore
