import Verif.Lemmas.Provenance
import Verif.Spec.Python

/-! What holds for the objects of Python programs between statements. -/

namespace Equistore
namespace Python
open Spec Heap
variable {B : Type}

/-- The pointers of the objects. `all` says whether all blocks and tensor maps of the C API have an object. -/
structure Objects (all : Prop) (next : Nat) (bs : Nat → Option PyBlock) (ts : Nat → Option PyTensor)
    (lists : List (List Nat)) (l : PyLedger) (lc : Ledger) : Prop where
  fresh : ∀ i, next ≤ i → bs i = none ∧ ts i = none
  owning : ∀ b o, bs b = some o → o.owning = true →
    o.parent = none ∧ (o.ptr = .null ∨ ∃ n ∈ lc.blocks, o.ptr = .owned n)
  once : ∀ b o b' o' n, bs b = some o → bs b' = some o' → o.ptr = .owned n → o'.ptr = .owned n → b = b'
  viewing : ∀ b o, bs b = some o → o.owning = false → ∃ t T n, o.parent = some t ∧ ts t = some T ∧
    T.ptr = some n ∧ insideOf n o.ptr = true ∧ (b, t) ∈ l.views ∧ (b ∉ l.stale → o.ptr ∈ lc.interior)
  tensor : ∀ t T, ts t = some T → ∃ n ∈ lc.tensors, T.ptr = some n
  tensorOnce : ∀ t T t' T' n, ts t = some T → ts t' = some T' → T.ptr = some n → T'.ptr = some n → t = t'
  moved : ∀ b o, bs b = some o → b ∉ l.moved → o.ptr ≠ .null
  members : ∀ L ∈ lists, ∀ b ∈ L, (bs b).isSome
  complete : all → (∀ n ∈ lc.blocks, ∃ b o, bs b = some o ∧ o.ptr = .owned n) ∧
    ∀ n ∈ lc.tensors, ∃ t T, ts t = some T ∧ T.ptr = some n

/-- The `ArrayWrapper` objects in use have not been collected. -/
structure Alive (h : Heap B) (bs : Nat → Option PyBlock) (ts : Nat → Option PyTensor) (lists : List (List Nat))
    (keepers : Nat → List Nat) (collected : List Nat) : Prop where
  empty : ∀ a, h.next ≤ a → keepers a = []
  bound : ∀ a, ∀ x ∈ keepers a, x < h.next
  block : ∀ b o n blk, bs b = some o → o.ptr = .owned n → h.blocks n = some blk → ∀ a ∈ ids blk.arrays,
    keepers a = [] ∨ ∃ x ∈ keepers a, x ∈ o.arrays
  tensor : ∀ t T n tm v, ts t = some T → T.ptr = some n → h.tensors n = some (tm, v) → ∀ a ∈ ids tm.arrays,
    keepers a = [] ∨ ∃ x ∈ keepers a, ∃ b ∈ lists.getD T.blocks [], ∃ o, bs b = some o ∧ x ∈ o.arrays
  collected : ∀ a ∈ collected, a < h.next ∧ keepers a ≠ [] ∧ ∀ b o, bs b = some o → ∀ x ∈ keepers a, x ∉ o.arrays

theorem Alive.step {h h' : Heap B} {bs bs' : Nat → Option PyBlock} {ts ts' : Nat → Option PyTensor}
    {lists lists' : List (List Nat)} {k k' : Nat → List Nat} {c : List Nat} (ha : Alive h bs ts lists k c)
    (hnext : h.next ≤ h'.next) (hk : ∀ a, a < h.next → k' a = k a) (hk0 : ∀ a, h'.next ≤ a → k' a = [])
    (hk1 : ∀ a, h.next ≤ a → ∀ x ∈ k' a, x < h'.next)
    (ho : ∀ b o', bs' b = some o' → ∀ x ∈ o'.arrays, h.next ≤ x ∨ ∃ b o, bs b = some o ∧ x ∈ o.arrays)
    (hb : ∀ b o' n blk', bs' b = some o' → o'.ptr = .owned n → h'.blocks n = some blk' → ∀ a ∈ ids blk'.arrays,
      (k' a = [] ∨ ∃ x ∈ k' a, x ∈ o'.arrays) ∨
      (a < h.next ∧ ∃ o blk, bs b = some o ∧ o.ptr = .owned n ∧ h.blocks n = some blk ∧ a ∈ ids blk.arrays ∧
        ∀ x ∈ o.arrays, x ∈ o'.arrays))
    (ht : ∀ t T' n tm' v', ts' t = some T' → T'.ptr = some n → h'.tensors n = some (tm', v') → ∀ a ∈ ids tm'.arrays,
      (k' a = [] ∨ ∃ x ∈ k' a, ∃ b ∈ lists'.getD T'.blocks [], ∃ o, bs' b = some o ∧ x ∈ o.arrays) ∨
      (a < h.next ∧ ∃ T tm v, ts t = some T ∧ T.ptr = some n ∧ h.tensors n = some (tm, v) ∧ a ∈ ids tm.arrays ∧
        ∀ b ∈ lists.getD T.blocks [], ∀ o, bs b = some o → ∃ o', b ∈ lists'.getD T'.blocks [] ∧
          bs' b = some o' ∧ ∀ x ∈ o.arrays, x ∈ o'.arrays)) :
    Alive h' bs' ts' lists' k' c := by
  refine ⟨hk0, ?_, ?_, ?_, ?_⟩
  · intro a x hx
    by_cases hlt : a < h.next
    · rw [hk a hlt] at hx
      exact Nat.lt_of_lt_of_le (ha.bound a x hx) hnext
    · exact hk1 a (by omega) x hx
  · intro b o' n blk' h1 h2 h3 a h4
    rcases hb b o' n blk' h1 h2 h3 a h4 with h5 | ⟨hlt, o, blk, h5, h6, h7, h8, h9⟩
    · exact h5
    · rw [hk a hlt]
      rcases ha.block b o n blk h5 h6 h7 a h8 with h10 | ⟨x, hx, hxo⟩
      · exact .inl h10
      · exact .inr ⟨x, hx, h9 x hxo⟩
  · intro t T' n tm' v' h1 h2 h3 a h4
    rcases ht t T' n tm' v' h1 h2 h3 a h4 with h5 | ⟨hlt, T, tm, v, h5, h6, h7, h8, h9⟩
    · exact h5
    · rw [hk a hlt]
      rcases ha.tensor t T n tm v h5 h6 h7 a h8 with h10 | ⟨x, hx, b, hbl, o, hbo, hxo⟩
      · exact .inl h10
      · obtain ⟨o', h11, h12, h13⟩ := h9 b hbl o hbo
        exact .inr ⟨x, hx, b, h11, o', h12, h13 x hxo⟩
  · intro a hac
    obtain ⟨h1, h2, h3⟩ := ha.collected a hac
    refine ⟨Nat.lt_of_lt_of_le h1 hnext, by rw [hk a h1]; exact h2, ?_⟩
    intro b o' hbo x hx hxo
    rw [hk a h1] at hx
    rcases ho b o' hbo x hxo with h4 | ⟨b₀, o₀, h4, h5⟩
    · exact absurd (ha.bound a x hx) (by omega)
    · exact h3 b₀ o₀ h4 x hx h5

section
variable [Inhabited B] [ArrayCallbacks B]

/-- What holds between statements. -/
def PyInv (all : Prop) (s : PyState B) (l : PyLedger) : Prop :=
  ∃ lc, Run s.heap lc ∧ lc.arrays = [] ∧ Objects all s.next s.blocks s.tensors s.lists l lc ∧
    Alive s.heap s.blocks s.tensors s.lists s.keepers s.collected

/-! ### Calls of the C API -/

theorem lt_next {h : Heap B} {lc : Ledger} (hr : Run h lc) {n : Nat} {b : TensorBlock CArray}
    (hb : h.blocks n = some b) : n < h.next ∧ ∀ a ∈ ids b.arrays, a < h.next := by
  obtain ⟨owner, hi⟩ := inv_run hr
  refine ⟨hi.heap.fresh (.block n) (object_block_isSome.2 (by rw [hb]; rfl)), fun a ha => ?_⟩
  have := (hi.heap.mem (.block n) (by simp) a).1 (by rw [held_block hb]; exact ha)
  exact hi.heap.owned.lt (by rw [this]; rfl)

theorem lt_next_tensor {h : Heap B} {lc : Ledger} (hr : Run h lc) {n v : Nat} {t : TensorMap CArray}
    (ht : h.tensors n = some (t, v)) : n < h.next ∧ ∀ a ∈ ids t.arrays, a < h.next := by
  obtain ⟨owner, hi⟩ := inv_run hr
  refine ⟨hi.heap.fresh (.tensor n) (object_tensor_isSome.2 (by rw [ht]; rfl)), fun a ha => ?_⟩
  have := (hi.heap.mem (.tensor n) (by simp) a).1 (by rw [held_tensor ht]; exact ha)
  exact hi.heap.owned.lt (by rw [this]; rfl)

theorem call_step {s : PyState B} {lc : Ledger} (hr : Run s.heap lc) (p : Platform) {c : Call B} (ha : c.Allowed lc)
    (hc : ∀ a ∈ touched s.heap c, a ∉ s.collected) :
    ∃ h' reply, s.call p c = some ({ s with heap := h' }, reply) ∧ c.run p s.heap = some (h', reply) ∧
      Run h' (lc.record c reply) ∧
      (∀ n b, s.heap.blocks n = some b → ¬c.changes (.block n) → h'.blocks n = some b) ∧
      (∀ n x, s.heap.tensors n = some x → ¬c.changes (.tensor n) → h'.tensors n = some x) := by
  obtain ⟨owner, hi⟩ := inv_run hr
  obtain ⟨h', reply, hrun, _, hf⟩ := good p hi ha
  refine ⟨h', reply, ?_, hrun, .step p hr ha hrun, ?_, ?_⟩
  · unfold PyState.call
    rw [if_neg, hrun]
    simp only [List.any_eq_true, List.contains_iff_mem, not_exists, not_and]
    exact hc
  · intro n b hb hn
    have := (hf.object (.block n) _ rfl (object_block_isSome.2 (by rw [hb]; rfl)) hn).1
    rw [blocks_of_object this, hb]
  · intro n x hx hn
    have := (hf.object (.tensor n) _ rfl (object_tensor_isSome.2 (by rw [hx]; rfl)) hn).1
    rw [tensors_of_object this, hx]

/-! ### The arrays of objects have not been collected -/

theorem Alive.tensor_free {h : Heap B} {bs : Nat → Option PyBlock} {ts : Nat → Option PyTensor}
    {lists : List (List Nat)} {k : Nat → List Nat} {c : List Nat} (ha : Alive h bs ts lists k c) {t : Nat}
    {T : PyTensor} (ht : ts t = some T) : ∀ a ∈ tensorIds h T.ptr, a ∉ c := by
  intro a hm hc
  obtain ⟨_, h1, h2⟩ := ha.collected a hc
  cases hp : T.ptr with
  | none => rw [hp] at hm; cases hm
  | some n =>
    rw [hp] at hm
    cases hx : h.tensors n with
    | none => simp only [tensorIds, hx] at hm; cases hm
    | some x =>
      obtain ⟨tm, v⟩ := x
      simp only [tensorIds, hx] at hm
      rcases ha.tensor t T n tm v ht hp hx a hm with h3 | ⟨x, h3, b, _, o, h4, h5⟩
      · exact h1 h3
      · exact h2 b o h4 x h3 h5

theorem Alive.block_free {h : Heap B} {bs : Nat → Option PyBlock} {ts : Nat → Option PyTensor}
    {lists : List (List Nat)} {k : Nat → List Nat} {c : List Nat} (ha : Alive h bs ts lists k c) {all : Prop} {next : Nat}
    {l : PyLedger} {lc : Ledger} (hobj : Objects all next bs ts lists l lc) {b : Nat} {o : PyBlock}
    (hb : bs b = some o) : ∀ a ∈ blockIds h o.ptr, a ∉ c := by
  intro a hm hc
  obtain ⟨_, h1, h2⟩ := ha.collected a hc
  cases hown : o.owning with
  | true =>
    rcases (hobj.owning b o hb hown).2 with hp | ⟨n, _, hp⟩
    · rw [hp] at hm; cases hm
    · rw [hp] at hm
      cases hx : h.blocks n with
      | none => simp only [blockIds, Heap.block, hx] at hm; cases hm
      | some blk =>
        simp only [blockIds, Heap.block, hx] at hm
        rcases ha.block b o n blk hb hp hx a hm with h3 | ⟨x, h3, h4⟩
        · exact h1 h3
        · exact h2 b o hb x h3 h4
  | false =>
    obtain ⟨t, T, n, _, hT, hp, hin, _⟩ := hobj.viewing b o hb hown
    refine ha.tensor_free hT a ?_ hc
    cases hq : o.ptr with
    | null => rw [hq] at hin; cases hin
    | owned => rw [hq] at hin; cases hin
    | inside m v i =>
      have hmn : m = n := by rw [hq] at hin; simpa [insideOf] using hin
      subst hmn
      rw [hq] at hm
      cases hx : h.block (.inside m v i) with
      | none => simp only [blockIds, hx] at hm; cases hm
      | some blk =>
        simp only [blockIds, hx] at hm
        obtain ⟨tm, h3, h4⟩ := block_inside.1 hx
        simp only [tensorIds, hp, h3]
        obtain ⟨y, hy, rfl⟩ := List.mem_map.1 hm
        exact List.mem_map_of_mem (List.mem_flatMap.2 ⟨blk, List.mem_of_getElem? h4, hy⟩)

theorem Objects.usable {all : Prop} {next : Nat} {bs : Nat → Option PyBlock} {ts : Nat → Option PyTensor}
    {lists : List (List Nat)} {l : PyLedger} {lc : Ledger} (hobj : Objects all next bs ts lists l lc) {b : Nat}
    {o : PyBlock} (hb : bs b = some o) (hs : b ∉ l.stale) : lc.Usable o.ptr := by
  cases hown : o.owning with
  | true =>
    rcases (hobj.owning b o hb hown).2 with hp | ⟨n, hn, hp⟩
    · exact .inl hp
    · exact .inr (.inl ⟨n, hn, hp⟩)
  | false =>
    obtain ⟨_, _, _, _, _, _, _, _, h1⟩ := hobj.viewing b o hb hown
    exact .inr (.inr (h1 hs))

/-! ### Statements which only look at something -/

theorem dropArray_not {h : Heap B} {a : CArray} (ha : a.destroy = false) : h.dropArray a = some h := by
  simp [Heap.dropArray, ha]

theorem call_read {s : PyState B} {lc : Ledger} (hr : Run s.heap lc) (p : Platform) {c : Call B} (ha : c.Allowed lc)
    (hc : ∀ a ∈ touched s.heap c, a ∉ s.collected)
    (hread : ∀ h' reply, c.run p s.heap = some (h', reply) → h' = s.heap) :
    ∃ reply, s.call p c = some (s, reply) ∧ c.run p s.heap = some (s.heap, reply) := by
  obtain ⟨h', reply, h1, h2, _⟩ := call_step hr p ha hc
  have := hread h' reply h2
  subst this
  exact ⟨reply, h1, h2⟩

theorem labels_read {p : Platform} {h h' : Heap B} {q : BlockPtr} {name : Bytes} {axis : Nat} {reply : Reply}
    (hr : (Call.blockLabels q name axis : Call B).run p h = some (h', reply)) : h' = h := by
  simp only [Call.run, Option.map_eq_some_iff, eqsBlockLabels] at hr
  obtain ⟨⟨h₁, r⟩, hr, heq⟩ := hr
  cases heq
  split at hr
  · cases hr; rfl
  · split at hr <;> cases hr; rfl

theorem data_read {p : Platform} {h h' : Heap B} {q : BlockPtr} {name : Bytes} {old : CArray} {reply : Reply}
    (hold : old.destroy = false) (hr : (Call.blockData q name old : Call B).run p h = some (h', reply)) : h' = h := by
  simp only [Call.run, Option.map_eq_some_iff, eqsBlockData] at hr
  obtain ⟨⟨h₁, r⟩, hr, heq⟩ := hr
  cases heq
  split at hr
  · cases hr; rfl
  · split at hr
    · cases hr
    · split at hr
      · rw [dropArray_not hold] at hr; cases hr; rfl
      · cases hr; rfl
      · cases hr; rfl

theorem gradientsList_read {p : Platform} {h h' : Heap B} {q : BlockPtr} {reply : Reply}
    (hr : (Call.blockGradientsList q : Call B).run p h = some (h', reply)) : h' = h := by
  simp only [Call.run, Option.map_eq_some_iff, eqsBlockGradientsList] at hr
  obtain ⟨⟨h₁, r⟩, hr, heq⟩ := hr
  cases heq
  split at hr
  · cases hr; rfl
  · split at hr <;> cases hr; rfl

theorem keys_read {p : Platform} {h h' : Heap B} {t : Option Nat} {reply : Reply}
    (hr : (Call.tensormapKeys t : Call B).run p h = some (h', reply)) : h' = h := by
  simp only [Call.run, Option.map_eq_some_iff, eqsTensormapKeys] at hr
  obtain ⟨⟨h₁, r⟩, hr, heq⟩ := hr
  cases heq
  split at hr
  · cases hr; rfl
  · split at hr <;> cases hr; rfl

theorem matching_read {p : Platform} {h h' : Heap B} {t : Option Nat} {selection : CLabels} {reply : Reply}
    (hr : (Call.tensormapBlocksMatching t selection : Call B).run p h = some (h', reply)) : h' = h := by
  simp only [Call.run, Option.map_eq_some_iff, eqsBlocksMatching] at hr
  obtain ⟨⟨h₁, r⟩, hr, heq⟩ := hr
  cases heq
  split at hr
  · cases hr; rfl
  · split at hr
    · cases hr
    · split at hr <;> cases hr; rfl

theorem save_read {p : Platform} {h h' : Heap B} {t : Option Nat} {reply : Reply}
    (hr : (Call.save t : Call B).run p h = some (h', reply)) : h' = h := by
  simp only [Call.run, Option.map_eq_some_iff, eqsTensormapSave] at hr
  obtain ⟨⟨h₁, r⟩, hr, heq⟩ := hr
  cases heq
  split at hr
  · cases hr; rfl
  · split at hr
    · cases hr
    · split at hr <;> cases hr; rfl

theorem byId_read {p : Platform} {h h' : Heap B} {t : Option Nat} {index : Nat} {reply : Reply}
    (hr : (Call.tensormapBlockById t index : Call B).run p h = some (h', reply)) : h' = h ∧
      ∀ q, reply = .blockPtr (.ok q) → ∃ n, t = some n ∧ insideOf n q = true := by
  simp only [Call.run, Option.map_eq_some_iff, eqsTensormapBlockById] at hr
  obtain ⟨⟨h₁, r⟩, hr, heq⟩ := hr
  cases heq
  split at hr
  · cases hr; exact ⟨rfl, fun q hq => by cases hq⟩
  · split at hr
    · cases hr
    · split at hr <;> cases hr
      · exact ⟨rfl, fun q hq => by cases hq; exact ⟨_, rfl, by simp [insideOf]⟩⟩
      · exact ⟨rfl, fun q hq => by cases hq⟩

/-- This statement is defined and keeps everything in order. -/
def PyGood (p : Platform) (all : Prop) (s : PyState B) (l : PyLedger) (c : PyCall B) : Prop :=
  ∃ s' reply, c.run p s = some (s', reply) ∧ PyInv all s' (l.record s c reply)

variable {s : PyState B} {l : PyLedger} {all : Prop}

theorem good_readBlock (p : Platform) (hi : PyInv all s l) {b : Nat} (hb : b ∉ l.stale) {c : BlockPtr → Call B}
    (hallowed : ∀ lc q, Ledger.Usable lc q → (c q).Allowed lc) (htouched : ∀ q, touched s.heap (c q) = blockIds s.heap q)
    (hread : ∀ q h' reply, (c q).run p s.heap = some (h', reply) → h' = s.heap) :
    ∃ reply, PyCall.readBlock p b c s = some (s, reply) := by
  obtain ⟨lc, hr, _, hobj, halive⟩ := hi
  unfold PyCall.readBlock
  cases hbo : s.blocks b with
  | none => exact ⟨.raised, rfl⟩
  | some o =>
    obtain ⟨reply, h1, _⟩ := call_read hr p (hallowed lc o.ptr (hobj.usable hbo hb))
      (by rw [htouched]; exact halive.block_free hobj hbo) (hread o.ptr)
    simp only [h1, Option.bind_eq_bind, Option.bind_some]
    split <;> exact ⟨_, rfl⟩

theorem good_readTensor (p : Platform) (hi : PyInv all s l) {t : Nat} {c : Option Nat → Call B}
    (hallowed : ∀ lc q, Ledger.UsableTensor lc q → (c q).Allowed lc)
    (htouched : ∀ q, touched s.heap (c q) = tensorIds s.heap q)
    (hread : ∀ q h' reply, (c q).run p s.heap = some (h', reply) → h' = s.heap) :
    ∃ reply, PyCall.readTensor p t c s = some (s, reply) := by
  obtain ⟨lc, hr, _, hobj, halive⟩ := hi
  unfold PyCall.readTensor
  cases hto : s.tensors t with
  | none => exact ⟨.raised, rfl⟩
  | some o =>
    obtain ⟨n, hn, hp⟩ := hobj.tensor t o hto
    obtain ⟨reply, h1, _⟩ := call_read hr p (hallowed lc o.ptr (by intro m hm; rw [hp] at hm; cases hm; exact hn))
      (by rw [htouched]; exact halive.tensor_free hto) (hread o.ptr)
    simp only [h1, Option.bind_eq_bind, Option.bind_some]
    exact ⟨_, rfl⟩

theorem good_labels (p : Platform) (hi : PyInv all s l) {b : Nat} (hb : b ∉ l.stale) (name : Bytes) (axis : Nat) :
    PyGood p all s l (.labels b name axis) := by
  obtain ⟨reply, h1⟩ := good_readBlock p hi hb (c := (.blockLabels · name axis)) (fun _ _ h => h) (fun _ => rfl)
    (fun _ _ _ => labels_read)
  exact ⟨s, reply, h1, by cases reply <;> exact hi⟩

theorem good_data (p : Platform) (hi : PyInv all s l) {b : Nat} (hb : b ∉ l.stale) (name : Bytes) :
    PyGood p all s l (.data b name) := by
  obtain ⟨reply, h1⟩ := good_readBlock p hi hb (c := (.blockData · name { ptr := 0, destroy := false }))
    (fun _ _ h => ⟨h, rfl⟩) (fun _ => rfl) (fun _ _ _ => data_read rfl)
  exact ⟨s, reply, h1, by cases reply <;> exact hi⟩

theorem good_gradientsList (p : Platform) (hi : PyInv all s l) {b : Nat} (hb : b ∉ l.stale) :
    PyGood p all s l (.gradientsList b) := by
  obtain ⟨reply, h1⟩ := good_readBlock p hi hb (c := .blockGradientsList) (fun _ _ h => h) (fun _ => rfl)
    (fun _ _ _ => gradientsList_read)
  exact ⟨s, reply, h1, by cases reply <;> exact hi⟩

theorem good_keys (p : Platform) (hi : PyInv all s l) (t : Nat) : PyGood p all s l (.keys t) := by
  obtain ⟨reply, h1⟩ := good_readTensor p hi (t := t) (c := .tensormapKeys) (fun _ _ h => h) (fun _ => rfl)
    (fun _ _ _ => keys_read)
  exact ⟨s, reply, h1, by cases reply <;> exact hi⟩

theorem good_matching (p : Platform) (hi : PyInv all s l) (t : Nat) (selection : CLabels) :
    PyGood p all s l (.blocksMatching t selection) := by
  obtain ⟨reply, h1⟩ := good_readTensor p hi (t := t) (c := (.tensormapBlocksMatching · selection)) (fun _ _ h => h)
    (fun _ => rfl) (fun _ _ _ => matching_read)
  exact ⟨s, reply, h1, by cases reply <;> exact hi⟩

theorem good_pySave (p : Platform) (hi : PyInv all s l) (t : Nat) : PyGood p all s l (.save t) := by
  obtain ⟨reply, h1⟩ := good_readTensor p hi (t := t) (c := .save) (fun _ _ h => h) (fun _ => rfl)
    (fun _ _ _ => save_read)
  exact ⟨s, reply, h1, by cases reply <;> exact hi⟩

end
end Python
end Equistore
