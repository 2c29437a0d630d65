import Verif.Model.CBuffers
import Verif.Spec.CApi
import Verif.Lemmas.CMemory
import Verif.Lemmas.CLabels
import Verif.Props.Tensor
import Verif.Props.CStatus

/-!
# Functions writing in buffers of the caller (C43, C44, C45)
-/

namespace Equistore
open Spec

/-! ### C43 -/

theorem writeAt_one {α : Type} (pre : List α) (x : α) (rest : List α) (b : α) :
    writeAt (pre ++ x :: rest) pre.length [b] = some (pre ++ [b] ++ rest) := by
  rw [writeAt_some (by simp)]
  simp

/-- The loop writing indexes: it writes those which fit, and panics if there are more. -/
theorem writeIndexes_eq {capacity : Nat} (blocks pre rest : List Nat) (count : Nat)
    (h1 : pre.length ≤ capacity) (h2 : capacity ≤ pre.length + rest.length) :
    writeIndexes capacity pre.length blocks (pre ++ rest, count) =
      if pre.length + blocks.length ≤ capacity then
        some ((pre ++ blocks ++ rest.drop blocks.length, count), .ok ())
      else
        some ((pre ++ blocks.take (capacity - pre.length) ++ rest.drop (capacity - pre.length), count),
          .panic "index out of bounds") := by
  induction blocks generalizing pre rest with
  | nil => simp [writeIndexes, h1]
  | cons b bs ih =>
    unfold writeIndexes
    by_cases hlt : pre.length < capacity
    · cases rest with
      | nil => simp at h2; omega
      | cons x rest =>
        simp only [List.length_cons] at h2
        simp only [hlt, decide_true, Res.assert_true, CAct.lift_ok_bind, CAct.get_bind, writeAt_one,
          CAct.require_some_bind, CAct.set_bind]
        have hl : pre.length + 1 = (pre ++ [b]).length := by simp
        rw [hl, ih (pre ++ [b]) rest (by simp; omega) (by simp; omega)]
        have hs : capacity - pre.length = capacity - (pre ++ [b]).length + 1 := by simp; omega
        rw [hs]
        simp only [List.length_append, List.length_cons, List.length_nil, List.append_assoc, List.cons_append,
          List.nil_append, List.drop_succ_cons, List.take_succ_cons]
        rw [show pre.length + (0 + 1) + bs.length = pre.length + (bs.length + 1) by omega]
    · have : capacity = pre.length := by omega
      subst this
      rw [if_neg (by simp)]
      simp [Res.assert, CAct.bind_apply]

variable {A : Type} [ArrayLike A]

/-- **C43.** `eqs_tensormap_blocks_matching`, called with a buffer of `count` entries (or more: `buffer`
is all the memory there) succeeds if and only if there are matching blocks and they fit in `count` entries. Then
`*count` is the number of matching blocks, and the buffer starts with their indexes. In all cases
nothing is accessed outside of the buffer, and at most the first `count` entries are written. -/
theorem C43_blocks_matching_buffer (t : TensorMap A) (selection : CLabels) (buffer : List Nat) (count : Nat)
    (hbuffer : count ≤ buffer.length) :
    ∃ buffer' count' r, blocksMatchingC t selection (buffer, count) = some ((buffer', count'), r) ∧
      (r = .ok () ↔ ∃ s l, Labels.ofC selection = .ok s ∧ t.blocksMatching s = .ok l ∧ l.length ≤ count) ∧
      (∀ s l, Labels.ofC selection = .ok s → t.blocksMatching s = .ok l →
        count' = l.length ∧ (l.length ≤ count → buffer'.take l.length = l)) ∧
      buffer'.length = buffer.length ∧ buffer'.drop count = buffer.drop count := by
  unfold blocksMatchingC
  cases hs : Labels.ofC selection with
  | err e => exact ⟨buffer, count, .err e, by simp, by simp, by simp, rfl, rfl⟩
  | panic m => exact ⟨buffer, count, .panic m, by simp, by simp, by simp, rfl, rfl⟩
  | ok s =>
    simp only [CAct.lift_ok_bind]
    cases hb : t.blocksMatching s with
    | err e => exact ⟨buffer, count, .err e, by simp, by simp [hb],
        (by rintro s' l' h1 h2; cases h1; rw [hb] at h2; cases h2), rfl, rfl⟩
    | panic m => exact ⟨buffer, count, .panic m, by simp, by simp [hb],
        (by rintro s' l' h1 h2; cases h1; rw [hb] at h2; cases h2), rfl, rfl⟩
    | ok l =>
      have hw := writeIndexes_eq (capacity := count) l [] buffer l.length (by simp) (by simpa using hbuffer)
      simp only [List.length_nil, List.nil_append, Nat.zero_add, Nat.sub_zero] at hw
      simp only [CAct.lift_ok_bind, CAct.get_bind, CAct.set_bind, hw]
      by_cases hl : l.length ≤ count
      · refine ⟨l ++ buffer.drop l.length, l.length, .ok (), by rw [if_pos hl], ?_, ?_, ?_, ?_⟩
        · simp [hb, hl]
        · rintro s' l' h1 h2
          cases h1
          rw [hb] at h2
          cases h2
          simp
        · simp; omega
        · rw [List.drop_append, List.drop_eq_nil_of_le hl, List.drop_drop]
          simp [hl]
      · refine ⟨l.take count ++ buffer.drop count, l.length, _, by rw [if_neg hl], ?_, ?_, ?_, ?_⟩
        · simp [hb, hl]
        · rintro s' l' h1 h2
          cases h1
          rw [hb] at h2
          cases h2
          exact ⟨rfl, fun h => absurd h hl⟩
        · simp; omega
        · rw [List.drop_append, List.drop_eq_nil_of_le (by simp; omega), List.drop_drop]
          simp; omega

/-- **C43.** One entry per block is always enough. -/
theorem C43_one_entry_per_block (t : TensorMap A) (ht : TensorValid t) (hn : t.keys.names ≠ [])
    (s : Labels) (hs : s.FromBuilder) (l : List Nat) (hl : t.blocksMatching s = .ok l) :
    l.length ≤ t.blocks.length := by
  by_cases hsn : s.names = []
  · rw [C13_empty_selection t s hsn] at hl
    cases hl
    simp
  · have hw := hs.wf hsn
    have hkw := ht.keys.wf hn
    have hc := (C13_blocks_matching_iff t s ht.keys hn hs hsn).1 ⟨l, hl⟩
    have h1 : s.rows.length = 1 := by
      have := hw.count_eq; rw [hc.1, Res.ok.injEq] at this; exact this.symm
    obtain ⟨hsorted, hmem⟩ := C13_blocks_matching_result t s l _ ht.keys hn hs hsn hl
      (hw.index_eq (i := 0) (by omega))
    have hlen : t.keys.rows.length = t.blocks.length := by
      have := hkw.count_eq; rw [ht.count, Res.ok.injEq] at this; exact this.symm
    have hsub : l ⊆ List.range t.blocks.length := by
      intro i hi
      obtain ⟨key, hk, _⟩ := (hmem i).1 hi
      rw [List.mem_range, ← hlen]
      by_contra hge
      rw [hkw.index_panic hge] at hk
      cases hk
    have hnd : l.Nodup := hsorted.imp (fun h => Nat.ne_of_lt h)
    have := (List.subperm_of_subset hnd hsub).length_le
    simpa using this

/-- Non-vacuity of C43: two blocks of the example match. They fit in a buffer of three entries and of two; in
a buffer of one entry followed by other memory, this other memory is not modified. -/
example :
    let selection : CLabels :=
      { labelsPtr := none, names := some [[108, 0]], values := some [1], size := 1, count := 1 }
    blocksMatchingC Example.tensor selection ([7, 7, 7], 3) = some (([0, 2, 7], 2), .ok ()) ∧
    blocksMatchingC Example.tensor selection ([7, 7], 2) = some (([0, 2], 2), .ok ()) ∧
    blocksMatchingC Example.tensor selection ([7, 7, 7], 1) =
      some (([0, 7, 7], 2), .panic "index out of bounds") := by
  decide +kernel

/-! ### C44 -/

/-- **C44**, the full statement: for a buffer of any size, `eqs_get_data_origin` stays inside
of the buffer, it succeeds if and only if the name and a NUL fit, and then the buffer starts
with them. -/
def C44_full_statement : Prop :=
  ∀ (build : Build) (origins : List String) (origin : Nat) (name : String) (buffer : Bytes),
    buffer.length < 2 ^ 64 → Origins.get origins origin = .ok name →
    ∃ buffer' r, getDataOriginC build origins origin buffer.length buffer = some (buffer', r) ∧
      buffer'.length = buffer.length ∧
      (r = .ok () ↔ name.utf8ByteSize + 1 ≤ buffer.length) ∧
      (r = .ok () → ∃ rest, buffer' = name.toUTF8.data.toList ++ 0 :: rest)

theorem utf8Bytes_length (s : String) : (utf8Bytes s).length = s.utf8ByteSize := by
  rfl

/-- **C44** for buffers of at least one byte. Memory behind the given size is not modified either, and
nothing is written if the name does not fit. Missing: empty buffers in release builds, see
`C44_counterexample`. -/
theorem C44_data_origin_buffer_partial (build : Build) (origins : List String) (origin : Nat) (name : String)
    (buffer : Bytes) (size : Nat) (hsize : size ≤ buffer.length) (h0 : 0 < size)
    (hname : Origins.get origins origin = .ok name) :
    ∃ buffer' r, getDataOriginC build origins origin size buffer = some (buffer', r) ∧
      buffer'.length = buffer.length ∧ buffer'.drop size = buffer.drop size ∧
      (r = .ok () ↔ name.utf8ByteSize + 1 ≤ size) ∧
      (r = .ok () → ∃ rest, buffer' = name.toUTF8.data.toList ++ 0 :: rest) ∧
      (r ≠ .ok () → buffer' = buffer ∧ ∃ m, r = .err (.invalidParameter m)) := by
  have hl := utf8Bytes_length name
  unfold getDataOriginC copyStrToC
  have hsub : usizeSub build size 1 = .ok (size - 1) := if_pos (by omega)
  simp only [hname, CAct.lift_ok_bind, hsub]
  by_cases hfit : name.utf8ByteSize + 1 ≤ size
  · have hmin : min (utf8Bytes name).length (size - 1) = (utf8Bytes name).length := by omega
    have hw1 := writeAt_some (buffer := buffer) (bytes := utf8Bytes name) (i := 0) (by omega)
    have hw2 := writeAt_some (buffer := utf8Bytes name ++ buffer.drop (utf8Bytes name).length)
      (bytes := [(0 : UInt8)]) (i := (utf8Bytes name).length) (by simp; omega)
    simp only [List.take_zero, List.nil_append, Nat.zero_add] at hw1
    simp only [List.take_left, List.drop_append, List.length_cons, List.length_nil, List.drop_drop] at hw2
    refine ⟨utf8Bytes name ++ 0 :: buffer.drop ((utf8Bytes name).length + 1), .ok (), ?_, ?_, ?_, ?_, ?_, ?_⟩
    · simp only [hmin, Nat.lt_irrefl, decide_false, Bool.not_false, Res.guardErr, if_true, CAct.lift_ok_bind,
        List.take_length, CAct.get_bind, hw1, hw2, CAct.require_some_bind, CAct.set_apply]
      simp
    · simp; omega
    · rw [show utf8Bytes name ++ 0 :: buffer.drop ((utf8Bytes name).length + 1) =
        (utf8Bytes name ++ [0]) ++ buffer.drop ((utf8Bytes name).length + 1) by simp]
      rw [List.drop_append, List.drop_eq_nil_of_le (by simp; omega), List.drop_drop]
      simp only [List.length_append, List.length_cons, List.length_nil, List.nil_append]
      congr 1
      omega
    · simp [hfit]
    · intro _; exact ⟨_, rfl⟩
    · intro h; exact absurd rfl h
  · have hmin : min (utf8Bytes name).length (size - 1) = size - 1 := by omega
    have hlt : size - 1 < (utf8Bytes name).length := by omega
    refine ⟨buffer, _, by
      simp only [hmin, hlt, decide_true, Bool.not_true, Res.guardErr]
      rfl, rfl, rfl, ?_, ?_, ?_⟩
    · simp [hfit]
    · intro h; cases h
    · intro _; exact ⟨rfl, _, rfl⟩

/-- **C44** in debug builds: an empty buffer is refused. -/
theorem C44_empty_buffer_debug (origins : List String) (origin : Nat) (name : String) (buffer : Bytes)
    (hname : Origins.get origins origin = .ok name) :
    ∃ m, getDataOriginC ⟨true⟩ origins origin 0 buffer = some (buffer, .panic m) := by
  refine ⟨"attempt to subtract with overflow", ?_⟩
  unfold getDataOriginC copyStrToC
  simp [hname, usizeSub]

/-- **C44** is false: a release build writes after the end of an empty buffer, whatever the name. -/
theorem C44_counterexample : ¬ C44_full_statement := by
  intro h
  obtain ⟨b, r, h1, _⟩ := h ⟨false⟩ Origins.init 0 "unregistered origin" [] (by decide) rfl
  revert h1
  have : getDataOriginC ⟨false⟩ Origins.init 0 ([] : Bytes).length [] = none := by decide +kernel
  rw [this]
  exact fun h => nomatch h

/-- Non-vacuity of C44: a name with a non-ASCII character. -/
example :
    getDataOriginC ⟨false⟩ ["unregistered origin", "é"] 1 3 [9, 9, 9, 9] = some ([195, 169, 0, 9], .ok ()) ∧
    getDataOriginC ⟨false⟩ ["unregistered origin", "é"] 1 2 [9, 9, 9, 9] =
      some ([9, 9, 9, 9], .err (.invalidParameter "got space for 1 characters, but we need to write 2")) := by
  decide +kernel

/-! ### C45 -/

/-- **C45**, the full statement: `data_origin_name` gives the name of an origin, however long it is. -/
def C45_full_statement : Prop :=
  ∀ (build : Build) (origins : List String) (origin : Nat) (name : String) (thread : ThreadId) (m : Messages),
    '\x00' ∉ name.toList → Origins.get origins origin = .ok name →
    ∃ fuel m', pyDataOriginName fuel build origins origin thread m = some (m', .value name)

/-- **C45** for names of at most 1023 bytes. Missing: longer names, see `C45_longer_names_raise`. -/
theorem C45_short_names_partial (build : Build) (origins : List String) (origin : Nat) (name : String)
    (thread : ThreadId) (m : Messages) (h0 : '\x00' ∉ name.toList)
    (hname : Origins.get origins origin = .ok name) (hlen : name.utf8ByteSize ≤ 1023) (fuel : Nat) (hf : 0 < fuel) :
    pyDataOriginName fuel build origins origin thread m = some (m, .value name) := by
  obtain ⟨buffer', r, h1, _, _, h4, h5, _⟩ := C44_data_origin_buffer_partial build origins origin name
    (List.replicate 1024 0) 1024 (Nat.le_of_eq List.length_replicate.symm) (by omega) hname
  have hr := h4.2 (by omega)
  obtain ⟨rest, hrest⟩ := h5 hr
  obtain ⟨fuel, rfl⟩ : ∃ k, fuel = k + 1 := ⟨fuel - 1, by omega⟩
  subst hr hrest
  have hc := cstrStr_append h0 rest
  unfold utf8Bytes at hc
  simp only [pyDataOriginName, pyGrow, pyGetDataOrigin, h1, catchUnwind, if_true, hc]

/-- **C45** is false for all the longer names: the C function returns `EQS_INVALID_PARAMETER_ERROR`, while the
loop only grows the buffer on `EQS_BUFFER_SIZE_ERROR`. The error reaches the user. -/
theorem C45_longer_names_raise (build : Build) (origins : List String) (origin : Nat) (name : String)
    (thread : ThreadId) (m : Messages) (hname : Origins.get origins origin = .ok name)
    (hlen : 1023 < name.utf8ByteSize) (fuel : Nat) (hf : 0 < fuel) :
    ∃ m' message, pyDataOriginName fuel build origins origin thread m = some (m', .raised 1 message) := by
  obtain ⟨fuel, rfl⟩ : ∃ k, fuel = k + 1 := ⟨fuel - 1, by omega⟩
  have hl := utf8Bytes_length name
  have hsub : usizeSub build 1024 1 = .ok 1023 := if_pos (by omega)
  have hmin : min (utf8Bytes name).length 1023 = 1023 := by omega
  have hlt : 1023 < (utf8Bytes name).length := by omega
  obtain ⟨message, hcall, hnul⟩ : ∃ message, getDataOriginC build origins origin 1024 (List.replicate 1024 0) =
      some (List.replicate 1024 0, .err (.invalidParameter message)) ∧ '\x00' ∉ message.toList := by
    refine ⟨s!"got space for {1023} characters, but we need to write {(utf8Bytes name).length}", ?_, ?_⟩
    · unfold getDataOriginC copyStrToC
      simp only [hname, CAct.lift_ok_bind, hsub, hmin, hlt, decide_true, Bool.not_true, Res.guardErr]
      rfl
    · have h1 := toString_nat_no_nul 1023
      have h2 := toString_nat_no_nul (utf8Bytes name).length
      have h3 : '\x00' ∉ "got space for ".toList := by decide +kernel
      have h4 : '\x00' ∉ " characters, but we need to write ".toList := by decide +kernel
      intro hmem
      simp only [String.toList_append, List.mem_append] at hmem
      rcases hmem with ((hmem | hmem) | hmem) | hmem
      · exact h3 hmem
      · exact h1 hmem
      · exact h4 hmem
      · exact h2 hmem
  have hrep : Reportable (.err (.invalidParameter message)) := by
    rintro _ ⟨rfl⟩
    rw [String.toList_append, List.mem_append]
    rintro (hmem | hmem)
    · revert hmem; decide +kernel
    · exact hnul hmem
  refine ⟨m.set thread ("invalid parameter: " ++ message), "invalid parameter: " ++ message, ?_⟩
  have hpy : pyGetDataOrigin build origins origin 1024 thread m =
      some (m.set thread ("invalid parameter: " ++ message), .raised 1 ("invalid parameter: " ++ message)) := by
    unfold pyGetDataOrigin
    rw [hcall]
    simp only [catchUnwind_eq hrep, failureMessage, statusCode]
    simp [successStatus, lastError, Messages.set]
  unfold pyDataOriginName pyGrow
  simp only [hpy]
  rfl

/-- **C45** is false: a name of 1024 bytes. -/
theorem C45_counterexample : ¬ C45_full_statement := by
  intro h
  have hlen : (String.ofList (List.replicate 1024 'x')).utf8ByteSize = 1024 := by decide +kernel
  have hget : Origins.get [String.ofList (List.replicate 1024 'x')] 0 =
      .ok (String.ofList (List.replicate 1024 'x')) := rfl
  have hnul : '\x00' ∉ (String.ofList (List.replicate 1024 'x')).toList := by
    rw [String.toList_ofList]
    intro hm
    cases (List.mem_replicate.1 hm).2
  obtain ⟨fuel, m', hv⟩ := h ⟨true⟩ _ 0 _ 0 Messages.init hnul hget
  cases fuel with
  | zero => cases hv
  | succ fuel =>
    obtain ⟨m'', message, hr⟩ := C45_longer_names_raise ⟨true⟩ _ 0 _ 0 Messages.init hget
      (by rw [hlen]; decide) (fuel + 1) (by omega)
    rw [hv] at hr
    cases hr

/-- **C45.** The loop itself works: if the function asks for a larger buffer by `EQS_BUFFER_SIZE_ERROR` exactly when the buffer is
smaller than what it needs, the loop ends with a large enough buffer, whatever the initial size, which is not zero. -/
theorem C45_growing_buffer {σ : Type} (call : Nat → σ → Option (σ × PyResult Bytes)) (needed : Nat) (s : σ) (result : Bytes)
    (hsmall : ∀ size, size < needed → ∃ message, call size s = some (s, .raised bufferSizeStatus message))
    (hlarge : ∀ size, needed ≤ size → call size s = some (s, .value result)) (initial : Nat) (h0 : 0 < initial)
    (fuel : Nat) (hf : needed < fuel) : pyGrow call fuel initial s = some (s, .value result) := by
  have key : ∀ fuel initial, 0 < initial → needed < fuel + initial → 0 < fuel →
      pyGrow call fuel initial s = some (s, .value result) := by
    intro fuel
    induction fuel with
    | zero => intro _ _ _ h; omega
    | succ fuel ih =>
      intro initial h0 h1 _
      unfold pyGrow
      by_cases h : initial < needed
      · obtain ⟨message, hm⟩ := hsmall initial h
        rw [hm]
        exact (if_pos rfl).trans (ih (initial * 2) (by omega) (by omega) (by omega))
      · rw [hlarge initial (by omega)]
  exact key fuel initial h0 (by omega) (by omega)

/-- Non-vacuity of `C45_growing_buffer`: a function needing 5000 bytes. -/
example : pyGrow (fun size (s : Unit) => if size < 5000 then some (s, .raised bufferSizeStatus "too small") else some (s, .value [1, 0]))
    5001 1024 () = some ((), .value [1, 0]) :=
  C45_growing_buffer _ 5000 () [1, 0] (fun _ h => ⟨"too small", if_pos h⟩) (fun _ h => if_neg (by omega)) 1024 (by decide) 5001
    (by decide)

/-- Non-vacuity of `C45_short_names_partial`: the reserved name. -/
example (build : Build) (thread : ThreadId) (m : Messages) :
    pyDataOriginName 1 build Origins.init 0 thread m = some (m, .value "unregistered origin") :=
  C45_short_names_partial build Origins.init 0 "unregistered origin" thread m (by decide +kernel) rfl
    (by decide +kernel) 1 (by decide)

end Equistore
