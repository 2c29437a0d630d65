import Verif.Model.COrigins
import Verif.Props.Origins
import Verif.Props.CBuffers
import Verif.Props.CBlocks

/-!
# Data origins from C (C116)
-/

namespace Equistore
open Spec

/-! ### One call -/

theorem registerDataOriginC_ok {memory : Bytes} {name : String} (h : IsCString memory name) (registry : List String)
    (old : Nat) : registerDataOriginC (some memory) (registry, some old) =
      some (((Origins.register registry name).1, some (Origins.register registry name).2), .ok ()) := by
  have h0 : (0 : UInt8) ∈ memory := by obtain ⟨-, rest, rfl⟩ := h; simp
  unfold registerDataOriginC
  simp [checkPointer, Res.okOr, h0, h.str, Res.expect]

theorem registerDataOriginC_cases {memory : Option Bytes} {registry : List String} {origin : Option Nat}
    {x : (List String × Option Nat) × Res Unit} (h : registerDataOriginC memory (registry, origin) = some x) :
    (x.1 = (registry, origin) ∧ x.2 ≠ .ok ()) ∨
    ∃ name, x = (((Origins.register registry name).1, some (Origins.register registry name).2), .ok ()) := by
  unfold registerDataOriginC at h
  cases memory with
  | none =>
    simp [checkPointer, Res.okOr, bind, CAct.bind, CAct.lift] at h
    subst h
    exact .inl ⟨rfl, by simp⟩
  | some memory =>
    cases origin with
    | none =>
      simp [checkPointer, Res.okOr, bind, CAct.bind, CAct.lift, CAct.get] at h
      subst h
      exact .inl ⟨rfl, by simp⟩
    | some old =>
      by_cases h0 : (0 : UInt8) ∈ memory
      · cases hs : cstrStr memory with
        | none =>
          simp [checkPointer, Res.okOr, bind, CAct.bind, CAct.lift, CAct.get, CAct.require, h0, hs, Res.expect] at h
          subst h
          exact .inl ⟨rfl, by simp⟩
        | some name =>
          simp [checkPointer, Res.okOr, bind, CAct.bind, CAct.lift, CAct.get, CAct.set, CAct.require, h0, hs, Res.expect] at h
          subst h
          exact .inr ⟨name, rfl⟩
      · simp [checkPointer, Res.okOr, bind, CAct.bind, CAct.lift, CAct.get, CAct.require, h0] at h

/-! ### All calls -/

theorem OriginCall.run_registry {build : Build} {call : OriginCall} {s s' : COrigins} {reply : OriginReply}
    (h : call.run build s = some (s', reply)) :
    s'.registry = s.registry ∨ ∃ name, s'.registry = (Origins.register s.registry name).1 ∧
      reply.status = some 0 ∧ reply.origin = some (Origins.register s.registry name).2 := by
  cases call with
  | register thread name origin =>
    simp only [OriginCall.run] at h
    split at h
    · cases h
    · next hr =>
      simp only [Option.some.injEq, Prod.mk.injEq] at h
      obtain ⟨rfl, rfl⟩ := h
      rcases registerDataOriginC_cases hr with ⟨h1, -⟩ | ⟨name, h1⟩
      · rw [Prod.mk.injEq] at h1
        exact .inl h1.1
      · simp only [Prod.mk.injEq] at h1
        obtain ⟨⟨h1, h2⟩, rfl⟩ := h1
        exact .inr ⟨name, h1, rfl, h2⟩
  | get thread origin buffer size =>
    simp only [OriginCall.run] at h
    split at h
    · cases h
    · simp only [Option.some.injEq, Prod.mk.injEq] at h
      obtain ⟨rfl, -⟩ := h
      exact .inl rfl

theorem OriginCall.runAll_exec {build : Build} {calls : List OriginCall} {s s' : COrigins} {replies : List OriginReply}
    (h : runAll build calls s = some (s', replies)) :
    ∃ calls', s'.registry = Origins.exec s.registry calls' ∧ ∀ n i, (n, i) ∈ Origins.returned s.registry calls' →
      ∃ reply ∈ replies, reply.status = some 0 ∧ reply.origin = some i := by
  induction calls generalizing s replies with
  | nil =>
    simp only [runAll, Option.some.injEq, Prod.mk.injEq] at h
    obtain ⟨rfl, rfl⟩ := h
    exact ⟨[], rfl, by simp [Origins.returned]⟩
  | cons call calls ih =>
    simp only [runAll] at h
    split at h
    · cases h
    · next s₁ reply h1 =>
      split at h
      · cases h
      · next s₂ replies₂ h2 =>
        simp only [Option.some.injEq, Prod.mk.injEq] at h
        obtain ⟨rfl, rfl⟩ := h
        obtain ⟨calls', h3, h4⟩ := ih h2
        rcases run_registry h1 with h5 | ⟨name, h5, h6, h7⟩
        · rw [h5] at h3 h4
          exact ⟨calls', h3, fun n i hn => by
            obtain ⟨r, hr, h8⟩ := h4 n i hn
            exact ⟨r, List.mem_cons_of_mem _ hr, h8⟩⟩
        · refine ⟨.register 0 name :: calls', by rw [Origins.exec, ← h5, h3], fun n i hn => ?_⟩
          simp only [Origins.returned, List.mem_cons, Prod.mk.injEq] at hn
          rcases hn with ⟨rfl, rfl⟩ | hn
          · exact ⟨reply, List.mem_cons_self, h6, h7⟩
          · rw [← h5] at hn
            obtain ⟨r, hr, h8⟩ := h4 n i hn
            exact ⟨r, List.mem_cons_of_mem _ hr, h8⟩

/-- The state is reached by some calls of the program. -/
def COrigins.Reached (build : Build) (s : COrigins) : Prop :=
  ∃ calls replies, OriginCall.runAll build calls .init = some (s, replies)

theorem OriginCall.run_register {build : Build} {memory : Bytes} {name : String} (h : IsCString memory name)
    (s : COrigins) (thread : ThreadId) (old : Nat) :
    (OriginCall.register thread (some memory) (some old)).run build s =
      some (⟨(Origins.register s.registry name).1, s.messages⟩, ⟨some 0, some (Origins.register s.registry name).2, none⟩) := by
  simp only [OriginCall.run, registerDataOriginC_ok h]
  rfl

theorem OriginCall.run_get {build : Build} {s : COrigins} {origin : Nat} {name : String}
    (hname : Origins.get s.registry origin = .ok name) (thread : ThreadId) (buffer : Bytes) (size : Nat)
    (hfit : name.utf8ByteSize + 1 ≤ size) (hsize : size ≤ buffer.length) :
    ∃ buffer', (OriginCall.get thread origin (some buffer) size).run build s = some (s, ⟨some 0, none, some buffer'⟩) ∧
      (∃ rest, buffer' = name.toUTF8.data.toList ++ 0 :: rest) ∧ buffer'.length = buffer.length ∧
      buffer'.drop size = buffer.drop size := by
  obtain ⟨buffer', r, h1, h2, h3, h4, h5, -⟩ :=
    C44_data_origin_buffer_partial build s.registry origin name buffer size hsize (by omega) hname
  have hr := h4.2 hfit
  subst hr
  refine ⟨buffer', ?_, h5 rfl, h2, h3⟩
  simp only [OriginCall.run, getDataOriginAt, checkPointer, Res.okOr, h1, Option.map_some]
  rfl

theorem OriginCall.run_get_small {build : Build} {s : COrigins} {origin : Nat} {name : String}
    (hname : Origins.get s.registry origin = .ok name) (thread : ThreadId) (buffer : Bytes) (size : Nat)
    (h0 : 0 < size) (hfit : size < name.utf8ByteSize + 1) :
    ∃ s', (OriginCall.get thread origin (some buffer) size).run build s =
      some (s', ⟨some invalidParameterStatus, none, some buffer⟩) ∧ s'.registry = s.registry := by
  have hl := utf8Bytes_length name
  have hsub : usizeSub build size 1 = .ok (size - 1) := if_pos (by omega)
  have hmin : min (utf8Bytes name).length (size - 1) = size - 1 := by omega
  have hlt : size - 1 < (utf8Bytes name).length := by omega
  obtain ⟨message, hcall, hnul⟩ : ∃ message, getDataOriginC build s.registry origin size buffer =
      some (buffer, .err (.invalidParameter message)) ∧ '\x00' ∉ message.toList := by
    refine ⟨s!"got space for {size - 1} characters, but we need to write {(utf8Bytes name).length}", ?_, ?_⟩
    · unfold getDataOriginC copyStrToC
      simp only [hname, CAct.lift_ok_bind, hsub, hmin, hlt, decide_true, Bool.not_true, Res.guardErr]
      rfl
    · have h1 := toString_nat_no_nul (size - 1)
      have h2 := toString_nat_no_nul (utf8Bytes name).length
      have h3 : '\x00' ∉ "got space for ".toList := by decide +kernel
      have h4 : '\x00' ∉ " characters, but we need to write ".toList := by decide +kernel
      intro hmem
      simp only [String.toList_append, List.mem_append] at hmem
      rcases hmem with ((hmem | hmem) | hmem) | hmem
      · exact h3 hmem
      · exact h1 hmem
      · exact h4 hmem
      · exact h2 hmem
  have hrep : Reportable (.err (.invalidParameter message)) := by
    rintro _ ⟨rfl⟩
    rw [String.toList_append, List.mem_append]
    rintro (hmem | hmem)
    · revert hmem; decide +kernel
    · exact hnul hmem
  simp only [OriginCall.run, getDataOriginAt, checkPointer, Res.okOr, hcall, Option.map_some, catchUnwind_eq hrep]
  exact ⟨_, rfl, rfl⟩

theorem isCString_of_cstrStr {memory : Bytes} {name : String} (h0 : (0 : UInt8) ∈ memory) (h : cstrStr memory = some name) :
    IsCString memory name := by
  have h1 : utf8Bytes name = cstrBytes memory := by
    unfold cstrStr String.fromUTF8? at h
    split at h
    · cases h
      simp [utf8Bytes, String.fromUTF8, String.toUTF8]
    · cases h
  have h2 : (0 : UInt8) ∉ cstrBytes memory := by
    intro hm
    have := List.all_eq_true.1 (List.all_takeWhile (p := (· != 0)) (l := memory)) 0 hm
    simp at this
  refine ⟨fun hc => h2 ?_, ?_⟩
  · rw [← h1, utf8Bytes_eq]
    exact List.mem_flatMap.2 ⟨_, hc, by decide⟩
  · have h3 : memory = cstrBytes memory ++ memory.dropWhile (· != 0) := (List.takeWhile_append_dropWhile ..).symm
    cases h4 : memory.dropWhile (· != 0) with
    | nil =>
      rw [h4, List.append_nil] at h3
      rw [h3] at h0
      exact absurd h0 h2
    | cons b rest =>
      have h5 : b = 0 := by
        have := List.head?_dropWhile_not (· != 0) memory
        rw [h4] at this
        simpa using this
      refine ⟨rest, ?_⟩
      rw [h4, h5, ← h1] at h3
      exact h3

/-! ### C116 -/

/-- **C116**, the names: at any point of any program, registering a name given as a C string succeeds. After any further calls
of any threads, `eqs_get_data_origin` writes this name, with a NUL after it, to every buffer which is big enough, and
nothing after the size of the buffer; buffers which are too small give `EQS_INVALID_PARAMETER_ERROR` and are not changed
(an empty buffer is the defect of C44); registering the name again, from any memory, gives the same number and changes nothing;
registering another name gives another number. -/
theorem C116_names (build : Build) (s : COrigins) (hs : s.Reached build) (memory : Bytes) (name : String)
    (hn : IsCString memory name) (thread : ThreadId) (old : Nat) :
    ∃ s₁ id, (OriginCall.register thread (some memory) (some old)).run build s = some (s₁, ⟨some 0, some id, none⟩) ∧
    ∀ between s₂ replies, OriginCall.runAll build between s₁ = some (s₂, replies) →
      (∀ thread buffer size, name.utf8ByteSize + 1 ≤ size → size ≤ buffer.length →
        ∃ buffer', (OriginCall.get thread id (some buffer) size).run build s₂ = some (s₂, ⟨some 0, none, some buffer'⟩) ∧
          (∃ rest, buffer' = name.toUTF8.data.toList ++ 0 :: rest) ∧ buffer'.length = buffer.length ∧
          buffer'.drop size = buffer.drop size) ∧
      (∀ thread buffer size, 0 < size → size < name.utf8ByteSize + 1 →
        ∃ s₃, (OriginCall.get thread id (some buffer) size).run build s₂ =
          some (s₃, ⟨some invalidParameterStatus, none, some buffer⟩) ∧ s₃.registry = s₂.registry) ∧
      (∀ thread memory' old, IsCString memory' name →
        (OriginCall.register thread (some memory') (some old)).run build s₂ = some (s₂, ⟨some 0, some id, none⟩)) ∧
      (∀ thread memory' name' old, IsCString memory' name' → name' ≠ name →
        ∃ s₃ id', (OriginCall.register thread (some memory') (some old)).run build s₂ = some (s₃, ⟨some 0, some id', none⟩) ∧
          id' ≠ id) := by
  obtain ⟨calls, replies₀, h0⟩ := hs
  obtain ⟨before, h1, -⟩ := OriginCall.runAll_exec h0
  refine ⟨_, _, OriginCall.run_register hn s thread old, fun between s₂ replies h2 => ?_⟩
  obtain ⟨between', h3, -⟩ := OriginCall.runAll_exec h2
  obtain ⟨h4, h5, h6, -⟩ := Origins.C30_origins_stable_injective before between' name s.registry
    (Origins.register s.registry name).1 s₂.registry (Origins.register s.registry name).2 h1 rfl h3
  refine ⟨fun thread buffer size hfit hsize => OriginCall.run_get h4 thread buffer size hfit hsize,
    fun thread buffer size h0 hfit => OriginCall.run_get_small h4 thread buffer size h0 hfit,
    fun thread memory' old hn' => ?_, fun thread memory' name' old hn' hne => ?_⟩
  · rw [OriginCall.run_register hn', h5]
  · exact ⟨_, _, OriginCall.run_register hn' s₂ thread old, h6 name' hne⟩

/-- **C116**, numbers which were never given out: the name is "unregistered origin". -/
theorem C116_unknown (build : Build) (calls : List OriginCall) (s : COrigins) (replies : List OriginReply)
    (hs : OriginCall.runAll build calls .init = some (s, replies)) (id : Nat)
    (hid : ∀ reply ∈ replies, reply.status = some 0 → reply.origin ≠ some id) (thread : ThreadId) (buffer : Bytes) (size : Nat)
    (hfit : "unregistered origin".utf8ByteSize + 1 ≤ size) (hsize : size ≤ buffer.length) :
    ∃ buffer', (OriginCall.get thread id (some buffer) size).run build s = some (s, ⟨some 0, none, some buffer'⟩) ∧
      ∃ rest, buffer' = "unregistered origin".toUTF8.data.toList ++ 0 :: rest := by
  obtain ⟨calls', h1, h2⟩ := OriginCall.runAll_exec hs
  have h3 : Origins.get s.registry id = .ok "unregistered origin" := by
    rw [h1]
    refine Origins.C30_unknown_origin calls' id fun name hn => ?_
    obtain ⟨reply, hr, h4, h5⟩ := h2 name id hn
    exact hid reply hr h4 h5
  obtain ⟨buffer', h4, h5, -⟩ := OriginCall.run_get (build := build) h3 thread buffer size hfit hsize
  exact ⟨buffer', h4, h5⟩

/-- **C116**, registering without a name or without a place for the number: the call gives `EQS_INVALID_PARAMETER_ERROR`, the
message says which pointer is missing, and nothing else changes. -/
theorem C116_register_null (build : Build) (s : COrigins) (thread : ThreadId) (name : Option Bytes) (origin : Option Nat)
    (h : name = none ∨ origin = none) :
    (OriginCall.register thread name origin).run build s = some (⟨s.registry, s.messages.set thread
      ("invalid parameter: got invalid NULL pointer for " ++ if name = none then "name" else "origin")⟩,
      ⟨some invalidParameterStatus, origin, none⟩) := by
  cases name with
  | none => rfl
  | some memory =>
    obtain rfl : origin = none := h.resolve_left (by simp)
    rfl

/-- **C116**, registering a name which is not UTF-8: the call gives `EQS_INTERNAL_ERROR`, and the names and the memory behind
`origin` do not change. -/
theorem C116_register_not_utf8 (build : Build) (s : COrigins) (thread : ThreadId) (memory : Bytes) (old : Nat)
    (h0 : (0 : UInt8) ∈ memory) (hn : ∀ name, ¬ IsCString memory name) :
    ∃ s', (OriginCall.register thread (some memory) (some old)).run build s = some (s', ⟨some internalErrorStatus, some old, none⟩) ∧
      s'.registry = s.registry := by
  have hnone : cstrStr memory = none := by
    cases hs : cstrStr memory with
    | none => rfl
    | some name => exact absurd (isCString_of_cstrStr h0 hs) (hn name)
  have h1 : registerDataOriginC (some memory) (s.registry, some old) =
      some ((s.registry, some old), .panic "called `Result::unwrap()` on an `Err` value") := by
    unfold registerDataOriginC
    simp [checkPointer, Res.okOr, bind, CAct.bind, CAct.lift, CAct.get, CAct.require, h0, hnone, Res.expect]
  simp only [OriginCall.run, h1]
  exact ⟨_, rfl, rfl⟩

/-- **C116**, asking for a name without a buffer: the call gives `EQS_INVALID_PARAMETER_ERROR`, and the names do not change. -/
theorem C116_get_null (build : Build) (s : COrigins) (thread : ThreadId) (origin size : Nat) :
    (OriginCall.get thread origin none size).run build s = some (⟨s.registry, s.messages.set thread
      "invalid parameter: got invalid NULL pointer for buffer"⟩, ⟨some invalidParameterStatus, none, none⟩) := rfl

namespace Example

/-- A program: two names, one of them twice, and a name which is not UTF-8. -/
def originCalls : List OriginCall :=
  [.register 0 (some [110, 112, 0, 7]) (some 5), .register 1 (some [195, 169, 0]) (some 5),
    .register 2 (some [110, 112, 0]) (some 0), .register 0 (some [255, 0]) (some 9), .register 0 none (some 9),
    .get 1 2 (some [9, 9, 9, 9]) 3, .get 1 2 (some [9, 9, 9, 9]) 2]

theorem np_isCString : IsCString [110, 112, 0, 7] "np" := ⟨by decide +kernel, [7], by decide +kernel⟩

end Example

/-- Non-vacuity: a program with all kinds of calls, and what it gets. The state is reached, `[110, 112, 0, 7]` is a C string,
and `[255, 0]` is none. -/
example : ((OriginCall.runAll ⟨false⟩ Example.originCalls .init).map fun x => (x.1.registry, x.2)) =
      some (["unregistered origin", "np", "é"],
        [⟨some 0, some 1, none⟩, ⟨some 0, some 2, none⟩, ⟨some 0, some 1, none⟩, ⟨some 255, some 9, none⟩, ⟨some 1, some 9, none⟩,
          ⟨some 0, none, some [195, 169, 0, 9]⟩, ⟨some 1, none, some [9, 9, 9, 9]⟩]) ∧
    IsCString [110, 112, 0, 7] "np" ∧ ∀ name, ¬ IsCString [255, 0] name := by
  refine ⟨by decide +kernel, Example.np_isCString, fun name h => ?_⟩
  have h1 := h.str
  have h2 : cstrStr [255, 0] = none := by decide +kernel
  rw [h2] at h1
  cases h1

end Equistore
