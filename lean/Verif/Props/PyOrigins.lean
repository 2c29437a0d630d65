import Verif.Lemmas.PyOrigins

/-!
# What Python makes of arrays (C93)
-/

namespace Equistore
open Spec PyOrigins

/-! ### C93 -/

/-- **C93**, reading arrays: whatever threads and other implementations of arrays do, and in any order, arrays made in Python
are read as the object they were made from, arrays of the Rust library as a view, and all other arrays raise a `ValueError`
with the name of their origin. What is missing: arrays whose `origin` callback fails after it wrote an origin, see
`C93_counterexample`. -/
theorem C93_reads_partial (events : List Event) (hn : OwnNames events) (hw : NothingWritten events)
    (array : Handle) (outcome : Outcome) (h : (array, outcome) ∈ (Process.init.run events).reads) :
    ReadsAs array.what outcome := by
  refine (Invariant.init.run events ?_).reads _ h
  intro e he
  cases e with
  | other name =>
    obtain ⟨h1, h2, h3⟩ := hn name he
    intro k
    cases k <;> assumption
  | failing written => exact hw written he
  | _ => trivial

/-- **C93**, which arrays were made in Python: the answer is right. What is missing: as for `C93_reads_partial`. -/
theorem C93_allocated_partial (events : List Event) (hn : OwnNames events) (hw : NothingWritten events)
    (array : Handle) (answer : Bool) (h : (array, answer) ∈ (Process.init.run events).answers) :
    answer = true ↔ ∃ torch object, array.what = .python torch object := by
  refine (Invariant.init.run events ?_).answers _ h
  intro e he
  cases e with
  | other name =>
    obtain ⟨h1, h2, h3⟩ := hn name he
    intro k
    cases k <;> assumption
  | failing written => exact hw written he
  | _ => trivial

/-- **C93**, threads end: from any state, a thread is done after at most 12 of its steps, whatever happens in between. -/
theorem C93_ends (s : Process) (thread : Nat) (events : List Event) (hs : StartsNothing thread events)
    (hc : 12 ≤ events.count (.step thread)) : (s.run events).threads thread = none :=
  threads_run events hs s (Nat.le_trans (left_le _) hc)

/-- **C93**, comparing origins: two arrays have the same origin exactly if they are made by the same implementation, so that
numpy arrays, torch tensors and arrays of the library are never taken for each other. -/
theorem C93_same_origin (events : List Event) (hn : OwnNames events) (hw : NothingWritten events) (x y : Handle)
    (hx : x ∈ (Process.init.run events).arrays) (hy : y ∈ (Process.init.run events).arrays)
    (hx' : x.what ≠ .failing) (hy' : y.what ≠ .failing) : x.origin = y.origin ↔ SameImplementation x.what y.what := by
  have hi : Invariant (Process.init.run events) := by
    refine Invariant.init.run events ?_
    intro e he
    cases e with
    | other name =>
      obtain ⟨h1, h2, h3⟩ := hn name he
      intro k
      cases k <;> assumption
    | failing written => exact hw written he
    | _ => trivial
  have ox := hi.arrays x hx
  have oy := hi.arrays y hy
  obtain ⟨xw, xo⟩ := x
  obtain ⟨yw, yo⟩ := y
  simp only at ox oy hx' hy' ⊢
  -- the origins are the same if the names are
  have key : ∀ {n n' : String}, Names (Process.init.run events).registry xo n →
      Names (Process.init.run events).registry yo n' → (xo = yo ↔ n = n') := fun h1 h2 =>
    ⟨fun he => by subst he; exact h1.unique h2, fun he => by subst he; exact h1.inj hi.nodup h2⟩
  cases xw with
  | python torch object =>
    cases yw with
    | python torch' object' =>
      refine (key ox oy).trans ?_
      cases torch <;> cases torch' <;> simp [SameImplementation, Kind.name]
    | rust array =>
      refine (key ox oy).trans ?_
      cases torch <;> simp [SameImplementation, Kind.name]
    | other name =>
      refine (key ox oy.1).trans ?_
      have h1 := oy.2 .torch
      have h2 := oy.2 .numpy
      cases torch <;> simp [SameImplementation, Ne.symm h1, Ne.symm h2]
    | failing => exact absurd rfl hy'
  | rust array =>
    cases yw with
    | python torch' object' =>
      refine (key ox oy).trans ?_
      cases torch' <;> simp [SameImplementation, Kind.name]
    | rust array => simp [key ox oy, SameImplementation]
    | other name =>
      refine (key ox oy.1).trans ?_
      simp [SameImplementation, Ne.symm (oy.2 .rust)]
    | failing => exact absurd rfl hy'
  | other name =>
    cases yw with
    | python torch' object' =>
      refine (key ox.1 oy).trans ?_
      have h1 := ox.2 .torch
      have h2 := ox.2 .numpy
      cases torch' <;> simp [SameImplementation, h1, h2]
    | rust array =>
      refine (key ox.1 oy).trans ?_
      simp [SameImplementation, ox.2 .rust]
    | other name' => exact key ox.1 oy.1
    | failing => exact absurd rfl hy'
  | failing => exact absurd rfl hx'

/-! ### What is missing -/

/-- The property without its restriction. -/
def C93_full_statement : Prop :=
  ∀ events, OwnNames events → ∀ array outcome, (array, outcome) ∈ (Process.init.run events).reads →
    ReadsAs array.what outcome

namespace Example

/-- Two threads register origins at the same time; then arrays of all kinds are read. -/
def originsRace : List Event :=
  [.other "somewhere.else", .wrap 0 false 7, .wrap 1 false 8, .step 0, .step 1, .step 1, .step 0, .other "another",
    .step 0, .step 1, .step 1, .step 0, .rust 9, .wrap 0 true 10] ++ List.replicate 12 (.step 0) ++
  [.failing none, .read 0 0, .read 1 1, .read 2 2, .read 3 3, .read 4 4, .read 5 5, .read 6 6, .allocated 7 1, .allocated 8 2] ++
  (List.replicate 12 ((List.range 9).map .step)).flatten

/-- A numpy array is wrapped, then an array says it is a numpy array and that this failed. -/
def originFails : List Event :=
  [.wrap 0 false 7, .step 0, .step 0, .step 0, .step 0, .failing (some 1), .read 0 0] ++ List.replicate 12 (.step 0)

end Example

/-- **C93**, the defect: `data_origin` ignores the status of the callback, and uses what was written by a callback which
failed. The pointer is then used as a Python object. -/
theorem C93_counterexample : ¬ C93_full_statement := by
  intro h
  have := h Example.originFails (fun name he => by simp [Example.originFails] at he) ⟨.failing, some 1⟩ .object
    (by decide +kernel)
  obtain ⟨name, e⟩ := this
  cases e

/-- Non-vacuity of `C93`: all the kinds of arrays are read after two threads registered the same origin at the same time. -/
example : OwnNames Example.originsRace ∧ NothingWritten Example.originsRace ∧
    (Process.init.run Example.originsRace).reads.map (fun r => (r.1.what, r.2)) =
      [(.other "somewhere.else", .valueError "somewhere.else"), (.other "another", .valueError "another"),
        (.rust 9, .view), (.failing, .valueError "unregistered origin"), (.python false 8, .object),
        (.python false 7, .object), (.python true 10, .object)] ∧
    (Process.init.run Example.originsRace).answers.map (fun r => (r.1.what, r.2)) =
      [(.rust 9, false), (.python true 10, true)] := by
  refine ⟨fun name he => ?_, fun written he => ?_, ?_, ?_⟩
  · simp [Example.originsRace, List.mem_flatten, List.mem_replicate] at he
    rcases he with rfl | rfl <;> decide
  · simp [Example.originsRace, List.mem_flatten, List.mem_replicate] at he
    exact he
  · decide +kernel
  · decide +kernel

/-- Non-vacuity of `C93_same_origin`: all the kinds of arrays. -/
example : (Process.init.run Example.originsRace).arrays.map (fun a => (a.what, a.origin)) =
    [(.failing, some 0), (.python true 10, some 5), (.rust 9, some 4), (.python false 7, some 2), (.python false 8, some 2),
      (.other "another", some 3), (.other "somewhere.else", some 1)] := by decide +kernel

/-- Non-vacuity of `C93_ends`. -/
example : StartsNothing 0 (List.replicate 12 (.step 0)) ∧ 12 ≤ (List.replicate 12 (Event.step 0)).count (.step 0) ∧
    (Process.init.event (.wrap 0 false 7)).threads 0 ≠ none := by
  refine ⟨fun e he => ?_, by simp, by decide +kernel⟩
  rw [List.eq_of_mem_replicate he]
  trivial

end Equistore
