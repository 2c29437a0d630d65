import Verif.Lemmas.PyStatus

/-!
# Exceptions raised in callbacks, seen from Python (C67)
-/

namespace Equistore
open Spec PyStatus

/-! ### C67 -/

/-- **C67**, one call at a time: the error of a method has the right status, and is caused by the exception which was raised in a callback during this
method, and by nothing if there was no such exception, for programs with any number of threads and calls, as
long as only one thread at a time is inside of the library. What is missing: calls at the same time in several threads
(`C67_threads_counterexample`), functions where the library replaces the status by a panic (`C67_panic_counterexample`), and
exceptions such as `KeyboardInterrupt` (`C67_interrupt_counterexample`). -/
theorem C67_cause_partial (programs : List (List Call)) (hs : ∀ calls ∈ programs, ∀ c ∈ calls, StatusOk c)
    (hn : ∀ calls ∈ programs, ∀ c ∈ calls, NotInterrupted c) (hr : ∀ calls ∈ programs, ∀ c ∈ calls, StatusReported c)
    (schedule : List Nat) (ho : OneAtATime (State.init programs) schedule) :
    ∀ entry ∈ ((State.init programs).run schedule).log, OutcomeRight entry.1 entry.2 :=
  ((Serial.init hn hs hr).run ho).log

/-- **C67**, programs with a single thread. What is missing: as above. -/
theorem C67_single_thread_partial (calls : List Call) (hs : ∀ c ∈ calls, StatusOk c) (hn : ∀ c ∈ calls, NotInterrupted c)
    (hr : ∀ c ∈ calls, StatusReported c) (schedule : List Nat) :
    ∀ entry ∈ ((State.init [calls]).run schedule).log, OutcomeRight entry.1 entry.2 :=
  C67_cause_partial [calls] (by simpa using hs) (by simpa using hn) (by simpa using hr) schedule
    (oneAtATime_single calls schedule)

/-- **C67**, any threads: whatever the order of the threads, a method succeeds if and only if no callback raised an exception
during this method and the library had no other error. What is missing: exceptions such as `KeyboardInterrupt`. -/
theorem C67_failures_partial (programs : List (List Call)) (hs : ∀ calls ∈ programs, ∀ c ∈ calls, StatusOk c)
    (hn : ∀ calls ∈ programs, ∀ c ∈ calls, NotInterrupted c) (schedule : List Nat) :
    ∀ entry ∈ ((State.init programs).run schedule).log, FailsRight entry.1 entry.2 :=
  ((Invariant.init hn hs).run schedule).log

/-- **C67**, causes are not invented and not repeated: whatever the order of the threads, and whatever is raised, an exception is
not more often the cause of an error than it was raised by callbacks. -/
theorem C67_causes_exist (programs : List (List Call)) (schedule : List Nat) (e : Nat) :
    (((State.init programs).run schedule).log.filterMap fun entry => causeOf entry.2).count e ≤
      (programs.flatten.flatMap exceptions).count e := by
  have h := State.run_count e (State.init programs) schedule
  rw [init_count] at h
  simpa [State.init, PyStatus.reported, stored] using h

/-! ### What is missing -/

/-- The property without its restrictions. -/
def C67_full_statement : Prop :=
  ∀ programs : List (List Call), (∀ calls ∈ programs, ∀ c ∈ calls, StatusOk c) → ∀ schedule : List Nat,
    ∀ entry ∈ ((State.init programs).run schedule).log, OutcomeRight entry.1 entry.2

namespace Example

/-- `components_to_properties` where the second callback raises an exception. -/
def raisingCall (e : Nat) : Call := ⟨[⟨.returns, .report, 0⟩, ⟨.raises e, .report, 0⟩, ⟨.returns, .report, 0⟩], 0, .status⟩
/-- `TensorBlock(...)` with labels which do not match the data. -/
def mismatchCall : Call := ⟨[⟨.returns, .report, 0⟩], 1, .pointer⟩
/-- `keys_to_samples` where the shape of the new array can not be retrieved. -/
def panickingCall (e : Nat) : Call := ⟨[⟨.returns, .report, 0⟩, ⟨.raises e, .expect, 0⟩], 0, .status⟩
/-- `keys_to_samples` where the user presses Ctrl+C while data is copied. -/
def ctrlC (unspecified : Int32) : Call := ⟨[⟨.returns, .report, 0⟩, ⟨.interrupted 1, .report, unspecified⟩], 0, .status⟩
/-- A call without any problem. -/
def goodCall : Call := ⟨[⟨.returns, .report, 0⟩], 0, .status⟩

end Example

/-- **C67**, the first defect: `LAST_EXCEPTION` is shared by all threads. With an exception in each of two threads, the error of
the first thread has the exception of the second one as its cause, and the error of the second one has no cause. -/
theorem C67_threads_counterexample : ¬ C67_full_statement ∧
    ((State.init [[Example.raisingCall 1], [Example.raisingCall 2]]).run [0, 0, 0, 1, 1, 1, 0, 1]).log =
      [(Example.raisingCall 2, .error (some (-1)) none), (Example.raisingCall 1, .error (some (-1)) (some 2))] := by
  have h : ((State.init [[Example.raisingCall 1], [Example.raisingCall 2]]).run [0, 0, 0, 1, 1, 1, 0, 1]).log =
      [(Example.raisingCall 2, .error (some (-1)) none), (Example.raisingCall 1, .error (some (-1)) (some 2))] := by
    decide +kernel
  refine ⟨fun hfull => ?_, h⟩
  have := hfull [[Example.raisingCall 1], [Example.raisingCall 2]]
    (by simp [StatusOk, Example.raisingCall]) [0, 0, 0, 1, 1, 1, 0, 1]
    (Example.raisingCall 2, .error (some (-1)) none) (by rw [h]; simp)
  have hst : Outcome.error (some (-1)) none = .error (some (-1)) (some 2) := this
  cases hst

/-- **C67**, the second defect: when the library panics because of the callback, the error has no cause, and the
exception is kept in `LAST_EXCEPTION`. It is then given as the cause of the next error reported with a pointer, even though nothing
was raised there. -/
theorem C67_panic_counterexample : ¬ C67_full_statement ∧
    ((State.init [[Example.panickingCall 1, Example.goodCall, Example.mismatchCall]]).run (List.replicate 10 0)).log =
      [(Example.mismatchCall, .error none (some 1)), (Example.goodCall, .success),
        (Example.panickingCall 1, .error (some 255) none)] := by
  have h : ((State.init [[Example.panickingCall 1, Example.goodCall, Example.mismatchCall]]).run (List.replicate 10 0)).log =
      [(Example.mismatchCall, .error none (some 1)), (Example.goodCall, .success),
        (Example.panickingCall 1, .error (some 255) none)] := by
    decide +kernel
  refine ⟨fun hfull => ?_, h⟩
  have := hfull [[Example.panickingCall 1, Example.goodCall, Example.mismatchCall]]
    (by simp [StatusOk, Example.panickingCall, Example.goodCall, Example.mismatchCall]) (List.replicate 10 0)
    (Example.mismatchCall, .error none (some 1)) (by rw [h]; simp)
  have hst : Outcome.error none (some 1) = .error none none := this
  cases hst

/-- **C67**, the third defect: `catch_exceptions` does not catch `KeyboardInterrupt`. The exception is printed and lost,
and the status the library gets is not specified: the method does not fail with this exception whatever the status is, and
succeeds if it is 0. -/
theorem C67_interrupt_counterexample : ¬ C67_full_statement ∧
    ∀ unspecified : Int32, ∃ outcome,
      ((State.init [[Example.ctrlC unspecified]]).run (List.replicate 4 0)).log = [(Example.ctrlC unspecified, outcome)] ∧
      causeOf outcome = none ∧ (unspecified = 0 → outcome = .success) := by
  have h : ∀ unspecified : Int32, ∃ outcome,
      ((State.init [[Example.ctrlC unspecified]]).run (List.replicate 4 0)).log = [(Example.ctrlC unspecified, outcome)] ∧
      causeOf outcome = none ∧ (unspecified = 0 → outcome = .success) := by
    intro u
    by_cases hu : u = 0
    · subst hu
      exact ⟨.success, by decide +kernel, rfl, fun _ => rfl⟩
    · refine ⟨(checkStatus none u).2, ?_, ?_, fun e => (hu e).elim⟩
      · simp [State.run, State.init, State.step, Thread.step, Example.ctrlC, List.replicate, catchExceptions, fromC, hu, finish]
      · unfold checkStatus
        rw [if_neg hu]
        split <;> rfl
  refine ⟨fun hfull => ?_, h⟩
  obtain ⟨o, h1, h2, -⟩ := h 0
  have := hfull [[Example.ctrlC 0]] (by simp [StatusOk, Example.ctrlC]) (List.replicate 4 0) (Example.ctrlC 0, o)
    (by rw [h1]; simp)
  have hst : o = .error (some (-1)) (some 1) := this
  rw [hst] at h2
  cases h2

namespace Example

/-- Two threads, each of them with two calls. -/
def twoThreads : State := State.init [[raisingCall 1, goodCall], [raisingCall 2, mismatchCall]]
/-- An order of the threads where calls are made one after the other. -/
def alternating : List Nat := [0, 0, 0, 0, 1, 1, 1, 1, 0, 0, 0, 1, 1, 1]

theorem alternating_oneAtATime : OneAtATime twoThreads alternating := by
  have hall : ∀ n < 15, ∀ i < 2, ∀ j < 2, i ≠ j →
      ((twoThreads.run (alternating.take n)).threads[i]?.bind (·.current)) = none ∨
      ((twoThreads.run (alternating.take n)).threads[j]?.bind (·.current)) = none := by
    decide +kernel
  intro n i j hij t u ht hu
  have hi := (List.getElem?_eq_some_iff.1 ht).1
  have hj := (List.getElem?_eq_some_iff.1 hu).1
  rw [State.run_length] at hi hj
  have key : ∀ n < 15, (twoThreads.run (alternating.take n)).threads[i]? = some t →
      (twoThreads.run (alternating.take n)).threads[j]? = some u → t.current = none ∨ u.current = none := by
    intro n hn ht hu
    have := hall n hn i hi j hj hij
    rw [ht, hu] at this
    exact this
  by_cases hn : n < 15
  · exact key n hn ht hu
  · have h1 : alternating.take n = alternating.take 14 := by
      rw [List.take_of_length_le (by simp [alternating]; omega)]; rfl
    rw [h1] at ht hu
    exact key 14 (by omega) ht hu

end Example

/-- Non-vacuity: two threads making calls one after the other, with exceptions in both. -/
example : OneAtATime Example.twoThreads Example.alternating ∧
    (∀ calls ∈ [[Example.raisingCall 1, Example.goodCall], [Example.raisingCall 2, Example.mismatchCall]], ∀ c ∈ calls,
      StatusOk c ∧ NotInterrupted c ∧ StatusReported c) ∧
    (Example.twoThreads.run Example.alternating).log =
      [(Example.mismatchCall, .error none none), (Example.goodCall, .success), (Example.raisingCall 2, .error (some (-1)) (some 2)),
        (Example.raisingCall 1, .error (some (-1)) (some 1))] := by
  refine ⟨Example.alternating_oneAtATime, ?_, by decide +kernel⟩
  simp [StatusOk, NotInterrupted, StatusReported, Example.raisingCall, Example.goodCall, Example.mismatchCall]

end Equistore
