import Verif.Spec.CApi
import Verif.Lemmas.Res
import Verif.Props.Archive

/-!
# Status codes and error messages (C41, C42)
-/

namespace Equistore
open Spec

theorem catchUnwind_eq {r : Res Unit} (h : Reportable r) (thread : ThreadId) (m : Messages) :
    catchUnwind thread r m =
      (match failureMessage r with
        | none => m
        | some message => m.set thread message, some (statusCode r)) := by
  have hh : ∀ e : Error, failureMessage (.err e) = some e.display := by
    intro e; cases e <;> rfl
  have hc : ∀ e : Error, statusCode (.err e) = e.status := by
    intro e; cases e <;> rfl
  cases r with
  | ok u => rfl
  | err e =>
    have : e.display.toList.contains '\x00' = false := by
      have := h e.display (hh e)
      simpa using this
    simp only [catchUnwind, Error.toStatus, this, hh, hc]
    rfl
  | panic p =>
    have : (Error.internal p).display.toList.contains '\x00' = false := by
      have := h (Error.internal p).display rfl
      simpa using this
    simp only [catchUnwind, Error.toStatus, this]
    rfl

/-- **C41.** A call returns the status code of the outcome of the Rust operation; it is
`EQS_SUCCESS` if and only if the operation returned `Ok`. The hypothesis on external errors holds for all the
errors made by this library: `src/data.rs` only makes them if the status is not `EQS_SUCCESS`. -/
theorem C41_status (r : Res Unit) (h : Reportable r) (hext : ∀ c, r ≠ .err (.external 0 c))
    (thread : ThreadId) (m : Messages) :
    (catchUnwind thread r m).2 = some (statusCode r) ∧ (statusCode r = 0 ↔ r = .ok ()) := by
  refine ⟨by rw [catchUnwind_eq h], ?_⟩
  cases r with
  | ok u => simp [statusCode]
  | panic p => simp [statusCode]
  | err e =>
    cases e with
    | external s c =>
      simp only [statusCode, reduceCtorEq, iff_false]
      rintro rfl
      exact hext c rfl
    | _ => simp [statusCode]

/-- **C41.** After any interleaving of calls by any number of threads, `eqs_last_error` gives, for each
thread, the message of the last failed call of this same thread: neither successful calls nor calls made
by other threads change it. Each call returned the status code of its outcome. -/
theorem C41_last_error (calls : List Finished) (h : ∀ c ∈ calls, Reportable c.result)
    (thread : ThreadId) :
    lastError thread (replies calls Messages.init).1 =
      ((calls.filter (fun c => c.thread = thread)).filterMap (fun c => failureMessage c.result)).getLastD "" ∧
    (replies calls Messages.init).2 = calls.map fun c => some (statusCode c.result) := by
  have key : ∀ (calls : List Finished) (m : Messages), (∀ c ∈ calls, Reportable c.result) →
      (replies calls m).1 thread =
        ((calls.filter (fun c => c.thread = thread)).filterMap
          (fun c => failureMessage c.result)).getLastD (m thread) ∧
      (replies calls m).2 = calls.map fun c => some (statusCode c.result) := by
    intro calls
    induction calls with
    | nil => intro m _; simp [replies]
    | cons c cs ih =>
      intro m h
      have hc := catchUnwind_eq (h c (by simp)) c.thread m
      have ih := ih (catchUnwind c.thread c.result m).1 (fun x hx => h x (by simp [hx]))
      simp only [replies]
      refine ⟨?_, ?_⟩
      · rw [ih.1, hc]
        by_cases ht : c.thread = thread
        · cases hf : failureMessage c.result with
          | none => simp [ht, hf]
          | some message =>
            rw [List.filter_cons_of_pos (by simp [ht]), List.filterMap_cons_some (f := fun c : Finished => failureMessage c.result) hf, List.getLastD_cons]
            simp [Messages.set, ht]
        · cases hf : failureMessage c.result with
          | none => simp [ht]
          | some message =>
            have : ¬ thread = c.thread := fun h => ht h.symm
            simp [ht, Messages.set, this]
      · rw [List.map_cons, ih.2, hc]
  exact key calls Messages.init h

/-- Non-vacuity of C41: three threads, two of which make failing calls. -/
example :
    let calls : List Finished :=
      [⟨1, .err (.invalidParameter "first")⟩, ⟨2, .panic "second"⟩, ⟨1, .ok ()⟩,
       ⟨2, .err (.external (-4) "third")⟩, ⟨3, .ok ()⟩]
    (∀ c ∈ calls, Reportable c.result) ∧
    (replies calls Messages.init).2 = [some 1, some 255, some 0, some (-4), some 0] ∧
    lastError 1 (replies calls Messages.init).1 = "invalid parameter: first" ∧
    lastError 2 (replies calls Messages.init).1 = "external error: third (status -4)" ∧
    lastError 3 (replies calls Messages.init).1 = "" := by
  refine ⟨?_, by decide +kernel, by decide +kernel, by decide +kernel, by decide +kernel⟩
  simp only [List.mem_cons, List.not_mem_nil, or_false, forall_eq_or_imp, forall_eq, Reportable,
    failureMessage, Option.some.injEq, forall_eq', reduceCtorEq, false_implies, implies_true, and_true,
    true_and]
  decide +kernel

/-! ### C42 -/

/-- **C42**, the full statement: a call always returns a status. -/
def C42_full_statement : Prop :=
  ∀ (r : Res Unit) (thread : ThreadId) (m : Messages), ∃ status, (catchUnwind thread r m).2 = some status

/-- **C42**: a call returns a status if and only if the message of the failure contains no NUL
character. Missing: messages with a NUL, see `C42_counterexample`. -/
theorem C42_call_returns_partial (r : Res Unit) (thread : ThreadId) (m : Messages) :
    (∃ status, (catchUnwind thread r m).2 = some status) ↔ Reportable r := by
  constructor
  · rintro ⟨s, hs⟩ message hm h0
    have hh : ∀ e : Error, failureMessage (.err e) = some e.display := by
      intro e; cases e <;> rfl
    cases r with
    | ok u => cases hm
    | err e =>
      rw [hh] at hm
      cases hm
      have : e.display.toList.contains '\x00' = true := by simpa using h0
      simp only [catchUnwind, Error.toStatus, this, if_true] at hs
      cases hs
    | panic p =>
      cases hm
      have : (Error.internal p).display.toList.contains '\x00' = true := List.contains_iff_mem.2 h0
      simp only [catchUnwind, Error.toStatus, this, if_true] at hs
      cases hs
  · intro h
    exact ⟨_, by rw [catchUnwind_eq h]⟩

namespace Example

/-- A file with labels, whose name contains a NUL. -/
def nulArchive : Archive := [("keys.npy", labelsFile ["a\x00"] 0 [])]

/-- The outcome is a panic with a NUL in its message. -/
def panicsWithNul {α : Type} : Res α → Bool
  | .panic m => m.toList.contains '\x00'
  | _ => false

end Example

/-- **C42** is false: loading a file with a NUL in the name of a variable panics, and the message
of this panic can not be converted to a C string. -/
theorem C42_counterexample : ¬ C42_full_statement := by
  intro h
  have hp : Example.panicsWithNul
      (load ⟨true⟩ PyLiteral.fragment .insertion .insertion Example.nulArchive) = true := by decide +kernel
  cases hl : load ⟨true⟩ PyLiteral.fragment .insertion .insertion Example.nulArchive with
  | ok t => rw [hl] at hp; cases hp
  | err e => rw [hl] at hp; cases hp
  | panic m =>
    rw [hl] at hp
    obtain ⟨status, hs⟩ := h (.panic m) 0 Messages.init
    have := (C42_call_returns_partial (.panic m) 0 Messages.init).1 ⟨status, hs⟩ _ rfl
    apply this
    have hm : '\x00' ∈ m.toList := by simpa [Example.panicsWithNul] using hp
    simp [hm]

end Equistore
