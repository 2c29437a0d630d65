import Verif.Spec.PanicHook

/-!
# C109: printing of panics can be disabled
-/

namespace Equistore.PanicHook
open Spec

/-- What is called at the end of a chain of hooks. -/
def Hook.base : Hook → Effect
  | .standard => .printed
  | .program id => .called id
  | .quiet previous => previous.base

/-- Whether this is a hook of the library. -/
def Hook.isQuiet : Hook → Prop
  | .quiet _ => True
  | _ => False

theorem Hook.call_asked {env : EnvVar} (ha : Asked env) (h : Hook) : h.call env = [h.base] := by
  obtain ⟨v, rfl, hv⟩ := ha
  induction h with
  | standard => rfl
  | program id => rfl
  | quiet previous ih => simp only [call, if_neg hv, ih, base]

theorem Hook.call_quiet {env : EnvVar} (ha : ¬Asked env) {h : Hook} (hq : h.isQuiet) : h.call env = [] := by
  cases h with
  | standard => cases hq
  | program id => cases hq
  | quiet previous =>
    cases env with
    | unset => rfl
    | notUnicode => rfl
    | value v =>
      by_cases hv : v = "0"
      · simp [call, hv]
      · exact absurd ⟨v, rfl, hv⟩ ha

theorem Hook.call_loud {env : EnvVar} {h : Hook} (hq : ¬h.isQuiet) : h.call env = [h.base] := by
  cases h with
  | standard => rfl
  | program id => rfl
  | quiet previous => exact absurd trivial hq

theorem disabled_cons {s : Step} {steps : List Step} :
    Disabled (s :: steps) ↔ (∃ t, s = .set t) ∨ ((∀ id, s ≠ .install id) ∧ Disabled steps) := by
  constructor
  · rintro ⟨later, t, before, he, hn⟩
    cases later with
    | nil => cases he; exact .inl ⟨t, rfl⟩
    | cons x later =>
      cases he
      exact .inr ⟨fun id h => hn id (by simp [h]), later, t, before, rfl, fun id h => hn id (List.mem_cons_of_mem _ h)⟩
  · rintro (⟨t, rfl⟩ | ⟨hs, later, t, before, rfl, hn⟩)
    · exact ⟨[], t, steps, rfl, by simp⟩
    · refine ⟨s :: later, t, before, rfl, fun id h => ?_⟩
      rcases List.mem_cons.1 h with rfl | h
      · exact hs id rfl
      · exact hn id h

theorem not_disabled_nil : ¬Disabled [] := by
  rintro ⟨later, t, before, he, _⟩
  cases later <;> cases he

theorem expected_of {steps : List Step} {env : EnvVar} {h : Hook} (h1 : Disabled steps ↔ h.isQuiet)
    (h2 : h.base = ownHook steps) : Expected steps env (h.call env) := by
  refine ⟨fun h => Hook.call_quiet h.2 (h1.1 h.1), ?_⟩
  rintro (h | h)
  · rw [Hook.call_loud (fun hq => h (h1.2 hq)), h2]
  · rw [Hook.call_asked h, h2]

theorem panic_run {t : Nat} {p p' : Process} {effects : List Effect}
    (hr : (Step.panic t).run p = some (p', effects)) : effects = p.hook.call p.env := by
  simp only [Step.run, Option.some.injEq, Prod.mk.injEq] at hr
  exact hr.2.symm

/-- **C109**, full statement: whatever happened before in the threads of a program, a panic does what it should do, and calling
`eqs_disable_panic_printing` does not end the process. -/
def C109_full_statement : Prop :=
  ∀ (env : EnvVar) (steps : List Step) (p : Process), Happened env steps p → ∀ (thread : Nat),
    (∀ (p' : Process) (effects : List Effect), (Step.panic thread).possible p = true →
      (Step.panic thread).run p = some (p', effects) → Expected steps p.env effects) ∧
    ((Step.take thread).possible p = true → (Step.take thread).run p ≠ none)

/-! ### One call at a time -/

theorem atomic_inv {env : EnvVar} {steps : List Step} {p : Process} (hone : OneAtATime steps) (hh : Happened env steps p) :
    (Disabled steps ↔ p.hook.isQuiet) ∧ p.hook.base = ownHook steps := by
  induction hone generalizing p with
  | start =>
    cases hh
    exact ⟨⟨fun h => absurd h not_disabled_nil, fun h => by cases h⟩, rfl⟩
  | call t hone ih =>
    cases hh with
    | step _ hh _ hrun =>
      cases hh with
      | step _ hh _ hrun₀ =>
        obtain ⟨_, h2⟩ := ih hh
        simp only [Step.run] at hrun₀
        split at hrun₀
        · cases hrun₀
        · cases hrun₀
          simp only [Step.run, update, if_true] at hrun
          cases hrun
          refine ⟨⟨fun _ => trivial, fun _ => disabled_cons.2 (.inl ⟨t, rfl⟩)⟩, ?_⟩
          simpa only [Hook.base, ownHook] using h2
  | other s hs hone ih =>
    cases hh with
    | step _ hh _ hrun =>
      obtain ⟨h1, h2⟩ := ih hh
      cases s with
      | take t => exact absurd rfl (hs t).1
      | set t => exact absurd rfl (hs t).2
      | install id =>
        cases hrun
        refine ⟨⟨fun h => ?_, fun h => by cases h⟩, rfl⟩
        rcases disabled_cons.1 h with ⟨_, h⟩ | ⟨h, _⟩
        · cases h
        · exact absurd rfl (h id)
      | setEnv e => cases hrun; exact ⟨by rw [disabled_cons, ← h1]; simp, h2⟩
      | panic t => cases hrun; exact ⟨by rw [disabled_cons, ← h1]; simp, h2⟩
      | caught t => cases hrun; exact ⟨by rw [disabled_cons, ← h1]; simp, h2⟩

/-- **C109.** As long as nothing else happens while a thread is in `eqs_disable_panic_printing`: after any number of calls, hooks
installed by the program, and changes of the environment, a panic does nothing if printing was disabled and
`RUST_BACKTRACE` is not set, or set to `0`. Otherwise it calls the hook of the program exactly once. What is missing
from the full statement: calls in several threads at the same time, and panics during a call. -/
theorem C109_one_at_a_time_partial (env : EnvVar) (steps : List Step) (p : Process) (hh : Happened env steps p)
    (hone : OneAtATime steps) (thread : Nat) (p' : Process) (effects : List Effect)
    (hr : (Step.panic thread).run p = some (p', effects)) : Expected steps p.env effects := by
  rw [panic_run hr]
  obtain ⟨h1, h2⟩ := atomic_inv hone hh
  exact expected_of h1 h2

/-! ### Calls in several threads at the same time -/

theorem quiet_inv {env : EnvVar} {steps : List Step} {p : Process} (hh : Happened env steps p) (hd : Disabled steps) :
    p.hook.isQuiet ∨ ∃ t, p.running t ≠ none := by
  induction hh with
  | start => exact absurd hd not_disabled_nil
  | step s hh hp hrun ih =>
    cases s with
    | take t =>
      simp only [Step.run] at hrun
      split at hrun
      · cases hrun
      · cases hrun
        exact .inr ⟨t, by simp [update]⟩
    | set t =>
      simp only [Step.run] at hrun
      split at hrun
      · rename_i h
        simp [Step.possible, h] at hp
      · cases hrun
        exact .inl trivial
    | install id =>
      rcases disabled_cons.1 hd with ⟨_, h⟩ | ⟨h, _⟩
      · cases h
      · exact absurd rfl (h id)
    | setEnv e => cases hrun; exact ih ((disabled_cons.1 hd).resolve_left (by simp)).2
    | panic t => cases hrun; exact ih ((disabled_cons.1 hd).resolve_left (by simp)).2
    | caught t => cases hrun; exact ih ((disabled_cons.1 hd).resolve_left (by simp)).2

theorem base_inv {env : EnvVar} {steps : List Step} {p : Process} (hh : Happened env steps p)
    (hn : ∀ id, .install id ∉ steps) :
    p.hook.base = .printed ∧ (∀ t h, p.running t = some h → h.base = .printed) ∧ (¬Disabled steps → ¬p.hook.isQuiet) := by
  induction hh with
  | start =>
    refine ⟨rfl, fun t h ht => ?_, fun _ h => ?_⟩
    · cases ht
    · cases h
  | step s hh hp hrun ih =>
    obtain ⟨h1, h2, h3⟩ := ih (fun id h => hn id (List.mem_cons_of_mem _ h))
    cases s with
    | take t =>
      simp only [Step.run] at hrun
      split at hrun
      · cases hrun
      · cases hrun
        refine ⟨rfl, fun t' h ht => ?_, fun _ h => by cases h⟩
        simp only [update] at ht
        split at ht
        · cases ht; exact h1
        · exact h2 _ _ ht
    | set t =>
      simp only [Step.run] at hrun
      split at hrun
      · rename_i h
        simp [Step.possible, h] at hp
      · rename_i previous hprev
        cases hrun
        have hbase : previous.base = .printed := h2 _ _ hprev
        refine ⟨hbase, fun t' h ht => ?_, fun h => absurd (disabled_cons.2 (.inl ⟨t, rfl⟩)) h⟩
        simp only [update] at ht
        split at ht
        · cases ht
        · exact h2 _ _ ht
    | install id => exact absurd List.mem_cons_self (hn id)
    | setEnv e => cases hrun; exact ⟨h1, h2, fun h => h3 fun hd => h (disabled_cons.2 (.inr ⟨by simp, hd⟩))⟩
    | panic t => cases hrun; exact ⟨h1, h2, fun h => h3 fun hd => h (disabled_cons.2 (.inr ⟨by simp, hd⟩))⟩
    | caught t => cases hrun; exact ⟨h1, h2, fun h => h3 fun hd => h (disabled_cons.2 (.inr ⟨by simp, hd⟩))⟩

theorem ownHook_printed {steps : List Step} (hn : ∀ id, .install id ∉ steps) : ownHook steps = .printed := by
  induction steps with
  | nil => rfl
  | cons s steps ih =>
    have := ih fun id h => hn id (List.mem_cons_of_mem _ h)
    cases s with
    | install id => exact absurd List.mem_cons_self (hn id)
    | _ => exact this

/-- **C109.** For programs which install no hook (as all programs in C or Python), with calls in any threads in any
order, also at the same time: a panic while no call is running does what it should do. What is missing from the full
statement: panics in other threads during a call, and programs with their own hook. -/
theorem C109_threads_partial (env : EnvVar) (steps : List Step) (p : Process) (hh : Happened env steps p)
    (hn : ∀ id, .install id ∉ steps) (hidle : Idle p) (thread : Nat) (p' : Process) (effects : List Effect)
    (hr : (Step.panic thread).run p = some (p', effects)) : Expected steps p.env effects := by
  rw [panic_run hr]
  obtain ⟨h1, _, h3⟩ := base_inv hh hn
  refine expected_of ⟨fun hd => ?_, fun hq => Classical.byContradiction fun h => h3 h hq⟩ (by rw [h1, ownHook_printed hn])
  rcases quiet_inv hh hd with h | ⟨t, ht⟩
  · exact h
  · exact absurd (hidle t) ht

/-- **C109.** In all programs, also with their own hooks and calls at the same time: while no call is running, a panic
does nothing if printing was disabled and `RUST_BACKTRACE` does not ask for it. -/
theorem C109_silent_partial (env : EnvVar) (steps : List Step) (p : Process) (hh : Happened env steps p)
    (hd : Disabled steps) (ha : ¬Asked p.env) (hidle : Idle p) (thread : Nat) (p' : Process) (effects : List Effect)
    (hr : (Step.panic thread).run p = some (p', effects)) : effects = [] := by
  rw [panic_run hr]
  rcases quiet_inv hh hd with h | ⟨t, ht⟩
  · exact Hook.call_quiet ha h
  · exact absurd (hidle t) ht

/-- **C109.** In all programs and at any time, a panic does at most one thing: nothing is printed twice, however often
`eqs_disable_panic_printing` was called. If `RUST_BACKTRACE` asks for it, a panic does exactly one thing. -/
theorem C109_once (p : Process) (thread : Nat) (p' : Process) (effects : List Effect)
    (hr : (Step.panic thread).run p = some (p', effects)) :
    effects.length ≤ 1 ∧ (Asked p.env → effects.length = 1) := by
  rw [panic_run hr]
  refine ⟨?_, fun ha => by rw [Hook.call_asked ha]; rfl⟩
  by_cases hq : p.hook.isQuiet
  · by_cases ha : Asked p.env
    · rw [Hook.call_asked ha]; simp
    · rw [Hook.call_quiet ha hq]; simp
  · rw [Hook.call_loud hq]; simp

/-- **C109.** `eqs_disable_panic_printing` returns if it is not called while its own thread is unwinding. -/
theorem C109_returns_partial (p : Process) (thread : Nat) (h : p.unwinding thread = false) :
    ∃ p', (Step.take thread).run p = some (p', []) ∧ (p'.running thread).isSome ∧
      ∀ q : Process, q.running thread = p'.running thread →
        ∃ q', (Step.set thread).run q = some (q', []) ∧ q'.running thread = none := by
  refine ⟨_, by simp only [Step.run, h]; rfl, by simp [update], fun q hq => ?_⟩
  simp only [update, if_true] at hq
  exact ⟨{ q with hook := .quiet p.hook, running := update q.running thread none }, by simp only [Step.run, hq], by simp [update]⟩

/-! ### What can go wrong -/

/-- Run steps (the first one comes first). -/
def runSteps : List Step → Process → Option (Process × List Effect)
  | [], p => some (p, [])
  | s :: rest, p =>
    if s.possible p then
      match s.run p with
      | none => none
      | some (p, _) => runSteps rest p
    else none

theorem happened_runSteps {env : EnvVar} {steps more : List Step} {p p' : Process} {effects : List Effect}
    (hh : Happened env steps p) (hr : runSteps more p = some (p', effects)) :
    Happened env (more.reverse ++ steps) p' := by
  induction more generalizing steps p with
  | nil => cases hr; exact hh
  | cons s more ih =>
    simp only [runSteps] at hr
    split at hr
    · rename_i hp
      split at hr
      · cases hr
      · rename_i hs
        have := ih (hh.step s hp hs) hr
        simpa using this
    · cases hr

theorem idle_two (t u : Nat) (a b : Option Hook) :
    ∀ thread, update (update (update (update (fun _ => none) t a) u b) t none) u none thread = none := by
  intro thread
  simp only [update]
  split
  · rfl
  · split
    · rfl
    · rfl

theorem not_asked_unset : ¬Asked .unset := by rintro ⟨_, h, _⟩; cases h

/-- A second thread calls `eqs_disable_panic_printing` (as Python does when two threads use equistore for the first
time): until it returns, the hook of Rust is installed again, and a panic is printed. -/
theorem C109_counterexample : ¬C109_full_statement := by
  intro h
  have hh : Happened .unset [.take 2, .set 1, .take 1] _ :=
    ((Happened.start.step (.take 1) rfl rfl).step (.set 1) rfl rfl).step (.take 2) rfl rfl
  have := ((h _ _ _ hh 3).1 _ _ rfl rfl).1 ⟨⟨[.take 2], 1, [.take 1], rfl, by simp⟩, by rintro ⟨_, h, _⟩; cases h⟩
  cases this

/-- Two threads call `eqs_disable_panic_printing` at the same time: the hook installed by the program is lost, also after
both calls returned. With `RUST_BACKTRACE=1`, panics are printed by Rust instead of calling this hook. -/
theorem C109_counterexample_lost :
    ∃ (steps : List Step) (p p' : Process), Happened (.value "1") steps p ∧ Idle p ∧ Disabled steps ∧
      ownHook steps = .called 7 ∧ (Step.panic 3).run p = some (p', [.printed]) :=
  ⟨[.set 2, .set 1, .take 2, .take 1, .install 7], _, _,
    ((((Happened.start.step (.install 7) rfl rfl).step (.take 1) rfl rfl).step (.take 2) rfl rfl).step (.set 1) rfl
      rfl).step (.set 2) rfl rfl,
    idle_two _ _ _ _,
    ⟨[], 2, _, rfl, by simp⟩, rfl, rfl⟩

/-- Called while its thread is unwinding after a panic (for example in the `destroy` callback of an array), `eqs_disable_panic_printing`
ends the process. -/
theorem C109_counterexample_unwinding :
    ∃ (steps : List Step) (p : Process), Happened .unset steps p ∧ (Step.take 1).possible p = true ∧
      (Step.take 1).run p = none :=
  ⟨[.panic 1], _, Happened.start.step (.panic 1) rfl rfl, rfl, rfl⟩

/-! ### The hypotheses hold for some programs -/

namespace Example

/-- Two calls, one after the other, with a hook of the program in between. -/
def program : List Step := [.take 1, .set 1, .install 7, .panic 2, .caught 2, .take 2, .set 2, .take 1, .set 1]

def after (steps : List Step) (env : EnvVar) : Option (List Effect) :=
  (runSteps steps (.start env)).bind fun s => ((Step.panic 5).run s.1).map (·.2)

example : after program .unset = some [] := by decide
example : after program (.value "0") = some [] := by decide
example : after program (.value "1") = some [.called 7] := by decide
example : after (program ++ [.setEnv .notUnicode]) (.value "1") = some [] := by decide
example : after [.take 1, .take 2, .set 2, .set 1] (.value "full") = some [.printed] := by decide
example : after [.take 1, .take 2, .set 2, .set 1] .unset = some [] := by decide
example : after (program ++ [.install 8]) .unset = some [.called 8] := by decide

/-- The hypotheses of `C109_one_at_a_time_partial`. -/
example : OneAtATime program.reverse ∧ ∃ p, Happened .unset program.reverse p := by
  constructor
  · exact .call 1 (.call 2 (.other _ (by simp) (.other _ (by simp) (.other _ (by simp) (.call 1 .start)))))
  · have : (runSteps program (.start .unset)).isSome = true := by decide
    obtain ⟨⟨p, effects⟩, hp⟩ := Option.isSome_iff_exists.1 this
    exact ⟨p, by simpa using happened_runSteps .start hp⟩

/-- The hypotheses of `C109_threads_partial` and `C109_silent_partial`. -/
example : ∃ p, Happened .unset [.set 2, .set 1, .take 2, .take 1] p ∧ Idle p ∧
    Disabled [.set 2, .set 1, .take 2, .take 1] ∧ ¬Asked p.env ∧ ∀ id, Step.install id ∉ [.set 2, .set 1, .take 2, .take 1] :=
  ⟨_, (((Happened.start.step (.take 1) rfl rfl).step (.take 2) rfl rfl).step (.set 1) rfl rfl).step (.set 2) rfl rfl,
    idle_two _ _ _ _, ⟨[], 2, _, rfl, by simp⟩,
    not_asked_unset, by simp⟩

end Example
end Equistore.PanicHook
