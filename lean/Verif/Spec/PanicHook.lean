import Verif.Model.PanicHook

/-!
# Which panics should be printed (C109)
-/

namespace Equistore.PanicHook.Spec

/-- The user asked for messages: `RUST_BACKTRACE` has a value, which is not 0. -/
def Asked (env : EnvVar) : Prop := ∃ v, env = .value v ∧ v ≠ "0"

instance (env : EnvVar) : Decidable (Asked env) :=
  match env with
  | .value v => if h : v = "0" then .isFalse (by rintro ⟨w, hw, hn⟩; cases hw; exact hn h) else .isTrue ⟨v, rfl, h⟩
  | .unset => .isFalse (by rintro ⟨w, hw, _⟩; cases hw)
  | .notUnicode => .isFalse (by rintro ⟨w, hw, _⟩; cases hw)

/-- What happened before (the last step first): steps of threads in any order, which do not end the process. -/
inductive Happened (env : EnvVar) : List Step → Process → Prop
  | start : Happened env [] (.start env)
  | step {steps : List Step} {p p' : Process} {effects : List Effect} (s : Step) :
    Happened env steps p → s.possible p = true → s.run p = some (p', effects) → Happened env (s :: steps) p'

/-- `eqs_disable_panic_printing` returned, and the program did not install another hook afterwards. -/
def Disabled (steps : List Step) : Prop :=
  ∃ later thread before, steps = later ++ .set thread :: before ∧ ∀ id, .install id ∉ later

/-- The hook of the program: the one it installed last, or the one of Rust. -/
def ownHook : List Step → Effect
  | [] => .printed
  | .install id :: _ => .called id
  | _ :: before => ownHook before

/-- What a panic should do: the hook of the program is called once, unless printing is disabled and the user did not
ask for messages. -/
def Expected (steps : List Step) (env : EnvVar) (effects : List Effect) : Prop :=
  (Disabled steps ∧ ¬Asked env → effects = []) ∧ (¬Disabled steps ∨ Asked env → effects = [ownHook steps])

/-- No thread is in the middle of `eqs_disable_panic_printing`. -/
def Idle (p : Process) : Prop := ∀ thread, p.running thread = none

/-- All calls of `eqs_disable_panic_printing` were done without another thread doing something in between (the last step comes first). -/
inductive OneAtATime : List Step → Prop
  | start : OneAtATime []
  | call (thread : Nat) {steps : List Step} : OneAtATime steps → OneAtATime (.set thread :: .take thread :: steps)
  | other (s : Step) {steps : List Step} : (∀ thread, s ≠ .take thread ∧ s ≠ .set thread) → OneAtATime steps →
    OneAtATime (s :: steps)

end Equistore.PanicHook.Spec
