import Verif.Model.Res

/-!
# Printing of panics

Models `eqs_disable_panic_printing` in `src/c_api/mod.rs`, and what happens to the message of a panic. The panic hook is
one variable of the process, used by all threads. `std::panic::take_hook` and `std::panic::set_hook` are documented in
Rust's standard library: the first gives back the current hook and leaves the standard one, and both panic in a thread
which is panicking. Each of them takes a lock, so that they are single steps; the function of the library is two of these
steps, and other threads can do anything in between.
-/

namespace Equistore.PanicHook

/-- The environment variable `RUST_BACKTRACE` as seen by `std::env::var`, `src/c_api/mod.rs` line 40. -/
inductive EnvVar where
  | unset
  | notUnicode
  | value (v : String)
  deriving DecidableEq, Repr

/-- A panic hook, `src/c_api/mod.rs` lines 38-39. -/
inductive Hook where
  /-- the one of Rust, which prints the message -/
  | standard
  /-- one installed by the program with `std::panic::set_hook` -/
  | program (id : Nat)
  /-- the closure made by `eqs_disable_panic_printing`, which owns the previous hook -/
  | quiet (previous : Hook)
  deriving DecidableEq, Repr

/-- What the program or its user notices of a panic hook. `src/c_api/mod.rs` lines 39-49. -/
inductive Effect where
  /-- the message is printed by Rust -/
  | printed
  /-- the hook installed by the program is called -/
  | called (id : Nat)
  deriving DecidableEq, Repr

/-- Call a panic hook, `src/c_api/mod.rs` lines 40-48. -/
def Hook.call (env : EnvVar) : Hook → List Effect
  | .standard => [.printed]
  | .program id => [.called id]
  | .quiet previous =>
    match env with
    | .value v => if v = "0" then [] else previous.call env
    | _ => []

/-- The process. `src/c_api/mod.rs` lines 37-50. -/
structure Process where
  hook : Hook
  env : EnvVar
  /-- for threads between the two lines of `eqs_disable_panic_printing`: the value of `previous` -/
  running : Nat → Option Hook
  /-- threads which are unwinding after a panic -/
  unwinding : Nat → Bool

/-- The start of a program. Nothing of `src/c_api/mod.rs` lines 37-50 was called. -/
def Process.start (env : EnvVar) : Process :=
  { hook := .standard, env, running := fun _ => none, unwinding := fun _ => false }

/-- What threads can do. `src/c_api/mod.rs` lines 37-50. -/
inductive Step where
  /-- a thread calls `eqs_disable_panic_printing`, which calls `take_hook` -/
  | take (thread : Nat)
  /-- `set_hook` in `eqs_disable_panic_printing`, which returns -/
  | set (thread : Nat)
  /-- the program calls `std::panic::set_hook` -/
  | install (id : Nat)
  /-- the program changes `RUST_BACKTRACE` -/
  | setEnv (env : EnvVar)
  /-- a panic -/
  | panic (thread : Nat)
  /-- the panic is caught, for example by `catch_unwind` -/
  | caught (thread : Nat)
  deriving DecidableEq, Repr

/-- Set the value for one thread. Used for `src/c_api/mod.rs` lines 37-50. -/
def update {α : Type} (f : Nat → α) (thread : Nat) (a : α) : Nat → α :=
  fun t => if t = thread then a else f t

/-- Whether a thread can do this now: `set` comes after `take`, and nothing else happens in this thread in between. `src/c_api/mod.rs`
lines 38-39. -/
def Step.possible (p : Process) : Step → Bool
  | .take t => (p.running t).isNone
  | .set t => (p.running t).isSome
  | .panic t => (p.running t).isNone && !p.unwinding t
  | .caught t => (p.running t).isNone && p.unwinding t
  | .install _ => true
  | .setEnv _ => true

/-- What a step does: `none` if the process ends, since a function called from C panics. `src/c_api/mod.rs` lines
37-50. -/
def Step.run : Step → Process → Option (Process × List Effect)
  | .take t, p =>
    if p.unwinding t then none
    else some ({ p with hook := .standard, running := update p.running t (some p.hook) }, [])
  | .set t, p =>
    match p.running t with
    | none => some (p, [])
    | some previous => some ({ p with hook := .quiet previous, running := update p.running t none }, [])
  | .install id, p => some ({ p with hook := .program id }, [])
  | .setEnv env, p => some ({ p with env }, [])
  | .panic t, p => some ({ p with unwinding := update p.unwinding t true }, p.hook.call p.env)
  | .caught t, p => some ({ p with unwinding := update p.unwinding t false }, [])

end Equistore.PanicHook
