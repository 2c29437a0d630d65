import Verif.Props.PyLibrary

/-!
# Using a library which is installed (C120), and one which is missing (C90)
-/

namespace Equistore
open Spec PyLibrary

/-- The steps which a call still needs at most. -/
private def remaining : Phase → Nat
  | .start => 32
  | .readPath => 31
  | .writePath _ => 30
  | .checkPath _ => 29
  | .load _ => 28
  | .store _ => 27
  | .setup => 26
  | .functions _ names => names.length + 2
  | .return => 1

private theorem step_remaining (computer : Computer) (s : Shared) (phase phase' : Phase)
    (h : (PyLibrary.step computer s phase).2 = .goes phase') : remaining phase' < remaining phase := by
  cases phase with
  | functions dll names =>
    cases names with
    | nil => simp only [PyLibrary.step, Outcome.goes.injEq] at h; subst h; simp [remaining]
    | cons name names =>
      simp only [PyLibrary.step] at h
      split at h
      · split at h
        · simp only [Outcome.goes.injEq] at h; subst h; simp [remaining]
        · cases h
      · cases h
  | start => simp only [PyLibrary.step] at h; split at h <;> (simp only [Outcome.goes.injEq] at h; subst h; simp [remaining])
  | readPath =>
    simp only [PyLibrary.step] at h
    split at h
    · simp only [Outcome.goes.injEq] at h; subst h; simp [remaining]
    · split at h
      · simp only [Outcome.goes.injEq] at h; subst h; simp [remaining]
      · cases h
  | writePath => simp only [PyLibrary.step, Outcome.goes.injEq] at h; subst h; simp [remaining]
  | checkPath =>
    simp only [PyLibrary.step] at h
    split at h
    · simp only [Outcome.goes.injEq] at h; subst h; simp [remaining]
    · cases h
  | load =>
    simp only [PyLibrary.step] at h
    split at h
    · simp only [Outcome.goes.injEq] at h; subst h; simp [remaining]
    · cases h
  | store => simp only [PyLibrary.step, Outcome.goes.injEq] at h; subst h; simp [remaining]
  | setup =>
    simp only [PyLibrary.step] at h
    split at h
    · simp only [Outcome.goes.injEq] at h; subst h; simp [remaining, functionNames]
    · cases h
  | «return» => simp only [PyLibrary.step] at h; split at h <;> cases h

private theorem ends_of_remaining {computer : Computer} {thread : Nat} : ∀ (events : List Event) (p : Program) (phase : Phase),
    p.threads thread = some phase → remaining phase ≤ events.count (.step thread) →
    ∃ result, EndsDuring computer p events result ∧ ((∃ dll, result = .returned thread dll) ∨ ∃ e, result = .raised thread e) := by
  have hpos : ∀ phase, 0 < remaining phase := by intro phase; cases phase <;> simp [remaining]
  intro events
  induction events with
  | nil =>
    intro p phase _ h
    have := hpos phase
    simp at h
    omega
  | cons event events ih =>
    intro p phase hp h
    have cont : ∀ phase', (p.next computer event).1.threads thread = some phase' → remaining phase' ≤ events.count (.step thread) →
        ∃ result, EndsDuring computer p (event :: events) result ∧
          ((∃ dll, result = .returned thread dll) ∨ ∃ e, result = .raised thread e) := by
      intro phase' h1 h2
      obtain ⟨result, ⟨before, x, after, h3, h4⟩, h5⟩ := ih _ phase' h1 h2
      exact ⟨result, ⟨event :: before, x, after, by rw [h3]; rfl, h4⟩, h5⟩
    by_cases he : event = .step thread
    · subst he
      rw [List.count_cons_self] at h
      cases hs : PyLibrary.step computer p.shared phase with
      | mk s outcome =>
        cases outcome with
        | goes phase' =>
          have hlt := step_remaining computer p.shared phase phase' (by rw [hs])
          exact cont phase' (by simp [Program.next, hp, hs]) (by omega)
        | returned dll =>
          exact ⟨.returned thread dll, ⟨[], _, events, rfl, by simp [Program.run, Program.next, hp, hs]⟩, .inl ⟨dll, rfl⟩⟩
        | raised e =>
          exact ⟨.raised thread e, ⟨[], _, events, rfl, by simp [Program.run, Program.next, hp, hs]⟩, .inr ⟨e, rfl⟩⟩
    · rw [List.count_cons_of_ne he] at h
      refine cont phase ?_ h
      cases event with
      | call t =>
        simp only [Program.next]
        split
        · rename_i ht
          have : thread ≠ t := by rintro rfl; rw [hp] at ht; cases ht
          simp [this, hp]
        · exact hp
      | step t =>
        have : thread ≠ t := by rintro rfl; exact he rfl
        simp only [Program.next]
        split
        · exact hp
        · split <;> simp [this, hp]
      | setPath q => simp only [Program.next]; exact hp

/-- **C120**, every call ends: whatever the computer, the history and the other threads, a call of `_get_library()` returns or raises an
exception within 32 steps of its thread. -/
theorem C120_ends (computer : Computer) (events : List Event) (thread : Nat)
    (hidle : (Program.start.run computer events).threads thread = none) (later : List Event)
    (hsteps : 32 ≤ later.count (.step thread)) :
    ∃ result, EndsDuring computer (Program.start.run computer (events ++ [.call thread])) later result ∧
      ((∃ dll, result = .returned thread dll) ∨ ∃ e, result = .raised thread e) := by
  rw [run_append]
  refine ends_of_remaining later _ .start ?_ hsteps
  simp [Program.run, Program.next, hidle]

private theorem checkFile_ok {computer : Computer} {path : String} (h : Installed computer path) : checkFile computer path = .ok () := by
  obtain ⟨⟨file, h1, h2⟩, -, -⟩ := h
  unfold checkFile
  rw [h1]
  simp only
  split
  · rename_i hw
    exact (C91_accepts computer.arch file).2 (h2 hw)
  · rfl

/-- **C120**, a library which is installed works: if nobody sets a path, then in all interleavings of all threads no use of the library
raises an exception, and all of them give the library which is installed. -/
theorem C120_installed (computer : Computer) (name : String) (hname : computer.name = some name)
    (hi : Installed computer (computer.here ++ name)) (events : List Event) (hset : ∀ q, .setPath q ∉ events) (event : Event) :
    (∀ thread e, ((Program.start.run computer events).next computer event).2 ≠ .raised thread e) ∧
    ∀ thread dll, ((Program.start.run computer events).next computer event).2 = .returned thread dll →
      LoadedFrom ((Program.start.run computer events).next computer event).1 dll (computer.here ++ name) := by
  refine ⟨fun thread e he => ?_, fun thread dll h => C89_default computer name hname events hset thread dll event h⟩
  have hfrom : From computer (computer.here ++ name) .start :=
    ⟨.inr ⟨rfl, fun n hn => by rw [hname] at hn; cases hn; rfl⟩, by simp [Program.start, Shared.start],
      by simp [Program.start, Shared.start], fun t phase ht => by cases ht⟩
  have hfrom := run_from_default hfrom events hset
  by_cases hq : ∃ q, event = .setPath q
  · obtain ⟨q, rfl⟩ := hq
    cases he
  · obtain ⟨-, -, -, h2⟩ := next_from hfrom event (fun q h => absurd ⟨q, h⟩ hq)
    rcases h2 thread e he with h | h | h | h
    · rw [hi.2.1] at h
      cases h.2
    · exact h.2.2 hi.2.2
    · rw [hname] at h
      cases h.2.1
    · rw [checkFile_ok hi] at h
      cases h.2

/-- **C120**, the same after setting a path: a library which can be loaded from there and has all the functions works, in all
interleavings. Nothing is said about paths set while another thread starts to use the library (C89). -/
theorem C120_set_path (computer : Computer) (events : List Event) (path : String)
    (hq : Quiet (Program.start.run computer events))
    (h : ((Program.start.run computer events).next computer (.setPath path)).2 = .pathSet (.ok ()))
    (hl : computer.loads path = true) (hc : Complete computer path) (later : List Event) (event : Event) :
    ∀ thread e, ((Program.start.run computer (events ++ [.setPath path] ++ later)).next computer event).2 ≠ .raised thread e := by
  intro thread e he
  rcases (C89_set_path_partial computer events path hq h later event).2 thread e he with h | h
  · rw [hl] at h
    cases h.2
  · exact h.2 hc

/-- **C120**, the whole of it: with an installed library, and no path set, a call of `_get_library()` returns the installed library within 32 steps of its
thread, whatever the other threads do and did before. -/
theorem C120_returns (computer : Computer) (name : String) (hname : computer.name = some name)
    (hi : Installed computer (computer.here ++ name)) (events : List Event) (hset : ∀ q, .setPath q ∉ events) (thread : Nat)
    (hidle : (Program.start.run computer events).threads thread = none) (later : List Event) (hset' : ∀ q, .setPath q ∉ later)
    (hsteps : 32 ≤ later.count (.step thread)) :
    ∃ dll, EndsDuring computer (Program.start.run computer (events ++ [.call thread])) later (.returned thread dll) := by
  obtain ⟨result, hr, ⟨dll, rfl⟩ | ⟨e, rfl⟩⟩ := C120_ends computer events thread hidle later hsteps
  · exact ⟨dll, hr⟩
  · obtain ⟨before, event, after, h1, h2⟩ := hr
    rw [← run_append] at h2
    refine absurd h2 ((C120_installed computer name hname hi (events ++ [.call thread] ++ before) ?_ event).1 thread e)
    intro q hq
    simp only [List.mem_append, List.mem_singleton, reduceCtorEq, or_false] at hq
    rcases hq with hq | hq
    · exact hset q hq
    · exact hset' q (by rw [h1]; simp [hq])

/-- **C90**, a missing file, in all schedules: each use of the library raises an `ImportError` or an `OSError`. When calls do not overlap, the
first one raises an `ImportError`. Missing: the same exception for later uses, see `C90_counterexample`. -/
theorem C90_missing_partial (computer : Computer) (name : String) (hname : computer.name = some name)
    (hfile : computer.file (computer.here ++ name) = none) (hloads : computer.loads (computer.here ++ name) = false)
    (events : List Event) (event : Event) (hset : ∀ q, .setPath q ∉ events ++ [event]) :
    (∀ thread dll, ((Program.start.run computer events).next computer event).2 ≠ .returned thread dll) ∧
    (∀ thread e, ((Program.start.run computer events).next computer event).2 = .raised thread e → e = .osError ∨ e = .importError) ∧
    (NoOverlap computer .start (events ++ [event]) →
      (∀ a x b, events = a ++ x :: b → ((Program.start.run computer a).next computer x).2 = .nothing) →
      ∀ thread e, ((Program.start.run computer events).next computer event).2 = .raised thread e → e = .importError) := by
  have hcheck : checkFile computer (computer.here ++ name) = .error .importError := by unfold checkFile; rw [hfile]
  obtain ⟨h1, h2⟩ := C90_all_partial computer name hname hloads events (fun q hq => hset q (List.mem_append_left _ hq)) event
  refine ⟨h1, fun thread e he => ?_, fun ho hfirst thread e he => ?_⟩
  · rcases h2 thread e he with h | h
    · exact .inl h
    · rw [hcheck] at h
      cases h
      exact .inr rfl
  · rcases C90_first_partial computer name hname .importError hcheck events event ho hset hfirst with h | ⟨t, h⟩
    · rw [h] at he
      cases he
    · rw [h] at he
      cases he
      rfl

/-- **C90**, a DLL for another machine on Windows: when calls do not overlap, the first use of the library does not return, and raises an
`ImportError`. Missing: later uses load the file, see `C90_counterexample_loads`. -/
theorem C90_machine_partial (computer : Computer) (hp : computer.platform = .windows) (file : Bytes)
    (hfile : computer.file (computer.here ++ "equistore.dll") = some file) (hd : startsAsDll file) (offset machine : Nat)
    (ho : IntegerAt file 60 4 offset) (hm : IntegerAt file (offset + 4) 2 machine) (hother : machineOf computer.arch ≠ some machine)
    (events : List Event) (event : Event) (hset : ∀ q, .setPath q ∉ events ++ [event])
    (hno : NoOverlap computer .start (events ++ [event]))
    (hfirst : ∀ a x b, events = a ++ x :: b → ((Program.start.run computer a).next computer x).2 = .nothing) :
    ((Program.start.run computer events).next computer event).2 = .nothing ∨
      ∃ thread, ((Program.start.run computer events).next computer event).2 = .raised thread .importError := by
  refine C90_first_partial computer "equistore.dll" (by simp [Computer.name, hp]) .importError ?_ events event hno hset hfirst
  unfold checkFile
  rw [hfile]
  simp only [hp, if_true]
  exact (C91_refuses_partial computer.arch file).2 (.inl ⟨hd, offset, machine, ho, hm, hother⟩)

/-! ### Examples -/

/-- Non-vacuity of `C120_ends`, `C120_installed` and `C120_returns`: a call of a thread while another one is in the middle of its own. -/
example : Example.linux.name = some "libequistore.so" ∧ Installed Example.linux (Example.linux.here ++ "libequistore.so") ∧
    ∃ dll, EndsDuring Example.linux (Program.start.run Example.linux ([.call 0, .step 0, .step 0] ++ [.call 1]))
      ((List.replicate 32 [.step 1, .step 0]).flatten) (.returned 1 dll) := by
  have hi : Installed Example.linux (Example.linux.here ++ "libequistore.so") :=
    ⟨⟨[0x7F], by decide +kernel, fun h => by cases h⟩, by decide +kernel, fun _ _ => rfl⟩
  exact ⟨rfl, hi, C120_returns Example.linux _ rfl hi [.call 0, .step 0, .step 0] (by simp) 1 (by decide +kernel) _ (by simp) (by decide +kernel)⟩

/-- `Installed` on Windows. -/
example : Installed { Example.arm with file := fun _ => some (Example.armDll.take 68 ++ [0x64, 0x86]) } "/lib/equistore.dll" :=
  ⟨⟨_, rfl, fun _ => ⟨by decide, 64, 34404, ⟨by decide, by decide, by decide⟩, ⟨by decide, by decide, by decide⟩, rfl⟩⟩,
    by decide +kernel, fun _ _ => rfl⟩

/-- Non-vacuity of `C120_set_path`. -/
example : ((Program.start.run Example.linux []).next Example.linux (.setPath "/other.so")).2 = .pathSet (.ok ()) ∧
    Example.linux.loads "/other.so" = true ∧ Complete Example.linux "/other.so" :=
  ⟨rfl, by decide +kernel, fun _ _ => rfl⟩

/-- Non-vacuity of `C90_missing_partial`: a call which raises an `ImportError`. -/
example : Example.missing.file (Example.missing.here ++ "libequistore.so") = none ∧
    ((Program.start.run Example.missing [.call 0, .step 0, .step 0, .step 0]).next Example.missing (.step 0)).2 =
      .raised 0 .importError :=
  ⟨rfl, by decide +kernel⟩

/-- Non-vacuity of `C90_machine_partial`: a call which raises an `ImportError`. -/
example : startsAsDll Example.armDll ∧ IntegerAt Example.armDll 60 4 64 ∧ IntegerAt Example.armDll (64 + 4) 2 0xAA64 ∧
    machineOf Example.arm.arch ≠ some 0xAA64 ∧ Example.arm.file (Example.arm.here ++ "equistore.dll") = some Example.armDll ∧
    ((Program.start.run Example.arm [.call 0, .step 0, .step 0, .step 0]).next Example.arm (.step 0)).2 = .raised 0 .importError :=
  ⟨by decide, ⟨by decide, by decide, by decide⟩, ⟨by decide, by decide, by decide⟩, by decide, by decide +kernel, by decide +kernel⟩

end Equistore
