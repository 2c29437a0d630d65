import Verif.Lemmas.PyLibrary

/-!
# Loading the library in Python (C88, C89, C90, C91)
-/

namespace Equistore
open Spec PyLibrary

/-! ### C88: all functions have their types -/

/-- **C88**, full statement: whatever threads do, `_get_library()` gives an object with the types of all functions. -/
def C88_full_statement : Prop :=
  ∀ (computer : Computer) (events : List Event) (event : Event) (thread dll : Nat),
    ((Program.start.run computer events).next computer event).2 = .returned thread dll →
      SetUp ((Program.start.run computer events).next computer event).1 dll

/-- **C88**, when calls do not overlap, and the library has all the functions: the object has the types of all functions, and is
always the same one. Missing: calls of several threads at the same time, see `C88_counterexample`, and incomplete libraries, see
`C88_counterexample_missing`. -/
theorem C88_one_at_a_time_partial (computer : Computer) (hc : ∀ path, computer.loads path = true → Complete computer path)
    (events : List Event) (event : Event) (h : NoOverlap computer .start (events ++ [event])) (thread dll : Nat)
    (hr : ((Program.start.run computer events).next computer event).2 = .returned thread dll) :
    SetUp ((Program.start.run computer events).next computer event).1 dll ∧
      ((Program.start.run computer events).next computer event).1.shared.dlls.length = 1 := by
  obtain ⟨h1, h2⟩ := noOverlap_append.1 h
  obtain ⟨-, h3⟩ := next_sequential hc (run_sequential hc (start_sequential computer) h1) (event := event) h2.1
  obtain ⟨rfl, -, -, path, h4⟩ := h3 thread dll hr
  rw [h4]
  exact ⟨⟨⟨path, functionNames⟩, by rw [h4]; rfl, fun _ h => h⟩, rfl⟩

/-- **C88**, after a first call alone which succeeded: in all interleavings of all threads, all calls give the object of the first
call, which has the types of all functions. -/
theorem C88_after_first_partial (computer : Computer) (hc : ∀ path, computer.loads path = true → Complete computer path)
    (events : List Event) (event : Event) (h : NoOverlap computer .start (events ++ [event])) (thread dll : Nat)
    (hr : ((Program.start.run computer events).next computer event).2 = .returned thread dll)
    (later : List Event) (event' : Event) (thread' dll' : Nat)
    (hr' : ((Program.start.run computer (events ++ [event] ++ later)).next computer event').2 = .returned thread' dll') :
    dll' = dll ∧ SetUp ((Program.start.run computer (events ++ [event] ++ later)).next computer event').1 dll := by
  obtain ⟨h1, h2⟩ := noOverlap_append.1 h
  obtain ⟨-, h3⟩ := next_sequential hc (run_sequential hc (start_sequential computer) h1) (event := event) h2.1
  obtain ⟨rfl, hq, hcached, path, h4⟩ := h3 thread dll hr
  have hl : Loaded ((Program.start.run computer events).next computer event).1 0 :=
    ⟨hcached, ⟨⟨path, functionNames⟩, by rw [h4]; rfl, fun _ h => h⟩, fun t phase ht => by rw [hq t] at ht; cases ht⟩
  rw [run_append, run_append] at hr' ⊢
  have hl' := run_loaded (computer := computer) hl later
  obtain ⟨h5, h6⟩ := next_loaded (computer := computer) hl' event'
  exact ⟨h6 thread' dll' hr', h5.setUp⟩

/-- **C88**, in all interleavings of all threads, also when several threads use the library for the first time together: when a call
has returned, and at some later time no call is running, there is one object which all calls started afterwards give, in all
interleavings, and it has the types of all functions. Missing: calls which return while the first ones are still running, see
`C88_counterexample`, and incomplete libraries, see `C88_counterexample_missing`. -/
theorem C88_after_quiet_partial (computer : Computer) (hc : ∀ path, computer.loads path = true → Complete computer path)
    (before : List Event) (event : Event) (after : List Event) (thread dll : Nat)
    (hr : ((Program.start.run computer before).next computer event).2 = .returned thread dll)
    (hq : Quiet (Program.start.run computer (before ++ [event] ++ after))) :
    ∃ object, ∀ (later : List Event) (event' : Event) (thread' dll' : Nat),
      ((Program.start.run computer (before ++ [event] ++ after ++ later)).next computer event').2 = .returned thread' dll' →
        dll' = object ∧
          SetUp ((Program.start.run computer (before ++ [event] ++ after ++ later)).next computer event').1 object := by
  have h0 := (run_sound hc (start_sound computer) before).1
  obtain ⟨h1, h2, h3⟩ := next_sound hc h0 event
  have hsome : (Program.start.run computer (before ++ [event] ++ after)).shared.cached ≠ none := by
    rw [run_append, run_append]
    refine (run_sound hc h1 after).2 (h2 ?_)
    rw [h3 thread dll hr]
    simp
  have hs := (run_sound hc (start_sound computer) (before ++ [event] ++ after)).1
  obtain ⟨object, ho⟩ := Option.ne_none_iff_exists'.1 hsome
  have hset : SetUp (Program.start.run computer (before ++ [event] ++ after)) object := by
    rcases hs.setUp object ho with h | ⟨t, phase, ht, -⟩
    · exact h
    · rw [hq t] at ht
      cases ht
  have hl : Loaded (Program.start.run computer (before ++ [event] ++ after)) object :=
    ⟨ho, hset, fun t phase ht => by rw [hq t] at ht; cases ht⟩
  refine ⟨object, fun later event' thread' dll' hr' => ?_⟩
  rw [run_append] at hr' ⊢
  obtain ⟨h5, h6⟩ := next_loaded (computer := computer) (run_loaded (computer := computer) hl later) event'
  exact ⟨h6 thread' dll' hr', h5.setUp⟩

/-! ### C89: the path which is used -/

/-- **C89**, full statement: after `_set_equistore_library_path(path)`, whatever threads do, the library is loaded from `path`. -/
def C89_full_statement : Prop :=
  ∀ (computer : Computer) (events : List Event) (path : String),
    ((Program.start.run computer events).next computer (.setPath path)).2 = .pathSet (.ok ()) →
    ∀ (later : List Event) (event : Event) (thread dll : Nat),
      ((Program.start.run computer (events ++ [.setPath path] ++ later)).next computer event).2 = .returned thread dll →
        LoadedFrom ((Program.start.run computer (events ++ [.setPath path] ++ later)).next computer event).1 dll path

/-- **C89**, when `_set_equistore_library_path(path)` returns while no thread is inside of a use of the library: in all later schedules
of all threads, the library is loaded from `path`. A use of the library raises an exception only when the file at this path can not be
loaded, or when it does not have all the functions. Missing: a call while another thread starts to use the library, see
`C89_counterexample`. -/
theorem C89_set_path_partial (computer : Computer) (events : List Event) (path : String)
    (hq : Quiet (Program.start.run computer events))
    (h : ((Program.start.run computer events).next computer (.setPath path)).2 = .pathSet (.ok ()))
    (later : List Event) (event : Event) :
    (∀ thread dll,
      ((Program.start.run computer (events ++ [.setPath path] ++ later)).next computer event).2 = .returned thread dll →
        LoadedFrom ((Program.start.run computer (events ++ [.setPath path] ++ later)).next computer event).1 dll path) ∧
    ∀ thread e,
      ((Program.start.run computer (events ++ [.setPath path] ++ later)).next computer event).2 = .raised thread e →
        (e = .osError ∧ computer.loads path = false) ∨ (e = .attributeError ∧ ¬ Complete computer path) := by
  have hearly := (run_early (computer := computer) start_early events).1
  rw [run_append, run_append]
  generalize Program.start.run computer events = p at hq h hearly
  have hn : p.shared.path = none := by
    cases hs : p.shared.path with
    | none => rfl
    | some q => simp [Program.next, PyLibrary.setPath, hs] at h
  obtain ⟨h1, h2, -⟩ := hearly hn
  have hrun : p.run computer [.setPath path] = ⟨⟨some path, none, []⟩, p.threads⟩ := by
    simp [Program.run, Program.next, PyLibrary.setPath, hn, h1, h2]
  rw [hrun]
  have hfrom : From computer path ⟨⟨some path, none, []⟩, p.threads⟩ :=
    ⟨.inl rfl, by simp, by simp, fun t phase ht => by simp [hq t] at ht⟩
  obtain ⟨h3, h4⟩ := run_from_set hfrom rfl later
  have hno := run_noDefault (computer := computer) (p := ⟨⟨some path, none, []⟩, p.threads⟩) (fun h => by cases h) (by simp)
    (fun t phase ht => by simp [hq t] at ht) later
  obtain ⟨-, -, h5, h6⟩ := next_from h3 event (fun _ _ => by rw [h4]; simp)
  refine ⟨fun thread dll h => (h5 thread dll h).1, ?_⟩
  intro thread e he
  rcases h6 thread e he with h | h | h | h
  · exact .inl h
  · exact .inr ⟨h.1, h.2.2⟩
  · rw [h4] at h
    cases h.1
  · exact (hno thread _ h.1).elim

/-- **C89**, too late: once a path was set, or a use of the library has returned, setting a path raises an error in all schedules. -/
theorem C89_too_late (computer : Computer) (events : List Event) (event : Event)
    (h : (∃ thread dll, ((Program.start.run computer events).next computer event).2 = .returned thread dll) ∨
      ((Program.start.run computer events).next computer event).2 = .pathSet (.ok ()))
    (later : List Event) (path : String) :
    ((Program.start.run computer (events ++ [event] ++ later)).next computer (.setPath path)).2 = .pathSet (.error .valueError) ∧
      ((Program.start.run computer (events ++ [event] ++ later)).next computer (.setPath path)).1 =
        Program.start.run computer (events ++ [event] ++ later) := by
  have hearly := (run_early (computer := computer) start_early events).1
  rw [run_append, run_append]
  generalize Program.start.run computer events = p at h hearly
  obtain ⟨h1, -, h3⟩ := next_early (computer := computer) hearly event
  have hp : (p.next computer event).1.shared.path ≠ none := by
    rcases h with ⟨thread, dll, h⟩ | h
    · exact h3 thread dll h
    · cases event with
      | call thread =>
        simp only [Program.next] at h
        split at h <;> cases h
      | step thread =>
        simp only [Program.next] at h
        (repeat' split at h) <;> cases h
      | setPath q =>
        simp only [Program.next, PyLibrary.setPath] at h ⊢
        split at h
        · cases h
        · simp
  have := (run_early (computer := computer) h1 later).2 hp
  have e : p.run computer [event] = (p.next computer event).1 := rfl
  rw [e]
  generalize (p.next computer event).1.run computer later = r at this
  cases hs : r.shared.path with
  | none => exact absurd hs this
  | some q => simp [Program.next, PyLibrary.setPath, hs]

/-- **C89**, in time: before the first use of the library and with no path, a path can be set. -/
theorem C89_in_time (computer : Computer) (events : List Event) (h : ∀ event ∈ events, ∃ thread, event = .call thread) (path : String) :
    ((Program.start.run computer events).next computer (.setPath path)).2 = .pathSet (.ok ()) := by
  have : (Program.start.run computer events).shared.path = none := by
    suffices ∀ p : Program, (p.run computer events).shared = p.shared by rw [this]; rfl
    induction events with
    | nil => intro p; rfl
    | cons e events ih =>
      intro p
      obtain ⟨thread, rfl⟩ := h e (by simp)
      rw [Program.run, ih (fun e he => h e (List.mem_cons_of_mem _ he))]
      simp only [Program.next]
      split <;> rfl
  simp [Program.next, PyLibrary.setPath, this]

/-- **C89**, without a path: in all schedules, the library is the one next to the Python files. -/
theorem C89_default (computer : Computer) (name : String) (hname : computer.name = some name) (events : List Event)
    (hset : ∀ q, .setPath q ∉ events) (thread dll : Nat) (event : Event)
    (hr : ((Program.start.run computer events).next computer event).2 = .returned thread dll) :
    LoadedFrom ((Program.start.run computer events).next computer event).1 dll (computer.here ++ name) := by
  have hfrom : From computer (computer.here ++ name) .start :=
    ⟨.inr ⟨rfl, fun n hn => by rw [hname] at hn; cases hn; rfl⟩, by simp [Program.start, Shared.start],
      by simp [Program.start, Shared.start], fun t phase ht => by cases ht⟩
  refine ((next_from (run_from_default hfrom events hset) event ?_).2.2.1 thread dll hr).1
  intro q hq
  subst hq
  cases hr

/-! ### C90: a library which can not be found -/

/-- **C90**, full statement: without a path, when the file of the library is missing or not usable, whatever threads do, each use of the
library raises an `ImportError`. -/
def C90_full_statement : Prop :=
  ∀ (computer : Computer) (name : String), computer.name = some name →
    checkFile computer (computer.here ++ name) = .error .importError →
    ∀ (events : List Event), (∀ q, .setPath q ∉ events) → ∀ (event : Event),
      (∀ thread dll, ((Program.start.run computer events).next computer event).2 ≠ .returned thread dll) ∧
      ∀ thread e, ((Program.start.run computer events).next computer event).2 = .raised thread e → e = .importError

/-- **C90**, the first result: when calls do not overlap, the first use of the library raises the exception of the check of the file.
Missing: later uses, see `C90_counterexample` and `C90_counterexample_loads`. -/
theorem C90_first_partial (computer : Computer) (name : String) (hname : computer.name = some name) (e : LibExc)
    (hcheck : checkFile computer (computer.here ++ name) = .error e)
    (events : List Event) (event : Event) (ho : NoOverlap computer .start (events ++ [event]))
    (hset : ∀ q, .setPath q ∉ events ++ [event])
    (hfirst : ∀ a x b, events = a ++ x :: b → ((Program.start.run computer a).next computer x).2 = .nothing) :
    ((Program.start.run computer events).next computer event).2 = .nothing ∨
      ∃ thread, ((Program.start.run computer events).next computer event).2 = .raised thread e := by
  obtain ⟨h1, h2⟩ := noOverlap_append.1 ho
  have h : FirstUse (computer.here ++ name) .start := ⟨rfl, .inl ⟨fun _ => rfl, rfl⟩⟩
  have h := run_firstUse hname hcheck h events h1 (fun q hq => hset q (List.mem_append_left _ hq)) hfirst
  rcases next_firstUse hname hcheck h event h2.1 (fun q hq => hset q (by rw [hq]; simp)) with ⟨h, -⟩ | h
  · exact .inl h
  · exact .inr h

/-- **C90**, all results: in all schedules, when the file can not be loaded, no use of the library returns, and each one raises an
`OSError` or the exception of the check of the file. -/
theorem C90_all_partial (computer : Computer) (name : String) (hname : computer.name = some name)
    (hloads : computer.loads (computer.here ++ name) = false) (events : List Event) (hset : ∀ q, .setPath q ∉ events) (event : Event) :
    (∀ thread dll, ((Program.start.run computer events).next computer event).2 ≠ .returned thread dll) ∧
    ∀ thread e, ((Program.start.run computer events).next computer event).2 = .raised thread e →
      e = .osError ∨ checkFile computer (computer.here ++ name) = .error e := by
  have hfrom : From computer (computer.here ++ name) .start :=
    ⟨.inr ⟨rfl, fun n hn => by rw [hname] at hn; cases hn; rfl⟩, by simp [Program.start, Shared.start],
      by simp [Program.start, Shared.start], fun t phase ht => by cases ht⟩
  have hfrom := run_from_default hfrom events hset
  by_cases hq : ∃ q, event = .setPath q
  · obtain ⟨q, rfl⟩ := hq
    exact ⟨fun _ _ h => (by cases h), fun _ _ h => (by cases h)⟩
  · obtain ⟨-, -, h1, h2⟩ := next_from hfrom event (fun q h => absurd ⟨q, h⟩ hq)
    refine ⟨fun thread dll h => ?_, fun thread e h => ?_⟩
    · have := (h1 thread dll h).2
      rw [hloads] at this
      cases this
    · rcases h2 thread e h with h | h | h | h
      · exact .inl h.1
      · rw [hloads] at h
        cases h.2.1
      · rw [hname] at h
        cases h.2.1
      · exact .inr h.2

/-- **C90**, on other platforms: without a path, in all schedules, no use of the library returns, and each one raises an
`ImportError`. -/
theorem C90_unknown_platform (computer : Computer) (hname : computer.platform = .unknown) (events : List Event)
    (hset : ∀ q, .setPath q ∉ events) (event : Event) :
    (∀ thread dll, ((Program.start.run computer events).next computer event).2 ≠ .returned thread dll) ∧
    ∀ thread e, ((Program.start.run computer events).next computer event).2 = .raised thread e → e = .importError := by
  have hname : computer.name = none := by simp [Computer.name, hname]
  have h := run_nowhere hname (p := .start) ⟨rfl, rfl, fun _ _ h => by cases h⟩ events hset
  by_cases hq : ∃ q, event = .setPath q
  · obtain ⟨q, rfl⟩ := hq
    exact ⟨fun _ _ h => (by cases h), fun _ _ h => (by cases h)⟩
  · rcases (next_nowhere hname h event (fun q h => hq ⟨q, h⟩)).2 with h | ⟨t, h⟩
    · rw [h]
      exact ⟨by simp, by simp⟩
    · rw [h]
      refine ⟨by simp, ?_⟩
      intro thread e he
      cases he
      rfl

/-! ### C91: which files are accepted on Windows -/

/-- **C91**, full statement: a file which is not a DLL for the same pointer size as Python is refused with an `ImportError`. -/
def C91_full_statement : Prop :=
  ∀ (arch : Arch) (file : Bytes),
    ¬ (startsAsDll file ∧ ∃ offset machine, IntegerAt file 60 4 offset ∧ IntegerAt file (offset + 4) 2 machine ∧
      machineOf arch = some machine) →
    checkDll arch file = .error .importError

/-- **C91**, the files which are accepted: those which start as a DLL, and whose machine is the one of Python. -/
theorem C91_accepts (arch : Arch) (file : Bytes) :
    checkDll arch file = .ok () ↔
      startsAsDll file ∧ ∃ offset machine, IntegerAt file 60 4 offset ∧ IntegerAt file (offset + 4) 2 machine ∧
        machineOf arch = some machine := by
  rw [checkDll_eq]
  by_cases hm : startsAsDll file
  · rw [if_pos hm]
    cases h1 : unpack 4 (readAt file 60 4) with
    | error e =>
      simp only [reduceCtorEq, false_iff]
      rintro ⟨-, offset, machine, h, -⟩
      rw [(unpack_readAt (by decide)).2 h] at h1
      cases h1
    | ok offset =>
      cases h2 : unpack 2 (readAt file (offset + 4) 2) with
      | error e =>
        simp only [h2, reduceCtorEq, false_iff]
        rintro ⟨-, offset', machine, h, h', -⟩
        rw [(unpack_readAt (by decide)).2 h] at h1
        cases h1
        rw [(unpack_readAt (by decide)).2 h'] at h2
        cases h2
      | ok machine =>
        simp only [h2]
        split
        · rename_i he
          exact ⟨fun _ => ⟨hm, offset, machine, (unpack_readAt (by decide)).1 h1, (unpack_readAt (by decide)).1 h2, he⟩, fun _ => rfl⟩
        · rename_i he
          simp only [reduceCtorEq, false_iff]
          rintro ⟨-, offset', machine', h, h', h''⟩
          rw [(unpack_readAt (by decide)).2 h] at h1
          cases h1
          rw [(unpack_readAt (by decide)).2 h'] at h2
          cases h2
          exact he h''
  · rw [if_neg hm]
    simp only [hm, false_and, iff_false]
    split <;> simp

/-- **C91**, the files which are refused with an `ImportError`: DLL for another machine, and files whose first two bytes are other
characters in UTF-8. Missing: files which are too short or do not start with characters in UTF-8, see `C91_counterexample`. -/
theorem C91_refuses_partial (arch : Arch) (file : Bytes) :
    checkDll arch file = .error .importError ↔
      (startsAsDll file ∧ ∃ offset machine, IntegerAt file 60 4 offset ∧ IntegerAt file (offset + 4) 2 machine ∧
        machineOf arch ≠ some machine) ∨
      (¬ startsAsDll file ∧ ∃ text : String, file.take 2 = utf8Bytes text) := by
  rw [checkDll_eq]
  by_cases hm : startsAsDll file
  · rw [if_pos hm]
    simp only [hm, true_and, not_true_eq_false, false_and, or_false]
    cases h1 : unpack 4 (readAt file 60 4) with
    | error e =>
      have := unpack_error h1
      subst this
      simp only [Except.error.injEq, reduceCtorEq, false_iff]
      rintro ⟨offset, machine, h, -⟩
      rw [(unpack_readAt (by decide)).2 h] at h1
      cases h1
    | ok offset =>
      cases h2 : unpack 2 (readAt file (offset + 4) 2) with
      | error e =>
        have := unpack_error h2
        subst this
        simp only [h2, Except.error.injEq, reduceCtorEq, false_iff]
        rintro ⟨offset', machine, h, h', -⟩
        rw [(unpack_readAt (by decide)).2 h] at h1
        cases h1
        rw [(unpack_readAt (by decide)).2 h'] at h2
        cases h2
      | ok machine =>
        simp only [h2]
        split
        · rename_i he
          simp only [reduceCtorEq, false_iff]
          rintro ⟨offset', machine', h, h', h''⟩
          rw [(unpack_readAt (by decide)).2 h] at h1
          cases h1
          rw [(unpack_readAt (by decide)).2 h'] at h2
          cases h2
          exact h'' he
        · rename_i he
          exact ⟨fun _ => ⟨offset, machine, (unpack_readAt (by decide)).1 h1, (unpack_readAt (by decide)).1 h2, he⟩, fun _ => rfl⟩
  · rw [if_neg hm]
    simp only [hm, false_and, not_false_eq_true, true_and, false_or]
    cases hd : NpyHeader.decodeUtf8 (readAt file 0 2) with
    | some text =>
      refine ⟨fun _ => ⟨String.ofList text, ?_⟩, fun _ => rfl⟩
      rw [utf8Bytes_eq, String.toList_ofList, ← decodeUtf8_eq_some.1 hd]
      rfl
    | none =>
      simp only [Except.error.injEq, reduceCtorEq, false_iff]
      rintro ⟨text, h⟩
      rw [utf8Bytes_eq] at h
      have h := decodeUtf8_eq_some.2 h
      have e : readAt file 0 2 = file.take 2 := rfl
      rw [e, h] at hd
      cases hd

/-! ### Examples and counterexamples -/

namespace Example

/-- A computer where everything is fine. -/
def linux : Computer where
  platform := .linux
  arch := .bits64
  here := "/lib/"
  file path := if path = "/lib/libequistore.so" then some [0x7F] else none
  loads path := path == "/lib/libequistore.so" || path == "/other.so"
  exports _ _ := true

/-- The file of the library is missing. -/
def missing : Computer := { linux with file := fun _ => none, loads := fun _ => false }

/-- The library is from another version, and does not have the last function. -/
def older : Computer := { linux with exports := fun _ name => name != "eqs_tensormap_save" }

/-- A DLL for the machine 0xAA64. -/
def armDll : Bytes := [0x4D, 0x5A] ++ List.replicate 58 0 ++ [64, 0, 0, 0] ++ [0x50, 0x45, 0, 0] ++ [0x64, 0xAA]

/-- Windows on this machine. -/
def arm : Computer :=
  { linux with platform := .windows, file := fun path => if path = "/lib/equistore.dll" then some armDll else none,
               loads := fun path => path == "/lib/equistore.dll" }

theorem linux_complete : ∀ path, linux.loads path = true → Complete linux path := fun _ _ _ _ => rfl

/-- A whole call. -/
theorem wholeCall_noOverlap {computer : Computer} {p : Program} (h : Quiet p) (thread : Nat) (events : List Event)
    (he : ∀ thread, .call thread ∉ events) : NoOverlap computer p (.call thread :: events) :=
  ⟨fun _ _ => h, noOverlap_steps he⟩

/-- The second thread has the library, and the first one did not set the types. -/
def race : Program :=
  ((Program.start.run linux [.call 0, .step 0, .step 0, .step 0, .step 0, .step 0, .step 0, .call 1, .step 1]).next linux (.step 1)).1

/-- After the two calls with the older library. -/
def afterOlder : Program :=
  ((Program.start.run older ((.call 0 :: List.replicate 29 (.step 0)) ++ [.step 0] ++ [.call 0, .step 0])).next older (.step 0)).1

/-- After a path was replaced. -/
def replaced : Program :=
  ((Program.start.run linux ([.call 0, .step 0, .step 0] ++ [.setPath "/other.so"] ++ List.replicate 29 (.step 0))).next
    linux (.step 0)).1

/-- Two threads use the library for the first time, one step of each at a time, up to the last step of the second one. -/
def together : List Event := [.call 0, .call 1] ++ (List.replicate 31 [Event.step 0, .step 1]).flatten

theorem together_quiet : Quiet (Program.start.run linux (together ++ [.step 0] ++ [.step 1])) := by
  intro t
  by_cases h0 : t = 0
  · subst h0; decide +kernel
  by_cases h1 : t = 1
  · subst h1; decide +kernel
  refine run_silent rfl fun e he => ?_
  have : e = .call 0 ∨ e = .call 1 ∨ e = .step 0 ∨ e = .step 1 := by
    revert e
    decide +kernel
  rcases this with rfl | rfl | rfl | rfl <;> simp [Ne.symm h0, Ne.symm h1]

theorem quiet_start : Quiet .start := fun _ => rfl

end Example

example : ∃ dll, ((Program.start.run Example.linux (.call 0 :: List.replicate 31 (.step 0))).next Example.linux (.step 0)).2 =
      .returned 0 dll ∧
    SetUp ((Program.start.run Example.linux (.call 0 :: List.replicate 31 (.step 0))).next Example.linux (.step 0)).1 dll :=
  ⟨0, by decide +kernel,
    (C88_one_at_a_time_partial Example.linux Example.linux_complete (.call 0 :: List.replicate 31 (.step 0)) (.step 0)
      (Example.wholeCall_noOverlap Example.quiet_start 0 _ (by simp)) 0 0 (by decide +kernel)).1⟩

example : SetUp ((Program.start.run Example.linux ((.call 0 :: List.replicate 31 (.step 0)) ++ [.step 0] ++
      [.call 0, .call 1, .step 1, .step 0, .setPath "/other.so"])).next Example.linux (.step 1)).1 0 :=
  (C88_after_first_partial Example.linux Example.linux_complete (.call 0 :: List.replicate 31 (.step 0)) (.step 0)
    (Example.wholeCall_noOverlap Example.quiet_start 0 _ (by simp)) 0 0 (by decide +kernel)
    [.call 0, .call 1, .step 1, .step 0, .setPath "/other.so"] (.step 1) 1 0 (by decide +kernel)).2

/-- Non-vacuity of `C88_after_quiet_partial`: two threads load the library together, and make two objects; a third thread then gets
the second one. -/
example : (Program.start.run Example.linux (Example.together ++ [.step 0] ++ [.step 1])).shared.dlls.length = 2 ∧
    SetUp ((Program.start.run Example.linux (Example.together ++ [.step 0] ++ [.step 1] ++ [.call 2, .step 2])).next
      Example.linux (.step 2)).1 1 := by
  refine ⟨by decide +kernel, ?_⟩
  obtain ⟨object, h⟩ := C88_after_quiet_partial Example.linux Example.linux_complete Example.together (.step 0) [.step 1] 0 1
    (by decide +kernel) Example.together_quiet
  obtain ⟨rfl, h2⟩ := h [.call 2, .step 2] (.step 2) 2 1 (by decide +kernel)
  exact h2

/-- Two threads: the second one gets the library while the first one is still setting the types of the functions. -/
theorem C88_counterexample : ¬ C88_full_statement := by
  intro h
  obtain ⟨object, h1, h2⟩ := h Example.linux
    [.call 0, .step 0, .step 0, .step 0, .step 0, .step 0, .step 0, .call 1, .step 1] (.step 1) 1 0 (by decide +kernel)
  have h3 : Example.race.shared.dlls[0]? = some ⟨"/lib/libequistore.so", []⟩ := by decide +kernel
  cases h3.symm.trans h1
  cases h2 "eqs_block" (by simp [functionNames])

/-- One thread: when a function is missing, the first call raises an `AttributeError`, and the second one returns the library where not
all functions have their types. -/
theorem C88_counterexample_missing :
    ∃ (first : List Event) (last : Event) (second : List Event) (last' : Event),
      NoOverlap Example.older .start (first ++ [last] ++ second ++ [last']) ∧
      ((Program.start.run Example.older first).next Example.older last).2 = .raised 0 .attributeError ∧
      ((Program.start.run Example.older (first ++ [last] ++ second)).next Example.older last').2 = .returned 0 0 ∧
      ¬ SetUp ((Program.start.run Example.older (first ++ [last] ++ second)).next Example.older last').1 0 := by
  refine ⟨.call 0 :: List.replicate 29 (.step 0), .step 0, [.call 0, .step 0], .step 0, ?_, by decide +kernel, by decide +kernel, ?_⟩
  · rw [List.append_assoc, noOverlap_append]
    refine ⟨Example.wholeCall_noOverlap Example.quiet_start 0 _ (by simp), ?_⟩
    exact Example.wholeCall_noOverlap (quiet_of_one (thread := 0) (by simp) (by decide +kernel)) 0 _ (by simp)
  · rintro ⟨object, h1, h2⟩
    have : "eqs_tensormap_save" ∈ object.functions := h2 _ (by simp [functionNames])
    have h3 : Example.afterOlder.shared.dlls[0]? = some ⟨"/lib/libequistore.so", functionNames.dropLast⟩ := by decide +kernel
    have h4 := h3.symm.trans h1
    simp only [Option.some.injEq] at h4
    subst h4
    revert this
    decide +kernel

/-- Two threads: a path set while the other thread starts to use the library is replaced by the default one. -/
theorem C89_counterexample : ¬ C89_full_statement := by
  intro h
  obtain ⟨object, h1, h2⟩ := h Example.linux [.call 0, .step 0, .step 0] "/other.so" (by decide +kernel)
    (List.replicate 29 (.step 0)) (.step 0) 0 0 (by decide +kernel)
  have h3 : Example.replaced.shared.dlls[0]? = some ⟨"/lib/libequistore.so", functionNames⟩ := by decide +kernel
  have h4 := h3.symm.trans h1
  simp only [Option.some.injEq] at h4
  subst h4
  revert h2
  decide

example : ∃ dll, ((Program.start.run Example.linux ([] ++ [.setPath "/other.so"] ++ .call 0 :: List.replicate 29 (.step 0))).next
      Example.linux (.step 0)).2 = .returned 0 dll ∧
    LoadedFrom ((Program.start.run Example.linux ([] ++ [.setPath "/other.so"] ++ .call 0 :: List.replicate 29 (.step 0))).next
      Example.linux (.step 0)).1 dll "/other.so" :=
  ⟨0, by decide +kernel, (C89_set_path_partial Example.linux [] "/other.so" Example.quiet_start rfl _ _).1 0 0 (by decide +kernel)⟩

example : ((Program.start.run Example.linux (.call 0 :: List.replicate 31 (.step 0) ++ [.step 0] ++ [])).next Example.linux
    (.setPath "/other.so")).2 = .pathSet (.error .valueError) :=
  (C89_too_late Example.linux _ _ (.inl ⟨0, 0, by decide +kernel⟩) [] _).1

example : ((Program.start.run Example.linux [.call 0, .call 1]).next Example.linux (.setPath "/other.so")).2 = .pathSet (.ok ()) :=
  C89_in_time Example.linux _ (by simp) _

example : LoadedFrom ((Program.start.run Example.linux (.call 0 :: List.replicate 31 (.step 0))).next Example.linux (.step 0)).1 0
    "/lib/libequistore.so" :=
  C89_default Example.linux "libequistore.so" rfl _ (by simp) 0 0 _ (by decide +kernel)

/-- When the file is missing, the second use raises an `OSError`. -/
theorem C90_counterexample : ¬ C90_full_statement := by
  intro h
  have := (h Example.missing "libequistore.so" rfl rfl
    [.call 0, .step 0, .step 0, .step 0, .step 0, .call 0, .step 0, .step 0] (by simp) (.step 0)).2 0 .osError (by decide +kernel)
  cases this

/-- Windows on another machine: the first use refuses the file, the second one loads it. -/
theorem C90_counterexample_loads :
    checkFile Example.arm "/lib/equistore.dll" = .error .importError ∧
    ((Program.start.run Example.arm [.call 0, .step 0, .step 0, .step 0]).next Example.arm (.step 0)).2 = .raised 0 .importError ∧
    ((Program.start.run Example.arm ([.call 0, .step 0, .step 0, .step 0, .step 0] ++ .call 0 :: List.replicate 29 (.step 0))).next
      Example.arm (.step 0)).2 = .returned 0 0 := by
  decide +kernel

example : ∃ thread, ((Program.start.run Example.missing [.call 0, .step 0, .step 0, .step 0]).next Example.missing (.step 0)).2 =
    .raised thread .importError := by
  rcases C90_first_partial Example.missing "libequistore.so" rfl .importError rfl [.call 0, .step 0, .step 0, .step 0] (.step 0)
    (Example.wholeCall_noOverlap Example.quiet_start 0 _ (by simp)) (by simp) (by
      intro a x b h
      match a, h with
      | [], h => cases h; decide +kernel
      | [_], h => cases h; decide +kernel
      | [_, _], h => cases h; decide +kernel
      | [_, _, _], h => cases h; decide +kernel
      | _ :: _ :: _ :: _ :: _, h => simp at h) with h | h
  · exact absurd h (by decide +kernel)
  · exact h

example : ((Program.start.run Example.missing [.call 0, .step 0, .step 0, .call 1, .step 0, .step 1, .step 1]).next Example.missing
      (.step 1)).2 = .raised 1 .osError ∧
    ∀ thread dll, ((Program.start.run Example.missing [.call 0, .step 0, .step 0, .call 1, .step 0, .step 1, .step 1]).next
      Example.missing (.step 1)).2 ≠ .returned thread dll :=
  ⟨by decide +kernel, (C90_all_partial Example.missing "libequistore.so" rfl rfl _ (by simp) _).1⟩

example : ((Program.start.run { Example.linux with platform := .unknown } [.call 0, .step 0]).next
      { Example.linux with platform := .unknown } (.step 0)).2 = .raised 0 .importError ∧
    ∀ thread dll, ((Program.start.run { Example.linux with platform := .unknown } [.call 0, .step 0]).next
      { Example.linux with platform := .unknown } (.step 0)).2 ≠ .returned thread dll :=
  ⟨by decide +kernel, (C90_unknown_platform _ rfl _ (by simp) _).1⟩

/-- A file with only the first two bytes of a DLL gives a `struct.error`. -/
theorem C91_counterexample : ¬ C91_full_statement := by
  intro h
  have := h .bits64 [0x4D, 0x5A] (by
    rintro ⟨-, offset, machine, h, -⟩
    have := h.1
    simp at this)
  rw [(show checkDll .bits64 [0x4D, 0x5A] = .error .structError by decide +kernel)] at this
  cases this

example : checkDll .bits32 Example.armDll = .error .importError :=
  (C91_refuses_partial .bits32 Example.armDll).2 (.inl ⟨by decide, 64, 0xAA64,
    ⟨by decide, by decide, by decide⟩, ⟨by decide, by decide, by decide⟩, by decide⟩)

example : checkDll .bits64 (Example.armDll.take 68 ++ [0x64, 0x86]) = .ok () :=
  (C91_accepts .bits64 _).2 ⟨by decide, 64, 34404, ⟨by decide, by decide, by decide⟩, ⟨by decide, by decide, by decide⟩, rfl⟩

end Equistore
