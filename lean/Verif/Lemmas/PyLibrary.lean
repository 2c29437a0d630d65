import Verif.Spec.PyLibrary
import Verif.Lemmas.CMemory
import Verif.Lemmas.Npy

/-!
# Lemmas about loading the library in Python
-/

namespace Equistore
open Spec PyLibrary

/-- Nothing was loaded, or the first object is complete. -/
def Settled (s : Shared) : Prop :=
  (s.cached = none ∧ s.dlls = []) ∨ (s.cached = some 0 ∧ ∃ path, s.dlls = [⟨path, functionNames⟩])

/-- What a thread can assume when no other one is in a call. -/
def Alone (computer : Computer) (s : Shared) : Phase → Prop
  | .start => Settled s
  | .readPath => s.cached = none ∧ s.dlls = []
  | .writePath _ => s.cached = none ∧ s.dlls = []
  | .checkPath _ => s.cached = none ∧ s.dlls = []
  | .load _ => s.cached = none ∧ s.dlls = []
  | .store dll => dll = 0 ∧ s.cached = none ∧ ∃ path, s.dlls = [⟨path, []⟩] ∧ computer.loads path = true
  | .setup => s.cached = some 0 ∧ ∃ path, s.dlls = [⟨path, []⟩] ∧ computer.loads path = true
  | .functions dll names => dll = 0 ∧ s.cached = some 0 ∧ ∃ path done, s.dlls = [⟨path, done⟩] ∧
      computer.loads path = true ∧ done ++ names = functionNames
  | .return => s.cached = some 0 ∧ ∃ path, s.dlls = [⟨path, functionNames⟩]

/-- One thread is in a call. -/
def Sequential (computer : Computer) (p : Program) : Prop :=
  (Quiet p ∧ Settled p.shared) ∨
    ∃ thread phase, p.threads thread = some phase ∧ (∀ t, t ≠ thread → p.threads t = none) ∧ Alone computer p.shared phase

theorem step_alone {computer : Computer} (hc : ∀ path, computer.loads path = true → Complete computer path) {s : Shared} {phase : Phase}
    (h : Alone computer s phase) :
    (∀ phase', (step computer s phase).2 = .goes phase' → Alone computer (step computer s phase).1 phase') ∧
    (∀ dll, (step computer s phase).2 = .returned dll → dll = 0 ∧ s.cached = some 0 ∧
      (∃ path, s.dlls = [⟨path, functionNames⟩]) ∧ (step computer s phase).1 = s) ∧
    (∀ e, (step computer s phase).2 = .raised e → Settled (step computer s phase).1) := by
  cases phase with
  | start =>
    rcases h with ⟨h1, h2⟩ | ⟨h1, h2⟩
    · simp [step, h1, h2, Alone]
    · simp only [step, h1, Option.isNone_some, Bool.false_eq_true, if_false]
      refine ⟨?_, by simp, by simp⟩
      intro phase' he
      cases he
      exact ⟨h1, h2⟩
  | readPath =>
    simp only [step]
    split
    · refine ⟨?_, by simp, by simp⟩
      intro phase' he
      cases he
      exact h
    · split
      · refine ⟨?_, by simp, by simp⟩
        intro phase' he
        cases he
        exact h
      · exact ⟨by simp, by simp, fun e _ => .inl h⟩
  | writePath path =>
    refine ⟨?_, by simp [step], by simp [step]⟩
    intro phase' he
    cases he
    exact h
  | checkPath path =>
    simp only [step]
    split
    · refine ⟨?_, by simp, by simp⟩
      intro phase' he
      cases he
      exact h
    · exact ⟨by simp, by simp, fun e _ => .inl h⟩
  | load path =>
    simp only [step]
    split
    · rename_i hl
      refine ⟨?_, by simp, by simp⟩
      intro phase' he
      cases he
      exact ⟨by rw [h.2]; rfl, h.1, path, by rw [h.2]; rfl, hl⟩
    · exact ⟨by simp, by simp, fun e _ => .inl h⟩
  | store dll =>
    obtain ⟨rfl, h1, h2⟩ := h
    refine ⟨?_, by simp [step], by simp [step]⟩
    intro phase' he
    cases he
    exact ⟨rfl, h2⟩
  | setup =>
    obtain ⟨h1, path, h2, h3⟩ := h
    simp only [step, h1]
    refine ⟨?_, by simp, by simp⟩
    intro phase' he
    cases he
    exact ⟨rfl, h1, path, [], h2, h3, rfl⟩
  | functions dll names =>
    obtain ⟨rfl, h1, path, done, h2, h3, h4⟩ := h
    cases names with
    | nil =>
      refine ⟨?_, by simp [step], by simp [step]⟩
      intro phase' he
      cases he
      rw [List.append_nil] at h4
      exact ⟨h1, path, h4 ▸ h2⟩
    | cons name names =>
      have hx : computer.exports path name = true := hc path h3 name (by rw [← h4]; simp)
      have hg : s.dlls[0]? = some ⟨path, done⟩ := by rw [h2]; rfl
      simp only [step, hg, hx, if_true]
      refine ⟨?_, by simp, by simp⟩
      intro phase' he
      cases he
      refine ⟨rfl, h1, path, done ++ [name], ?_, h3, ?_⟩
      · simp [h2, setupFunction]
      · simp [← h4]
  | «return» =>
    obtain ⟨h1, h2⟩ := h
    simp only [step, h1]
    refine ⟨by simp, ?_, by simp⟩
    intro dll he
    cases he
    exact ⟨rfl, by simp, h2, by simp⟩

theorem next_sequential {computer : Computer} (hc : ∀ path, computer.loads path = true → Complete computer path) {p : Program}
    (h : Sequential computer p) {event : Event} (hq : ∀ thread, event = .call thread → Quiet p) :
    Sequential computer (p.next computer event).1 ∧
    ∀ thread dll, (p.next computer event).2 = .returned thread dll → dll = 0 ∧ Quiet (p.next computer event).1 ∧
      (p.next computer event).1.shared.cached = some 0 ∧
      ∃ path, (p.next computer event).1.shared.dlls = [⟨path, functionNames⟩] := by
  cases event with
  | call thread =>
    have hq := hq thread rfl
    rcases h with ⟨-, hs⟩ | ⟨t, phase, ht, -⟩
    · simp only [Program.next, hq thread]
      refine ⟨.inr ⟨thread, .start, by simp, fun t ht => by simp [ht, hq t], hs⟩, by simp⟩
    · rw [hq t] at ht
      cases ht
  | setPath path =>
    have hset : (PyLibrary.setPath path p.shared).1.cached = p.shared.cached ∧
        (PyLibrary.setPath path p.shared).1.dlls = p.shared.dlls := by
      unfold PyLibrary.setPath
      split <;> simp
    have hAlone : ∀ phase, Alone computer p.shared phase → Alone computer (PyLibrary.setPath path p.shared).1 phase := by
      intro phase h
      cases phase <;> simpa only [Alone, Settled, hset.1, hset.2] using h
    refine ⟨?_, by simp [Program.next]⟩
    rcases h with ⟨hq, hs⟩ | ⟨t, phase, ht, ho, ha⟩
    · exact .inl ⟨hq, hAlone .start hs⟩
    · exact .inr ⟨t, phase, ht, ho, hAlone phase ha⟩
  | step thread =>
    rcases h with ⟨hq, hs⟩ | ⟨t, phase, ht, ho, ha⟩
    · simp only [Program.next, hq thread]
      exact ⟨.inl ⟨hq, hs⟩, by simp⟩
    · by_cases hthread : thread = t
      · subst hthread
        obtain ⟨h1, h2, h3⟩ := step_alone hc ha
        simp only [Program.next, ht]
        cases hstep : step computer p.shared phase with
        | mk s outcome =>
          rw [hstep] at h1 h2 h3
          cases outcome with
          | goes phase' => exact ⟨.inr ⟨thread, phase', by simp, fun t ht => by simp [ht, ho t ht], h1 _ rfl⟩, by simp⟩
          | returned dll =>
            obtain ⟨e1, e2, e3, e4⟩ := h2 dll rfl
            simp only at e4
            subst e4
            have hq : Quiet ⟨p.shared, fun t => if t = thread then none else p.threads t⟩ := by
              intro t
              by_cases ht : t = thread
              · simp [ht]
              · simp [ht, ho t ht]
            refine ⟨.inl ⟨hq, .inr ⟨e2, e3⟩⟩, ?_⟩
            intro t d he
            cases he
            exact ⟨e1, hq, e2, e3⟩
          | raised e =>
            have hq : Quiet ⟨s, fun t => if t = thread then none else p.threads t⟩ := by
              intro t
              by_cases ht : t = thread
              · simp [ht]
              · simp [ht, ho t ht]
            exact ⟨.inl ⟨hq, h3 _ rfl⟩, by simp⟩
      · simp only [Program.next, ho thread hthread]
        exact ⟨.inr ⟨t, phase, ht, ho, ha⟩, by simp⟩

theorem run_append (computer : Computer) (p : Program) (a b : List Event) :
    p.run computer (a ++ b) = (p.run computer a).run computer b := by
  induction a generalizing p with
  | nil => rfl
  | cons e a ih => exact ih _

theorem noOverlap_append {computer : Computer} {p : Program} {a b : List Event} :
    NoOverlap computer p (a ++ b) ↔ NoOverlap computer p a ∧ NoOverlap computer (p.run computer a) b := by
  induction a generalizing p with
  | nil => simp [NoOverlap, Program.run]
  | cons e a ih => simp only [List.cons_append, NoOverlap, Program.run, ih, and_assoc]

theorem run_sequential {computer : Computer} (hc : ∀ path, computer.loads path = true → Complete computer path) {p : Program}
    (h : Sequential computer p) {events : List Event} (ho : NoOverlap computer p events) :
    Sequential computer (p.run computer events) := by
  induction events generalizing p with
  | nil => exact h
  | cons e events ih => exact ih (next_sequential hc h ho.1).1 ho.2

theorem start_sequential (computer : Computer) : Sequential computer .start := .inl ⟨fun _ => rfl, .inl ⟨rfl, rfl⟩⟩

/-- After the first call, with a complete object in the cache. -/
structure Loaded (p : Program) (dll : Nat) : Prop where
  cached : p.shared.cached = some dll
  setUp : SetUp p dll
  threads : ∀ thread phase, p.threads thread = some phase → phase = .start ∨ phase = .return

theorem next_loaded {computer : Computer} {p : Program} {dll : Nat} (h : Loaded p dll) (event : Event) :
    Loaded (p.next computer event).1 dll ∧
      ∀ thread dll', (p.next computer event).2 = .returned thread dll' → dll' = dll := by
  cases event with
  | call thread =>
    simp only [Program.next]
    split
    · refine ⟨⟨h.cached, h.setUp, ?_⟩, by simp⟩
      intro t phase ht
      simp only at ht
      split at ht
      · cases ht; exact .inl rfl
      · exact h.threads t phase ht
    · exact ⟨h, by simp⟩
  | setPath path =>
    have hset : (PyLibrary.setPath path p.shared).1.cached = p.shared.cached ∧
        (PyLibrary.setPath path p.shared).1.dlls = p.shared.dlls := by
      unfold PyLibrary.setPath
      split <;> simp
    refine ⟨⟨hset.1.trans h.cached, ?_, h.threads⟩, by simp [Program.next]⟩
    obtain ⟨o, h1, h2⟩ := h.setUp
    exact ⟨o, by simp only [Program.next, hset.2]; exact h1, h2⟩
  | step thread =>
    simp only [Program.next]
    cases ht : p.threads thread with
    | none => exact ⟨h, by simp⟩
    | some phase =>
      rcases h.threads thread phase ht with rfl | rfl
      · simp only [step, h.cached, Option.isNone_some, Bool.false_eq_true, if_false]
        refine ⟨⟨h.cached, h.setUp, ?_⟩, by simp⟩
        intro t phase ht'
        simp only at ht'
        split at ht'
        · cases ht'; exact .inr rfl
        · exact h.threads t phase ht'
      · simp only [step, h.cached]
        refine ⟨⟨h.cached, h.setUp, ?_⟩, ?_⟩
        · intro t phase ht'
          simp only at ht'
          split at ht'
          · cases ht'
          · exact h.threads t phase ht'
        · intro t d he
          cases he
          rfl

theorem run_loaded {computer : Computer} {p : Program} {dll : Nat} (h : Loaded p dll) (events : List Event) :
    Loaded (p.run computer events) dll := by
  induction events generalizing p with
  | nil => exact h
  | cons e events ih => exact ih (next_loaded h e).1

/-- What holds for a thread in each phase, in all interleavings. -/
def PhaseSound (s : Shared) : Phase → Prop
  | .store dll => dll < s.dlls.length
  | .setup => s.cached ≠ none
  | .functions dll names => s.cached ≠ none ∧ ∃ object, s.dlls[dll]? = some object ∧
      (∀ name ∈ names, name ∈ functionNames) ∧ ∀ name ∈ functionNames, name ∈ names ∨ name ∈ object.functions
  | .return => s.cached ≠ none
  | _ => True

/-- This phase will set the types of the functions of the object. -/
def WillSetUp (dll : Nat) (phase : Phase) : Prop := phase = .setup ∨ ∃ names, phase = .functions dll names

/-- In all interleavings, the object in the cache has the types of all functions, or a thread will set them. -/
structure LibrarySound (computer : Computer) (p : Program) : Prop where
  dlls : ∀ (dll : Nat) (object : Dll), p.shared.dlls[dll]? = some object → computer.loads object.path = true
  cached : ∀ dll, p.shared.cached = some dll → dll < p.shared.dlls.length
  threads : ∀ thread phase, p.threads thread = some phase → PhaseSound p.shared phase
  setUp : ∀ dll, p.shared.cached = some dll →
    SetUp p dll ∨ ∃ thread phase, p.threads thread = some phase ∧ WillSetUp dll phase

theorem start_sound (computer : Computer) : LibrarySound computer .start :=
  ⟨by simp [Program.start, Shared.start], by simp [Program.start, Shared.start], by simp [Program.start],
    by simp [Program.start, Shared.start]⟩

/-- Objects are only added and get more types, and the cache is never emptied. -/
structure LibraryGrows (s s' : Shared) : Prop where
  dlls : ∀ (dll : Nat) (object : Dll), s.dlls[dll]? = some object →
    ∃ object', s'.dlls[dll]? = some object' ∧ ∀ name ∈ object.functions, name ∈ object'.functions
  cached : s.cached ≠ none → s'.cached ≠ none

theorem LibraryGrows.refl (s : Shared) : LibraryGrows s s := ⟨fun _ object h => ⟨object, h, fun _ h => h⟩, id⟩

theorem LibraryGrows.sound {s s' : Shared} (h : LibraryGrows s s') {phase : Phase} (hp : PhaseSound s phase) : PhaseSound s' phase := by
  cases phase with
  | store dll =>
    simp only [PhaseSound] at hp ⊢
    obtain ⟨o, ho, -⟩ := h.dlls dll _ (List.getElem?_eq_getElem hp)
    exact (List.getElem?_eq_some_iff.1 ho).1
  | setup => exact h.cached hp
  | functions dll names =>
    obtain ⟨hc, o, ho, h1, h2⟩ := hp
    obtain ⟨o', ho', h3⟩ := h.dlls dll o ho
    exact ⟨h.cached hc, o', ho', h1, fun name hn => (h2 name hn).imp id (h3 name)⟩
  | «return» => exact h.cached hp
  | _ => trivial

theorem LibraryGrows.setUp {p p' : Program} (h : LibraryGrows p.shared p'.shared) {dll : Nat} (hs : SetUp p dll) : SetUp p' dll := by
  obtain ⟨o, ho, h1⟩ := hs
  obtain ⟨o', ho', h2⟩ := h.dlls dll o ho
  exact ⟨o', ho', fun name hn => h2 name (h1 name hn)⟩

theorem setPath_grows (path : String) (s : Shared) : LibraryGrows s (PyLibrary.setPath path s).1 := by
  unfold PyLibrary.setPath
  split
  · exact .refl s
  · exact ⟨fun _ object h => ⟨object, h, fun _ h => h⟩, id⟩

theorem step_grows (computer : Computer) (s : Shared) (phase : Phase) : LibraryGrows s (step computer s phase).1 := by
  cases phase with
  | load path =>
    simp only [step]
    split
    · refine ⟨fun dll o h => ⟨o, ?_, fun _ h => h⟩, id⟩
      rw [List.getElem?_append_left (List.getElem?_eq_some_iff.1 h).1]; exact h
    · exact .refl s
  | store dll => exact ⟨fun _ object h => ⟨object, h, fun _ h => h⟩, fun _ => by simp [step]⟩
  | functions dll names =>
    cases names with
    | nil => exact .refl s
    | cons name names =>
      simp only [step]
      split
      · rename_i object ho
        split
        · refine ⟨fun d o h => ?_, id⟩
          by_cases hd : d = dll
          · subst hd
            rw [ho] at h; cases h
            have hlt := (List.getElem?_eq_some_iff.1 ho).1
            exact ⟨setupFunction name object, by simp [hlt], fun n hn => by simp [setupFunction, hn]⟩
          · exact ⟨o, by rw [List.getElem?_set_ne (Ne.symm hd)]; exact h, fun _ h => h⟩
        · exact .refl s
      · exact .refl s
  | writePath path => exact ⟨fun _ object h => ⟨object, h, fun _ h => h⟩, id⟩
  | _ => simp only [step]; repeat' split
         all_goals exact .refl s

theorem step_loads {computer : Computer} {s : Shared} {phase : Phase}
    (h : ∀ (dll : Nat) (object : Dll), s.dlls[dll]? = some object → computer.loads object.path = true) :
    ∀ (dll : Nat) (object : Dll), (step computer s phase).1.dlls[dll]? = some object → computer.loads object.path = true := by
  cases phase with
  | load path =>
    simp only [step]
    split
    · rename_i hl
      intro dll o ho
      by_cases hd : dll < s.dlls.length
      · rw [List.getElem?_append_left hd] at ho; exact h dll o ho
      · rw [List.getElem?_append_right (by omega)] at ho
        have := List.mem_of_getElem? ho
        simp only [List.mem_singleton] at this
        subst this; exact hl
    · exact h
  | functions dll names =>
    cases names with
    | nil => exact h
    | cons name names =>
      simp only [step]
      split
      · rename_i object ho
        split
        · intro d o hd
          by_cases hdd : d = dll
          · subst hdd
            have hlt := (List.getElem?_eq_some_iff.1 ho).1
            simp [hlt] at hd
            subst hd; exact h d object ho
          · rw [List.getElem?_set_ne (Ne.symm hdd)] at hd; exact h d o hd
        · exact h
      · exact h
  | _ => simp only [step]; repeat' split
         all_goals exact h

/-- Everything about one step of one thread. -/
theorem step_sound {computer : Computer} (hc : ∀ path, computer.loads path = true → Complete computer path) {s : Shared}
    (hd : ∀ (dll : Nat) (object : Dll), s.dlls[dll]? = some object → computer.loads object.path = true)
    (hb : ∀ dll, s.cached = some dll → dll < s.dlls.length) {phase : Phase} (hp : PhaseSound s phase) :
    (∀ phase', (step computer s phase).2 = .goes phase' → PhaseSound (step computer s phase).1 phase') ∧
    (∀ dll, (step computer s phase).2 = .returned dll → s.cached = some dll) ∧
    ((step computer s phase).1.cached = s.cached ∨
      ∃ dll, dll < s.dlls.length ∧ (step computer s phase).1.cached = some dll ∧ (step computer s phase).2 = .goes .setup) ∧
    (∀ dll, s.cached = some dll → WillSetUp dll phase →
      (∃ phase', (step computer s phase).2 = .goes phase' ∧ WillSetUp dll phase') ∨
      ∃ object, (step computer s phase).1.dlls[dll]? = some object ∧ ∀ name ∈ functionNames, name ∈ object.functions) := by
  cases phase with
  | start =>
    simp only [step]
    split
    · refine ⟨?_, by simp, .inl (by first | rfl | trivial), ?_⟩
      · intro p hp; cases hp; trivial
      · rintro dll - (h | ⟨_, h⟩) <;> cases h
    · rename_i hn
      refine ⟨?_, by simp, .inl (by first | rfl | trivial), ?_⟩
      · intro p hp; cases hp; simpa [PhaseSound] using hn
      · rintro dll - (h | ⟨_, h⟩) <;> cases h
  | load path =>
    simp only [step]
    split
    · refine ⟨?_, by simp, .inl (by first | rfl | trivial), ?_⟩
      · intro p hp; cases hp; simp [PhaseSound]
      · rintro dll - (h | ⟨_, h⟩) <;> cases h
    · refine ⟨by simp, by simp, .inl (by first | rfl | trivial), ?_⟩
      rintro dll - (h | ⟨_, h⟩) <;> cases h
  | store dll =>
    refine ⟨?_, by simp [step], .inr ⟨dll, hp, rfl, rfl⟩, ?_⟩
    · intro p hp; cases hp; simp [PhaseSound, step]
    · rintro dll - (h | ⟨_, h⟩) <;> cases h
  | setup =>
    obtain ⟨dll, hdll⟩ := Option.ne_none_iff_exists'.1 hp
    have hlt := hb dll hdll
    simp only [step, hdll]
    refine ⟨?_, by simp, .inl (by simp [hdll]), ?_⟩
    · intro p hp; cases hp
      exact ⟨by simp [hdll], _, List.getElem?_eq_getElem hlt, fun _ h => h, fun _ h => .inl h⟩
    · intro d hd' _
      cases hd'
      exact .inl ⟨_, rfl, .inr ⟨_, rfl⟩⟩
  | functions dll names =>
    obtain ⟨hcache, object, ho, h1, h2⟩ := hp
    cases names with
    | nil =>
      refine ⟨?_, by simp [step], .inl (by first | rfl | trivial), ?_⟩
      · intro p hp; cases hp; exact hcache
      · rintro d - (h | ⟨_, h⟩)
        · cases h
        · cases h
          exact .inr ⟨object, ho, fun name hn => (h2 name hn).resolve_left (by simp)⟩
    | cons name names =>
      have he : computer.exports object.path name = true := hc _ (hd dll object ho) name (h1 name (by simp))
      have hlt := (List.getElem?_eq_some_iff.1 ho).1
      simp only [step, ho, he, if_true]
      refine ⟨?_, by simp, .inl (by first | rfl | trivial), ?_⟩
      · intro p hp; cases hp
        refine ⟨hcache, setupFunction name object, by simp [hlt], fun n hn => h1 n (by simp [hn]), fun n hn => ?_⟩
        rcases h2 n hn with h | h
        · rcases List.mem_cons.1 h with rfl | h
          · exact .inr (by simp [setupFunction])
          · exact .inl h
        · exact .inr (by simp [setupFunction, h])
      · rintro d - (h | ⟨_, h⟩)
        · cases h
        · cases h
          exact .inl ⟨_, rfl, .inr ⟨names, rfl⟩⟩
  | «return» =>
    obtain ⟨dll, hdll⟩ := Option.ne_none_iff_exists'.1 hp
    simp only [step, hdll]
    refine ⟨by simp, by simp, .inl (by simp [hdll]), ?_⟩
    rintro dll - (h | ⟨_, h⟩) <;> cases h
  | _ =>
    simp only [step]
    repeat' split
    all_goals
      refine ⟨?_, by simp, .inl (by first | rfl | trivial), ?_⟩
      · intro p hp; cases hp <;> trivial
      · rintro dll - (h | ⟨_, h⟩) <;> cases h

/-- A thread makes a step, and is then in another phase or outside of the call. -/
theorem next_sound_of {computer : Computer} {p : Program} (h : LibrarySound computer p) {thread : Nat} {phase : Phase}
    (ht : p.threads thread = some phase) {s : Shared} {new : Option Phase} (hg : LibraryGrows p.shared s)
    (hl : ∀ (dll : Nat) (object : Dll), s.dlls[dll]? = some object → computer.loads object.path = true)
    (hn : ∀ phase', new = some phase' → PhaseSound s phase')
    (hcached : s.cached = p.shared.cached ∨ ∃ dll, dll < p.shared.dlls.length ∧ s.cached = some dll ∧ new = some .setup)
    (hw : ∀ dll, p.shared.cached = some dll → WillSetUp dll phase →
      (∃ phase', new = some phase' ∧ WillSetUp dll phase') ∨
      ∃ object, s.dlls[dll]? = some object ∧ ∀ name ∈ functionNames, name ∈ object.functions) :
    LibrarySound computer ⟨s, fun t => if t = thread then new else p.threads t⟩ := by
  have hlen : ∀ dll, dll < p.shared.dlls.length → dll < s.dlls.length := fun dll hd => by
    obtain ⟨o, ho, -⟩ := hg.dlls dll _ (List.getElem?_eq_getElem hd)
    exact (List.getElem?_eq_some_iff.1 ho).1
  refine ⟨hl, ?_, ?_, ?_⟩
  · intro dll hd
    rcases hcached with hcd | ⟨d, h1, h2, -⟩
    · exact hlen dll (h.cached dll (hcd ▸ hd))
    · have : d = dll := by simpa [h2] using hd
      exact this ▸ hlen d h1
  · intro t ph hph
    simp only at hph
    split at hph
    · exact hn ph hph
    · exact hg.sound (h.threads t ph hph)
  · intro dll hd
    rcases hcached with hcd | ⟨d, h1, h2, h3⟩
    · have hd' : p.shared.cached = some dll := hcd ▸ hd
      rcases h.setUp dll hd' with hs | ⟨t, ph, h1, h2⟩
      · exact .inl (LibraryGrows.setUp hg hs)
      · by_cases htt : t = thread
        · subst htt
          rw [ht] at h1; cases h1
          rcases hw dll hd' h2 with ⟨ph', h3, h4⟩ | hs
          · exact .inr ⟨t, ph', by simp [h3], h4⟩
          · exact .inl hs
        · exact .inr ⟨t, ph, by simp [htt, h1], h2⟩
    · exact .inr ⟨thread, .setup, by simp [h3], .inl rfl⟩

theorem next_sound {computer : Computer} (hc : ∀ path, computer.loads path = true → Complete computer path) {p : Program}
    (h : LibrarySound computer p) (event : Event) :
    LibrarySound computer (p.next computer event).1 ∧
      (p.shared.cached ≠ none → (p.next computer event).1.shared.cached ≠ none) ∧
      ∀ thread dll, (p.next computer event).2 = .returned thread dll → p.shared.cached = some dll := by
  cases event with
  | call thread =>
    simp only [Program.next]
    split
    · rename_i ht
      refine ⟨⟨h.dlls, h.cached, ?_, ?_⟩, id, by simp⟩
      · intro t ph hph
        simp only at hph
        split at hph
        · cases hph; trivial
        · exact h.threads t ph hph
      · intro dll hd
        rcases h.setUp dll hd with hs | ⟨t, ph, h1, h2⟩
        · exact .inl hs
        · refine .inr ⟨t, ph, ?_, h2⟩
          have : t ≠ thread := by rintro rfl; rw [ht] at h1; cases h1
          simp [this, h1]
    · exact ⟨h, id, by simp⟩
  | setPath path =>
    have hset : (PyLibrary.setPath path p.shared).1.cached = p.shared.cached ∧
        (PyLibrary.setPath path p.shared).1.dlls = p.shared.dlls := by
      unfold PyLibrary.setPath
      split <;> simp
    have hg := setPath_grows path p.shared
    simp only [Program.next]
    refine ⟨⟨by rw [hset.2]; exact h.dlls, by rw [hset.1, hset.2]; exact h.cached,
      fun t ph hph => hg.sound (h.threads t ph hph), ?_⟩, hg.cached, by simp⟩
    intro dll hd
    rw [hset.1] at hd
    exact (h.setUp dll hd).imp (LibraryGrows.setUp hg) id
  | step thread =>
    cases ht : p.threads thread with
    | none => simp only [Program.next, ht]; exact ⟨h, id, by simp⟩
    | some phase =>
      obtain ⟨h1, h2, h3, h4⟩ := step_sound hc h.dlls h.cached (h.threads thread phase ht)
      have hg := step_grows computer p.shared phase
      have hl := step_loads (phase := phase) h.dlls
      simp only [Program.next, ht]
      generalize step computer p.shared phase = r at *
      obtain ⟨s, outcome⟩ := r
      cases outcome with
      | goes ph =>
        refine ⟨next_sound_of h ht hg hl (fun ph' he => by cases he; exact h1 _ rfl) ?_ ?_, hg.cached, by simp⟩
        · exact h3.imp id fun ⟨d, a, b, e⟩ => ⟨d, a, b, by cases e; rfl⟩
        · exact fun dll hd hw => (h4 dll hd hw).imp (fun ⟨ph', e, hw'⟩ => ⟨ph', by cases e; rfl, hw'⟩) id
      | returned dll =>
        refine ⟨next_sound_of h ht hg hl (by simp) ?_ ?_, hg.cached, ?_⟩
        · exact h3.imp id fun ⟨d, a, b, e⟩ => by cases e
        · exact fun dll hd hw => (h4 dll hd hw).imp (fun ⟨ph', e, hw'⟩ => by cases e) id
        · intro t d he
          cases he
          exact h2 _ rfl
      | raised e =>
        refine ⟨next_sound_of h ht hg hl (by simp) ?_ ?_, hg.cached, by simp⟩
        · exact h3.imp id fun ⟨d, a, b, e⟩ => by cases e
        · exact fun dll hd hw => (h4 dll hd hw).imp (fun ⟨ph', e, hw'⟩ => by cases e) id

theorem run_sound {computer : Computer} (hc : ∀ path, computer.loads path = true → Complete computer path) {p : Program}
    (h : LibrarySound computer p) (events : List Event) :
    LibrarySound computer (p.run computer events) ∧
      (p.shared.cached ≠ none → (p.run computer events).shared.cached ≠ none) := by
  induction events generalizing p with
  | nil => exact ⟨h, id⟩
  | cons e events ih =>
    obtain ⟨h1, h2, -⟩ := next_sound hc h e
    exact ⟨(ih h1).1, fun hn => (ih h1).2 (h2 hn)⟩

/-- What a thread does when the library can only come from `path`. -/
def PhaseFrom (s : Shared) (path : String) : Phase → Prop
  | .start => True
  | .readPath => True
  | .writePath p => p = path
  | .checkPath p => p = path
  | .load p => p = path
  | .store dll => dll < s.dlls.length
  | .setup => s.cached ≠ none
  | .functions dll names => s.cached ≠ none ∧ dll < s.dlls.length ∧ ∀ name ∈ names, name ∈ functionNames
  | .return => s.cached ≠ none

/-- The library can only come from `path`. -/
structure From (computer : Computer) (path : String) (p : Program) : Prop where
  source : p.shared.path = some path ∨ p.shared.path = none ∧ ∀ name, computer.name = some name → computer.here ++ name = path
  dlls : ∀ (dll : Nat) (object : Dll), p.shared.dlls[dll]? = some object → object.path = path ∧ computer.loads path = true
  cached : ∀ dll, p.shared.cached = some dll → dll < p.shared.dlls.length
  threads : ∀ thread phase, p.threads thread = some phase → PhaseFrom p.shared path phase

/-- What a step can change for other threads. -/
theorem PhaseFrom.mono {s s' : Shared} {path : String} (hl : s.dlls.length ≤ s'.dlls.length) (hc : s.cached ≠ none → s'.cached ≠ none)
    {phase : Phase} (h : PhaseFrom s path phase) : PhaseFrom s' path phase := by
  cases phase with
  | store dll => exact Nat.lt_of_lt_of_le h hl
  | functions dll names => exact ⟨hc h.1, Nat.lt_of_lt_of_le h.2.1 hl, h.2.2⟩
  | setup => exact hc h
  | «return» => exact hc h
  | _ => exact h

/-- A step, where the library can only come from `path`. -/
theorem step_from {computer : Computer} {path : String} {s : Shared} {phase : Phase}
    (hp : s.path = some path ∨ s.path = none ∧ ∀ name, computer.name = some name → computer.here ++ name = path)
    (hd : ∀ (dll : Nat) object, s.dlls[dll]? = some object → object.path = path ∧ computer.loads path = true)
    (hc : ∀ dll, s.cached = some dll → dll < s.dlls.length) (h : PhaseFrom s path phase) :
    ((step computer s phase).1.path = some path ∨
      (step computer s phase).1.path = none ∧ ∀ name, computer.name = some name → computer.here ++ name = path) ∧
    (s.path = some path → (step computer s phase).1.path = some path) ∧
    (∀ (dll : Nat) object, (step computer s phase).1.dlls[dll]? = some object → object.path = path ∧ computer.loads path = true) ∧
    (∀ dll, (step computer s phase).1.cached = some dll → dll < (step computer s phase).1.dlls.length) ∧
    s.dlls.length ≤ (step computer s phase).1.dlls.length ∧
    (s.cached ≠ none → (step computer s phase).1.cached ≠ none) ∧
    (∀ phase', (step computer s phase).2 = .goes phase' → PhaseFrom (step computer s phase).1 path phase') ∧
    (∀ dll, (step computer s phase).2 = .returned dll → (step computer s phase).1 = s ∧ s.cached = some dll) ∧
    (∀ e, (step computer s phase).2 = .raised e →
      (e = .osError ∧ computer.loads path = false) ∨ (e = .attributeError ∧ computer.loads path = true ∧ ¬ Complete computer path) ∨
      (s.path = none ∧ computer.name = none ∧ e = .importError) ∨ (phase = .checkPath path ∧ checkFile computer path = .error e)) := by
  cases phase with
  | start =>
    cases hs : s.cached with
    | none => simp [step, hs, hp, PhaseFrom]; exact hd
    | some d =>
      have := hc d hs
      simp [step, hs, hp, PhaseFrom]
      exact ⟨hd, this⟩
  | readPath =>
    cases hs : s.path with
    | some q =>
      have hq : q = path := by
        rcases hp with hp | ⟨hp, -⟩ <;> rw [hs] at hp <;> cases hp
        rfl
      subst hq
      simp only [step, hs]
      refine ⟨.inl trivial, fun h => h, hd, hc, Nat.le_refl _, fun h => h, ?_, by simp, by simp⟩
      intro phase' he
      cases he
      rfl
    | none =>
      have hn : ∀ name, computer.name = some name → computer.here ++ name = path := by
        rcases hp with hp | ⟨-, hn⟩
        · rw [hs] at hp
          cases hp
        · exact hn
      cases hname : computer.name with
      | none =>
        simp only [step, hs, hname]
        refine ⟨.inr ⟨trivial, by simp⟩, by simp, hd, hc, Nat.le_refl _, fun h => h, by simp, by simp, ?_⟩
        intro e he
        cases he
        simp
      | some name =>
        simp only [step, hs, hname]
        refine ⟨.inr ⟨trivial, fun n h => by cases h; exact hn _ hname⟩, by simp, hd, hc, Nat.le_refl _, fun h => h, ?_, by simp, by simp⟩
        intro phase' he
        cases he
        exact hn _ hname
  | writePath q =>
    have hq : q = path := h
    subst hq
    refine ⟨.inl rfl, fun _ => rfl, hd, hc, Nat.le_refl _, fun h => h, ?_, by simp [step], by simp [step]⟩
    intro phase' he
    cases he
    rfl
  | checkPath q =>
    have hq : q = path := h
    subst hq
    cases hcheck : checkFile computer q with
    | ok u =>
      simp only [step, hcheck]
      refine ⟨hp, fun h => h, hd, hc, Nat.le_refl _, fun h => h, ?_, by simp, by simp⟩
      intro phase' he
      cases he
      rfl
    | error e =>
      simp only [step, hcheck]
      refine ⟨hp, fun h => h, hd, hc, Nat.le_refl _, fun h => h, by simp, by simp, ?_⟩
      intro e' he
      cases he
      simp
  | load q =>
    have hq : q = path := h
    subst hq
    simp only [step]
    split
    · refine ⟨hp, fun h => h, ?_, ?_, by simp, fun h => h, ?_, by simp, by simp⟩
      · intro dll object ho
        rw [List.getElem?_append] at ho
        split at ho
        · exact hd dll object ho
        · cases hx : dll - s.dlls.length with
          | zero => rw [hx] at ho; cases ho; exact ⟨rfl, by assumption⟩
          | succ n => rw [hx] at ho; cases ho
      · intro dll hdll
        have := hc dll hdll
        rw [List.length_append]
        exact Nat.lt_of_lt_of_le this (Nat.le_add_right _ _)
      · intro phase' he
        cases he
        simp [PhaseFrom]
    · rename_i hl
      refine ⟨hp, fun h => h, hd, hc, Nat.le_refl _, fun h => h, by simp, by simp, ?_⟩
      intro e he
      cases he
      simpa using hl
  | store dll =>
    have hdll : dll < s.dlls.length := h
    refine ⟨hp, fun h => h, hd, ?_, Nat.le_refl _, by simp [step], ?_, by simp [step], by simp [step]⟩
    · intro d he
      cases he
      exact hdll
    · intro phase' he
      cases he
      simp [PhaseFrom, step]
  | setup =>
    have hne : s.cached ≠ none := h
    cases hs : s.cached with
    | none => exact absurd hs hne
    | some d =>
      simp only [step, hs]
      refine ⟨hp, fun h => h, hd, by simpa using hc d hs, Nat.le_refl _, fun h => h, ?_, by simp, by simp⟩
      intro phase' he
      cases he
      exact ⟨hne, hc d hs, fun _ h => h⟩
  | functions dll names =>
    obtain ⟨hne, hdll, hnames⟩ := h
    cases names with
    | nil =>
      refine ⟨hp, fun h => h, hd, hc, Nat.le_refl _, fun h => h, ?_, by simp [step], by simp [step]⟩
      intro phase' he
      cases he
      exact hne
    | cons name names =>
      have hget : s.dlls[dll]? = some s.dlls[dll] := List.getElem?_eq_getElem hdll
      obtain ⟨hpath, hloads⟩ := hd dll _ hget
      simp only [step, hget]
      split
      · refine ⟨hp, fun h => h, ?_, by simpa using hc, by simp, fun h => h, ?_, by simp, by simp⟩
        · intro d object ho
          rw [List.getElem?_set] at ho
          split at ho
          · cases ho
            exact ⟨hpath, hloads⟩
          · exact hd d object ho
        · intro phase' he
          cases he
          exact ⟨hne, by simpa using hdll, fun n hn => hnames n (List.mem_cons_of_mem _ hn)⟩
      · rename_i hx
        refine ⟨hp, fun h => h, hd, hc, Nat.le_refl _, fun h => h, by simp, by simp, ?_⟩
        intro e he
        cases he
        refine .inr (.inl ⟨rfl, hloads, fun hall => hx ?_⟩)
        rw [hpath]
        exact hall name (hnames name (by simp))
  | «return» =>
    have hne : s.cached ≠ none := h
    cases hs : s.cached with
    | none => exact absurd hs hne
    | some d =>
      simp only [step, hs]
      refine ⟨hp, fun h => h, hd, by simpa using hc d hs, Nat.le_refl _, fun h => h, by simp, ?_, by simp⟩
      intro d' he
      cases he
      simp

theorem next_from {computer : Computer} {path : String} {p : Program} (h : From computer path p) (event : Event)
    (hset : ∀ q, event = .setPath q → p.shared.path ≠ none) :
    From computer path (p.next computer event).1 ∧
    (p.shared.path = some path → (p.next computer event).1.shared.path = some path) ∧
    (∀ thread dll, (p.next computer event).2 = .returned thread dll →
      LoadedFrom (p.next computer event).1 dll path ∧ computer.loads path = true) ∧
    (∀ thread e, (p.next computer event).2 = .raised thread e →
      (e = .osError ∧ computer.loads path = false) ∨ (e = .attributeError ∧ computer.loads path = true ∧ ¬ Complete computer path) ∨
      (p.shared.path = none ∧ computer.name = none ∧ e = .importError) ∨
      (p.threads thread = some (.checkPath path) ∧ checkFile computer path = .error e)) := by
  cases event with
  | call thread =>
    simp only [Program.next]
    split
    · refine ⟨⟨h.source, h.dlls, h.cached, ?_⟩, fun h => h, by simp, by simp⟩
      intro t phase ht
      simp only at ht
      split at ht
      · cases ht; trivial
      · exact h.threads t phase ht
    · exact ⟨h, fun h => h, by simp, by simp⟩
  | setPath q =>
    have := hset q rfl
    cases hs : p.shared.path with
    | none => exact absurd hs this
    | some q' =>
      have he : PyLibrary.setPath q p.shared = (p.shared, .error .valueError) := by
        unfold PyLibrary.setPath
        rw [hs]
      simp only [Program.next, he]
      refine ⟨h, fun h => by rw [hs, h], by simp, by simp⟩
  | step thread =>
    simp only [Program.next]
    cases ht : p.threads thread with
    | none => exact ⟨h, fun h => h, by simp, by simp⟩
    | some phase =>
      obtain ⟨h1, h2, h3, h4, h5, h6, h7, h8, h9⟩ := step_from h.source h.dlls h.cached (h.threads thread phase ht)
      simp only
      cases hstep : step computer p.shared phase with
      | mk s outcome =>
        rw [hstep] at h1 h2 h3 h4 h5 h6 h7 h8 h9
        simp only at h1 h2 h3 h4 h5 h6 h7 h8 h9
        have hothers : ∀ t phase, p.threads t = some phase → PhaseFrom s path phase :=
          fun t phase ht => (h.threads t phase ht).mono h5 h6
        cases outcome with
        | goes phase' =>
          refine ⟨⟨h1, h3, h4, ?_⟩, h2, by simp, by simp⟩
          intro t phase'' ht'
          simp only at ht'
          split at ht'
          · cases ht'; exact h7 _ rfl
          · exact hothers t _ ht'
        | returned dll =>
          obtain ⟨e1, e2⟩ := h8 dll rfl
          subst e1
          refine ⟨⟨h1, h3, h4, ?_⟩, h2, ?_, by simp⟩
          · intro t phase'' ht'
            simp only at ht'
            split at ht'
            · cases ht'
            · exact hothers t _ ht'
          · intro t d he
            cases he
            have hlt := h4 dll e2
            obtain ⟨h10, h11⟩ := h3 dll _ (List.getElem?_eq_getElem hlt)
            exact ⟨⟨_, List.getElem?_eq_getElem hlt, h10⟩, h11⟩
        | raised e =>
          refine ⟨⟨h1, h3, h4, ?_⟩, h2, by simp, ?_⟩
          · intro t phase'' ht'
            simp only at ht'
            split at ht'
            · cases ht'
            · exact hothers t _ ht'
          · intro t e' he
            cases he
            rcases h9 e rfl with h | h | h | h
            · exact .inl h
            · exact .inr (.inl h)
            · exact .inr (.inr (.inl h))
            · exact .inr (.inr (.inr ⟨by rw [ht, h.1], h.2⟩))

theorem run_from_set {computer : Computer} {path : String} {p : Program} (h : From computer path p) (hp : p.shared.path = some path)
    (events : List Event) :
    From computer path (p.run computer events) ∧ (p.run computer events).shared.path = some path := by
  induction events generalizing p with
  | nil => exact ⟨h, hp⟩
  | cons e events ih =>
    obtain ⟨h1, h2, -⟩ := next_from h e (fun _ _ => by rw [hp]; simp)
    exact ih h1 (h2 hp)

theorem run_from_default {computer : Computer} {path : String} {p : Program} (h : From computer path p)
    (events : List Event) (hset : ∀ q, .setPath q ∉ events) :
    From computer path (p.run computer events) := by
  induction events generalizing p with
  | nil => exact h
  | cons e events ih =>
    obtain ⟨h1, -⟩ := next_from h e (fun q hq => absurd (by rw [hq]; simp) (hset q))
    exact ih h1 (fun q hq => hset q (List.mem_cons_of_mem _ hq))

/-- The start of a call. -/
def EarlyPhase : Phase → Prop
  | .start | .readPath | .writePath _ => True
  | _ => False

/-- In all schedules: without a path, nothing is loaded and all calls are at their start. -/
def Early (p : Program) : Prop :=
  p.shared.path = none → p.shared.cached = none ∧ p.shared.dlls = [] ∧ ∀ thread phase, p.threads thread = some phase → EarlyPhase phase

theorem next_early {computer : Computer} {p : Program} (h : Early p) (event : Event) :
    Early (p.next computer event).1 ∧ (p.shared.path ≠ none → (p.next computer event).1.shared.path ≠ none) ∧
      (∀ thread dll, (p.next computer event).2 = .returned thread dll → (p.next computer event).1.shared.path ≠ none) := by
  cases event with
  | call thread =>
    simp only [Program.next]
    split
    · refine ⟨?_, fun h => h, by simp⟩
      intro hn
      obtain ⟨h1, h2, h3⟩ := h hn
      refine ⟨h1, h2, ?_⟩
      intro t phase ht
      simp only at ht
      split at ht
      · cases ht; trivial
      · exact h3 t phase ht
    · exact ⟨h, fun h => h, by simp⟩
  | setPath q =>
    simp only [Program.next, PyLibrary.setPath]
    split
    · exact ⟨h, fun h => h, by simp⟩
    · refine ⟨?_, by simp, by simp⟩
      intro hn
      cases hn
  | step thread =>
    simp only [Program.next]
    cases ht : p.threads thread with
    | none => exact ⟨h, fun h => h, by simp⟩
    | some phase =>
      simp only
      cases hp : p.shared.path with
      | some q =>
        have hs : (step computer p.shared phase).1.path ≠ none := by
          cases phase with
          | functions dll names => cases names <;> simp only [step] <;> (repeat' split) <;> simp [hp]
          | _ => simp only [step] <;> (repeat' split) <;> simp [hp]
        cases hstep : step computer p.shared phase with
        | mk s outcome =>
          rw [hstep] at hs
          simp only at hs
          cases outcome <;> exact ⟨fun hn => absurd hn hs, fun _ => hs, fun _ _ _ => hs⟩
      | none =>
        obtain ⟨h1, h2, h3⟩ := h hp
        have he := h3 thread phase ht
        cases phase with
        | start =>
          simp only [step, h1, Option.isNone_none, if_true]
          refine ⟨?_, by simp, by simp⟩
          intro _
          refine ⟨h1, h2, ?_⟩
          intro t phase ht
          simp only at ht
          split at ht
          · cases ht; trivial
          · exact h3 t phase ht
        | readPath =>
          simp only [step, hp]
          cases hname : computer.name with
          | some name =>
            refine ⟨?_, by simp, by simp⟩
            intro _
            refine ⟨h1, h2, ?_⟩
            intro t phase ht
            simp only at ht
            split at ht
            · cases ht; trivial
            · exact h3 t phase ht
          | none =>
            refine ⟨?_, by simp, by simp⟩
            intro _
            refine ⟨h1, h2, ?_⟩
            intro t phase ht
            simp only at ht
            split at ht
            · cases ht
            · exact h3 t phase ht
        | writePath q =>
          simp only [step]
          refine ⟨?_, by simp, by simp⟩
          intro hn
          cases hn
        | _ => cases he

theorem run_early {computer : Computer} {p : Program} (h : Early p) (events : List Event) :
    Early (p.run computer events) ∧ (p.shared.path ≠ none → (p.run computer events).shared.path ≠ none) := by
  induction events generalizing p with
  | nil => exact ⟨h, fun h => h⟩
  | cons e events ih =>
    obtain ⟨h1, h2, -⟩ := next_early (computer := computer) h e
    obtain ⟨h3, h4⟩ := ih h1
    exact ⟨h3, fun hp => h4 (h2 hp)⟩

/-- No thread uses the default path. -/
def NoDefault : Phase → Prop
  | .writePath _ => False
  | .checkPath _ => False
  | _ => True

theorem next_noDefault {computer : Computer} {p : Program} (hp : p.shared.path ≠ none)
    (h : ∀ thread phase, p.threads thread = some phase → NoDefault phase) (event : Event) :
    ∀ thread phase, (p.next computer event).1.threads thread = some phase → NoDefault phase := by
  cases event with
  | call thread =>
    simp only [Program.next]
    split
    · intro t phase ht
      simp only at ht
      split at ht
      · cases ht; trivial
      · exact h t phase ht
    · exact h
  | setPath q => exact h
  | step thread =>
    simp only [Program.next]
    cases ht : p.threads thread with
    | none => exact h
    | some phase =>
      have hphase : ∀ phase', (step computer p.shared phase).2 = .goes phase' → NoDefault phase' := by
        intro phase' he
        have hno := h thread phase ht
        cases phase with
        | functions dll names =>
          cases names <;> simp only [step] at he <;> (repeat' split at he) <;> cases he <;> trivial
        | readPath =>
          cases hs : p.shared.path with
          | none => exact absurd hs hp
          | some q =>
            simp only [step, hs] at he
            cases he
            trivial
        | writePath q => cases hno
        | checkPath q => cases hno
        | _ => simp only [step] at he <;> (repeat' split at he) <;> cases he <;> trivial
      simp only
      cases hstep : step computer p.shared phase with
      | mk s outcome =>
        rw [hstep] at hphase
        cases outcome with
        | goes phase' =>
          intro t phase'' ht'
          simp only at ht'
          split at ht'
          · cases ht'; exact hphase _ rfl
          · exact h t _ ht'
        | returned dll =>
          intro t phase'' ht'
          simp only at ht'
          split at ht'
          · cases ht'
          · exact h t _ ht'
        | raised e =>
          intro t phase'' ht'
          simp only at ht'
          split at ht'
          · cases ht'
          · exact h t _ ht'

theorem run_noDefault {computer : Computer} {p : Program} (he : Early p) (hp : p.shared.path ≠ none)
    (h : ∀ thread phase, p.threads thread = some phase → NoDefault phase) (events : List Event) :
    ∀ thread phase, (p.run computer events).threads thread = some phase → NoDefault phase := by
  induction events generalizing p with
  | nil => exact h
  | cons e events ih =>
    obtain ⟨h1, h2, -⟩ := next_early (computer := computer) he e
    exact ih h1 (h2 hp) (next_noDefault hp h e)

theorem start_early : Early .start := fun _ => ⟨rfl, rfl, fun _ _ h => by cases h⟩

/-- Before the first result, without a path, when no calls overlap. -/
def FirstUse (path : String) (p : Program) : Prop :=
  p.shared.cached = none ∧
    ((Quiet p ∧ p.shared.path = none) ∨
      ∃ thread phase, p.threads thread = some phase ∧ (∀ t, t ≠ thread → p.threads t = none) ∧
        ((phase = .start ∨ phase = .readPath ∨ phase = .writePath path) ∧ p.shared.path = none ∨ phase = .checkPath path))

theorem next_firstUse {computer : Computer} {name : String} (hname : computer.name = some name) {e : LibExc}
    (hcheck : checkFile computer (computer.here ++ name) = .error e) {p : Program} (h : FirstUse (computer.here ++ name) p)
    (event : Event) (hq : ∀ thread, event = .call thread → Quiet p) (hset : ∀ q, event ≠ .setPath q) :
    ((p.next computer event).2 = .nothing ∧ FirstUse (computer.here ++ name) (p.next computer event).1) ∨
      ∃ thread, (p.next computer event).2 = .raised thread e := by
  obtain ⟨hc, h⟩ := h
  cases event with
  | setPath q => exact absurd rfl (hset q)
  | call thread =>
    have hq := hq thread rfl
    rcases h with ⟨-, hs⟩ | ⟨t, phase, ht, -⟩
    · simp only [Program.next, hq thread]
      exact .inl ⟨trivial, hc, .inr ⟨thread, .start, by simp, fun t ht => by simp [ht, hq t], .inl ⟨.inl rfl, hs⟩⟩⟩
    · rw [hq t] at ht
      cases ht
  | step thread =>
    rcases h with ⟨hq, hs⟩ | ⟨t, phase, ht, ho, ha⟩
    · simp only [Program.next, hq thread]
      exact .inl ⟨trivial, hc, .inl ⟨hq, hs⟩⟩
    · by_cases hthread : thread = t
      · subst hthread
        rcases ha with ⟨rfl | rfl | rfl, hp⟩ | rfl
        · simp only [Program.next, ht, step, hc, Option.isNone_none, if_true]
          exact .inl ⟨trivial, hc, .inr ⟨thread, .readPath, by simp, fun t ht => by simp [ht, ho t ht], .inl ⟨.inr (.inl rfl), hp⟩⟩⟩
        · simp only [Program.next, ht, step, hp, hname]
          exact .inl ⟨trivial, hc, .inr ⟨thread, _, by simp, fun t ht => by simp [ht, ho t ht], .inl ⟨.inr (.inr rfl), hp⟩⟩⟩
        · simp only [Program.next, ht, step]
          exact .inl ⟨trivial, hc, .inr ⟨thread, _, by simp, fun t ht => by simp [ht, ho t ht], .inr rfl⟩⟩
        · simp only [Program.next, ht, step, hcheck]
          exact .inr ⟨thread, rfl⟩
      · simp only [Program.next, ho thread hthread]
        exact .inl ⟨trivial, hc, .inr ⟨t, phase, ht, ho, ha⟩⟩

theorem run_firstUse {computer : Computer} {name : String} (hname : computer.name = some name) {e : LibExc}
    (hcheck : checkFile computer (computer.here ++ name) = .error e) {p : Program} (h : FirstUse (computer.here ++ name) p)
    (events : List Event) (ho : NoOverlap computer p events) (hset : ∀ q, .setPath q ∉ events)
    (hn : ∀ a x b, events = a ++ x :: b → ((p.run computer a).next computer x).2 = .nothing) :
    FirstUse (computer.here ++ name) (p.run computer events) := by
  induction events generalizing p with
  | nil => exact h
  | cons x events ih =>
    rcases next_firstUse hname hcheck h x ho.1 (fun q hq => hset q (by rw [hq]; simp)) with ⟨-, h⟩ | ⟨t, ht⟩
    · exact ih h ho.2 (fun q hq => hset q (List.mem_cons_of_mem _ hq))
        (fun a y b hab => hn (x :: a) y b (by rw [hab]; rfl))
    · have := hn [] x events rfl
      simp only [Program.run] at this
      rw [ht] at this
      cases this

/-- Nothing can be found on this platform. -/
def Nowhere (p : Program) : Prop :=
  p.shared.path = none ∧ p.shared.cached = none ∧ ∀ thread phase, p.threads thread = some phase → phase = .start ∨ phase = .readPath

theorem next_nowhere {computer : Computer} (hname : computer.name = none) {p : Program} (h : Nowhere p) (event : Event)
    (hset : ∀ q, event ≠ .setPath q) :
    Nowhere (p.next computer event).1 ∧
      ((p.next computer event).2 = .nothing ∨ ∃ thread, (p.next computer event).2 = .raised thread .importError) := by
  obtain ⟨h1, h2, h3⟩ := h
  cases event with
  | setPath q => exact absurd rfl (hset q)
  | call thread =>
    simp only [Program.next]
    split
    · refine ⟨⟨h1, h2, ?_⟩, .inl rfl⟩
      intro t phase ht
      simp only at ht
      split at ht
      · cases ht; exact .inl rfl
      · exact h3 t phase ht
    · exact ⟨⟨h1, h2, h3⟩, .inl rfl⟩
  | step thread =>
    simp only [Program.next]
    cases ht : p.threads thread with
    | none => exact ⟨⟨h1, h2, h3⟩, .inl rfl⟩
    | some phase =>
      rcases h3 thread phase ht with rfl | rfl
      · simp only [step, h2, Option.isNone_none, if_true]
        refine ⟨⟨h1, h2, ?_⟩, .inl trivial⟩
        intro t phase ht
        simp only at ht
        split at ht
        · cases ht; exact .inr rfl
        · exact h3 t phase ht
      · simp only [step, h1, hname]
        refine ⟨⟨h1, h2, ?_⟩, .inr ⟨thread, rfl⟩⟩
        intro t phase ht
        simp only at ht
        split at ht
        · cases ht
        · exact h3 t phase ht

theorem run_nowhere {computer : Computer} (hname : computer.name = none) {p : Program} (h : Nowhere p) (events : List Event)
    (hset : ∀ q, .setPath q ∉ events) : Nowhere (p.run computer events) := by
  induction events generalizing p with
  | nil => exact h
  | cons x events ih =>
    exact ih (next_nowhere hname h x (fun q hq => hset q (by rw [hq]; simp))).1 (fun q hq => hset q (List.mem_cons_of_mem _ hq))

/-! ### Reading the header of a DLL -/

theorem leValue_lt (bytes : Bytes) : leValue bytes < 256 ^ bytes.length := by
  induction bytes with
  | nil => simp [leValue]
  | cons b bytes ih =>
    have := b.toNat_lt
    simp only [leValue, List.length_cons, Nat.pow_succ]
    omega

theorem leValue_digit (bytes : Bytes) (i : Nat) (h : i < bytes.length) : leValue bytes / 256 ^ i % 256 = bytes[i].toNat := by
  induction bytes generalizing i with
  | nil => simp at h
  | cons b bytes ih =>
    have hb := b.toNat_lt
    cases i with
    | zero =>
      simp only [leValue, Nat.pow_zero, Nat.div_one, List.getElem_cons_zero]
      omega
    | succ i =>
      have hi : i < bytes.length := by simpa using h
      rw [List.getElem_cons_succ, ← ih i hi, leValue, Nat.pow_succ, Nat.mul_comm (256 ^ i), ← Nat.div_div_eq_div_mul]
      congr 2
      omega

theorem leValue_unique {bytes : Bytes} {value : Nat} (hv : value < 256 ^ bytes.length)
    (h : ∀ i (hi : i < bytes.length), bytes[i].toNat = value / 256 ^ i % 256) : leValue bytes = value := by
  induction bytes generalizing value with
  | nil => simp at hv; simp [leValue, hv]
  | cons b bytes ih =>
    have h0 := h 0 (by simp)
    simp only [List.getElem_cons_zero, Nat.pow_zero, Nat.div_one] at h0
    have : leValue bytes = value / 256 := by
      refine ih ?_ ?_
      · rw [List.length_cons, Nat.pow_succ] at hv
        exact Nat.div_lt_of_lt_mul (by rw [Nat.mul_comm]; exact hv)
      · intro i hi
        have := h (i + 1) (by simpa using hi)
        rw [List.getElem_cons_succ] at this
        rw [this, Nat.pow_succ, Nat.mul_comm (256 ^ i), ← Nat.div_div_eq_div_mul]
    rw [leValue, this, h0]
    omega

/-- Reading an integer. -/
theorem unpack_readAt {file : Bytes} {offset count value : Nat} (h0 : 0 < count) :
    unpack count (readAt file offset count) = .ok value ↔ IntegerAt file offset count value := by
  have hlen : (readAt file offset count).length = min count (file.length - offset) := by simp [readAt]
  have hget : ∀ i < count, (readAt file offset count)[i]? = file[offset + i]? := by
    intro i hi
    simp [readAt, hi]
  unfold unpack
  by_cases h : offset + count ≤ file.length
  · have hl : (readAt file offset count).length = count := by rw [hlen]; omega
    rw [if_pos hl]
    constructor
    · intro he
      cases he
      refine ⟨h, ?_, ?_⟩
      · have := leValue_lt (readAt file offset count)
        rwa [hl] at this
      · intro i hi
        rw [← hget i hi, leValue_digit _ i (by omega), List.getElem?_eq_getElem (by omega)]
        rfl
    · rintro ⟨-, h2, h3⟩
      congr 1
      refine leValue_unique (by rw [hl]; exact h2) ?_
      intro i hi
      have := h3 i (by omega)
      rw [← hget i (by omega), List.getElem?_eq_getElem hi] at this
      simpa using this
  · rw [if_neg (by rw [hlen]; omega)]
    constructor
    · intro he
      cases he
    · intro h1
      exact absurd h1.1 h

theorem unpack_error {count : Nat} {bytes : Bytes} {e : LibExc} (h : unpack count bytes = .error e) : e = .structError := by
  unfold unpack at h
  split at h <;> cases h
  rfl

theorem decodeUtf8_eq_some {bytes : Bytes} {s : List Char} :
    NpyHeader.decodeUtf8 bytes = some s ↔ bytes = s.flatMap String.utf8EncodeChar := by
  unfold NpyHeader.decodeUtf8
  constructor
  · intro h
    rw [Option.map_eq_some_iff] at h
    obtain ⟨t, h1, rfl⟩ := h
    unfold String.fromUTF8? at h1
    split at h1
    · cases h1
      rw [← utf8Bytes_eq]
      simp [utf8Bytes, String.fromUTF8, String.toUTF8]
    · cases h1
  · rintro rfl
    have : (⟨(s.flatMap String.utf8EncodeChar).toArray⟩ : ByteArray) = (String.ofList s).toByteArray := by
      have := utf8Bytes_eq (String.ofList s)
      rw [String.toList_ofList] at this
      rw [← this]
      simp [utf8Bytes, String.toUTF8]
    rw [this]
    unfold String.fromUTF8?
    have hs : (String.ofList s).toList = s := String.toList_ofList
    generalize String.ofList s = t at hs
    have hv := t.isValidUTF8
    simp [hv, String.fromUTF8, hs]

theorem decodeUtf8_mz {bytes : Bytes} : NpyHeader.decodeUtf8 bytes = some "MZ".toList ↔ bytes = [0x4D, 0x5A] := by
  rw [decodeUtf8_eq_some, show "MZ".toList.flatMap String.utf8EncodeChar = [0x4D, 0x5A] by decide]

theorem readAt_mz {file : Bytes} : readAt file 0 2 = [0x4D, 0x5A] ↔ startsAsDll file := by
  unfold readAt startsAsDll
  match file with
  | [] => simp
  | [a] => simp
  | a :: b :: rest => simp

/-- Bytes which are ASCII characters are read as these characters. -/
theorem decodeUtf8_ascii {bytes : Bytes} (h : ∀ b ∈ bytes, b < 128) :
    NpyHeader.decodeUtf8 bytes = some (bytes.map fun b => Char.ofNat b.toNat) := by
  rw [decodeUtf8_eq_some]
  induction bytes with
  | nil => rfl
  | cons b bytes ih =>
    have hb : b.toNat < 128 := h b (by simp)
    rw [List.map_cons, List.flatMap_cons, ← ih (fun b hb => h b (List.mem_cons_of_mem _ hb))]
    suffices String.utf8EncodeChar (Char.ofNat b.toNat) = [b] by rw [this]; rfl
    have hval : (Char.ofNat b.toNat).val.toNat = b.toNat := by
      have hv : b.toNat.isValidChar := .inl (by omega)
      rw [Char.ofNat, dif_pos hv]
      rfl
    unfold String.utf8EncodeChar
    have hle : (Char.ofNat b.toNat).val.toNat ≤ 127 := by omega
    simp only [hle, if_true, hval]
    simp only [UInt8.ofNat_toNat]
    rw [if_pos (by omega)]

instance (file : Bytes) : Decidable (startsAsDll file) := by unfold startsAsDll; infer_instance

/-- What `checkDll` does. -/
theorem checkDll_eq (arch : Arch) (file : Bytes) :
    checkDll arch file =
      if startsAsDll file then
        match unpack 4 (readAt file 60 4) with
        | .error e => .error e
        | .ok offset =>
          match unpack 2 (readAt file (offset + 4) 2) with
          | .error e => .error e
          | .ok machine => if machineOf arch = some machine then .ok () else .error .importError
      else
        match NpyHeader.decodeUtf8 (readAt file 0 2) with
        | some _ => .error .importError
        | none => .error .valueError := by
  unfold checkDll
  by_cases hm : startsAsDll file
  · have h0 : NpyHeader.decodeUtf8 (readAt file 0 2) = some "MZ".toList := by rw [decodeUtf8_mz, readAt_mz]; exact hm
    rw [if_pos hm, h0]
    simp only [pure, Except.pure, bind, Except.bind, ne_eq, not_true_eq_false, if_false]
    cases h1 : unpack 4 (readAt file 60 4) with
    | error e => rfl
    | ok offset =>
      simp only
      cases h2 : unpack 2 (readAt file (offset + 4) 2) with
      | error e => rfl
      | ok machine =>
        cases arch with
        | bits32 => by_cases h : machine = 332 <;> simp [machineOf, h, eq_comm]
        | bits64 => by_cases h : machine = 34404 <;> simp [machineOf, h, eq_comm]
        | unknown => simp [machineOf]
  · rw [if_neg hm]
    cases hd : NpyHeader.decodeUtf8 (readAt file 0 2) with
    | none => rfl
    | some text =>
      have : text ≠ "MZ".toList := by
        rintro rfl
        exact hm (readAt_mz.1 (decodeUtf8_mz.1 hd))
      simp only [pure, Except.pure, bind, Except.bind, ne_eq, this, not_false_eq_true, if_true]

/-! ### One thread -/

deriving instance DecidableEq for Except

deriving instance DecidableEq for Seen

/-- Events of one thread change no other one. -/
theorem run_others {computer : Computer} {thread : Nat} (events : List Event) (h : ∀ e ∈ events, e = .call thread ∨ e = .step thread)
    (p : Program) (t : Nat) (ht : t ≠ thread) : (p.run computer events).threads t = p.threads t := by
  induction events generalizing p with
  | nil => rfl
  | cons e events ih =>
    rw [Program.run, ih (fun e he => h e (List.mem_cons_of_mem _ he))]
    rcases h e (by simp) with rfl | rfl
    · simp only [Program.next]
      split <;> simp [ht]
    · simp only [Program.next]
      (repeat' split) <;> simp [ht]

theorem quiet_of_one {computer : Computer} {thread : Nat} {events : List Event} (h : ∀ e ∈ events, e = .call thread ∨ e = .step thread)
    (hn : (Program.start.run computer events).threads thread = none) : Quiet (Program.start.run computer events) := by
  intro t
  by_cases ht : t = thread
  · rw [ht, hn]
  · rw [run_others events h _ t ht]
    rfl

/-- Threads which do nothing stay outside of the call. -/
theorem run_silent {computer : Computer} {p : Program} {t : Nat} (ht : p.threads t = none) {events : List Event}
    (h : ∀ e ∈ events, e ≠ .call t) : (p.run computer events).threads t = none := by
  induction events generalizing p with
  | nil => exact ht
  | cons e events ih =>
    refine ih ?_ fun e he => h e (List.mem_cons_of_mem _ he)
    have he := h e (by simp)
    cases e with
    | call thread =>
      have hne : t ≠ thread := by rintro rfl; exact he rfl
      simp only [Program.next]
      split <;> simp [hne, ht]
    | step thread =>
      simp only [Program.next]
      split
      · exact ht
      · rename_i hp
        have hne : t ≠ thread := by rintro rfl; rw [ht] at hp; cases hp
        split <;> simp [hne, ht]
    | setPath path => exact ht

theorem noOverlap_steps {computer : Computer} {p : Program} {events : List Event} (h : ∀ thread, .call thread ∉ events) :
    NoOverlap computer p events := by
  induction events generalizing p with
  | nil => trivial
  | cons e events ih =>
    exact ⟨fun t he => absurd (by rw [he]; simp) (h t), ih fun t he => h t (List.mem_cons_of_mem _ he)⟩

end Equistore
