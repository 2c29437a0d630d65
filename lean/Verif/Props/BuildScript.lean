import Verif.Spec.BuildScript

/-!
# C119: the header describes the library
-/

namespace Equistore
namespace Props

open BuildScript
open Spec.BuildScript

variable {H : Type}

/-- **C119**, full statement: after every build, the header describes the library. -/
def C119_full_statement : Prop :=
  ∀ (H : Type) (cbindgen : Files → H) (files : Files) (header : Option H) (sessions : List (Session H)) (last : Session H),
    (∀ session ∈ sessions ++ [last], ∀ files, session.generate files = some (cbindgen files) ∨ session.generate files = none) →
      Describes cbindgen (runAll (fresh files header) (sessions ++ [last])).header (runAll (fresh files header) (sessions ++ [last])).files

private theorem edits_files (s : State H) (edits : List (Edit H)) :
    (edits.foldl Edit.run s).files = filesAfter s.files edits := by
  induction edits generalizing s with
  | nil => rfl
  | cons e rest ih =>
    rw [List.foldl_cons, ih]
    cases e <;> rfl

private theorem edits_last (s : State H) (edits : List (Edit H)) : (edits.foldl Edit.run s).last = s.last := by
  induction edits generalizing s with
  | nil => rfl
  | cons e rest ih =>
    rw [List.foldl_cons, ih]
    cases e <;> rfl

private theorem edits_header (s : State H) (edits : List (Edit H)) (h : ∀ edit ∈ edits, LeavesHeader edit) :
    (edits.foldl Edit.run s).header = s.header := by
  induction edits generalizing s with
  | nil => rfl
  | cons e rest ih =>
    rw [List.foldl_cons, ih _ fun e he => h e (List.mem_cons_of_mem _ he)]
    have := h e List.mem_cons_self
    cases e <;> first | rfl | exact absurd this id

private theorem edits_changed (s : State H) (edits : List (Edit H)) (path : String) :
    path ∈ (edits.foldl Edit.run s).changed ↔ path ∈ s.changed ∨ ∃ edit ∈ edits, Touches path edit := by
  induction edits generalizing s with
  | nil => simp
  | cons e rest ih =>
    rw [List.foldl_cons, ih]
    cases e <;> simp [Edit.run, Touches, or_assoc, eq_comm, or_left_comm]

private theorem untouched (files : Files) (edits : List (Edit H)) (path : String) (h : ¬ ∃ edit ∈ edits, Touches path edit) :
    filesAfter files edits path = files path := by
  induction edits generalizing files with
  | nil => rfl
  | cons e rest ih =>
    have h1 : ¬ ∃ edit ∈ rest, Touches path edit := fun ⟨e, he, ht⟩ => h ⟨e, List.mem_cons_of_mem _ he, ht⟩
    have h2 : ¬ Touches path e := fun ht => h ⟨e, List.mem_cons_self, ht⟩
    cases e with
    | write p t => rw [filesAfter, ih _ h1]; exact if_neg (Ne.symm h2)
    | remove p => rw [filesAfter, ih _ h1]; exact if_neg (Ne.symm h2)
    | header _ => exact ih _ h1
    | other => exact ih _ h1

/-- **C119**: the files are the ones the user wrote, building does not change them. -/
theorem C119_files (s : State H) (session : Session H) : (session.run s).files = filesAfter s.files session.edits := by
  rw [Session.run, State.build]
  split
  · rw [State.script]
    split <;> exact edits_files s session.edits
  · exact edits_files s session.edits

/-- **C119**: the script runs after a file it has seen was written or removed, and then the header describes the library, whatever the
user did to the header. -/
theorem C119_seen (cbindgen : Files → H) (s : State H) (session : Session H) (paths : String → Bool) (path : String)
    (hg : ∀ files, session.generate files = some (cbindgen files)) (hl : s.last = .watch paths) (hp : paths path = true)
    (ht : ∃ edit ∈ session.edits, Touches path edit) :
    Describes cbindgen (session.run s).header (session.run s).files := by
  have h1 : (session.edits.foldl Edit.run s).runsScript = true := by
    rw [State.runsScript, edits_last, hl]
    exact List.any_eq_true.2 ⟨path, (edits_changed s _ path).2 (.inr ht), hp⟩
  rw [Session.run, State.build, if_pos h1, State.script, hg]
  rfl

/-- **C119**: the first build in a new copy makes the right header, also if the one in the repository is an old one. -/
theorem C119_fresh (cbindgen : Files → H) (files : Files) (header : Option H) (session : Session H)
    (hg : ∀ files, session.generate files = some (cbindgen files)) :
    Describes cbindgen (session.run (fresh files header)).header (session.run (fresh files header)).files := by
  have h1 : (session.edits.foldl Edit.run (fresh files header)).runsScript = true := by
    rw [State.runsScript, edits_last]
    rfl
  rw [Session.run, State.build, if_pos h1, State.script, hg]
  rfl

/-- **C119**: after `cbindgen` failed, every change in the project makes the header right again, if `cbindgen` works. -/
theorem C119_after_failure (cbindgen : Files → H) (s : State H) (session : Session H)
    (hg : ∀ files, session.generate files = some (cbindgen files)) (hl : s.last = .nothing) (he : session.edits ≠ []) :
    Describes cbindgen (session.run s).header (session.run s).files := by
  have keep : ∀ (edits : List (Edit H)) (s : State H), (s.other || !s.changed.isEmpty) = true →
      ((edits.foldl Edit.run s).other || !(edits.foldl Edit.run s).changed.isEmpty) = true := by
    intro edits
    induction edits with
    | nil => exact fun _ h => h
    | cons e rest ih =>
      intro s h
      refine ih _ ?_
      cases e <;> simp [Edit.run] at h ⊢
  have h1 : (session.edits.foldl Edit.run s).runsScript = true := by
    rw [State.runsScript, edits_last, hl]
    cases hedits : session.edits with
    | nil => exact absurd hedits he
    | cons e rest =>
      refine keep rest _ ?_
      cases e <;> simp [Edit.run]
  rw [Session.run, State.build, if_pos h1, State.script, hg]
  rfl

/-- The state after a build of a careful history. -/
private structure Good (cbindgen : Files → H) (s : State H) : Prop where
  header : s.header = some (cbindgen s.files)
  last : s.last = .watch fun path => (s.files path).isSome
  changed : ∀ path ∈ s.changed, s.files path = none

private theorem good_script (cbindgen : Files → H) (s : State H) (generate : Files → Option H)
    (hg : ∀ files, generate files = some (cbindgen files)) : Good cbindgen (s.script generate) := by
  rw [State.script, hg]
  exact ⟨rfl, rfl, fun _ h => (nomatch h)⟩

private theorem good_session (cbindgen : Files → H) (s : State H) (session : Session H)
    (hs : s.last = .never ∨ Good cbindgen s) (hg : ∀ files, session.generate files = some (cbindgen files))
    (hh : ∀ edit ∈ session.edits, LeavesHeader edit) (hn : NewFilesDeclared s.files session.edits) :
    Good cbindgen (session.run s) := by
  rw [Session.run, State.build]
  split
  · exact good_script cbindgen _ _ hg
  · next hrun =>
    rcases hs with hs | hs
    · exact absurd (by rw [State.runsScript, edits_last, hs]) hrun
    · rw [State.runsScript, edits_last, hs.last] at hrun
      have hold : ∀ path, s.files path ≠ none → ¬ ∃ edit ∈ session.edits, Touches path edit := by
        intro path hp ht
        refine hrun (List.any_eq_true.2 ⟨path, (edits_changed s _ path).2 (.inr ht), ?_⟩)
        exact Option.isSome_iff_ne_none.2 hp
      have hfiles : filesAfter s.files session.edits = s.files := by
        funext path
        by_cases hp : s.files path = none
        · by_cases hp' : filesAfter s.files session.edits path = none
          · rw [hp, hp']
          · obtain ⟨q, hq, ht⟩ := hn ⟨path, hp, hp'⟩
            exact absurd ht (hold q hq)
        · exact untouched _ _ _ (hold path hp)
      have hf := (edits_files s session.edits).trans hfiles
      refine ⟨?_, ?_, ?_⟩
      · rw [edits_header s _ hh, hf, hs.header]
      · rw [edits_last, hf, hs.last]
      · intro path hp
        rw [hf]
        by_cases hne : s.files path = none
        · exact hne
        · rcases (edits_changed s _ path).1 hp with hp | hp
          · exact hs.changed path hp
          · exact absurd hp (hold path hne)

/-- After a careful history. -/
private theorem good_runAll (cbindgen : Files → H) (files : Files) (header : Option H) (sessions : List (Session H)) (hne : sessions ≠ [])
    (h : Careful cbindgen files sessions) : Good cbindgen (runAll (fresh files header) sessions) := by
  have key : ∀ (sessions : List (Session H)) (s : State H), Good cbindgen s → Careful cbindgen s.files sessions →
      Good cbindgen (runAll s sessions) := by
    intro sessions
    induction sessions with
    | nil => exact fun _ hs _ => hs
    | cons session rest ih =>
      intro s hs h
      exact ih _ (good_session cbindgen s session (.inr hs) h.1 h.2.1 h.2.2.1) (by rw [C119_files]; exact h.2.2.2)
  cases sessions with
  | nil => exact absurd rfl hne
  | cons session rest =>
    exact key rest _ (good_session cbindgen (fresh files header) session (.inl rfl) h.1 h.2.1 h.2.2.1)
      (by rw [C119_files]; exact h.2.2.2)

/-- **C119**, partial: if `cbindgen` never fails, nobody else changes the header, and new files are declared when they are made, the
header describes the library after every build, in a copy of the project with any header. -/
theorem C119_partial (cbindgen : Files → H) (files : Files) (header : Option H) (sessions : List (Session H)) (hne : sessions ≠ [])
    (h : Careful cbindgen files sessions) :
    Describes cbindgen (runAll (fresh files header) sessions).header (runAll (fresh files header) sessions).files :=
  (good_runAll cbindgen files header sessions hne h).header

/-- **C119**: when exactly the header is right after one more build: if a file which existed at the last build was written or removed,
or if the changes do not matter for the header. -/
theorem C119_exact (cbindgen : Files → H) (files : Files) (header : Option H) (sessions : List (Session H)) (hne : sessions ≠ [])
    (h : Careful cbindgen files sessions) (session : Session H) (hg : ∀ files, session.generate files = some (cbindgen files))
    (hh : ∀ edit ∈ session.edits, LeavesHeader edit) (s : State H) (hs : s = runAll (fresh files header) sessions) :
    Describes cbindgen (session.run s).header (session.run s).files ↔
      (∃ path, s.files path ≠ none ∧ ∃ edit ∈ session.edits, Touches path edit) ∨
      cbindgen (filesAfter s.files session.edits) = cbindgen s.files := by
  have hgood : Good cbindgen s := hs ▸ good_runAll cbindgen files header sessions hne h
  constructor
  · intro hd
    by_cases ht : ∃ path, s.files path ≠ none ∧ ∃ edit ∈ session.edits, Touches path edit
    · exact .inl ht
    · right
      have hrun : (session.edits.foldl Edit.run s).runsScript = false := by
        rw [State.runsScript, edits_last, hgood.last]
        refine List.any_eq_false.2 fun path hp hsome => ?_
        have hp' : s.files path ≠ none := Option.isSome_iff_ne_none.1 hsome
        rcases (edits_changed s _ path).1 hp with hp | hp
        · exact hp' (hgood.changed path hp)
        · exact ht ⟨path, hp', hp⟩
      rw [Describes, C119_files, Session.run, State.build, hrun] at hd
      simp only [Bool.false_eq_true, if_false] at hd
      rw [edits_header s _ hh, hgood.header] at hd
      exact (Option.some.inj hd).symm
  · rintro (⟨path, hp, ht⟩ | heq)
    · exact C119_seen cbindgen s session _ path hg hgood.last (Option.isSome_iff_ne_none.2 hp) ht
    · rw [Describes, C119_files, heq, Session.run, State.build]
      split
      · rw [State.script, hg, edits_files, heq]
      · rw [edits_header s _ hh, hgood.header]

/-- **C119**: what happens after `cbindgen` failed. In a new copy of the project, or after a careful history and a change of a file which
existed, there are one or more builds where `cbindgen` fails, with any changes. The next build with any change at all makes the header
right again, if `cbindgen` works. -/
theorem C119_recovers (cbindgen : Files → H) (files : Files) (header : Option H) (sessions : List (Session H))
    (h : Careful cbindgen files sessions) (failed : Session H) (hf : ∀ files, failed.generate files = none)
    (hseen : sessions = [] ∨
      ∃ path, (runAll (fresh files header) sessions).files path ≠ none ∧ ∃ edit ∈ failed.edits, Touches path edit)
    (more : List (Session H)) (hm : ∀ session ∈ more, ∀ files, session.generate files = none) (last : Session H)
    (hg : ∀ files, last.generate files = some (cbindgen files)) (he : last.edits ≠ []) :
    Describes cbindgen (runAll (fresh files header) (sessions ++ [failed] ++ more ++ [last])).header
      (runAll (fresh files header) (sessions ++ [failed] ++ more ++ [last])).files := by
  have hrun : ∀ (s : State H) (session : Session H), (∀ files, session.generate files = none) →
      (session.edits.foldl Edit.run s).runsScript = true → (session.run s).last = .nothing := by
    intro s session hs hr
    rw [Session.run, State.build, if_pos hr, State.script, hs]
  have hfirst : (failed.run (runAll (fresh files header) sessions)).last = .nothing := by
    refine hrun _ _ hf ?_
    rw [State.runsScript, edits_last]
    by_cases hne : sessions = []
    · subst hne
      rfl
    · obtain ⟨path, hp, ht⟩ := hseen.resolve_left hne
      rw [(good_runAll cbindgen files header sessions hne h).last]
      exact List.any_eq_true.2 ⟨path, (edits_changed _ _ path).2 (.inr ht), Option.isSome_iff_ne_none.2 hp⟩
  have hmore : ∀ (more : List (Session H)) (s : State H), (∀ session ∈ more, ∀ files, session.generate files = none) →
      s.last = .nothing → (runAll s more).last = .nothing := by
    intro more
    induction more with
    | nil => exact fun _ _ h => h
    | cons session rest ih =>
      intro s hs hl
      refine ih _ (fun x hx => hs x (List.mem_cons_of_mem _ hx)) ?_
      by_cases hr : (session.edits.foldl Edit.run s).runsScript = true
      · exact hrun s session (hs session List.mem_cons_self) hr
      · rw [Session.run, State.build, if_neg hr, edits_last, hl]
  have hall : runAll (fresh files header) (sessions ++ [failed] ++ more ++ [last]) =
      last.run (runAll (failed.run (runAll (fresh files header) sessions)) more) := by
    simp [runAll, List.foldl_append]
  rw [hall]
  exact C119_after_failure cbindgen _ last hg (hmore more _ hm hfirst) he

/-! ### Counterexamples -/

namespace BuildScriptExample

/-- A header which contains the text of two files. -/
def cbindgen : Files → String := fun files => (files "src/lib.rs").getD "" ++ (files "src/new.rs").getD ""

/-- `cbindgen` which works. -/
def works : Files → Option String := fun files => some (cbindgen files)

/-- A project with one file. -/
def start : Files := fun path => if path = "src/lib.rs" then some "mod new;" else none

end BuildScriptExample

open BuildScriptExample

/-- The full statement is false: a file is made after the line which declares it was already seen by the script, and it is not in the
header. -/
theorem C119_counterexample : ¬ C119_full_statement := by
  intro h
  have := h String cbindgen start none [⟨[], works⟩] ⟨[.write "src/new.rs" "fn f()"], works⟩ (by
    intro session hs files
    left
    simp only [List.cons_append, List.nil_append, List.mem_cons, List.not_mem_nil, or_false] at hs
    rcases hs with rfl | rfl <;> rfl)
  revert this
  unfold Describes
  decide

/-- **C119**: if `cbindgen` fails, the header is not changed by the build, and there is no error. -/
theorem C119_failure (s : State H) (session : Session H) (hg : ∀ files, session.generate files = none)
    (hh : ∀ edit ∈ session.edits, LeavesHeader edit) : (session.run s).header = s.header := by
  rw [Session.run, State.build]
  split
  · rw [State.script, hg]
    exact edits_header s _ hh
  · exact edits_header s _ hh

/-- So the build goes on with an old header. -/
theorem C119_counterexample_error :
    (runAll (fresh start none) [⟨[], works⟩, ⟨[.write "src/lib.rs" "fn g()"], fun _ => none⟩]).header = some (cbindgen start) ∧
    ¬ Describes cbindgen
      (runAll (fresh start none) [⟨[], works⟩, ⟨[.write "src/lib.rs" "fn g()"], fun _ => none⟩]).header
      (runAll (fresh start none) [⟨[], works⟩, ⟨[.write "src/lib.rs" "fn g()"], fun _ => none⟩]).files := by
  unfold Describes
  decide

/-- A header which was removed is not made again, whatever `cbindgen` does. -/
theorem C119_counterexample_removed (cbindgen : Files → H) (files : Files) (header : Option H) :
    (runAll (fresh files header) [⟨[], fun files => some (cbindgen files)⟩, ⟨[.header none], fun files => some (cbindgen files)⟩]).header =
      none := rfl

/-- Non-vacuity of `C119_partial`: a new file is made and declared, and removed again. -/
example : Careful cbindgen start [⟨[], works⟩, ⟨[.write "src/new.rs" "fn f()", .write "src/lib.rs" "mod new; fn g()"], works⟩,
    ⟨[.other, .remove "src/new.rs"], works⟩] := by
  refine ⟨fun _ => rfl, by simp, ?_, fun _ => rfl, by simp [LeavesHeader], ?_, fun _ => rfl, by simp [LeavesHeader], ?_, trivial⟩
  · rintro ⟨path, h1, h2⟩
    exact absurd h1 h2
  · exact fun _ => ⟨"src/lib.rs", by decide, .write "src/lib.rs" "mod new; fn g()", by simp, rfl⟩
  · exact fun _ => ⟨"src/new.rs", by decide, .remove "src/new.rs", by simp, rfl⟩

/-- Non-vacuity of `C119_recovers`: `cbindgen` fails after a file was written, fails again, and works after the next change. -/
example : Describes cbindgen
    (runAll (fresh start none) ([⟨[], works⟩] ++ [⟨[.write "src/lib.rs" "fn g("], fun _ => none⟩] ++ [⟨[.other], fun _ => none⟩] ++
      [⟨[.write "src/lib.rs" "fn g()"], works⟩])).header
    (runAll (fresh start none) ([⟨[], works⟩] ++ [⟨[.write "src/lib.rs" "fn g("], fun _ => none⟩] ++ [⟨[.other], fun _ => none⟩] ++
      [⟨[.write "src/lib.rs" "fn g()"], works⟩])).files := by
  refine C119_recovers cbindgen start none [⟨[], works⟩] ⟨fun _ => rfl, by simp, ?_, trivial⟩ _ (fun _ => rfl)
    (.inr ⟨"src/lib.rs", by decide, .write "src/lib.rs" "fn g(", by simp, rfl⟩) _ (by simp) _ (fun _ => rfl) (by simp)
  rintro ⟨path, h1, h2⟩
  exact absurd h1 h2

end Props
end Equistore
