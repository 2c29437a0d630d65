import Verif.Props.Files
import Verif.Model.NoSerialization

/-!
# C114: a library built without serialization
-/

namespace Equistore
namespace NoSerialization
variable {A : Type}

/-- Any number of calls, from any threads. -/
inductive Calls (A : Type) (state : Files × Messages) : List (Call A) → Files × Messages → Prop
  | none : Calls A state [] state
  | more {calls state'} (thread : ThreadId) (call : Call A) :
      Calls A state calls state' → Calls A state (call :: calls) (call.run thread state').1

/-- The call saves to the file at this path. -/
def Call.SavesTo (call : Call A) (path : String) : Prop :=
  ∃ canCreate memory tensor, call = .save canCreate (some memory) tensor ∧ cstrStr memory = some path

/-- The message of all the calls which get as far as the functions for the content of files. -/
def Says (messages : Messages) (thread : ThreadId) : Prop :=
  lastError thread messages = "serialization format error: serialization was not enabled in equistore"

theorem toStatus_of {e : Error} (h : e.display.toList.contains '\x00' = false) (thread : ThreadId) (m : Messages) :
    e.toStatus thread m = (m.set thread e.display, some e.status) := by
  unfold Error.toStatus
  rw [h]
  rfl

theorem set_same (m : Messages) (thread : ThreadId) (s : String) : m.set thread s thread = s := by
  simp [Messages.set]

theorem notEnabled_status (thread : ThreadId) (m : Messages) :
    notEnabled.toStatus thread m =
      (m.set thread "serialization format error: serialization was not enabled in equistore", some serializationStatus) :=
  toStatus_of (e := notEnabled) (by decide +kernel) thread m

theorem null_status (name : String) (h : name = "path" ∨ name = "tensor") (thread : ThreadId) (m : Messages) :
    (Error.invalidParameter ("got invalid NULL pointer for " ++ name)).toStatus thread m =
      (m.set thread ("invalid parameter: got invalid NULL pointer for " ++ name), some invalidParameterStatus) := by
  rcases h with rfl | rfl
  · exact toStatus_of (e := .invalidParameter ("got invalid NULL pointer for " ++ "path")) (by decide +kernel) thread m
  · exact toStatus_of (e := .invalidParameter ("got invalid NULL pointer for " ++ "tensor")) (by decide +kernel) thread m

/-! ### The outcome of each call -/

/-- C114: saving to a file which can be created reports that there is no serialization, and the file is empty. -/
theorem C114_save (thread : ThreadId) {memory : Bytes} {path : String} (hp : cstrStr memory = some path) (tensor : TensorMap A)
    (files : Files) (messages : Messages) :
    ∃ messages', (Call.save true (some memory) (some tensor)).run thread (files, messages) =
        ((files.write path .notArchive, messages'), some serializationStatus) ∧ Says messages' thread := by
  refine ⟨messages.set thread _, ?_, set_same messages thread
    "serialization format error: serialization was not enabled in equistore"⟩
  simp only [Call.run, saveFile, Act.bind_def, Act.lift, checkPointer, Res.okOr, Res.expect, hp, Res.guardErr, if_true]
  exact congrArg (fun x => ((files.write path .notArchive, x.1), x.2)) (notEnabled_status thread messages)

/-- C114: loading a file which exists, whatever it contains, reports that there is no serialization. -/
theorem C114_load (thread : ThreadId) {memory : Bytes} {path : String} (hp : cstrStr memory = some path)
    {files : Files} {content : Content} (hf : files path = some content) (messages : Messages) :
    ∃ messages', (Call.load (A := A) (some memory)).run thread (files, messages) =
        ((files, messages'), some serializationStatus) ∧ Says messages' thread := by
  refine ⟨messages.set thread _, ?_, set_same messages thread
    "serialization format error: serialization was not enabled in equistore"⟩
  simp only [Call.run, loadFile, checkPointer, Res.okOr, Res.expect, hp, Res.ok_bind, hf, load, Res.bind, catchUnwind,
    notEnabled_status]

/-- C114: the other calls report what is wrong with their parameters, or the error of the system. -/
theorem C114_rejected (thread : ThreadId) (files : Files) (messages : Messages) :
    (∀ canCreate tensor, ((Call.save (A := A) canCreate none tensor).run thread (files, messages)).2 = some invalidParameterStatus) ∧
    (∀ canCreate memory,
      ((Call.save (A := A) canCreate (some memory) none).run thread (files, messages)).2 = some invalidParameterStatus) ∧
    ((Call.load (A := A) none).run thread (files, messages)).2 = some invalidParameterStatus ∧
    (∀ memory, cstrStr memory = none →
      (∀ canCreate (tensor : TensorMap A),
        ((Call.save canCreate (some memory) (some tensor)).run thread (files, messages)).2 = some internalErrorStatus) ∧
      ((Call.load (A := A) (some memory)).run thread (files, messages)).2 = some internalErrorStatus) ∧
    (∀ memory path, cstrStr memory = some path →
      (∀ tensor : TensorMap A,
        ((Call.save false (some memory) (some tensor)).run thread (files, messages)).2 = some ioStatus) ∧
      (files path = none → ((Call.load (A := A) (some memory)).run thread (files, messages)).2 = some ioStatus)) := by
  have hio1 := toStatus_of (e := .io "Permission denied") (by decide +kernel) thread messages
  have hio2 := toStatus_of (e := .io "No such file or directory") (by decide +kernel) thread messages
  have hin := toStatus_of (e := .internal "use UTF-8 for path") (by decide +kernel) thread messages
  have hn1 := null_status "path" (.inl rfl) thread messages
  have hn2 := null_status "tensor" (.inr rfl) thread messages
  refine ⟨fun c t => ?_, fun c m => ?_, ?_, fun m hm => ⟨fun c t => ?_, ?_⟩, fun m p hm => ⟨fun t => ?_, fun hf => ?_⟩⟩
  · simp only [Call.run, saveFile, Act.bind_def, Act.lift, checkPointer, Res.okOr, catchUnwind, hn1]
  · simp only [Call.run, saveFile, Act.bind_def, Act.lift, checkPointer, Res.okOr, catchUnwind, hn2]
  · simp only [Call.run, loadFile, checkPointer, Res.okOr, Res.err_bind, Res.bind, catchUnwind, hn1]
  · simp only [Call.run, saveFile, Act.bind_def, Act.lift, checkPointer, Res.okOr, Res.expect, hm, catchUnwind, hin]
    rfl
  · simp only [Call.run, loadFile, checkPointer, Res.okOr, Res.ok_bind, Res.expect, hm, Res.panic_bind, Res.bind, catchUnwind,
      hin]
    rfl
  · simp only [Call.run, saveFile, Act.bind_def, Act.lift, checkPointer, Res.okOr, Res.expect, hm, Res.guardErr,
      Bool.false_eq_true, if_false]
    exact congrArg Prod.snd hio1
  · simp only [Call.run, loadFile, checkPointer, Res.okOr, Res.ok_bind, Res.expect, hm, hf, Res.bind, catchUnwind, hio2]
    rfl

/-- C114: no call succeeds, and all the failures are reported with a status. -/
theorem C114_never (thread : ThreadId) (state : Files × Messages) (call : Call A) :
    ∃ status, (call.run thread state).2 = some status ∧ status ≠ successStatus := by
  obtain ⟨files, messages⟩ := state
  obtain ⟨h1, h2, h3, h4, h5⟩ := C114_rejected (A := A) thread files messages
  have n1 : invalidParameterStatus ≠ successStatus := by decide
  have n2 : internalErrorStatus ≠ successStatus := by decide
  have n3 : ioStatus ≠ successStatus := by decide
  have n4 : serializationStatus ≠ successStatus := by decide
  match call with
  | .save c none t => exact ⟨_, h1 c t, n1⟩
  | .save c (some m) none => exact ⟨_, h2 c m, n1⟩
  | .load none => exact ⟨_, h3, n1⟩
  | .save c (some m) (some t) =>
    cases hm : cstrStr m with
    | none => exact ⟨_, (h4 m hm).1 c t, n2⟩
    | some path =>
      cases c with
      | false => exact ⟨_, (h5 m path hm).1 t, n3⟩
      | true =>
        obtain ⟨m', h, _⟩ := C114_save thread hm t files messages
        exact ⟨_, by rw [h], n4⟩
  | .load (some m) =>
    cases hm : cstrStr m with
    | none => exact ⟨_, (h4 m hm).2, n2⟩
    | some path =>
      cases hf : files path with
      | none => exact ⟨_, (h5 m path hm).2 hf, n3⟩
      | some content =>
        obtain ⟨m', h, _⟩ := C114_load (A := A) thread hm hf messages
        exact ⟨_, by rw [h], n4⟩

/-! ### What happens to files -/

/-- What one call does to the files. -/
theorem run_files (thread : ThreadId) (state : Files × Messages) (call : Call A) :
    (call.run thread state).1.1 = state.1 ∨
    ∃ path memory tensor, call = .save true (some memory) (some tensor) ∧ cstrStr memory = some path ∧
      (call.run thread state).1.1 = state.1.write path .notArchive := by
  obtain ⟨files, messages⟩ := state
  match call with
  | .save c none t => exact .inl (by simp only [Call.run, saveFile, Act.bind_def, Act.lift, checkPointer, Res.okOr])
  | .save c (some m) none => exact .inl (by simp only [Call.run, saveFile, Act.bind_def, Act.lift, checkPointer, Res.okOr])
  | .load m => exact .inl rfl
  | .save c (some m) (some t) =>
    cases hm : cstrStr m with
    | none => exact .inl (by simp only [Call.run, saveFile, Act.bind_def, Act.lift, checkPointer, Res.okOr, Res.expect, hm])
    | some path =>
      cases c with
      | false =>
        refine .inl ?_
        simp only [Call.run, saveFile, Act.bind_def, Act.lift, checkPointer, Res.okOr, Res.expect, hm, Res.guardErr,
          Bool.false_eq_true, if_false]
        rfl
      | true =>
        obtain ⟨m', h, _⟩ := C114_save thread hm t files messages
        exact .inr ⟨path, m, t, rfl, hm, by rw [h]⟩

/-- C114, the full statement: as these calls always fail, they change no file. -/
def C114_full_statement : Prop :=
  ∀ (calls : List (Call NdArray)) (state state' : Files × Messages), Calls NdArray state calls state' →
    ∀ path, state'.1 path = state.1 path

/-- C114, partial: after any number of calls, the files which no call saves to are as they were. What is missing are the
files at the paths which are saved to: see `C114_counterexample`. -/
theorem C114_unchanged_partial {calls : List (Call A)} {state state' : Files × Messages} (h : Calls A state calls state')
    {path : String} (hp : ∀ call ∈ calls, ¬ call.SavesTo path) : state'.1 path = state.1 path := by
  induction h with
  | none => rfl
  | more thread call _ ih =>
    have ih := ih fun c hc => hp c (List.mem_cons_of_mem _ hc)
    rcases run_files thread _ call with h | ⟨path', m, t, hc, hm, h⟩
    · rw [h, ih]
    · have hne : path ≠ path' := by
        rintro rfl
        exact hp call (List.mem_cons_self ..) ⟨true, m, some t, hc, hm⟩
      rw [h, write_other hne, ih]

/-- C114: after any number of calls, each file is as it was, or is empty. -/
theorem C114_emptied {calls : List (Call A)} {state state' : Files × Messages} (h : Calls A state calls state')
    (path : String) : state'.1 path = state.1 path ∨ state'.1 path = some .notArchive := by
  induction h with
  | none => exact .inl rfl
  | more thread call _ ih =>
    rcases run_files thread _ call with h | ⟨path', m, t, hc, hm, h⟩
    · rw [h]; exact ih
    · rw [h]
      by_cases hne : path = path'
      · subst hne; exact .inr write_same
      · rw [write_other hne]; exact ih

/-- C114: what was in the file is lost. Other libraries, which are built with serialization, can not load it
anymore. -/
theorem C114_lost (thread : ThreadId) {memory : Bytes} {path : String} (hp : cstrStr memory = some path) (tensor : TensorMap A)
    (files : Files) (messages : Messages) (build : Build) (py : PyLiteral) (hash hash' : HashOrder) :
    ∃ message, eqsTensormapLoadFile build py hash hash' (some memory)
      ((Call.save true (some memory) (some tensor)).run thread (files, messages)).1.1 = .err (.serialization message) := by
  obtain ⟨m', h, _⟩ := C114_save thread hp tensor files messages
  refine ⟨"invalid Zip archive: ", ?_⟩
  rw [h, loadFiles hp]
  dsimp only
  rw [write_same]

namespace Example
open Equistore.Example

/-- A file which was saved by a library with serialization. -/
def before : Files := (savedWith working).1

/-- Save over this file. -/
def call : Call NdArray := .save true (some file) (some single)

/-- The file could be loaded before. -/
theorem before_loaded : isOk (loaded before) = true := by decide +kernel

theorem after_calls : Calls NdArray (before, Messages.init) [call] (call.run 0 (before, Messages.init)).1 :=
  .more 0 call .none

theorem after_file : (call.run 0 (before, Messages.init)).1.1 "a.npz" = some .notArchive := by
  obtain ⟨m', h, _⟩ := C114_save 0 file_str single before Messages.init
  unfold call
  rw [h]
  exact write_same (files := before) (path := "a.npz") (content := .notArchive)

end Example

open Equistore.Example in
/-- C114 is false for paths which are saved to: the call fails as always, after the file was made empty. -/
theorem C114_counterexample : ¬ C114_full_statement := by
  intro h
  have h1 := h _ _ _ Example.after_calls "a.npz"
  have h2 := Example.before_loaded
  rw [Example.after_file] at h1
  dsimp only at h1
  unfold loaded at h2
  rw [loadFiles file_str, ← h1] at h2
  cases h2

/-! ### Examples -/

open Equistore.Example in
/-- The hypotheses of `C114_save` and `C114_lost` are met. -/
example : ∃ messages', (Call.save true (some file) (some single)).run 3 (Example.before, Messages.init) =
    ((Example.before.write "a.npz" .notArchive, messages'), some serializationStatus) ∧ Says messages' 3 :=
  C114_save 3 file_str single _ _

open Equistore.Example in
/-- The hypotheses of `C114_load` are met. -/
example : ∃ content, Example.before "a.npz" = some content := by
  cases h : Example.before "a.npz" with
  | some c => exact ⟨c, rfl⟩
  | none =>
    have h2 := Example.before_loaded
    unfold loaded at h2
    rw [loadFiles file_str, h] at h2
    cases h2

open Equistore.Example in
/-- The hypotheses of `C114_unchanged_partial` are met: the other file is as it was. -/
example : ∀ call ∈ [Example.call], ¬ call.SavesTo "b.npz" := by
  intro call hc
  rw [List.mem_singleton] at hc
  subst hc
  rintro ⟨c, m, t, h, hm⟩
  cases h
  rw [file_str] at hm
  exact absurd (Option.some.inj hm) (by decide)

end NoSerialization
end Equistore
