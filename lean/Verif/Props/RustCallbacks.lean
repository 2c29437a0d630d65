import Verif.Lemmas.RustArrays
import Verif.Props.RustArrays
import Verif.Spec.RustCallbacks

/-!
# C108: the functions of Rust arrays can be called from C
-/

namespace Equistore
namespace Props

open RustArrays RustCallbacks
open Spec.RustArrays (NoNul Honest said CrateOk)
open Spec.RustCallbacks

variable {D : Type} [DynArray D]

/-- **C108**, full statement: calls with correct pointers do what the method of the array does. -/
def C108_full_statement (D : Type) [DynArray D] : Prop :=
  ∀ (Good : D → Prop) (_ : Honest Good) (foreign : Foreign D) (thread : ThreadId) (s : State D) (_ : Memory Good s) (call : Call),
    Correct s call → ∃ r, call.run foreign thread s = some r ∧ Does thread s call r

/-! ### Proofs -/

private theorem catching_err {α : Type} (thread : ThreadId) (body : CAct (State D) α) (s : State D) (name : String)
    (hn : '\x00' ∉ name.toList)
    (h : body s = some (s, .err (.invalidParameter ("got invalid NULL pointer for " ++ name)))) :
    catching thread body s =
      some ({ s with messages := s.messages.set thread ("invalid parameter: got invalid NULL pointer for " ++ name) }, 1, none) := by
  have hd : (Error.invalidParameter ("got invalid NULL pointer for " ++ name)).display =
      "invalid parameter: got invalid NULL pointer for " ++ name := by
    show "invalid parameter: " ++ ("got invalid NULL pointer for " ++ name) = _
    rw [← String.append_assoc]
    rfl
  have hc : ("invalid parameter: got invalid NULL pointer for " ++ name).toList.contains '\x00' = false := by
    rw [String.toList_append, List.contains_eq_mem]
    simp only [List.mem_append, decide_eq_false_iff_not, not_or]
    exact ⟨by decide, hn⟩
  unfold catching
  rw [h]
  simp only [catchUnwind, bind, Res.bind, Error.toStatus, hd, hc]
  rfl

private theorem writing_err {α : Type} (f : α → Written) (c : Callback D α) (s s' : State D) (status : Int32)
    (h : c s = some (s', status, none)) : writing f c s = some (s', status, none) := by
  simp [writing, h]

private theorem first_cases {name : String} {n₁ : String} {b₁ : Bool} {rest : List (String × Bool)} {before after : List (String × Bool)}
    (h : (n₁, b₁) :: rest = before ++ (name, false) :: after) (hb : ∀ p ∈ before, p.2 = true) :
    (b₁ = false ∧ n₁ = name) ∨ (b₁ = true ∧ ∃ before', rest = before' ++ (name, false) :: after ∧ ∀ p ∈ before', p.2 = true) := by
  cases before with
  | nil => cases h; exact .inl ⟨rfl, rfl⟩
  | cons p before =>
    cases h
    exact .inr ⟨hb (n₁, b₁) (by simp), before, rfl, fun p hp => hb p (List.mem_cons_of_mem _ hp)⟩

/-- **C108** for `NULL`: whatever the other arguments are, the first of the pointers which is `NULL` is named in the last error
of this thread, the status is the one of invalid parameters, nothing is written, and no array changes. -/
theorem C108_null (foreign : Foreign D) (thread : ThreadId) (s : State D) (call : Call) (name : String)
    (h : FirstNull name call) :
    call.run foreign thread s =
      some ({ s with messages := s.messages.set thread ("invalid parameter: got invalid NULL pointer for " ++ name) }, 1, none) := by
  obtain ⟨before, after, h1, h2⟩ := h
  cases call with
  | origin array out =>
    refine writing_err _ _ _ _ _ ?_
    rcases first_cases h1 h2 with ⟨ha, rfl⟩ | ⟨ha, before, h1, h2⟩
    · refine catching_err thread _ s _ (by decide) ?_
      cases array <;> simp_all [bind, CAct.bind, CAct.lift, checkPointer, Res.okOr]
    rcases first_cases h1 h2 with ⟨hb, rfl⟩ | ⟨_, before, h1, h2⟩
    · refine catching_err thread _ s _ (by decide) ?_
      cases array <;> cases out <;> simp_all [bind, CAct.bind, CAct.lift, checkPointer, Res.okOr]
    · simp at h1
  | shape array out count =>
    refine writing_err _ _ _ _ _ ?_
    rcases first_cases h1 h2 with ⟨ha, rfl⟩ | ⟨ha, before, h1, h2⟩
    · refine catching_err thread _ s _ (by decide) ?_
      cases array <;> simp_all [bind, CAct.bind, CAct.lift, checkPointer, Res.okOr]
    rcases first_cases h1 h2 with ⟨hb, rfl⟩ | ⟨hb, before, h1, h2⟩
    · refine catching_err thread _ s _ (by decide) ?_
      cases array <;> cases out <;> simp_all [bind, CAct.bind, CAct.lift, checkPointer, Res.okOr]
    rcases first_cases h1 h2 with ⟨hc, rfl⟩ | ⟨_, before, h1, h2⟩
    · refine catching_err thread _ s _ (by decide) ?_
      cases array <;> cases out <;> cases count <;> simp_all [bind, CAct.bind, CAct.lift, checkPointer, Res.okOr]
    · simp at h1
  | reshape array dims count =>
    refine writing_err _ _ _ _ _ ?_
    rcases first_cases h1 h2 with ⟨ha, rfl⟩ | ⟨ha, before, h1, h2⟩
    · refine catching_err thread _ s _ (by decide) ?_
      cases array <;> simp_all [bind, CAct.bind, CAct.lift, checkPointer, Res.okOr]
    · simp at h1
  | swapAxes array axis₁ axis₂ =>
    refine writing_err _ _ _ _ _ ?_
    rcases first_cases h1 h2 with ⟨ha, rfl⟩ | ⟨ha, before, h1, h2⟩
    · refine catching_err thread _ s _ (by decide) ?_
      cases array <;> simp_all [bind, CAct.bind, CAct.lift, checkPointer, Res.okOr]
    · simp at h1
  | create array dims count storage =>
    refine writing_err _ _ _ _ _ ?_
    rcases first_cases h1 h2 with ⟨ha, rfl⟩ | ⟨ha, before, h1, h2⟩
    · refine catching_err thread _ s _ (by decide) ?_
      cases array <;> simp_all [bind, CAct.bind, CAct.lift, checkPointer, Res.okOr]
    rcases first_cases h1 h2 with ⟨hb, rfl⟩ | ⟨_, before, h1, h2⟩
    · refine catching_err thread _ s _ (by decide) ?_
      cases array <;> cases storage <;> simp_all [bind, CAct.bind, CAct.lift, checkPointer, Res.okOr, Storage.pointer]
    · simp at h1
  | data array out =>
    refine writing_err _ _ _ _ _ ?_
    rcases first_cases h1 h2 with ⟨ha, rfl⟩ | ⟨ha, before, h1, h2⟩
    · refine catching_err thread _ s _ (by decide) ?_
      cases array <;> simp_all [bind, CAct.bind, CAct.lift, checkPointer, Res.okOr]
    rcases first_cases h1 h2 with ⟨hb, rfl⟩ | ⟨_, before, h1, h2⟩
    · refine catching_err thread _ s _ (by decide) ?_
      cases array <;> cases out <;> simp_all [bind, CAct.bind, CAct.lift, checkPointer, Res.okOr]
    · simp at h1
  | copy array storage =>
    refine writing_err _ _ _ _ _ ?_
    rcases first_cases h1 h2 with ⟨ha, rfl⟩ | ⟨ha, before, h1, h2⟩
    · refine catching_err thread _ s _ (by decide) ?_
      cases array <;> simp_all [bind, CAct.bind, CAct.lift, checkPointer, Res.okOr]
    rcases first_cases h1 h2 with ⟨hb, rfl⟩ | ⟨_, before, h1, h2⟩
    · refine catching_err thread _ s _ (by decide) ?_
      cases array <;> cases storage <;> simp_all [bind, CAct.bind, CAct.lift, checkPointer, Res.okOr, Storage.pointer]
    · simp at h1
  | move output input samples count start stop =>
    refine writing_err _ _ _ _ _ ?_
    rcases first_cases h1 h2 with ⟨ha, rfl⟩ | ⟨ha, before, h1, h2⟩
    · refine catching_err thread _ s _ (by decide) ?_
      cases output <;> simp_all [bind, CAct.bind, CAct.lift, checkPointer, Res.okOr]
    rcases first_cases h1 h2 with ⟨hb, rfl⟩ | ⟨_, before, h1, h2⟩
    · refine catching_err thread _ s _ (by decide) ?_
      cases output <;> cases input <;> simp_all [bind, CAct.bind, CAct.lift, checkPointer, Res.okOr]
    · simp at h1

private theorem run_method {α : Type} (thread : ThreadId) (body : CAct (State D) α) (s s' : State D) (e : Except String α)
    (f : α → Written) (h : body s = some (s', ofMethod e)) (hm : s'.messages = s.messages) (hn : NoNul e) :
    ∃ r, writing f (catching thread body) s = some r ∧ Replies thread s s'.boxes e f r ∧ r.1.boxes = s'.boxes ∧ r.1.next = s'.next := by
  refine ⟨_, by rw [writing, catching_spec thread body s s' e h hn]; rfl, ⟨rfl, by rw [hm], ?_⟩, rfl, rfl⟩
  cases e <;> rfl

omit [DynArray D] in
private theorem put_some (s : State D) (x : Nat) (d : D) :
    put s (some x) d = fun i => if i = x then some d else s.boxes i := by
  funext i
  simp only [put, Option.some.injEq]
  by_cases h : i = x
  · simp [h]
  · simp [h, Ne.symm h]

omit [DynArray D] in
private theorem memory_same {Good : D → Prop} {s s' : State D} (h : Memory Good s) (hb : s'.boxes = s.boxes) (hn : s'.next = s.next) :
    Memory Good s' := by
  unfold Memory
  rw [hb, hn]
  exact h

omit [DynArray D] in
private theorem memory_put {Good : D → Prop} {s s' : State D} (h : Memory Good s) {x : Nat} {d d' : D} (hx : s.boxes x = some d)
    (hg : Good d') (hb : s'.boxes = put s (some x) d') (hn : s'.next = s.next) : Memory Good s' := by
  unfold Memory
  rw [hb, hn, put_some]
  refine ⟨fun a ha => ?_, fun a v hv => ?_⟩
  · have : a ≠ x := by rintro rfl; rw [h.1 a ha] at hx; cases hx
    simp only [this, if_false]
    exact h.1 a ha
  · simp only at hv
    split at hv
    · cases hv; exact hg
    · exact h.2 a v hv

private theorem slice_some {α : Type} {m : List α} {count : Nat} (h : count ≤ m.length) (s : State D) :
    slice (some m) count s = some (s, .ok (m.take count)) := by
  simp [slice, CAct.require, h]

private theorem assign_spec (foreign : Foreign D) {s : State D} {storage : Storage} (hi : Initialised s storage) (new : D)
    (hf : s.boxes s.next = none) :
    assign foreign storage new s = some (⟨fun i => if i = s.next then some new else
      if replaced storage = some i then none else s.boxes i, s.next + 1, s.messages⟩, .ok (allRust s.next)) := by
  obtain ⟨a, rfl, h | ⟨h, d, y, hy, hd⟩⟩ := hi
  · simp only [assign, CArrayT.new, CArrayT.drop, h, Option.map_some, replaced, if_true, allRust]
    simp
  · have hne : y ≠ s.next := by rintro rfl; rw [hf] at hd; cases hd
    have hb : (if y = s.next then some new else s.boxes y) = some d := by rw [if_neg hne]; exact hd
    simp only [assign, CArrayT.new, CArrayT.drop, h, hy, rustDestroy, hb, Option.map_some, replaced, allRust]
    simp only [Option.some.injEq, Prod.mk.injEq, and_true, State.mk.injEq]
    funext i
    by_cases h1 : i = y
    · subst h1; simp [hne]
    · by_cases h2 : i = s.next <;> simp [h1, h2, Ne.symm h1]
      all_goals
        rintro h3
        exact absurd h3.symm (by assumption)

private theorem run_make {Good : D → Prop} (foreign : Foreign D) (thread : ThreadId) (body : CAct (State D) CArrayT)
    {s : State D} (hs : Memory Good s) {storage : Storage} (hi : Initialised s storage) (e : Except String D)
    (h : body s = (do let new ← CAct.lift (ofMethod e); assign foreign storage new : CAct (State D) CArrayT) s) (hn : NoNul e)
    (hg : ∀ d, e = .ok d → Good d) :
    ∃ r, writing .array (catching thread body) s = some r ∧ Makes thread s e storage r ∧ Memory Good r.1 := by
  cases e with
  | ok new =>
    have hf := hs.1 s.next (Nat.le_refl _)
    rw [CAct.bind_apply] at h
    simp only [CAct.lift, ofMethod] at h
    rw [assign_spec foreign hi new hf] at h
    obtain ⟨r, h1, h2, h3, h4⟩ := run_method thread body s _ (.ok (allRust s.next)) .array h rfl (fun _ h => by cases h)
    refine ⟨r, h1, ⟨s.next, _, hf, rfl, h2⟩, ?_, ?_⟩
    · rw [h3, h4]
      intro a ha
      have h5 : a ≠ s.next := by simp only at ha; omega
      simp only [h5, if_false]
      split
      · rfl
      · exact hs.1 a (by simp only at ha; omega)
    · rw [h3]
      intro a v hv
      simp only at hv
      split at hv
      · cases hv; exact hg _ rfl
      · split at hv
        · cases hv
        · exact hs.2 a v hv
  | error m =>
    rw [CAct.bind_apply] at h
    simp only [CAct.lift, ofMethod] at h
    obtain ⟨r, h1, h2, h3, h4⟩ := run_method thread body s s (.error m) .array h rfl (fun m' he => by cases he; exact hn m rfl)
    exact ⟨r, h1, h2, memory_same hs h3 h4⟩

/-- **C108** for calls with correct pointers, where arrays in C are not `NULL` and structures for new arrays are initialised: they do
what the method of the array does, and more calls can be made afterwards. Missing: `NULL` for arrays without elements, see
`C108_counterexample`, and structures which are not initialised, see `C108_counterexample_uninitialised`. -/
theorem C108_partial (Good : D → Prop) (hh : Honest Good) (foreign : Foreign D) (thread : ThreadId) (s : State D)
    (hs : Memory Good s) (call : Call) (hc : Correct s call) (hca : Careful s call) :
    ∃ r, call.run foreign thread s = some r ∧ Does thread s call r ∧ Memory Good r.1 := by
  cases call with
  | origin array out =>
    obtain ⟨⟨d, x, rfl, hx⟩, ho⟩ := hc
    obtain ⟨_, rfl⟩ := Option.isSome_iff_exists.1 ho
    obtain ⟨r, h1, h2, h3, h4⟩ := run_method thread (do
      let address ← CAct.lift (checkPointer "array" (some x))
      let _ ← CAct.lift (checkPointer "origin" (some ()))
      let d ← deref address
      CAct.lift (ofMethod (DynArray.origin d))) s s (DynArray.origin d) Written.origin (by
        simp only [bind, CAct.bind, CAct.lift, checkPointer, Res.okOr, deref, hx, Option.map]) rfl (hh.origin_nul d (hs.2 x d hx))
    exact ⟨r, h1, ⟨d, ⟨x, rfl, hx⟩, h2⟩, memory_same hs h3 h4⟩
  | shape array out count =>
    obtain ⟨⟨d, x, rfl, hx⟩, ho, hc⟩ := hc
    obtain ⟨_, rfl⟩ := Option.isSome_iff_exists.1 ho
    obtain ⟨_, rfl⟩ := Option.isSome_iff_exists.1 hc
    have hn := hh.shape_nul d (hs.2 x d hx)
    obtain ⟨r, h1, h2, h3, h4⟩ := run_method thread (do
      let address ← CAct.lift (checkPointer "array" (some x))
      let _ ← CAct.lift (checkPointer "shape" (some ()))
      let _ ← CAct.lift (checkPointer "shape_count" (some ()))
      let d ← deref address
      let shape ← CAct.lift (ofMethod (DynArray.shape d))
      return (shape, shape.length)) s s ((fun l => (l, l.length)) <$> DynArray.shape d) (fun r => Written.shape r.1 r.2) (by
        simp only [bind, CAct.bind, CAct.lift, checkPointer, Res.okOr, deref, hx, Option.map]
        cases DynArray.shape d <;> rfl) rfl (by
        intro m hm
        cases he : DynArray.shape d with
        | ok a => rw [he] at hm; cases hm
        | error m' => rw [he] at hm; cases hm; exact hn m he)
    refine ⟨r, h1, ⟨d, ⟨x, rfl, hx⟩, ?_⟩, memory_same hs h3 h4⟩
    revert h2
    cases DynArray.shape d <;> exact id
  | reshape array dims count =>
    obtain ⟨⟨d, x, rfl, hx⟩, shape, hm⟩ := hc
    obtain ⟨m, rfl⟩ := Option.ne_none_iff_exists'.1 hca
    obtain ⟨hle, rfl⟩ := hm
    have hg := hs.2 x d hx
    obtain ⟨r, h1, h2, h3, h4⟩ := run_method thread (do
      let address ← CAct.lift (checkPointer "array" (some x))
      let shape ← slice (some m) count
      let d ← deref address
      let (d, r) := DynArray.reshape d shape
      store address d
      CAct.lift (ofMethod r)) s ⟨put s (some x) (DynArray.reshape d (m.take count)).1, s.next, s.messages⟩
        (DynArray.reshape d (m.take count)).2 (fun _ => Written.nothing) (by
        simp only [bind, CAct.bind, CAct.lift, checkPointer, Res.okOr, slice_some hle, deref, hx, Option.map, store, put_some])
        rfl (hh.reshape_nul d _ hg)
    exact ⟨r, h1, ⟨d, _, ⟨x, rfl, hx⟩, ⟨hle, rfl⟩, h2⟩, memory_put hs hx (hh.reshape d _ hg) h3 h4⟩
  | swapAxes array axis₁ axis₂ =>
    obtain ⟨d, x, rfl, hx⟩ := hc
    have hg := hs.2 x d hx
    obtain ⟨r, h1, h2, h3, h4⟩ := run_method thread (do
      let address ← CAct.lift (checkPointer "array" (some x))
      let d ← deref address
      let (d, r) := DynArray.swapAxes d axis₁ axis₂
      store address d
      CAct.lift (ofMethod r)) s ⟨put s (some x) (DynArray.swapAxes d axis₁ axis₂).1, s.next, s.messages⟩
        (DynArray.swapAxes d axis₁ axis₂).2 (fun _ => Written.nothing) (by
        simp only [bind, CAct.bind, CAct.lift, checkPointer, Res.okOr, deref, hx, Option.map, store, put_some])
        rfl (hh.swap_nul d _ _ hg)
    exact ⟨r, h1, ⟨d, ⟨x, rfl, hx⟩, h2⟩, memory_put hs hx (hh.swap d _ _ hg) h3 h4⟩
  | create array dims count storage =>
    obtain ⟨⟨d, x, rfl, hx⟩, ⟨shape, hm⟩, -⟩ := hc
    obtain ⟨hd, hi⟩ := hca
    obtain ⟨m, rfl⟩ := Option.ne_none_iff_exists'.1 hd
    obtain ⟨hle, rfl⟩ := hm
    have hg := hs.2 x d hx
    obtain ⟨a, rfl, -⟩ := id hi
    obtain ⟨r, h1, h2, h3⟩ := run_make foreign thread (do
      let address ← CAct.lift (checkPointer "array" (some x))
      let storage ← CAct.lift (checkPointer "array_storage" (Storage.holds a).pointer)
      let shape ← slice (some m) count
      let d ← deref address
      let new ← CAct.lift (ofMethod (DynArray.create d shape))
      assign foreign storage new) hs hi (DynArray.create d (m.take count)) (by
        simp only [bind, CAct.bind, CAct.lift, checkPointer, Res.okOr, Storage.pointer, slice_some hle, deref, hx, Option.map])
        (hh.create_nul d _ hg) (fun d' he => hh.create d d' _ hg he)
    exact ⟨r, h1, ⟨d, _, ⟨x, rfl, hx⟩, ⟨hle, rfl⟩, h2⟩, h3⟩
  | data array out =>
    obtain ⟨⟨d, x, rfl, hx⟩, ho⟩ := hc
    obtain ⟨_, rfl⟩ := Option.isSome_iff_exists.1 ho
    obtain ⟨r, h1, h2, h3, h4⟩ := run_method thread (do
      let address ← CAct.lift (checkPointer "array" (some x))
      let _ ← CAct.lift (checkPointer "data" (some ()))
      let d ← deref address
      CAct.lift (ofMethod (DynArray.data d))) s s (DynArray.data d) Written.data (by
        simp only [bind, CAct.bind, CAct.lift, checkPointer, Res.okOr, deref, hx, Option.map]) rfl (hh.data_nul d (hs.2 x d hx))
    exact ⟨r, h1, ⟨d, ⟨x, rfl, hx⟩, h2⟩, memory_same hs h3 h4⟩
  | copy array storage =>
    obtain ⟨⟨d, x, rfl, hx⟩, -⟩ := hc
    have hg := hs.2 x d hx
    obtain ⟨a, rfl, -⟩ := id hca
    obtain ⟨r, h1, h2, h3⟩ := run_make foreign thread (do
      let address ← CAct.lift (checkPointer "array" (some x))
      let storage ← CAct.lift (checkPointer "array_storage" (Storage.holds a).pointer)
      let d ← deref address
      let new ← CAct.lift (ofMethod (DynArray.copy d))
      assign foreign storage new) hs hca (DynArray.copy d) (by
        simp only [bind, CAct.bind, CAct.lift, checkPointer, Res.okOr, Storage.pointer, deref, hx, Option.map])
        (hh.copy_nul d hg) (fun d' he => hh.copy d d' hg he)
    exact ⟨r, h1, ⟨d, ⟨x, rfl, hx⟩, h2⟩, h3⟩
  | move output input samples count start stop =>
    obtain ⟨⟨d, x, rfl, hx⟩, ⟨source, y, rfl, hy⟩, hne, content, hm⟩ := hc
    obtain ⟨m, rfl⟩ := Option.ne_none_iff_exists'.1 hca
    obtain ⟨hle, rfl⟩ := hm
    have hxy : x ≠ y := fun h => hne (by rw [h])
    have hg := hs.2 x d hx
    have hg' := hs.2 y source hy
    obtain ⟨r, h1, h2, h3, h4⟩ := run_method thread (do
      let output ← CAct.lift (checkPointer "output" (some x))
      let input ← CAct.lift (checkPointer "input" (some y))
      let samples ← slice (some m) count
      CAct.require (if output = input then none else some ())
      let target ← deref output
      let source ← deref input
      let (d, r) := DynArray.moveSamplesFrom target source samples start stop
      store output d
      CAct.lift (ofMethod r)) s
        ⟨put s (some x) (DynArray.moveSamplesFrom d source (m.take count) start stop).1, s.next, s.messages⟩
        (DynArray.moveSamplesFrom d source (m.take count) start stop).2 (fun _ => Written.nothing) (by
        simp only [bind, CAct.bind, CAct.lift, checkPointer, Res.okOr, slice_some hle, CAct.require, if_neg hxy, deref, hx, hy,
          Option.map, store, put_some]) rfl (hh.move_nul d source _ _ _ hg hg')
    exact ⟨r, h1, ⟨d, source, _, ⟨x, rfl, hx⟩, ⟨y, rfl, hy⟩, ⟨hle, rfl⟩, h2⟩, memory_put hs hx (hh.move d source _ _ _ hg hg') h3 h4⟩

/-- **C108** for `destroy`: `NULL` is ignored, and an array is freed and no other one changes. -/
theorem C108_destroy (s : State D) :
    rustDestroy none s = some s ∧
    ∀ address d, s.boxes address = some d → ∃ s', rustDestroy (some address) s = some s' ∧ s'.boxes address = none ∧
      (∀ i, i ≠ address → s'.boxes i = s.boxes i) ∧ s'.messages = s.messages := by
  refine ⟨rfl, fun address d h => ⟨{ s with boxes := fun i => if i = address then none else s.boxes i }, ?_, by simp,
    fun i hi => by simp [hi], rfl⟩⟩
  simp only [rustDestroy, h, Option.map_some]

/-- With the arguments the library gives (pointers to its variables, slices, and `eqs_array_t::null()` for new arrays), the callbacks
are the ones of C104. -/
theorem C108_library (foreign : Foreign D) (thread : ThreadId) (array input : Ptr) (dims : List Nat) (samples : List SampleMapping)
    (start stop axis₁ axis₂ : Nat) :
    RustCallbacks.origin (D := D) thread array (some ()) = rustOrigin thread array ∧
    (∀ s, (RustCallbacks.shape (D := D) thread array (some ()) (some ()) s).map
        (fun r => (r.1, r.2.1, r.2.2.map fun x => (some x.1, x.2))) = rustShape thread array s) ∧
    RustCallbacks.reshape (D := D) thread array (some dims) dims.length = rustReshape thread array dims ∧
    RustCallbacks.swapAxes (D := D) thread array axis₁ axis₂ = rustSwapAxes thread array axis₁ axis₂ ∧
    RustCallbacks.create (D := D) foreign thread array (some dims) dims.length (.holds CArrayT.null) = rustCreate thread array dims ∧
    (∀ s, (RustCallbacks.data (D := D) thread array (some ()) s).map (fun r => (r.1, r.2.1, r.2.2.map some)) =
      rustData thread array s) ∧
    RustCallbacks.copy (D := D) foreign thread array (.holds CArrayT.null) = rustCopy thread array ∧
    (array ≠ input → RustCallbacks.moveSamplesFrom (D := D) thread array input (some samples) samples.length start stop =
      rustMoveSamplesFrom thread array input samples start stop) := by
  have hslice : ∀ {α : Type} (m : List α) (s : State D), slice (some m) m.length s = some (s, .ok m) := fun m s => by
    rw [slice_some (Nat.le_refl _), List.take_length]
  have hassign : ∀ (d : D) (s : State D), assign foreign (.holds CArrayT.null) d s =
      some ((CArrayT.new d s).1, .ok (CArrayT.new d s).2) := fun d s => rfl
  have hcatch : ∀ {α : Type} (b b' : CAct (State D) α), (∀ s, b s = b' s) → catching thread b = catching thread b' :=
    fun b b' h => by rw [funext h]
  refine ⟨?_, ?_, ?_, rfl, ?_, ?_, ?_, ?_⟩
  · refine hcatch _ _ fun s => ?_
    cases array <;> rfl
  · intro s
    cases array with
    | none => rfl
    | some x =>
      simp only [RustCallbacks.shape, rustShape, catching, bind, CAct.bind, CAct.lift, checkPointer, Res.okOr, deref, pure]
      cases s.boxes x with
      | none => rfl
      | some d =>
        simp only [Option.map_some]
        cases DynArray.shape d with
        | ok l => rfl
        | error m =>
          simp only [ofMethod, catchUnwind, Res.bind]
          cases (Error.internal m).toStatus thread s.messages with
          | mk messages status => cases status <;> rfl
  · refine hcatch _ _ fun s => ?_
    cases array with
    | none => rfl
    | some x => simp only [bind, CAct.bind, CAct.lift, checkPointer, Res.okOr, hslice]
  · refine hcatch _ _ fun s => ?_
    cases array with
    | none => rfl
    | some x => simp only [bind, CAct.bind, CAct.lift, checkPointer, Res.okOr, Storage.pointer, hslice, hassign]
  · intro s
    cases array with
    | none => rfl
    | some x =>
      simp only [RustCallbacks.data, rustData, catching, bind, CAct.bind, CAct.lift, checkPointer, Res.okOr, deref, pure]
      cases s.boxes x with
      | none => rfl
      | some d =>
        simp only [Option.map_some]
        cases DynArray.data d with
        | ok l => rfl
        | error m =>
          simp only [ofMethod, catchUnwind, Res.bind]
          cases (Error.internal m).toStatus thread s.messages with
          | mk messages status => cases status <;> rfl
  · refine hcatch _ _ fun s => ?_
    cases array with
    | none => rfl
    | some x => simp only [bind, CAct.bind, CAct.lift, checkPointer, Res.okOr, Storage.pointer, hassign]
  · intro hne
    refine hcatch _ _ fun s => ?_
    cases array with
    | none => rfl
    | some x =>
      cases input with
      | none => rfl
      | some y =>
        have hxy : x ≠ y := fun h => hne (by rw [h])
        simp only [bind, CAct.bind, CAct.lift, checkPointer, Res.okOr, hslice, CAct.require, if_neg hxy, Option.map_some]

namespace Example

/-- Two arrays, and nothing else. -/
def twoArrays : State CrateArray :=
  ⟨fun i => if i = 0 then some (.ndarray ⟨[2], [1, 2]⟩) else if i = 1 then some (.empty ⟨[3, 1]⟩) else none, 2, Messages.init⟩

theorem twoArrays_memory : Memory CrateOk twoArrays := by
  refine ⟨fun a ha => ?_, fun a d h => ?_⟩
  · simp only [twoArrays] at ha ⊢
    rw [if_neg (by omega), if_neg (by omega)]
  · simp only [twoArrays] at h
    split at h
    · cases h; rfl
    · split at h
      · cases h; trivial
      · cases h

end Example

/-- A program in C gives `NULL` for a shape without dimensions: the slice in Rust starts at `NULL`. -/
theorem C108_counterexample : ¬ C108_full_statement CrateArray := by
  intro h
  let foreign : Foreign CrateArray := ⟨fun _ _ _ => none, fun _ _ _ => none, fun _ _ _ => none, fun _ _ _ _ => none,
    fun _ _ _ _ _ => none, fun _ _ _ _ => none, fun _ _ _ => none, fun _ _ _ => none, fun _ _ _ _ _ _ _ => none⟩
  obtain ⟨r, h1, -⟩ := h CrateOk C104_crate_honest foreign 0 Example.twoArrays Example.twoArrays_memory (.reshape (some 1) none 0)
    ⟨⟨.empty ⟨[3, 1]⟩, 1, rfl, rfl⟩, [], rfl, rfl⟩
  cases h1

/-- A program in C declares a variable for a copy: what was in this memory before is used as an array, and freed. The same for
`create`. -/
theorem C108_counterexample_uninitialised (foreign : Foreign CrateArray) :
    Correct Example.twoArrays (.copy (some 0) .uninitialised) ∧
    (Call.copy (some 0) .uninitialised).run foreign 0 Example.twoArrays = none ∧
    Correct Example.twoArrays (.create (some 0) (some [4]) 1 .uninitialised) ∧
    (Call.create (some 0) (some [4]) 1 .uninitialised).run foreign 0 Example.twoArrays = none :=
  ⟨⟨⟨.ndarray ⟨[2], [1, 2]⟩, 0, rfl, rfl⟩, by simp⟩, rfl,
    ⟨⟨.ndarray ⟨[2], [1, 2]⟩, 0, rfl, rfl⟩, ⟨[4], by decide, rfl⟩, by simp⟩, rfl⟩

/-- Samples moved from an array to itself: there would be a mutable and a shared reference to the same array. -/
theorem C108_same_array (foreign : Foreign D) (thread : ThreadId) (s : State D) (address : Nat) (samples : List SampleMapping)
    (start stop : Nat) :
    (Call.move (some address) (some address) (some samples) samples.length start stop).run foreign thread s = none := by
  simp [Call.run, writing, RustCallbacks.moveSamplesFrom, catching, bind, CAct.bind, CAct.lift, checkPointer, Res.okOr, slice,
    CAct.require]

/-- Non-vacuity of `C108_partial`: the array is replaced by its copy, in the same structure. -/
example (foreign : Foreign CrateArray) : ∃ r, (Call.copy (some 0) (.holds (allRust 0))).run foreign 0 Example.twoArrays = some r ∧
    r.1.boxes 0 = none ∧ r.1.boxes 2 = some (.ndarray ⟨[2], [1, 2]⟩) ∧ r.2 = (0, some (.array (allRust 2))) := by
  obtain ⟨r, h1, -, -⟩ := C108_partial CrateOk C104_crate_honest foreign 0 Example.twoArrays Example.twoArrays_memory
    (.copy (some 0) (.holds (allRust 0))) ⟨⟨.ndarray ⟨[2], [1, 2]⟩, 0, rfl, rfl⟩, by simp⟩
    ⟨_, rfl, .inr ⟨rfl, .ndarray ⟨[2], [1, 2]⟩, 0, rfl, rfl⟩⟩
  refine ⟨r, h1, ?_⟩
  cases h1
  exact ⟨rfl, rfl, rfl⟩

/-- Non-vacuity of `C108_null`: two of the pointers are `NULL`. -/
example : FirstNull "shape" (.shape (some 0) none none) :=
  ⟨[("array", true)], [("shape_count", false)], rfl, by simp⟩

end Props
end Equistore
