import Verif.Props.RustCallbacks
import Verif.Spec.CRustArray

/-!
# C117: `eqs_get_rust_array`
-/

namespace Equistore
namespace Props

open RustArrays RustCallbacks
open Spec.RustArrays (NoNul said isOwn)
open Spec.RustCallbacks

variable {D : Type} [DynArray D] (thread : ThreadId) (foreign : Foreign D)

/-! ### `as_array` for all structures -/

private theorem noNul_ok {α : Type} (a : α) : NoNul (.ok a : Except String α) := by
  intro m h
  cases h

private theorem asArray_refused {own : Nat} {s s' : State D} {a : CArrayT} {f : Fn} {status : Int32} {out : Option Nat}
    (ho : a.origin = some f)
    (h1 : (match f with
      | .rust => rustOrigin thread a.ptr
      | .foreign id => foreign.origin id a.ptr) s = some (s', status, out))
    (h2 : ¬ (status = 0 ∧ out = some own)) (hown : own ≠ 0) :
    a.asArray thread foreign own s = some (s', .panic "this array was not created by rust ndarray") := by
  have h3 : unwrapOr 0 (a.getOrigin thread foreign) s = some (s', .ok (if status = 0 then out.getD 0 else 0)) := by
    have h5 : a.getOrigin thread foreign s = if status = 0 then some (s', .ok (out.getD 0))
        else some (s', .err (.external status "calling eqs_array_t.origin failed")) := by
      cases f with
      | rust =>
        have : a.getOrigin thread foreign s = checked "origin" 0 (rustOrigin thread a.ptr) s := by
          unfold CArrayT.getOrigin; rw [ho]; rfl
        rw [this, checked, show rustOrigin thread a.ptr s = _ from h1]
        rfl
      | foreign id =>
        have : a.getOrigin thread foreign s = checked "origin" 0 (foreign.origin id a.ptr) s := by
          unfold CArrayT.getOrigin; rw [ho]; rfl
        rw [this, checked, show foreign.origin id a.ptr s = _ from h1]
        rfl
    rw [unwrapOr, h5]
    by_cases hs : status = 0 <;> simp [hs]
  have h4 : (if status = 0 then out.getD 0 else 0) ≠ own := by
    split
    · next hs =>
      cases out with
      | none => exact Ne.symm hown
      | some o => exact fun h => h2 ⟨hs, congrArg some h⟩
    · exact Ne.symm hown
  unfold CArrayT.asArray
  rw [CAct.bind_apply, h3]
  simp [CAct.bind_apply, CAct.lift, Res.assert, h4]

/-- What `as_array` does: the content for arrays of `ndarray`, a panic for all others, where only functions of somebody else can
change memory. -/
private theorem asArray_cases {own : Nat} (hown : own ≠ 0) {s : State D} {a : CArrayT} (h : Truthful own foreign s a) :
    ∃ s' r, a.asArray thread foreign own s = some (s', r) ∧
      ((∃ content d, r = .ok content ∧ s' = s ∧ a.origin = some .rust ∧ At s a.ptr d ∧ DynArray.origin d = .ok own ∧
          DynArray.ndarray d = some content) ∨
        (∃ message ∈ ["eqs_array_t.origin function is NULL", "this array was not created by rust ndarray", "invalid array type"],
            r = .panic message) ∧
          (∀ d, a.origin = some .rust → At s a.ptr d → DynArray.origin d = .ok own → DynArray.ndarray d = none)) ∧
      ((∀ id, a.origin ≠ some (.foreign id)) → s'.boxes = s.boxes ∧ s'.next = s.next) := by
  unfold Truthful at h
  cases ho : a.origin with
  | none =>
    refine ⟨s, .panic "eqs_array_t.origin function is NULL", ?_, .inr ⟨⟨_, by simp, rfl⟩, by simp⟩, fun _ => ⟨rfl, rfl⟩⟩
    simp [CArrayT.asArray, CArrayT.getOrigin, ho, callback, CAct.bind_apply, CAct.lift, Res.expect, unwrapOr]
  | some f =>
    rw [ho] at h
    cases f with
    | rust =>
      simp only at h
      cases hp : a.ptr with
      | none =>
        have h1 : rustOrigin thread none s = some ({ s with messages :=
            (s.messages.set thread "invalid parameter: got invalid NULL pointer for array") }, 1, none) := rfl
        rw [← hp] at h1
        refine ⟨_, .panic "this array was not created by rust ndarray", asArray_refused thread foreign (f := .rust) ho h1
            (by simp) hown, .inr ⟨⟨_, by simp, rfl⟩, fun d _ ⟨_, hx, _⟩ => by cases hx⟩, fun _ => ⟨rfl, rfl⟩⟩
      | some x =>
        obtain h | ⟨d, ⟨y, hy, hd⟩, hn⟩ := h
        · simp [hp] at h
        · obtain rfl : x = y := by rw [hp] at hy; cases hy; rfl
          have he : a.asArray thread foreign own s = (ofBox x).asArray thread foreign own s := by
            simp [CArrayT.asArray, CArrayT.getOrigin, ho, hp, ofBox]
          rw [he, asArray_ofBox thread foreign own s x d hd hn]
          refine ⟨_, _, rfl, ?_, fun _ => ⟨rfl, rfl⟩⟩
          have hat : ∀ d', At s (some x) d' → d' = d := fun d' ⟨y, hy, hd'⟩ => by
            cases hy
            rw [hd] at hd'
            exact (Option.some.inj hd').symm
          cases hod : DynArray.origin d with
          | error m =>
            refine .inr ⟨⟨"this array was not created by rust ndarray", by simp, by simp [isOwn, hod, Ne.symm hown]⟩, fun d' _ h1 h2 => ?_⟩
            rw [hat d' h1, hod] at h2
            cases h2
          | ok id =>
            by_cases hid : id = own
            · subst hid
              cases hnd : DynArray.ndarray d with
              | none =>
                refine .inr ⟨⟨"invalid array type", by simp, by simp [isOwn, hod, Res.expect]⟩, fun d' _ h1 _ => ?_⟩
                rw [hat d' h1, hnd]
              | some content =>
                exact .inl ⟨content, d, by simp [isOwn, hod, Res.expect], rfl, rfl, ⟨x, rfl, hd⟩, hod, hnd⟩
            · refine .inr ⟨⟨"this array was not created by rust ndarray", by simp, by simp [isOwn, hod, hid]⟩, fun d' _ h1 h2 => ?_⟩
              rw [hat d' h1, hod] at h2
              exact absurd (Except.ok.inj h2) hid
    | foreign id =>
      obtain ⟨s', status, out, h1, h2⟩ := h
      refine ⟨s', .panic "this array was not created by rust ndarray", ?_, .inr ⟨⟨_, by simp, rfl⟩, by simp⟩,
        fun h => absurd rfl (h id)⟩
      exact asArray_refused thread foreign ho h1 h2 hown

/-! ### C117 -/

private theorem getRustArray_some (own : Nat) (rowMajor : Ptr → Bool) (a : CArrayT) (s : State D) :
    getRustArray thread foreign own true rowMajor (some a) (some ()) (some ()) (some ()) s =
      catching thread (do
        let content ← a.asArray thread foreign own
        CAct.lift (Res.assert (rowMajor a.ptr) "assertion failed: array.is_standard_layout()")
        return (content.elements, content.shape, content.shape.length)) s := rfl

omit [DynArray D] in
private theorem catching_panic {α : Type} {body : CAct (State D) α} {s s' : State D} {message : String}
    (h : body s = some (s', .panic message)) (hn : '\x00' ∉ message.toList) :
    catching thread body s = some ({ s' with messages := s'.messages.set thread ("internal error: " ++ message) }, 255, none) := by
  unfold catching
  rw [h]
  simp only [bind, Res.bind, catchUnwind, Error.toStatus, toList_internal_nul hn]
  rfl

/-- **C117**, arrays of `ndarray`: the pointers get the elements, the shape and the number of dimensions, the status is success, and
nothing else changes, not even the last error. -/
theorem C117_ndarray (own : Nat) (rowMajor : Ptr → Bool) (s : State D) (a : CArrayT) (content : NdArray)
    (h : IsNdarray own rowMajor s a content) :
    getRustArray thread foreign own true rowMajor (some a) (some ()) (some ()) (some ()) s =
      some (s, 0, some (content.elements, content.shape, content.shape.length)) := by
  obtain ⟨ho, ⟨d, ⟨x, hp, hd⟩, hod, hnd⟩, hr⟩ := h
  have he : a.asArray thread foreign own s = (ofBox x).asArray thread foreign own s := by
    simp [CArrayT.asArray, CArrayT.getOrigin, ho, hp, ofBox]
  have h1 : a.asArray thread foreign own s = some (s, .ok content) := by
    rw [he, asArray_ofBox thread foreign own s x d hd (by rw [hod]; exact noNul_ok _)]
    simp [isOwn, hod, hnd, Res.expect, said]
  rw [getRustArray_some]
  unfold catching
  rw [CAct.bind_apply, h1]
  simp only [CAct.bind_apply, CAct.lift, Res.assert, hr]
  rfl

/-- **C117**, all other arrays which do not pretend to be one of `ndarray` (arrays of other implementations in Rust or C, without a
function for the origin, with a function which fails, `ndarray` arrays in another order): the status is the one of internal errors,
nothing is written, and the last error of this thread says so. No array of Rust changes, unless the function for the origin of
somebody else does it. -/
theorem C117_refused (own : Nat) (hown : own ≠ 0) (rowMajor : Ptr → Bool) (s : State D) (a : CArrayT)
    (h : Truthful own foreign s a) (hn : ∀ content, ¬ IsNdarray own rowMajor s a content) :
    ∃ s', getRustArray thread foreign own true rowMajor (some a) (some ()) (some ()) (some ()) s = some (s', 255, none) ∧
      (∃ message ∈ ["eqs_array_t.origin function is NULL", "this array was not created by rust ndarray", "invalid array type",
          "assertion failed: array.is_standard_layout()"], lastError thread s'.messages = "internal error: " ++ message) ∧
      ((∀ id, a.origin ≠ some (.foreign id)) → s'.boxes = s.boxes ∧ s'.next = s.next) := by
  obtain ⟨s', r, h1, h2, h3⟩ := asArray_cases thread foreign hown h
  rw [getRustArray_some]
  rcases h2 with ⟨content, d, rfl, rfl, ho, hat, hod, hnd⟩ | ⟨⟨message, hm, rfl⟩, -⟩
  · have hr : rowMajor a.ptr = false := by
      cases hr : rowMajor a.ptr with
      | false => rfl
      | true => exact absurd ⟨ho, ⟨d, hat, hod, hnd⟩, hr⟩ (hn content)
    refine ⟨_, catching_panic thread (s' := s') (message := "assertion failed: array.is_standard_layout()") ?_ (by decide),
      ⟨"assertion failed: array.is_standard_layout()", by simp, by simp only [lastError, Messages.set, if_true]⟩, h3⟩
    simp [CAct.bind_apply, h1, CAct.lift, Res.assert, hr]
  · refine ⟨_, catching_panic thread (s' := s') (message := message) ?_ ?_,
      ⟨message, ?_, by simp only [lastError, Messages.set, if_true]⟩, h3⟩
    rotate_left
    · simp only [List.mem_cons, List.not_mem_nil, or_false] at hm
      rcases hm with rfl | rfl | rfl <;> decide
    · simp only [List.mem_cons, List.not_mem_nil, or_false] at hm ⊢
      tauto
    simp [CAct.bind_apply, h1]

/-- **C117**, in one statement: without `NULL`, the status is success exactly for the arrays of `ndarray` in row-major order. -/
theorem C117_exact (own : Nat) (hown : own ≠ 0) (rowMajor : Ptr → Bool) (s : State D) (a : CArrayT)
    (h : Truthful own foreign s a) :
    ∃ s' status out, getRustArray thread foreign own true rowMajor (some a) (some ()) (some ()) (some ()) s =
        some (s', status, out) ∧ (status = 0 ↔ ∃ content, IsNdarray own rowMajor s a content) ∧
      (status = 0 ↔ out.isSome) := by
  by_cases hn : ∃ content, IsNdarray own rowMajor s a content
  · obtain ⟨content, hc⟩ := hn
    exact ⟨s, 0, _, C117_ndarray thread foreign own rowMajor s a content hc, by simpa using ⟨content, hc⟩, by simp⟩
  · obtain ⟨s', h1, -⟩ := C117_refused thread foreign own hown rowMajor s a h (fun c hc => hn ⟨c, hc⟩)
    exact ⟨s', 255, none, h1, by simpa using fun c hc => hn ⟨c, hc⟩, by simp⟩

/-- **C117**, `NULL`: the first parameter which is `NULL` is named by the last error of this thread, with the status of invalid
parameters. The array is not used. This does not depend on how the library was compiled. -/
theorem C117_null (own : Nat) (ndarray : Bool) (rowMajor : Ptr → Bool) (s : State D) (array : Option CArrayT)
    (data shape count : Result) (name : String) (before after : List (String × Bool))
    (h : [("array", array.isSome), ("data", data.isSome), ("shape", shape.isSome), ("shape_count", count.isSome)] =
      before ++ (name, false) :: after) (hb : ∀ p ∈ before, p.2 = true) :
    getRustArray thread foreign own ndarray rowMajor array data shape count s =
      some ({ s with messages := s.messages.set thread ("invalid parameter: got invalid NULL pointer for " ++ name) }, 1, none) := by
  cases array with
  | none =>
    cases before with
    | nil => cases h; rfl
    | cons p _ =>
          obtain ⟨rfl, -⟩ := List.cons.inj h
          exact absurd (hb _ List.mem_cons_self) (by simp)
  | some a =>
    cases before with
    | nil => cases h
    | cons _ before =>
      obtain ⟨-, h⟩ := List.cons.inj h
      replace hb : ∀ p ∈ before, p.2 = true := fun p hp => hb p (List.mem_cons_of_mem _ hp)
      cases data with
      | none =>
        cases before with
        | nil => cases h; rfl
        | cons p _ =>
          obtain ⟨rfl, -⟩ := List.cons.inj h
          exact absurd (hb _ List.mem_cons_self) (by simp)
      | some _ =>
        cases before with
        | nil => cases h
        | cons _ before =>
          obtain ⟨-, h⟩ := List.cons.inj h
          replace hb : ∀ p ∈ before, p.2 = true := fun p hp => hb p (List.mem_cons_of_mem _ hp)
          cases shape with
          | none =>
            cases before with
            | nil => cases h; rfl
            | cons p _ =>
          obtain ⟨rfl, -⟩ := List.cons.inj h
          exact absurd (hb _ List.mem_cons_self) (by simp)
          | some _ =>
            cases before with
            | nil => cases h
            | cons _ before =>
              obtain ⟨-, h⟩ := List.cons.inj h
              replace hb : ∀ p ∈ before, p.2 = true := fun p hp => hb p (List.mem_cons_of_mem _ hp)
              cases count with
              | none =>
                cases before with
                | nil => cases h; rfl
                | cons p before => cases before <;> simp at h
              | some _ =>
                cases before with
                | nil => cases h
                | cons p before => cases before <;> simp at h

omit [DynArray D] in
private theorem catching_internal {α : Type} {message : String} (s : State D)
    (h : (Error.internal message).display.toList.contains '\x00' = false) :
    catching (α := α) thread (CAct.lift (.err (.internal message))) s =
      some ({ s with messages := s.messages.set thread ("internal error: " ++ message) }, 255, none) := by
  simp only [catching, CAct.lift, bind, Res.bind, catchUnwind, Error.toStatus, h]
  rfl

/-- **C117**, without `ndarray`: all arrays are refused, and are not used. -/
theorem C117_disabled (own : Nat) (rowMajor : Ptr → Bool) (s : State D) (a : CArrayT) :
    getRustArray thread foreign own false rowMajor (some a) (some ()) (some ()) (some ()) s =
      some ({ s with messages := s.messages.set thread ("internal error: " ++
        "support for rust ndarray is disabled, please recompile the code to activate it") }, 255, none) := by
  rw [← catching_internal (α := List Elt × List Nat × Nat) thread s (by decide +kernel)]
  rfl

/-- **C117**: what is given is what the functions of the array itself give, for the arrays of the crate. -/
theorem C117_same_data (foreign : Foreign CrateArray) (rowMajor : Ptr → Bool) (s : State CrateArray) (x : Nat) (content : NdArray)
    (hx : s.boxes x = some (.ndarray content)) (hok : Spec.RustArrays.CrateOk (.ndarray content)) (hr : rowMajor (some x) = true) :
    ∃ data dims, getRustArray thread foreign NdArray.originId true rowMajor (some (ofBox x)) (some ()) (some ()) (some ()) s =
        some (s, 0, some (data, dims, dims.length)) ∧
      (ofBox x).getData thread foreign s = some (s, .ok data) ∧ (ofBox x).getShape thread foreign s = some (s, .ok dims) := by
  refine ⟨content.elements, content.shape, ?_, ?_, ?_⟩
  · exact C117_ndarray thread foreign _ rowMajor s (ofBox x) content ⟨rfl, ⟨_, ⟨x, rfl, hx⟩, rfl, rfl⟩, hr⟩
  · exact getData_ofBox thread foreign s x _ hx (noNul_ok _) (noNul_ok _)
      (fun shape data => C104_crate_honest.data _ shape data hok)
  · exact getShape_ofBox thread foreign s x _ hx (noNul_ok _)

/-- Why `Truthful` is needed: a program in C can register the name `"rust.ndarray"` for its own arrays and gets the same origin (C31),
then its memory is used as an array of Rust. -/
theorem C117_pretending (own id : Nat) (rowMajor : Ptr → Bool) (s : State D) (a : CArrayT) (ho : a.origin = some (.foreign id))
    (hf : foreign.origin id a.ptr s = some (s, 0, some own)) (hp : ∀ d, ¬ At s a.ptr d) :
    getRustArray thread foreign own true rowMajor (some a) (some ()) (some ()) (some ()) s = none := by
  have h0 : a.getOrigin thread foreign s = some (s, .ok own) := by
    unfold CArrayT.getOrigin
    rw [ho]
    simp [CAct.bind_apply, callback, CAct.lift, Res.expect, checked, hf, successStatus]
  have h1 : a.asArray thread foreign own s = none := by
    unfold CArrayT.asArray
    rw [CAct.bind_apply, unwrapOr, h0]
    cases hpt : a.ptr with
    | none => simp [CAct.bind_apply, CAct.lift, Res.assert, CAct.undefined]
    | some x =>
      have : s.boxes x = none := by
        cases hx : s.boxes x with
        | none => rfl
        | some d => exact absurd ⟨x, hpt, hx⟩ (hp d)
      simp [CAct.bind_apply, CAct.lift, Res.assert, deref, this]
  rw [getRustArray_some]
  unfold catching
  simp [CAct.bind_apply, h1]

/-- Non-vacuity: an array of `ndarray`, an `EmptyArray`, the same without a function for the origin, and arrays of somebody else. -/
example : let foreign : Foreign CrateArray := { RustArraysExample.nobody CrateArray with origin := fun id _ s => some (s, 0, some id) }
    IsNdarray NdArray.originId (fun _ => true) Example.twoArrays (ofBox 0) ⟨[2], [1, 2]⟩ ∧
    (∀ a ∈ [ofBox 1, { ofBox 1 with origin := none }, { ofBox 1 with origin := some (.foreign 77) }],
      Truthful NdArray.originId foreign Example.twoArrays a ∧
        ∀ content, ¬ IsNdarray NdArray.originId (fun _ => true) Example.twoArrays a content) ∧
    foreign.origin NdArray.originId none Example.twoArrays = some (Example.twoArrays, 0, some NdArray.originId) := by
  refine ⟨⟨rfl, ⟨_, ⟨0, rfl, rfl⟩, rfl, rfl⟩, rfl⟩, fun a ha => ?_, rfl⟩
  simp only [List.mem_cons, List.not_mem_nil, or_false] at ha
  rcases ha with rfl | rfl | rfl
  · refine ⟨.inr ⟨.empty ⟨[3, 1]⟩, ⟨1, rfl, rfl⟩, noNul_ok _⟩, ?_⟩
    rintro content ⟨-, ⟨d, ⟨x, hx, hd⟩, -, hnd⟩, -⟩
    cases hx
    cases hd
    cases hnd
  · exact ⟨trivial, fun content h => by cases h.1⟩
  · exact ⟨⟨_, _, _, rfl, by decide⟩, fun content h => by cases h.1⟩

end Props
end Equistore
