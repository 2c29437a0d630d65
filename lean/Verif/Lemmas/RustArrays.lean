import Verif.Spec.RustArrays
import Verif.Lemmas.CMemory

/-!
# Arrays of Rust behind the structure of C: proofs
-/

namespace Equistore
namespace RustArrays

open Spec.RustArrays

variable {D : Type} [DynArray D]

/-- The structure made for the box at this address. -/
def ofBox (address : Nat) : CArrayT :=
  ⟨some address, some .rust, some .rust, some .rust, some .rust, some .rust, some .rust, some .rust, some .rust, some .rust⟩

theorem toList_internal_nul {message : String} (h : '\x00' ∉ message.toList) :
    (Error.internal message).display.toList.contains '\x00' = false := by
  have : (Error.internal message).display = "internal error: " ++ message := rfl
  rw [this, String.toList_append, List.contains_eq_mem]
  simp only [List.mem_append, decide_eq_false_iff_not, not_or]
  exact ⟨by decide, h⟩

/-- The status of a callback for a method. -/
def statusOf {α : Type} : Except String α → Int32
  | .ok _ => 0
  | .error _ => 255

/-- The catching of panics in a callback. -/
theorem catching_spec {α : Type} (thread : ThreadId) (body : CAct (State D) α) (s s' : State D) (e : Except String α)
    (h : body s = some (s', ofMethod e)) (hn : NoNul e) :
    catching thread body s = some ({ s' with messages := said thread s'.messages e },
      statusOf e, e.toOption) := by
  unfold catching
  rw [h]
  cases e with
  | ok a => rfl
  | error m =>
    have := toList_internal_nul (hn m rfl)
    simp only [ofMethod, catchUnwind, bind, Res.bind, Error.toStatus, this]
    rfl

/-- A function checking the status of a callback. -/
theorem checked_spec {α : Type} (name : String) (initial : α) (thread : ThreadId) (body : CAct (State D) α)
    (s s' : State D) (e : Except String α) (h : body s = some (s', ofMethod e)) (hn : NoNul e) :
    checked name initial (catching thread body) s =
      some ({ s' with messages := said thread s'.messages e }, outcome name e) := by
  unfold checked
  rw [catching_spec thread body s s' e h hn]
  cases e <;> rfl

variable (thread : ThreadId) (foreign : Foreign D)

theorem getOrigin_ofBox (s : State D) (x : Nat) (d : D) (hx : s.boxes x = some d) (hn : NoNul (DynArray.origin d)) :
    (ofBox x).getOrigin thread foreign s =
      some ({ s with messages := said thread s.messages (DynArray.origin d) }, outcome "origin" (DynArray.origin d)) := by
  apply checked_spec "origin" 0 thread _ s s _ _ hn
  simp only [bind, CAct.bind, ofBox, CAct.lift, checkPointer, Res.okOr, deref, hx, Option.map]

theorem getShape_ofBox (s : State D) (x : Nat) (d : D) (hx : s.boxes x = some d) (hn : NoNul (DynArray.shape d)) :
    (ofBox x).getShape thread foreign s =
      some ({ s with messages := said thread s.messages (DynArray.shape d) }, outcome "shape" (DynArray.shape d)) := by
  have h : checked "shape" (none, 0) (rustShape thread (some x)) s =
      some ({ s with messages := said thread s.messages (DynArray.shape d) },
        outcome "shape" ((fun l => (some l, l.length)) <$> DynArray.shape d)) := by
    have := checked_spec "shape" (none, 0) thread (do
      let address ← CAct.lift (checkPointer "array" (some x))
      let d ← deref address
      let shape ← CAct.lift (ofMethod (DynArray.shape d))
      return (some shape, shape.length)) s s ((fun l => (some l, l.length)) <$> DynArray.shape d) (by
        simp only [bind, CAct.bind, CAct.lift, checkPointer, Res.okOr, deref, hx, Option.map]
        cases DynArray.shape d <;> rfl) (by
        intro m hm
        cases he : DynArray.shape d with
        | ok a => rw [he] at hm; cases hm
        | error m' => rw [he] at hm; cases hm; exact hn m he)
    rw [rustShape, this]
    cases DynArray.shape d <;> rfl
  unfold CArrayT.getShape
  simp only [CAct.bind_apply, callback, CAct.lift, ofBox, Res.expect, h]
  cases DynArray.shape d with
  | ok l => simp [outcome, said, CAct.require, Functor.map, Except.map]
  | error m => rfl

theorem getData_ofBox (s : State D) (x : Nat) (d : D) (hx : s.boxes x = some d) (hs : NoNul (DynArray.shape d))
    (hn : NoNul (DynArray.data d))
    (hd : ∀ shape data, DynArray.shape d = .ok shape → DynArray.data d = .ok data → data.length = shapeSize shape) :
    (ofBox x).getData thread foreign s =
      match DynArray.shape d with
      | .error m => some ({ s with messages := said thread s.messages (DynArray.shape d) }, outcome "shape" (.error m))
      | .ok _ => some ({ s with messages := said thread s.messages (DynArray.data d) },
          outcome "data" (DynArray.data d)) := by
  unfold CArrayT.getData
  rw [CAct.bind_apply, getShape_ofBox thread foreign s x d hx hs]
  cases h1 : DynArray.shape d with
  | error m => rfl
  | ok shape =>
    have h : checked "data" none (rustData thread (some x)) s =
        some ({ s with messages := said thread s.messages (DynArray.data d) },
          outcome "data" (some <$> DynArray.data d)) := by
      have := checked_spec "data" none thread (do
        let address ← CAct.lift (checkPointer "array" (some x))
        let d ← deref address
        let data ← CAct.lift (ofMethod (DynArray.data d))
        return some data) s s (some <$> DynArray.data d) (by
          simp only [bind, CAct.bind, CAct.lift, checkPointer, Res.okOr, deref, hx, Option.map]
          cases DynArray.data d <;> rfl) (by
          intro m hm
          cases he : DynArray.data d with
          | ok a => rw [he] at hm; cases hm
          | error m' => rw [he] at hm; cases hm; exact hn m he)
      rw [rustData, this]
      cases DynArray.data d <;> rfl
    simp only [outcome, said]
    simp only [CAct.bind_apply, callback, CAct.lift, ofBox, Res.expect, h]
    cases h2 : DynArray.data d with
    | ok data => simp [outcome, said, CAct.require, Functor.map, Except.map, ← hd shape data h1 h2]
    | error m => rfl

/-- The array in a box was replaced. -/
def State.put (s : State D) (x : Nat) (d : D) : State D :=
  { s with boxes := fun i => if i = x then some d else s.boxes i }

theorem doReshape_ofBox (s : State D) (x : Nat) (d : D) (shape : List Nat) (hx : s.boxes x = some d)
    (hn : NoNul (DynArray.reshape d shape).2) :
    (ofBox x).doReshape thread foreign shape s =
      some ({ s.put x (DynArray.reshape d shape).1 with
          messages := said thread s.messages (DynArray.reshape d shape).2 },
        outcome "reshape" (DynArray.reshape d shape).2) := by
  apply checked_spec "reshape" () thread _ s (s.put x (DynArray.reshape d shape).1) _ _ hn
  simp only [bind, CAct.bind, ofBox, CAct.lift, checkPointer, Res.okOr, deref, hx, Option.map, store, State.put]

theorem doSwapAxes_ofBox (s : State D) (x : Nat) (d : D) (i j : Nat) (hx : s.boxes x = some d)
    (hn : NoNul (DynArray.swapAxes d i j).2) :
    (ofBox x).doSwapAxes thread foreign i j s =
      some ({ s.put x (DynArray.swapAxes d i j).1 with
          messages := said thread s.messages (DynArray.swapAxes d i j).2 },
        outcome "swap_axes" (DynArray.swapAxes d i j).2) := by
  apply checked_spec "swap_axes" () thread _ s (s.put x (DynArray.swapAxes d i j).1) _ _ hn
  simp only [bind, CAct.bind, ofBox, CAct.lift, checkPointer, Res.okOr, deref, hx, Option.map, store, State.put]

theorem doMove_ofBox (s : State D) (x y : Nat) (d source : D) (samples : List SampleMapping) (start stop : Nat)
    (hx : s.boxes x = some d) (hy : s.boxes y = some source)
    (hn : NoNul (DynArray.moveSamplesFrom d source samples start stop).2) :
    (ofBox x).doMove thread foreign (ofBox y) samples start stop s =
      some ({ s.put x (DynArray.moveSamplesFrom d source samples start stop).1 with
          messages := said thread s.messages (DynArray.moveSamplesFrom d source samples start stop).2 },
        outcome "move_samples_from" (DynArray.moveSamplesFrom d source samples start stop).2) := by
  apply checked_spec "move_samples_from" () thread _ s
    (s.put x (DynArray.moveSamplesFrom d source samples start stop).1) _ _ hn
  simp only [bind, CAct.bind, ofBox, CAct.lift, checkPointer, Res.okOr, deref, hx, hy, Option.map, store, State.put]

theorem doCreate_ofBox (s : State D) (x : Nat) (d : D) (shape : List Nat) (hx : s.boxes x = some d)
    (hn : NoNul (DynArray.create d shape)) :
    (ofBox x).doCreate thread foreign shape s =
      match DynArray.create d shape with
      | .ok made => some ((CArrayT.new made s).1, .ok (CArrayT.new made s).2)
      | .error m => some ({ s with messages := said thread s.messages (DynArray.create d shape) },
          outcome "create" (.error m)) := by
  cases he : DynArray.create d shape with
  | ok made =>
    have := checked_spec "create" CArrayT.null thread (do
      let address ← CAct.lift (checkPointer "array" (some x))
      let d ← deref address
      let new ← CAct.lift (ofMethod (DynArray.create d shape))
      fun s => let (s, a) := CArrayT.new new s; some (s, .ok a)) s (CArrayT.new made s).1 (.ok (CArrayT.new made s).2) (by
        simp only [bind, CAct.bind, CAct.lift, checkPointer, Res.okOr, deref, hx, Option.map, he, ofMethod])
        (by intro m hm; cases hm)
    exact this
  | error message =>
    have := checked_spec "create" CArrayT.null thread (do
      let address ← CAct.lift (checkPointer "array" (some x))
      let d ← deref address
      let new ← CAct.lift (ofMethod (DynArray.create d shape))
      fun s => let (s, a) := CArrayT.new new s; some (s, .ok a)) s s (.error message) (by
        simp only [bind, CAct.bind, CAct.lift, checkPointer, Res.okOr, deref, hx, Option.map, he, ofMethod])
        (by intro m hm; cases hm; exact hn _ he)
    exact this

theorem clone_ofBox (s : State D) (x : Nat) (d : D) (hx : s.boxes x = some d) (hn : NoNul (DynArray.copy d)) :
    (ofBox x).clone thread foreign s =
      match DynArray.copy d with
      | .ok made => some ((CArrayT.new made s).1, .ok (CArrayT.new made s).2)
      | .error _ => some ({ s with messages := said thread s.messages (DynArray.copy d) },
          .panic "calling eqs_array_t.copy failed") := by
  have h0 : (ofBox x).clone thread foreign s = match rustCopy thread (some x) s with
      | none => none
      | some (s, status, out) =>
        if status = successStatus then some (s, .ok (out.getD CArrayT.null))
        else some (s, .panic "calling eqs_array_t.copy failed") := rfl
  rw [h0]
  cases he : DynArray.copy d with
  | ok made =>
    have h1 : rustCopy thread (some x) s = _ :=
      catching_spec thread _ s (CArrayT.new made s).1 (.ok (CArrayT.new made s).2) (by
        simp only [bind, CAct.bind, CAct.lift, checkPointer, Res.okOr, deref, hx, Option.map, he, ofMethod])
        (by intro m hm; cases hm)
    rw [h1]
    rfl
  | error message =>
    have h1 : rustCopy thread (some x) s = _ :=
      catching_spec thread _ s s (.error message) (by
        simp only [bind, CAct.bind, CAct.lift, checkPointer, Res.okOr, deref, hx, Option.map, he, ofMethod])
        (by intro m hm; cases hm; exact hn _ he)
    rw [h1]
    rfl

theorem asArray_ofBox (own : Nat) (s : State D) (x : Nat) (d : D) (hx : s.boxes x = some d)
    (hn : NoNul (DynArray.origin d)) :
    (ofBox x).asArray thread foreign own s =
      some ({ s with messages := said thread s.messages (DynArray.origin d) },
        if isOwn own d then Res.expect (DynArray.ndarray d) "invalid array type"
        else .panic "this array was not created by rust ndarray") := by
  unfold CArrayT.asArray
  rw [CAct.bind_apply, unwrapOr, getOrigin_ofBox thread foreign s x d hx hn]
  unfold isOwn
  cases h : DynArray.origin d with
  | ok id =>
    by_cases ho : id = own <;>
      simp [outcome, said, CAct.bind_apply, CAct.lift, Res.assert, ho, ofBox, deref, hx]
  | error m =>
    by_cases ho : 0 = own <;>
      simp [outcome, said, CAct.bind_apply, CAct.lift, Res.assert, ho, ofBox, deref, hx]

theorem asArrayMut_ofBox (own : Nat) (s : State D) (x : Nat) (d : D) (f : NdArray → NdArray) (hx : s.boxes x = some d)
    (hn : NoNul (DynArray.origin d)) :
    (ofBox x).asArrayMut thread foreign own f s =
      let s := { s with messages := said thread s.messages (DynArray.origin d) }
      some (if isOwn own d then
        match DynArray.ndarray d with
        | some a => (s.put x (DynArray.ofNdarray (f a)), .ok ())
        | none => (s, .panic "invalid array type")
      else (s, .panic "this array was not created by rust ndarray")) := by
  unfold CArrayT.asArrayMut
  rw [CAct.bind_apply, asArray_ofBox thread foreign own s x d hx hn]
  by_cases h : isOwn own d = true
  · cases h1 : DynArray.ndarray d <;> simp [h, ofBox, store, State.put, Res.expect]
  · simp [h]

theorem drop_ofBox (s : State D) (x : Nat) (d : D) (hx : s.boxes x = some d) :
    (ofBox x).drop foreign s = some { s with boxes := fun i => if i = x then none else s.boxes i } := by
  simp [CArrayT.drop, ofBox, rustDestroy, hx]

/-! ### Programs -/

/-- The variables of the two programs are the same: the ones with `eqs_array_t` are at these addresses. -/
structure Same (Good : D → Prop) (m : Machine D) (v : Values D) (addresses : List (Option Nat)) : Prop where
  handles : m.handles = addresses.map (Option.map ofBox)
  arrays : v.arrays = addresses.map (fun o => o.bind m.state.boxes)
  complete : ∀ x, (m.state.boxes x).isSome ↔ some x ∈ addresses
  once : ∀ (i j x : Nat), addresses[i]? = some (some x) → addresses[j]? = some (some x) → i = j
  lt : ∀ x, some x ∈ addresses → x < m.state.next
  messages : m.state.messages = v.messages
  good : ∀ x d, m.state.boxes x = some d → Good d

variable {thread foreign}
variable {Good : D → Prop} {m : Machine D} {v : Values D} {addresses : List (Option Nat)}

theorem Same.find (h : Same Good m v addresses) {i : Nat} {d : D} (hi : v.get i = some d) :
    ∃ x, addresses[i]? = some (some x) ∧ m.state.boxes x = some d ∧ m.get i = some (ofBox x) := by
  simp only [Values.get, h.arrays, List.getElem?_map] at hi
  cases ha : addresses[i]? with
  | none => simp [ha] at hi
  | some o =>
    cases o with
    | none => simp [ha] at hi
    | some x =>
      refine ⟨x, rfl, by simpa [ha] using hi, ?_⟩
      simp [Machine.get, h.handles, List.getElem?_map, ha]

/-- Only the last errors changed. -/
theorem Same.said (h : Same Good m v addresses) (messages : Messages) :
    Same Good ⟨{ m.state with messages }, m.handles⟩ ⟨v.arrays, messages⟩ addresses :=
  ⟨h.handles, h.arrays, h.complete, h.once, h.lt, rfl, h.good⟩

/-- An array was changed. -/
theorem Same.put (h : Same Good m v addresses) {i x : Nat} {d : D} (hi : addresses[i]? = some (some x))
    (hd : Good d) (messages : Messages) :
    Same Good ⟨{ m.state.put x d with messages }, m.handles⟩ ⟨v.arrays.set i (some d), messages⟩ addresses := by
  have hmem : some x ∈ addresses := List.mem_of_getElem? hi
  refine ⟨h.handles, ?_, ?_, h.once, h.lt, rfl, ?_⟩
  · apply List.ext_getElem?
    intro j
    have hlt : i < addresses.length := (List.getElem?_eq_some_iff.1 hi).1
    simp only [List.getElem?_set, h.arrays, List.length_map, List.getElem?_map, State.put]
    by_cases hij : i = j
    · subst hij
      have hg : addresses[i] = some x := (List.getElem?_eq_some_iff.1 hi).2
      simp [hlt, hg]
    · simp only [hij, if_false]
      cases hj : addresses[j]? with
      | none => rfl
      | some o =>
        cases o with
        | none => rfl
        | some y =>
          have : y ≠ x := by
            rintro rfl
            exact hij (h.once _ _ _ hi hj)
          simp [this]
  · intro y
    show ((m.state.put x d).boxes y).isSome ↔ _
    simp only [State.put]
    split
    · rename_i hy
      subst hy
      simpa using hmem
    · exact h.complete y
  · intro y d' hy
    simp only [State.put] at hy
    split at hy
    · cases hy; exact hd
    · exact h.good y d' hy

/-- An array was made. -/
theorem Same.new (h : Same Good m v addresses) {d : D} (hd : Good d) :
    Same Good ⟨(CArrayT.new d m.state).1, m.handles ++ [some (CArrayT.new d m.state).2]⟩
      { v with arrays := v.arrays ++ [some d] } (addresses ++ [some m.state.next]) := by
  have hnone : some m.state.next ∉ addresses := fun hx => Nat.lt_irrefl _ (h.lt _ hx)
  have hne : ∀ x, some x ∈ addresses → x ≠ m.state.next := fun x hx => Nat.ne_of_lt (h.lt x hx)
  refine ⟨?_, ?_, ?_, ?_, ?_, h.messages, ?_⟩
  · simp only [h.handles, List.map_append, List.map_cons, List.map_nil]
    rfl
  · simp only [h.arrays, List.map_append, List.map_cons, List.map_nil, CArrayT.new]
    congr 1
    · apply List.map_congr_left
      intro o ho
      cases o with
      | none => rfl
      | some x => simp [hne x ho]
    · simp
  · intro x
    simp only [CArrayT.new, List.mem_append, List.mem_singleton, Option.some.injEq]
    by_cases hx : x = m.state.next
    · simp [hx]
    · simp only [hx, if_false, or_false]
      exact h.complete x
  · intro i j x hi hj
    rw [List.getElem?_append] at hi hj
    split at hi <;> split at hj
    · exact h.once i j x hi hj
    · have := List.mem_of_getElem? hi
      have h2 := List.mem_of_getElem? hj
      simp only [List.mem_singleton, Option.some.injEq] at h2
      subst h2
      exact absurd this hnone
    · have := List.mem_of_getElem? hj
      have h2 := List.mem_of_getElem? hi
      simp only [List.mem_singleton, Option.some.injEq] at h2
      subst h2
      exact absurd this hnone
    · have h1 := (List.getElem?_eq_some_iff.1 hi).1
      have h2 := (List.getElem?_eq_some_iff.1 hj).1
      simp only [List.length_singleton] at h1 h2
      omega
  · intro x hx
    simp only [List.mem_append, List.mem_singleton, Option.some.injEq] at hx
    show x < m.state.next + 1
    rcases hx with hx | hx
    · have := h.lt x hx
      omega
    · omega
  · intro x d' hx
    simp only [CArrayT.new] at hx
    split at hx
    · cases hx; exact hd
    · exact h.good x d' hx

/-- An array was dropped. -/
theorem Same.drop (h : Same Good m v addresses) {i x : Nat} (hi : addresses[i]? = some (some x)) :
    Same Good ⟨{ m.state with boxes := fun j => if j = x then none else m.state.boxes j }, m.handles.set i none⟩
      { v with arrays := v.arrays.set i none } (addresses.set i none) := by
  have hlt : i < addresses.length := (List.getElem?_eq_some_iff.1 hi).1
  have hother : ∀ j y, j ≠ i → addresses[j]? = some (some y) → y ≠ x := by
    rintro j y hj hy rfl
    exact hj (h.once _ _ _ hy hi)
  have hset : ∀ j y, (addresses.set i none)[j]? = some (some y) → j ≠ i ∧ addresses[j]? = some (some y) := by
    intro j y hj
    rw [List.getElem?_set] at hj
    by_cases hij : i = j
    · simp [hij] at hj
    · rw [if_neg hij] at hj
      exact ⟨fun e => hij e.symm, hj⟩
  have hmem : ∀ y, some y ∈ addresses.set i none ↔ some y ∈ addresses ∧ y ≠ x := by
    intro y
    constructor
    · intro hy
      obtain ⟨j, hj⟩ := List.getElem?_of_mem hy
      obtain ⟨h1, h2⟩ := hset j y hj
      exact ⟨List.mem_of_getElem? h2, hother j y h1 h2⟩
    · rintro ⟨hy, hne⟩
      obtain ⟨j, hj⟩ := List.getElem?_of_mem hy
      apply List.mem_of_getElem? (i := j)
      rw [List.getElem?_set]
      by_cases hij : i = j
      · subst hij
        rw [hi] at hj
        cases hj
        exact absurd rfl hne
      · rw [if_neg hij]
        exact hj
  refine ⟨?_, ?_, ?_, ?_, ?_, h.messages, ?_⟩
  · simp only [h.handles, List.map_set, Option.map_none]
  · apply List.ext_getElem?
    intro j
    simp only [h.arrays, List.getElem?_set, List.getElem?_map, List.length_map]
    by_cases hij : i = j
    · simp [hij]
    · simp only [hij, if_false]
      cases hj : addresses[j]? with
      | none => rfl
      | some o =>
        cases o with
        | none => rfl
        | some y => simp [hother j y (fun e => hij e.symm) hj]
  · intro y
    rw [hmem y]
    show (if y = x then none else m.state.boxes y).isSome ↔ _
    split
    · rename_i hy
      simp [hy]
    · rename_i hy
      rw [h.complete y]
      simp [hy]
  · intro a b y ha hb
    exact h.once a b y (hset a y ha).2 (hset b y hb).2
  · intro y hy
    exact h.lt y ((hmem y).1 hy).1
  · intro y d hy
    have hy : (if y = x then none else m.state.boxes y) = some d := hy
    split at hy
    · cases hy
    · exact h.good y d hy

theorem outcome_map {α β : Type} (f : α → β) (name : String) (e : Except String α) :
    f <$> outcome name e = outcome name (f <$> e) := by
  cases e <;> rfl

/-- One command. -/
theorem step_spec {own : Nat} (hh : Honest Good) (h : Same Good m v addresses) (c : Cmd D) (hc : c.Uses Good)
    {v' : Values D} {r : Res Answer} (hr : c.direct thread own v = some (v', r)) :
    ∃ m' addresses', c.run thread foreign own m = some (m', r) ∧ Same Good m' v' addresses' := by
  obtain ⟨arrays, messages⟩ := v
  obtain rfl : m.state.messages = messages := h.messages
  cases c with
  | new d =>
    cases hr
    exact ⟨_, _, rfl, h.new hc⟩
  | origin i =>
    obtain ⟨d, hd, hr⟩ := Option.map_eq_some_iff.1 hr
    obtain ⟨x, hx, hb, hg⟩ := h.find hd
    cases hr
    refine ⟨_, addresses, ?_, h.said (Spec.RustArrays.said thread m.state.messages (DynArray.origin d))⟩
    simp only [Cmd.run, hg, Option.bind_some, Machine.look,
      getOrigin_ofBox thread foreign m.state x d hb (hh.origin_nul d (h.good x d hb)), Option.map_some]
  | shape i =>
    obtain ⟨d, hd, hr⟩ := Option.map_eq_some_iff.1 hr
    obtain ⟨x, hx, hb, hg⟩ := h.find hd
    cases hr
    refine ⟨_, addresses, ?_, h.said (Spec.RustArrays.said thread m.state.messages (DynArray.shape d))⟩
    simp only [Cmd.run, hg, Option.bind_some, Machine.look,
      getShape_ofBox thread foreign m.state x d hb (hh.shape_nul d (h.good x d hb)), Option.map_some]
  | data i =>
    obtain ⟨d, hd, hr⟩ := Option.map_eq_some_iff.1 hr
    obtain ⟨x, hx, hb, hg⟩ := h.find hd
    have hgood := h.good x d hb
    have key := getData_ofBox thread foreign m.state x d hb (hh.shape_nul d hgood) (hh.data_nul d hgood)
      (fun shape data => hh.data d shape data hgood)
    simp only [Cmd.run, hg, Option.bind_some, Machine.look]
    cases hs : DynArray.shape d with
    | error e =>
      simp only [hs] at hr key
      cases hr
      refine ⟨_, addresses, ?_, h.said (Spec.RustArrays.said thread m.state.messages (.error e : Except String (List Nat)))⟩
      rw [key]
      rfl
    | ok shape =>
      simp only [hs] at hr key
      cases hr
      refine ⟨_, addresses, ?_, h.said (Spec.RustArrays.said thread m.state.messages (DynArray.data d))⟩
      rw [key]
      rfl
  | reshape i dims =>
    obtain ⟨d, hd, hr⟩ := Option.map_eq_some_iff.1 hr
    obtain ⟨x, hx, hb, hg⟩ := h.find hd
    have hgood := h.good x d hb
    cases hr
    refine ⟨_, addresses, ?_, h.put hx (hh.reshape d dims hgood)
      (Spec.RustArrays.said thread m.state.messages (DynArray.reshape d dims).2)⟩
    simp only [Cmd.run, hg, Option.bind_some, Machine.look,
      doReshape_ofBox thread foreign m.state x d dims hb (hh.reshape_nul d dims hgood), Option.map_some]
  | swapAxes i a b =>
    obtain ⟨d, hd, hr⟩ := Option.map_eq_some_iff.1 hr
    obtain ⟨x, hx, hb, hg⟩ := h.find hd
    have hgood := h.good x d hb
    cases hr
    refine ⟨_, addresses, ?_, h.put hx (hh.swap d a b hgood)
      (Spec.RustArrays.said thread m.state.messages (DynArray.swapAxes d a b).2)⟩
    simp only [Cmd.run, hg, Option.bind_some, Machine.look,
      doSwapAxes_ofBox thread foreign m.state x d a b hb (hh.swap_nul d a b hgood), Option.map_some]
  | create i dims =>
    obtain ⟨d, hd, hr⟩ := Option.map_eq_some_iff.1 hr
    obtain ⟨x, hx, hb, hg⟩ := h.find hd
    have hgood := h.good x d hb
    have key := doCreate_ofBox thread foreign m.state x d dims hb (hh.create_nul d dims hgood)
    simp only [Cmd.run, hg, Option.bind_some, Machine.make]
    cases hs : DynArray.create d dims with
    | error e =>
      simp only [hs] at hr key
      cases hr
      refine ⟨_, addresses, ?_, h.said (Spec.RustArrays.said thread m.state.messages (.error e : Except String D))⟩
      rw [key]
      rfl
    | ok made =>
      simp only [hs] at hr key
      cases hr
      refine ⟨_, _, ?_, h.new (hh.create d made dims hgood hs)⟩
      rw [key]
  | clone i =>
    obtain ⟨d, hd, hr⟩ := Option.map_eq_some_iff.1 hr
    obtain ⟨x, hx, hb, hg⟩ := h.find hd
    have hgood := h.good x d hb
    have key := clone_ofBox thread foreign m.state x d hb (hh.copy_nul d hgood)
    simp only [Cmd.run, hg, Option.bind_some, Machine.make]
    cases hs : DynArray.copy d with
    | error e =>
      simp only [hs] at hr key
      cases hr
      refine ⟨_, addresses, ?_, h.said (Spec.RustArrays.said thread m.state.messages (.error e : Except String D))⟩
      rw [key]
    | ok made =>
      simp only [hs] at hr key
      cases hr
      refine ⟨_, _, ?_, h.new (hh.copy d made hgood hs)⟩
      rw [key]
  | move output input samples start stop =>
    simp only [Cmd.direct] at hr
    by_cases hio : output = input
    · simp [hio] at hr
    · rw [if_neg hio] at hr
      cases hd : Values.get ⟨arrays, m.state.messages⟩ output with
      | none => simp [hd] at hr
      | some d =>
        cases hd' : Values.get ⟨arrays, m.state.messages⟩ input with
        | none => simp [hd, hd'] at hr
        | some source =>
          simp only [hd, hd'] at hr
          obtain ⟨x, hx, hb, hg⟩ := h.find hd
          obtain ⟨y, hy, hb', hg'⟩ := h.find hd'
          cases hr
          refine ⟨_, addresses, ?_, h.put hx
            (hh.move d source samples start stop (h.good x d hb) (h.good y source hb'))
            (Spec.RustArrays.said thread m.state.messages (DynArray.moveSamplesFrom d source samples start stop).2)⟩
          simp only [Cmd.run, if_neg hio, hg, hg', Option.bind_some, Machine.look,
            doMove_ofBox thread foreign m.state x y d source samples start stop hb hb'
              (hh.move_nul d source samples start stop (h.good x d hb) (h.good y source hb')), Option.map_some]
  | asArray i =>
    obtain ⟨d, hd, hr⟩ := Option.map_eq_some_iff.1 hr
    obtain ⟨x, hx, hb, hg⟩ := h.find hd
    cases hr
    refine ⟨_, addresses, ?_, h.said (Spec.RustArrays.said thread m.state.messages (DynArray.origin d))⟩
    simp only [Cmd.run, hg, Option.bind_some, Machine.look,
      asArray_ofBox thread foreign own m.state x d hb (hh.origin_nul d (h.good x d hb)), Option.map_some]
    by_cases ho : isOwn own d = true
    · simp only [ho, if_true]
      cases DynArray.ndarray d <;> rfl
    · simp only [ho]
      rfl
  | change i f =>
    obtain ⟨d, hd, hr⟩ := Option.map_eq_some_iff.1 hr
    obtain ⟨x, hx, hb, hg⟩ := h.find hd
    have key := asArrayMut_ofBox thread foreign own m.state x d f hb (hh.origin_nul d (h.good x d hb))
    simp only [Cmd.run, hg, Option.bind_some, Machine.look, key, Option.map_some]
    by_cases ho : isOwn own d = true
    · simp only [ho, if_true] at hr ⊢
      cases ha : DynArray.ndarray d with
      | some a =>
        simp only [ha] at hr
        cases hr
        exact ⟨_, addresses, rfl, h.put hx (hc a) (Spec.RustArrays.said thread m.state.messages (DynArray.origin d))⟩
      | none =>
        simp only [ha] at hr
        cases hr
        exact ⟨_, addresses, rfl, h.said (Spec.RustArrays.said thread m.state.messages (DynArray.origin d))⟩
    · simp only [ho] at hr ⊢
      cases hr
      exact ⟨_, addresses, rfl, h.said (Spec.RustArrays.said thread m.state.messages (DynArray.origin d))⟩
  | drop i =>
    obtain ⟨d, hd, hr⟩ := Option.map_eq_some_iff.1 hr
    obtain ⟨x, hx, hb, hg⟩ := h.find hd
    cases hr
    refine ⟨_, _, ?_, h.drop hx⟩
    simp only [Cmd.run, hg, Option.bind_some, drop_ofBox foreign m.state x d hb, Option.map_some]

/-- All commands. -/
theorem all_spec {own : Nat} (hh : Honest Good) (program : List (Cmd D)) (hc : ∀ c ∈ program, c.Uses Good) :
    ∀ {m : Machine D} {v : Values D} {addresses : List (Option Nat)}, Same Good m v addresses →
    ∀ {v' answers}, directAll thread own program v = some (v', answers) →
    ∃ m' addresses', runAll thread foreign own program m = some (m', answers) ∧ Same Good m' v' addresses' := by
  induction program with
  | nil =>
    intro m v addresses h v' answers hr
    cases hr
    exact ⟨m, addresses, rfl, h⟩
  | cons c rest ih =>
    intro m v addresses h v' answers hr
    simp only [directAll] at hr
    cases h1 : c.direct thread own v with
    | none => simp [h1] at hr
    | some p =>
      obtain ⟨v1, r⟩ := p
      simp only [h1] at hr
      obtain ⟨⟨v2, rs⟩, h2, hr⟩ := Option.map_eq_some_iff.1 hr
      cases hr
      obtain ⟨m1, a1, hm1, hs1⟩ := step_spec (foreign := foreign) hh h c (hc c (by simp)) h1
      obtain ⟨m2, a2, hm2, hs2⟩ := ih (fun c hc' => hc c (by simp [hc'])) hs1 h2
      exact ⟨m2, a2, by simp [runAll, hm1, hm2], hs2⟩

theorem same_start : Same Good (Machine.start : Machine D) Values.start [] :=
  ⟨rfl, rfl, fun x => by simp [Machine.start], fun i j x h => by simp at h, fun x h => by simp at h, rfl,
    fun x d h => by cases h⟩

end RustArrays
end Equistore
