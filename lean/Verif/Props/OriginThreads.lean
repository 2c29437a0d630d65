import Verif.Lemmas.OriginThreads

/-!
# Threads can use data origins at the same time (C102)

Any number of threads register origins, ask for names, and ask arrays of the crate for their origin (which registers it
when it is used for the first time), in any schedule of the small steps of these functions.
-/

namespace Equistore
namespace OriginThreads

open Spec.OriginThreads

/-- Whatever the schedule, everything which was seen can be explained by making the calls one after the other, in an order
which agrees with the order of calls which did not overlap. -/
theorem C102_one_at_a_time {count : Nat} {s : State} {seen : List Event} (h : Exec count s seen) :
    ∃ order, Explains order seen := exec_explains h

/-- No call panics, and the lock is never poisoned. -/
theorem C102_no_panic {count : Nat} {s : State} {seen : List Event} (h : Exec count s seen) :
    NoPanic seen ∧ s.shared.mutex ≠ .poisoned := by
  refine ⟨fun t m hm => ?_, ?_⟩
  · obtain ⟨order, he⟩ := exec_explains h
    have h1 : (.panic m) ∈ repliesOf t seen := by
      simp only [repliesOf, List.mem_filterMap]
      exact ⟨_, hm, by simp⟩
    have h2 := (he.replies t).subset h1
    obtain ⟨⟨c, r⟩, h3, h4⟩ := List.mem_map.1 h2
    simp only at h4
    subst h4
    exact sequential_panics (by simp [Origins.init]) he.sequential (ofThread_mem h3)
  · obtain ⟨order, hi⟩ := exec_inv h
    exact hi.sound.mutex

/-- Two calls get the same id exactly when they asked for the same name: whichever threads made them, at whatever time,
for names registered by users and for the ones of the arrays of the crate. -/
theorem C102_same_id {count : Nat} {s : State} {seen : List Event} (h : Exec count s seen)
    {t t' : Tid} {k k' : Nat} {c c' : Call} {r r' : Reply} {name name' : String}
    (h1 : Answered seen t k c r) (h2 : Answered seen t' k' c' r')
    (hn : asks c = some name) (hn' : asks c' = some name') :
    ∃ i i', r = .id i ∧ r' = .id i' ∧ (i = i' ↔ name = name') := by
  obtain ⟨order, he⟩ := exec_explains h
  have m1 := ofThread_mem (List.mem_of_getElem? (answered_order he h1))
  have m2 := ofThread_mem (List.mem_of_getElem? (answered_order he h2))
  obtain ⟨i, rfl, hi⟩ := sequential_id he.sequential m1 hn
  obtain ⟨i', rfl, hi'⟩ := sequential_id he.sequential m2 hn'
  have hnd := (namesAfter_spec (names := Origins.init) order).2 (by simp [Origins.init])
  refine ⟨i, i', rfl, rfl, ?_⟩
  obtain ⟨b1, e1⟩ := List.getElem?_eq_some_iff.1 hi
  obtain ⟨b2, e2⟩ := List.getElem?_eq_some_iff.1 hi'
  rw [← e1, ← e2]
  exact (List.Nodup.getElem_inj_iff hnd).symm

/-- The ids of the two array types of the crate are the ones of the names `rust.ndarray` and `rust.EmptyArray`, whoever
registers these names, and they are not the same. -/
theorem C102_own_ids {count : Nat} {s : State} {seen : List Event} (h : Exec count s seen)
    {t t' : Tid} {k k' : Nat} {r r' : Reply} :
    (Answered seen t k (.own .ndarray) r → Answered seen t' k' (.own .empty) r' → r ≠ r') ∧
    (Answered seen t k (.own .ndarray) r → Answered seen t' k' (.register "rust.ndarray") r' → r = r') ∧
    (Answered seen t k (.own .empty) r → Answered seen t' k' (.register "rust.EmptyArray") r' → r = r') := by
  refine ⟨fun h1 h2 => ?_, fun h1 h2 => ?_, fun h1 h2 => ?_⟩ <;>
    obtain ⟨i, i', rfl, rfl, hi⟩ := C102_same_id h h1 h2 rfl rfl
  · intro he
    have := hi.1 (by simpa using he)
    simp [Own.name] at this
  · rw [hi.2 rfl]
  · rw [hi.2 rfl]

/-- An id given to a thread can be used in all threads at once: a call asking for its name which was made after the id was
returned gets the name. -/
theorem C102_name {count : Nat} {s : State} {before after : List Event} (h : Exec count s (before ++ after))
    {t t' : Tid} {k k' i : Nat} {c : Call} {r : Reply} {name : String}
    (h1 : Answered before t k c (.id i)) (hn : asks c = some name)
    (h2 : Answered (before ++ after) t' k' (.get i) r) (hlater : (callsOf t' before).length ≤ k') :
    r = .name name := by
  obtain ⟨order, he⟩ := exec_explains h
  obtain ⟨n, hn', hb⟩ := he.realTime before.length (by simp)
  simp only [List.take_left] at hb
  have h1' : Answered (before ++ after) t k c (.id i) := by
    refine ⟨?_, ?_⟩
    · rw [callsOf_append, List.getElem?_append_left (List.getElem?_eq_some_iff.1 h1.1).1]
      exact h1.1
    · rw [repliesOf_append, List.getElem?_append_left (List.getElem?_eq_some_iff.1 h1.2).1]
      exact h1.2
  have g1 := answered_order he h1'
  have g2 := answered_order he h2
  have hsplit : order = order.take n ++ order.drop n := (List.take_append_drop n order).symm
  have hseq := he.sequential
  rw [hsplit, sequential_append] at hseq
  rw [hsplit, ofThread_append] at g1 g2
  have b1 : k < (ofThread t (order.take n)).length :=
    Nat.lt_of_lt_of_le (List.getElem?_eq_some_iff.1 h1.2).1 (hb t).1
  have b2 : (ofThread t' (order.take n)).length ≤ k' := Nat.le_trans (hb t').2 hlater
  rw [List.getElem?_append_left b1] at g1
  rw [List.getElem?_append_right b2] at g2
  obtain ⟨i', e, hi⟩ := sequential_id hseq.1 (ofThread_mem (List.mem_of_getElem? g1)) hn
  cases e
  exact sequential_get hseq.2 (ofThread_mem (List.mem_of_getElem? g2)) hi

/-- No deadlock: as long as a call did not return, some thread can go on. -/
theorem C102_progress {count : Nat} {s : State} {seen : List Event} (h : Exec count s seen) (hq : ¬ Quiet s) :
    ∃ s', Moves s s' := by
  unfold Quiet at hq
  simp only [not_forall] at hq
  obtain ⟨p, hp, hne⟩ := hq
  obtain ⟨t, ht⟩ := List.getElem?_of_mem hp
  obtain ⟨order, hi⟩ := exec_inv h
  exact hi.progress ht hne

/-- If no new calls are made then the calls being made return after a bounded number of steps, in all schedules: this many
moves are not possible, and at the end of any longest sequence of moves no call is being made. -/
theorem C102_returns {count n : Nat} {s s' : State} {seen : List Event} (h : Exec count s seen) (hm : MovesTo n s s') :
    n ≤ count * (s.shared.names.length + count + 10) ∧ ((¬ ∃ s'', Moves s' s'') → Quiet s') := by
  obtain ⟨h1, seen', h2⟩ := MovesTo.rank h hm
  refine ⟨by have := rank_le h; omega, fun h3 => ?_⟩
  apply Classical.byContradiction
  intro hq
  exact h3 (C102_progress h2 hq)

/-! ### An example -/

namespace Example

/-- What the schedule says: a thread makes a call, does a step, or returns. -/
inductive Act where
  | call (t : Tid) (c : Call)
  | step (t : Tid)
  | ret (t : Tid)

/-- Follow a schedule. -/
def follow : List Act → State × List Event → Option (State × List Event)
  | [], x => some x
  | .call t c :: acts, (s, seen) =>
    if s.threads[t]? = some .idle then follow acts (⟨s.shared, s.threads.set t c.begin⟩, seen ++ [.call t c]) else none
  | .step t :: acts, (s, seen) => match s.step t with
    | some s' => follow acts (s', seen)
    | none => none
  | .ret t :: acts, (s, seen) => match s.threads[t]? with
    | some (.returning r) => follow acts (⟨s.shared, s.threads.set t .idle⟩, seen ++ [.ret t r])
    | _ => none

theorem follow_exec {count : Nat} {acts : List Act} {s s' : State} {seen seen' : List Event} (h : Exec count s seen)
    (hf : follow acts (s, seen) = some (s', seen')) : Exec count s' seen' := by
  induction acts generalizing s seen with
  | nil => cases hf; exact h
  | cons a acts ih =>
    cases a with
    | call t c =>
      simp only [follow] at hf
      split at hf
      · rename_i hi
        exact ih (.call c h hi) hf
      · cases hf
    | step t =>
      simp only [follow] at hf
      split at hf
      · rename_i s'' hs
        exact ih (.step h hs) hf
      · cases hf
    | ret t =>
      simp only [follow] at hf
      split at hf
      · rename_i r hr
        exact ih (.ret h hr) hf
      · cases hf

/-- Three threads: the first one asks an array for its origin, the second one registers a new name at the same time, and
the third one asks for the origin of an array while the first one is still registering it. The second thread registers its
name first, and asks for a name at the end. -/
def schedule : List Act :=
  [.call 0 (.own .ndarray), .call 1 (.register "a"), .step 0, .step 1, .call 2 (.own .ndarray), .step 1, .step 0,
   .step 1, .step 1, .step 1, .step 1, .step 1, .step 0, .step 0, .ret 1, .step 0, .step 0, .step 0, .step 0,
   .step 0, .step 2, .ret 2, .ret 0, .call 1 (.get 2), .step 1, .step 1, .step 1, .step 1, .ret 1]

/-- What is seen. -/
def seen : List Event :=
  [.call 0 (.own .ndarray), .call 1 (.register "a"), .call 2 (.own .ndarray), .ret 1 (.id 1), .ret 2 (.id 2),
   .ret 0 (.id 2), .call 1 (.get 2), .ret 1 (.name "rust.ndarray")]

/-- The states on the way. -/
def reached (n : Nat) : Option (State × List Event) := follow (schedule.take n) (State.start 3, [])

theorem exec : ∃ s, Exec 3 s seen := by
  have h : (reached 29).map (·.2) = some seen := by decide +kernel
  obtain ⟨⟨s, e⟩, h1, rfl⟩ := Option.map_eq_some_iff.1 h
  exact ⟨s, follow_exec .start h1⟩

example : ∃ order, Explains order seen := exec.elim fun _ h => C102_one_at_a_time h
example : NoPanic seen := exec.elim fun _ h => (C102_no_panic h).1

-- the first call of threads 0 and 2 gets the same id, and the one of thread 1 another one
example : Answered seen 0 0 (.own .ndarray) (.id 2) ∧ Answered seen 2 0 (.own .ndarray) (.id 2) ∧
    Answered seen 1 0 (.register "a") (.id 1) := by decide +kernel

-- the second call of thread 1 is made after the first one of thread 0 returned
example : Answered (seen.take 6) 0 0 (.own .ndarray) (.id 2) ∧ Answered seen 1 1 (.get 2) (.name "rust.ndarray") ∧
    (callsOf 1 (seen.take 6)).length ≤ 1 := by decide +kernel

/-- One thread asks arrays of both types for their origins, and then another one registers the two names itself. -/
def ownSchedule : List Act :=
  .call 0 (.own .ndarray) :: List.replicate 9 (.step 0) ++ .ret 0 :: .call 0 (.own .empty) :: List.replicate 9 (.step 0) ++
  .ret 0 :: .call 1 (.register "rust.ndarray") :: List.replicate 5 (.step 1) ++ .ret 1 ::
  .call 1 (.register "rust.EmptyArray") :: List.replicate 6 (.step 1) ++ [.ret 1]

/-- What is seen of it. -/
def ownSeen : List Event :=
  [.call 0 (.own .ndarray), .ret 0 (.id 1), .call 0 (.own .empty), .ret 0 (.id 2), .call 1 (.register "rust.ndarray"),
   .ret 1 (.id 1), .call 1 (.register "rust.EmptyArray"), .ret 1 (.id 2)]

example : ∃ s, Exec 2 s ownSeen := by
  have h : (follow ownSchedule (State.start 2, [])).map (·.2) = some ownSeen := by decide +kernel
  obtain ⟨⟨s, e⟩, h1, rfl⟩ := Option.map_eq_some_iff.1 h
  exact ⟨s, follow_exec .start h1⟩

-- the hypotheses of `C102_own_ids`
example : Answered ownSeen 0 0 (.own .ndarray) (.id 1) ∧ Answered ownSeen 0 1 (.own .empty) (.id 2) ∧
    Answered ownSeen 1 0 (.register "rust.ndarray") (.id 1) ∧
    Answered ownSeen 1 1 (.register "rust.EmptyArray") (.id 2) := by decide +kernel

-- in the middle, the third thread has to wait, while others can go on
example : ((reached 7).map fun x => (x.1.step 2 = none, (x.1.step 0).isSome, (x.1.step 1).isSome)) =
    some (True, true, true) := by
  have h : ((reached 7).map fun x => ((x.1.step 2).isNone, (x.1.step 0).isSome, (x.1.step 1).isSome)) =
    some (true, true, true) := by decide +kernel
  obtain ⟨x, h1, h2⟩ := Option.map_eq_some_iff.1 h
  simp only [Prod.mk.injEq, Option.isNone_iff_eq_none] at h2
  rw [h1, Option.map_some]
  simp [h2]

end Example

end OriginThreads
end Equistore
