import Verif.Spec.PyStatus

/-! Exceptions raised in callbacks: invariants of programs with several threads. -/

namespace Equistore
open Spec PyStatus

theorem Int32.ofNat_small_eq_zero {n : Nat} (h : n ≤ 255) : Int32.ofNat n = 0 ↔ n = 0 := by
  constructor
  · intro e
    have : (Int32.ofNat n).toInt = 0 := by rw [e]; rfl
    rw [Int32.toInt_ofNat_of_lt (by omega)] at this
    omega
  · rintro rfl; rfl

theorem Int32.ofNat_small_pos {n : Nat} (h : n ≤ 255) (h0 : n ≠ 0) : 0 < Int32.ofNat n := by
  rw [Int32.lt_iff_toInt_lt, Int32.toInt_ofNat_of_lt (by omega)]
  have : (0 : Int32).toInt = 0 := rfl
  omega

namespace PyStatus

theorem State.run_cons (s : State) (i : Nat) (schedule : List Nat) :
    s.run (i :: schedule) = (s.step i).run schedule := rfl

/-- Nothing went wrong so far in the current call, or the exception which was raised is known. -/
def Local (t : Thread) : Prop :=
  match t.current with
  | none => True
  | some (call, rest, none) => ∃ done, call.callbacks = done ++ rest ∧ ∀ c ∈ done, c.body = .returns
  | some (call, _, some status) => status ≠ 0 ∧ (firstException call).isSome

/-- The condition on all calls, of threads. -/
def Calls (P : Call → Prop) (t : Thread) : Prop :=
  (∀ c ∈ t.calls, P c) ∧ ∀ call rest failed, t.current = some (call, rest, failed) → P call

theorem firstException_returns {call : Call} {done : List Callback} {c : Callback} {rest : List Callback} {e : Nat}
    (h : call.callbacks = done ++ c :: rest) (hd : ∀ c ∈ done, c.body = .returns) (hc : c.body = .raises e) :
    firstException call = some e := by
  unfold firstException
  rw [h, List.findSome?_append, List.findSome?_eq_none_iff.2 (fun x hx => by rw [hd x hx]; rfl)]
  simp [hc, exceptionOf]

theorem firstException_none {call : Call} (hd : ∀ c ∈ call.callbacks, c.body = .returns) :
    firstException call = none :=
  List.findSome?_eq_none_iff.2 (fun x hx => by rw [hd x hx]; rfl)

theorem finish_success {last : Option Nat} {call : Call} {status : Int32} :
    (finish last call status).2 = .success ↔ status = 0 := by
  unfold finish
  split
  · unfold checkStatus
    split
    · simp_all
    · split <;> simp_all
  · unfold checkPointer
    split
    · rename_i h
      simp only [bne_iff_ne] at h
      split <;> simp [h]
    · rename_i h
      simp only [bne_iff_ne, ne_eq, Decidable.not_not] at h
      simp [h]

/-- One step of a thread, without interruptions. -/
theorem Thread.step_local {last : Option Nat} {t : Thread} (h : Local t) (hn : Calls NotInterrupted t) (hs : Calls StatusOk t) :
    Local (t.step last).2.1 ∧ Calls NotInterrupted (t.step last).2.1 ∧ Calls StatusOk (t.step last).2.1 ∧
    ∀ entry, (t.step last).2.2 = some entry → FailsRight entry.1 entry.2 := by
  obtain ⟨current, calls⟩ := t
  rcases current with _ | ⟨call, rest, failed⟩
  · cases calls with
    | nil => exact ⟨h, hn, hs, by simp [Thread.step]⟩
    | cons call calls =>
      refine ⟨⟨[], rfl, by simp⟩, ⟨fun c hc => hn.1 c (List.mem_cons_of_mem _ hc), ?_⟩,
        ⟨fun c hc => hs.1 c (List.mem_cons_of_mem _ hc), ?_⟩, by simp [Thread.step]⟩
      · intro call' rest failed he
        simp only [Thread.step, Option.some.injEq, Prod.mk.injEq] at he
        rw [← he.1]; exact hn.1 _ List.mem_cons_self
      · intro call' rest failed he
        simp only [Thread.step, Option.some.injEq, Prod.mk.injEq] at he
        rw [← he.1]; exact hs.1 _ List.mem_cons_self
  · have hnc := hn.2 call rest failed rfl
    have hsc := hs.2 call rest failed rfl
    cases failed with
    | some status =>
      refine ⟨trivial, ⟨hn.1, by simp [Thread.step]⟩, ⟨hs.1, by simp [Thread.step]⟩, ?_⟩
      rintro ⟨c, o⟩ he
      simp only [Thread.step, Option.some.injEq, Prod.mk.injEq] at he
      obtain ⟨rfl, rfl⟩ := he
      obtain ⟨h1, h2⟩ := h
      unfold FailsRight
      rw [finish_success]
      constructor
      · intro he; exact (h1 he).elim
      · rintro ⟨he, -⟩; rw [he] at h2; cases h2
    | none =>
      obtain ⟨done, h1, h2⟩ := h
      cases rest with
      | nil =>
        refine ⟨trivial, ⟨hn.1, by simp [Thread.step]⟩, ⟨hs.1, by simp [Thread.step]⟩, ?_⟩
        rintro ⟨c, o⟩ he
        simp only [Thread.step, Option.some.injEq, Prod.mk.injEq] at he
        obtain ⟨rfl, rfl⟩ := he
        unfold FailsRight
        rw [finish_success, Int32.ofNat_small_eq_zero hsc]
        rw [List.append_nil] at h1
        rw [← h1] at h2
        simp [firstException_none h2]
      | cons callback rest =>
        have hcalls : ∀ P : Call → Prop, Calls P ⟨some (call, callback :: rest, none), calls⟩ →
            Calls P (Thread.step last ⟨some (call, callback :: rest, none), calls⟩).2.1 := by
          rintro P ⟨p1, p2⟩
          refine ⟨p1, ?_⟩
          intro call' rest' failed' he
          simp only [Thread.step, Option.some.injEq, Prod.mk.injEq] at he
          rw [← he.1]
          exact p2 _ _ _ rfl
        refine ⟨?_, hcalls _ hn, hcalls _ hs, by simp [Thread.step]⟩
        have hmem : callback ∈ call.callbacks := by rw [h1]; simp
        cases hb : callback.body with
        | interrupted e => exact (hnc _ hmem e hb).elim
        | returns =>
          simp only [Thread.step, hb, catchExceptions, fromC, if_true]
          refine ⟨done ++ [callback], by simp [h1], ?_⟩
          intro c hc
          rcases List.mem_append.1 hc with hc | hc
          · exact h2 c hc
          · rw [List.mem_singleton.1 hc]; exact hb
        | raises e =>
          have hf := firstException_returns h1 h2 hb
          simp only [Thread.step, hb, catchExceptions, fromC]
          rw [if_neg (by decide)]
          cases callback.onFailure with
          | report => exact ⟨by decide, by rw [hf]; rfl⟩
          | expect => exact ⟨by decide, by rw [hf]; rfl⟩

/-- What is true of all states, without interruptions. -/
structure Invariant (s : State) : Prop where
  locals : ∀ t ∈ s.threads, Local t
  notInterrupted : ∀ t ∈ s.threads, Calls NotInterrupted t
  statusOk : ∀ t ∈ s.threads, Calls StatusOk t
  log : ∀ entry ∈ s.log, FailsRight entry.1 entry.2

theorem Invariant.step {s : State} (h : Invariant s) (i : Nat) : Invariant (s.step i) := by
  unfold State.step
  cases hi : s.threads[i]? with
  | none => exact h
  | some t =>
    have hm : t ∈ s.threads := List.mem_of_getElem? hi
    obtain ⟨h1, h2, h3, h4⟩ := Thread.step_local (last := s.last) (h.locals t hm) (h.notInterrupted t hm) (h.statusOk t hm)
    simp only
    generalize t.step s.last = r at *
    obtain ⟨last, t', entry⟩ := r
    have key : ∀ P : Thread → Prop, (∀ t ∈ s.threads, P t) → P t' → ∀ u ∈ s.threads.set i t', P u := by
      intro P hp hp' u hu
      rcases List.mem_or_eq_of_mem_set hu with hu | rfl
      · exact hp u hu
      · exact hp'
    cases entry with
    | none => exact ⟨key _ h.locals h1, key _ h.notInterrupted h2, key _ h.statusOk h3, h.log⟩
    | some entry =>
      refine ⟨key _ h.locals h1, key _ h.notInterrupted h2, key _ h.statusOk h3, ?_⟩
      intro e he
      rcases List.mem_cons.1 he with rfl | he
      · exact h4 _ rfl
      · exact h.log e he

theorem Invariant.run {s : State} (h : Invariant s) (schedule : List Nat) : Invariant (s.run schedule) := by
  induction schedule generalizing s with
  | nil => exact h
  | cons i schedule ih => exact ih (h.step i)

theorem Invariant.init {programs : List (List Call)} (hn : ∀ calls ∈ programs, ∀ c ∈ calls, NotInterrupted c)
    (hs : ∀ calls ∈ programs, ∀ c ∈ calls, StatusOk c) : Invariant (State.init programs) := by
  refine ⟨?_, ?_, ?_, by simp [State.init]⟩ <;> intro t ht <;> obtain ⟨calls, hc, rfl⟩ := List.mem_map.1 ht
  · trivial
  · exact ⟨hn calls hc, by simp⟩
  · exact ⟨hs calls hc, by simp⟩

/-! ### One call at a time -/

/-- The exception which was raised in the current call. -/
def pending (t : Thread) : Option Nat :=
  match t.current with
  | some (call, _, some _) => firstException call
  | _ => none

/-- The status of the exception which was raised is -1. -/
def Reports (t : Thread) : Prop := ∀ call rest status, t.current = some (call, rest, some status) → status = -1

/-- Only one of the threads is inside of a call. -/
def Exclusive (s : State) : Prop :=
  ∀ i j : Nat, i ≠ j → ∀ t u : Thread, s.threads[i]? = some t → s.threads[j]? = some u → t.current = none ∨ u.current = none

theorem OneAtATime.head {s : State} {schedule : List Nat} (h : OneAtATime s schedule) : Exclusive s := h 0

theorem OneAtATime.tail {s : State} {i : Nat} {schedule : List Nat} (h : OneAtATime s (i :: schedule)) :
    OneAtATime (s.step i) schedule := fun n => h (n + 1)

/-- What is true of all states when there is one call at a time. -/
structure Serial (s : State) : Prop where
  invariant : Invariant s
  reported : ∀ t ∈ s.threads, Calls StatusReported t
  reports : ∀ t ∈ s.threads, Reports t
  active : ∀ t ∈ s.threads, t.current ≠ none → s.last = pending t
  idle : (∀ t ∈ s.threads, t.current = none) → s.last = none
  log : ∀ entry ∈ s.log, OutcomeRight entry.1 entry.2

theorem finish_reported {call : Call} {e : Nat} :
    (finish (some e) call (-1)).1 = none ∧ (finish (some e) call (-1)).2 = .error (statusOf call (-1)) (some e) := by
  unfold finish statusOf
  cases call.returns with
  | status => exact ⟨rfl, rfl⟩
  | pointer => exact ⟨rfl, rfl⟩

theorem finish_own {call : Call} (h : StatusOk call) :
    (finish none call (Int32.ofNat call.final)).1 = none ∧
    (if call.final = 0 then (finish none call (Int32.ofNat call.final)).2 = .success
      else (finish none call (Int32.ofNat call.final)).2 = .error (statusOf call (Int32.ofNat call.final)) none) := by
  have h0 := Int32.ofNat_small_eq_zero h
  unfold finish statusOf
  cases call.returns with
  | status =>
    simp only [checkStatus]
    by_cases hz : call.final = 0
    · rw [if_pos hz, if_pos (h0.2 hz)]; exact ⟨rfl, rfl⟩
    · rw [if_neg hz, if_neg (fun e => hz (h0.1 e)), if_pos (Int32.ofNat_small_pos h hz)]; exact ⟨rfl, rfl⟩
  | pointer =>
    simp only [checkPointer]
    by_cases hz : call.final = 0
    · rw [if_pos hz, if_neg (by simp [h0.2 hz])]; exact ⟨rfl, rfl⟩
    · rw [if_neg hz, if_pos (by simp [h0, hz])]; exact ⟨rfl, rfl⟩

/-- One step of a thread when `LAST_EXCEPTION` is the exception raised in the current call. -/
theorem Thread.step_serial {t : Thread} (h : Local t) (hn : Calls NotInterrupted t) (hs : Calls StatusOk t)
    (hr : Calls StatusReported t) (hp : Reports t) :
    Calls StatusReported (t.step (pending t)).2.1 ∧ Reports (t.step (pending t)).2.1 ∧
    (t.step (pending t)).1 = pending (t.step (pending t)).2.1 ∧
    ∀ entry, (t.step (pending t)).2.2 = some entry → OutcomeRight entry.1 entry.2 := by
  obtain ⟨current, calls⟩ := t
  rcases current with _ | ⟨call, rest, failed⟩
  · cases calls with
    | nil => exact ⟨hr, hp, rfl, by simp [Thread.step]⟩
    | cons call calls =>
      refine ⟨⟨fun c hc => hr.1 c (List.mem_cons_of_mem _ hc), ?_⟩, by simp [Reports, Thread.step], rfl, by simp [Thread.step]⟩
      intro call' rest failed he
      simp only [Thread.step, Option.some.injEq, Prod.mk.injEq] at he
      rw [← he.1]; exact hr.1 _ List.mem_cons_self
  · have hnc := hn.2 call rest failed rfl
    have hsc := hs.2 call rest failed rfl
    have hrc := hr.2 call rest failed rfl
    cases failed with
    | some status =>
      have hst : status = -1 := hp call rest status rfl
      subst hst
      obtain ⟨-, h2⟩ := h
      obtain ⟨e, he⟩ := Option.isSome_iff_exists.1 h2
      have hf := finish_reported (call := call) (e := e)
      have hpd : pending ⟨some (call, rest, some (-1)), calls⟩ = some e := he
      rw [hpd]
      refine ⟨⟨hr.1, by simp [Thread.step]⟩, by simp [Reports, Thread.step], hf.1, ?_⟩
      rintro ⟨c, o⟩ ho
      simp only [Thread.step, Option.some.injEq, Prod.mk.injEq] at ho
      obtain ⟨rfl, rfl⟩ := ho
      unfold OutcomeRight
      simp only [he]
      exact hf.2
    | none =>
      obtain ⟨done, h1, h2⟩ := h
      cases rest with
      | nil =>
        rw [List.append_nil] at h1
        rw [← h1] at h2
        have hf := finish_own hsc
        refine ⟨⟨hr.1, by simp [Thread.step]⟩, by simp [Reports, Thread.step], hf.1, ?_⟩
        rintro ⟨c, o⟩ ho
        simp only [Thread.step, Option.some.injEq, Prod.mk.injEq] at ho
        obtain ⟨rfl, rfl⟩ := ho
        unfold OutcomeRight
        simp only [firstException_none h2]
        exact hf.2
      | cons callback rest =>
        have hmem : callback ∈ call.callbacks := by rw [h1]; simp
        have hcalls : Calls StatusReported (Thread.step (pending ⟨some (call, callback :: rest, none), calls⟩)
            ⟨some (call, callback :: rest, none), calls⟩).2.1 := by
          refine ⟨hr.1, ?_⟩
          intro call' rest' failed' he
          simp only [Thread.step, Option.some.injEq, Prod.mk.injEq] at he
          rw [← he.1]
          exact hrc
        refine ⟨hcalls, ?_, ?_, by simp [Thread.step]⟩
        · cases hb : callback.body with
          | interrupted e => exact (hnc _ hmem e hb).elim
          | returns => simp [Reports, Thread.step, hb, catchExceptions, fromC]
          | raises e => simp [Reports, Thread.step, hb, catchExceptions, fromC, hrc _ hmem e hb]
        · cases hb : callback.body with
          | interrupted e => exact (hnc _ hmem e hb).elim
          | returns => simp [pending, Thread.step, hb, catchExceptions, fromC]
          | raises e =>
            simp [pending, Thread.step, hb, catchExceptions, fromC, hrc _ hmem e hb, firstException_returns h1 h2 hb]

theorem Serial.step {s : State} (h : Serial s) {i : Nat} (he : Exclusive s) (he' : Exclusive (s.step i)) :
    Serial (s.step i) := by
  have hinv := h.invariant.step i
  cases hi : s.threads[i]? with
  | none =>
    have : s.step i = s := by unfold State.step; rw [hi]
    rw [this]; exact h
  | some t =>
    have hm : t ∈ s.threads := List.mem_of_getElem? hi
    have hlt : i < s.threads.length := (List.getElem?_eq_some_iff.1 hi).1
    have hidle : t.current = none → pending t = none := by
      intro hc; unfold pending; rw [hc]
    by_cases hstart : t.current = none ∧ t.calls = []
    · have : t.step s.last = (s.last, t, none) := by
        obtain ⟨c, cs⟩ := t
        obtain ⟨rfl, rfl⟩ := hstart
        rfl
      have h' : s.step i = s := by
        unfold State.step
        rw [hi]
        simp only [this]
        have hset : s.threads.set i t = s.threads := by
          refine List.ext_getElem? fun j => ?_
          by_cases hj : i = j
          · subst hj; rw [List.getElem?_set_self hlt, hi]
          · rw [List.getElem?_set_ne hj]
        rw [hset]
      rw [h']; exact h
    -- all other threads are idle
    have hother : ∀ j, j ≠ i → ∀ u, s.threads[j]? = some u → u.current = none := by
      intro j hj u hu
      by_cases hc : t.current = none
      · have hj' : (s.step i).threads[j]? = some u := by
          unfold State.step
          rw [hi]
          simp only
          split <;> simp [List.getElem?_set_ne (Ne.symm hj), hu]
        have hcalls : t.calls ≠ [] := fun e => hstart ⟨hc, e⟩
        obtain ⟨c, cs⟩ := t
        simp only at hc hcalls
        subst hc
        obtain ⟨call, cs, rfl⟩ := List.exists_cons_of_ne_nil hcalls
        have hi' : (s.step i).threads[i]? = some ⟨some (call, call.callbacks, none), cs⟩ := by
          unfold State.step
          rw [hi]
          simp [Thread.step, hlt]
        rcases he' i j (Ne.symm hj) _ _ hi' hj' with h1 | h1
        · cases h1
        · exact h1
      · rcases he i j (Ne.symm hj) _ _ hi hu with h1 | h1
        · exact (hc h1).elim
        · exact h1
    have hlast : s.last = pending t := by
      by_cases hc : t.current = none
      · rw [hidle hc]
        refine h.idle fun u hu => ?_
        obtain ⟨j, hj⟩ := List.getElem?_of_mem hu
        by_cases hji : j = i
        · subst hji; rw [hi] at hj; rw [← Option.some.inj hj]; exact hc
        · exact hother j hji u hj
      · exact h.active t hm hc
    obtain ⟨k1, k2, k3, k4⟩ := Thread.step_serial (h.invariant.locals t hm) (h.invariant.notInterrupted t hm)
      (h.invariant.statusOk t hm) (h.reported t hm) (h.reports t hm)
    rw [← hlast] at k1 k2 k3 k4
    have key : ∀ P : Thread → Prop, (∀ t ∈ s.threads, P t) → P (t.step s.last).2.1 →
        ∀ u ∈ s.threads.set i (t.step s.last).2.1, P u := by
      intro P hp hp' u hu
      rcases List.mem_or_eq_of_mem_set hu with hu | rfl
      · exact hp u hu
      · exact hp'
    have hthreads : (s.step i).threads = s.threads.set i (t.step s.last).2.1 := by
      unfold State.step; rw [hi]; simp only; split <;> simp_all
    have hl : (s.step i).last = (t.step s.last).1 := by
      unfold State.step; rw [hi]; simp only; split <;> simp_all
    have hmem : ∀ u ∈ (s.step i).threads, u.current ≠ none → u = (t.step s.last).2.1 := by
      intro u hu hc
      obtain ⟨j, hj⟩ := List.getElem?_of_mem hu
      rw [hthreads] at hj
      by_cases hji : j = i
      · subst hji
        rw [List.getElem?_set_self hlt] at hj
        exact (Option.some.inj hj).symm
      · rw [List.getElem?_set_ne (Ne.symm hji)] at hj
        exact (hc (hother j hji u hj)).elim
    refine ⟨hinv, ?_, ?_, ?_, ?_, ?_⟩
    · rw [hthreads]; exact key _ h.reported k1
    · rw [hthreads]; exact key _ h.reports k2
    · intro u hu hc
      rw [hl, k3, hmem u hu hc]
    · intro hall
      rw [hl, k3]
      have := hall (t.step s.last).2.1 (by
        rw [hthreads]; exact List.mem_of_getElem? (List.getElem?_set_self hlt))
      unfold pending; rw [this]
    · intro e hlog
      have hor : e ∈ s.log ∨ (t.step s.last).2.2 = some e := by
        unfold State.step at hlog
        rw [hi] at hlog
        simp only at hlog
        split at hlog
        · exact .inl hlog
        · rename_i heq
          rcases List.mem_cons.1 hlog with rfl | hlog
          · right; rw [heq]
          · exact .inl hlog
      rcases hor with hor | hor
      · exact h.log e hor
      · exact k4 e hor

theorem Serial.run {s : State} (h : Serial s) {schedule : List Nat} (ho : OneAtATime s schedule) :
    Serial (s.run schedule) := by
  induction schedule generalizing s with
  | nil => exact h
  | cons i schedule ih => exact ih (h.step (OneAtATime.head ho) (OneAtATime.head (OneAtATime.tail ho))) (OneAtATime.tail ho)

theorem Serial.init {programs : List (List Call)} (hn : ∀ calls ∈ programs, ∀ c ∈ calls, NotInterrupted c)
    (hs : ∀ calls ∈ programs, ∀ c ∈ calls, StatusOk c) (hr : ∀ calls ∈ programs, ∀ c ∈ calls, StatusReported c) :
    Serial (State.init programs) := by
  refine ⟨.init hn hs, ?_, ?_, ?_, fun _ => rfl, by simp [State.init]⟩ <;> intro t ht <;>
    obtain ⟨calls, hc, rfl⟩ := List.mem_map.1 ht
  · exact ⟨hr calls hc, by simp⟩
  · simp [Reports]
  · simp

theorem State.run_length (s : State) (schedule : List Nat) : (s.run schedule).threads.length = s.threads.length := by
  induction schedule generalizing s with
  | nil => rfl
  | cons i schedule ih =>
    rw [State.run_cons, ih]
    unfold State.step
    cases s.threads[i]? with
    | none => rfl
    | some t => simp only; split <;> simp

theorem oneAtATime_single (calls : List Call) (schedule : List Nat) : OneAtATime (State.init [calls]) schedule := by
  intro n i j hij t u ht hu
  have hi := (List.getElem?_eq_some_iff.1 ht).1
  have hj := (List.getElem?_eq_some_iff.1 hu).1
  rw [State.run_length] at hi hj
  simp only [State.init, List.map_cons, List.map_nil, List.length_cons, List.length_nil] at hi hj
  omega

/-! ### Any order of the threads -/

/-- How often an exception is raised by callbacks which are still to be called. -/
def remaining (e : Nat) (t : Thread) : Nat :=
  (match t.current with
    | some (_, rest, none) => (rest.filterMap fun c => exceptionOf c.body).count e
    | _ => 0) + (t.calls.flatMap exceptions).count e

/-- Whether `LAST_EXCEPTION` is this exception. -/
def stored (e : Nat) (last : Option Nat) : Nat := last.toList.count e

/-- How often an exception is the cause of an error. -/
def reported (e : Nat) (log : List (Call × Outcome)) : Nat := (log.filterMap fun entry => causeOf entry.2).count e

theorem finish_cause (e : Nat) (last : Option Nat) (call : Call) (status : Int32) :
    (causeOf (finish last call status).2).toList.count e + stored e (finish last call status).1 ≤ stored e last := by
  unfold finish
  split
  · unfold checkStatus
    split
    · simp [causeOf, stored]
    · split <;> simp [causeOf, stored]
  · unfold checkPointer
    split
    · split <;> simp [causeOf, stored]
    · simp [causeOf, stored]

theorem Thread.step_count (e : Nat) (last : Option Nat) (t : Thread) :
    ((t.step last).2.2.elim 0 fun entry => (causeOf entry.2).toList.count e) + stored e (t.step last).1 +
      remaining e (t.step last).2.1 ≤ stored e last + remaining e t := by
  obtain ⟨current, calls⟩ := t
  rcases current with _ | ⟨call, rest, failed⟩
  · cases calls with
    | nil => simp [Thread.step]
    | cons call calls => simp [Thread.step, remaining, exceptions, List.count_append]
  · cases failed with
    | some status =>
      have := finish_cause e last call status
      simp only [Thread.step, remaining, Option.elim]
      omega
    | none =>
      cases rest with
      | nil =>
        have := finish_cause e last call (Int32.ofNat call.final)
        simp only [Thread.step, remaining, Option.elim]
        omega
      | cons callback rest =>
        have hle : ∀ failed : Option Int32,
            (match (some (call, rest, failed) : Option (Call × List Callback × Option Int32)) with
              | some (_, rest, none) => (rest.filterMap fun c => exceptionOf c.body).count e
              | _ => 0) ≤ (rest.filterMap fun c => exceptionOf c.body).count e := by
          intro failed; cases failed <;> simp
        simp only [Thread.step, remaining, Option.elim]
        have hc : ((callback :: rest).filterMap fun c => exceptionOf c.body).count e =
            (exceptionOf callback.body).toList.count e + (rest.filterMap fun c => exceptionOf c.body).count e := by
          rw [List.filterMap_cons]
          cases exceptionOf callback.body with
          | none => simp
          | some x => simp [List.count_cons]; omega
        rw [hc]
        refine Nat.le_trans (Nat.add_le_add_left (Nat.add_le_add_right (hle _) _) _) ?_
        cases callback.body with
        | returns => simp [catchExceptions, exceptionOf]; 
        | raises x => simp [catchExceptions, exceptionOf, stored]; omega
        | interrupted x => simp [catchExceptions, exceptionOf]

theorem sum_set {α : Type} (f : α → Nat) {l : List α} {i : Nat} {a b : α} (h : l[i]? = some a) :
    ((l.set i b).map f).sum + f a = (l.map f).sum + f b := by
  induction l generalizing i with
  | nil => simp at h
  | cons x l ih =>
    cases i with
    | zero =>
      simp only [List.getElem?_cons_zero, Option.some.injEq] at h
      subst h
      simp; omega
    | succ i =>
      simp only [List.getElem?_cons_succ] at h
      have := ih h
      simp only [List.set_cons_succ, List.map_cons, List.sum_cons]
      omega

theorem State.step_count (e : Nat) (s : State) (i : Nat) :
    reported e (s.step i).log + stored e (s.step i).last + ((s.step i).threads.map (remaining e)).sum ≤
      reported e s.log + stored e s.last + (s.threads.map (remaining e)).sum := by
  unfold State.step
  cases hi : s.threads[i]? with
  | none => exact Nat.le_refl _
  | some t =>
    have h := Thread.step_count e s.last t
    simp only
    generalize t.step s.last = r at *
    obtain ⟨last, t', entry⟩ := r
    have hsum := sum_set (remaining e) (b := t') hi
    cases entry with
    | none =>
      simp only [Option.elim] at h ⊢
      omega
    | some entry =>
      simp only [Option.elim] at h ⊢
      have hc : reported e (entry :: s.log) = (causeOf entry.2).toList.count e + reported e s.log := by
        unfold reported
        rw [List.filterMap_cons]
        cases causeOf entry.2 with
        | none => simp
        | some x => simp [List.count_cons]; omega
      rw [hc]
      omega

theorem State.run_count (e : Nat) (s : State) (schedule : List Nat) :
    reported e (s.run schedule).log ≤ reported e s.log + stored e s.last + (s.threads.map (remaining e)).sum := by
  induction schedule generalizing s with
  | nil => exact Nat.le_trans (Nat.le_add_right _ _) (Nat.le_add_right _ _)
  | cons i schedule ih => exact Nat.le_trans (ih (s.step i)) (State.step_count e s i)

theorem init_count (e : Nat) (programs : List (List Call)) :
    ((State.init programs).threads.map (remaining e)).sum = (programs.flatten.flatMap exceptions).count e := by
  unfold State.init
  induction programs with
  | nil => rfl
  | cons calls programs ih =>
    simp only [List.map_cons, List.sum_cons, List.flatten_cons, List.flatMap_append, List.count_append] at ih ⊢
    rw [ih]
    simp [remaining]

end PyStatus
end Equistore
