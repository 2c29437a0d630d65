import Verif.Spec.PyOrigins
import Verif.Props.Origins

/-! The invariant of the origins known to Python. -/

namespace Equistore
namespace PyOrigins
open Spec

/-- The id was registered with this name. -/
def Names (registry : List String) (id : Option Nat) (name : String) : Prop :=
  ∃ i, id = some i ∧ registry[i]? = some name

/-- The origin an array of this kind has. -/
def OriginOf (registry : List String) (origin : Option Nat) : What → Prop
  | .python torch _ => Names registry origin (if torch then Kind.torch.name else Kind.numpy.name)
  | .rust _ => Names registry origin Kind.rust.name
  | .other name => Names registry origin name ∧ ∀ k : Kind, name ≠ k.name
  | .failing => Names registry origin "unregistered origin"

/-- What is known about a thread. -/
def ThreadOk (registry : List String) (global : Kind → Option Nat) : Task × Kind × Pc → Prop
  | (task, kind, pc) =>
    (match task with
      | .wrap torch _ => kind = if torch then .torch else .numpy
      | .read array numpy => OriginOf registry array.origin array.what ∧
          (kind ≠ .numpy → Names registry numpy Kind.numpy.name) ∧
          (kind = .rust → ¬ Names registry array.origin Kind.numpy.name ∧ ¬ Names registry array.origin Kind.torch.name)
      | .allocated array numpy => OriginOf registry array.origin array.what ∧ kind ≠ .rust ∧
          (kind ≠ .numpy → Names registry numpy Kind.numpy.name)) ∧
    (match pc with
      | .assign id => Names registry (some id) kind.name
      | .ret => global kind ≠ none
      | _ => True)

structure Invariant (s : Process) : Prop where
  nodup : s.registry.Nodup
  first : s.registry[0]? = some "unregistered origin"
  global : ∀ k, s.global k = none ∨ Names s.registry (s.global k) k.name
  threads : ∀ n t, s.threads n = some t → ThreadOk s.registry s.global t
  arrays : ∀ a ∈ s.arrays, OriginOf s.registry a.origin a.what
  reads : ∀ r ∈ s.reads, ReadsAs r.1.what r.2
  answers : ∀ r ∈ s.answers, r.2 = true ↔ ∃ torch object, r.1.what = .python torch object

theorem Names.inj {registry : List String} (h : registry.Nodup) {id id' : Option Nat} {name : String}
    (h1 : Names registry id name) (h2 : Names registry id' name) : id = id' := by
  obtain ⟨i, rfl, h1⟩ := h1
  obtain ⟨j, rfl, h2⟩ := h2
  obtain ⟨hi, h1⟩ := List.getElem?_eq_some_iff.1 h1
  obtain ⟨hj, h2⟩ := List.getElem?_eq_some_iff.1 h2
  rw [(List.Nodup.getElem_inj_iff h (hi := hi) (hj := hj)).1 (h1.trans h2.symm)]

theorem Names.unique {registry : List String} {id : Option Nat} {name name' : String}
    (h1 : Names registry id name) (h2 : Names registry id name') : name = name' := by
  obtain ⟨i, rfl, h1⟩ := h1
  obtain ⟨j, hj, h2⟩ := h2
  cases hj
  rw [h1] at h2
  exact Option.some.inj h2

/-- Nothing in the registry changes later. -/
def Grows (registry registry' : List String) : Prop := ∃ t, registry' = registry ++ t

theorem Names.grows {registry registry' : List String} (h : Grows registry registry') {id : Option Nat} {name : String}
    (hn : Names registry id name) : Names registry' id name := by
  obtain ⟨t, rfl⟩ := h
  obtain ⟨i, rfl, hi⟩ := hn
  refine ⟨i, rfl, ?_⟩
  rw [List.getElem?_append_left (List.getElem?_eq_some_iff.1 hi).1]
  exact hi

/-- An origin which has a name keeps not having other names. -/
theorem Names.not_grows {registry registry' : List String} (h : Grows registry registry') {id : Option Nat}
    {name name' : String} (hn : Names registry id name) (hn' : ¬ Names registry id name') :
    ¬ Names registry' id name' := fun h' => by
  have := (hn.grows h).unique h'
  subst this
  exact hn' hn

theorem OriginOf.names {registry : List String} {origin : Option Nat} {what : What} (h : OriginOf registry origin what) :
    ∃ name, Names registry origin name := by
  cases what with
  | python torch object => exact ⟨_, h⟩
  | rust array => exact ⟨_, h⟩
  | other name => exact ⟨_, h.1⟩
  | failing => exact ⟨_, h⟩

theorem OriginOf.grows {registry registry' : List String} (h : Grows registry registry') {origin : Option Nat}
    {what : What} (ho : OriginOf registry origin what) : OriginOf registry' origin what := by
  cases what with
  | python torch object => exact Names.grows h ho
  | rust array => exact Names.grows h ho
  | other name => exact ⟨ho.1.grows h, ho.2⟩
  | failing => exact Names.grows h ho

theorem ThreadOk.grows {registry registry' : List String} (h : Grows registry registry') {global global' : Kind → Option Nat}
    (hg : ∀ k, global k ≠ none → global' k ≠ none) {t : Task × Kind × Pc} (ht : ThreadOk registry global t) :
    ThreadOk registry' global' t := by
  obtain ⟨task, kind, pc⟩ := t
  obtain ⟨h1, h2⟩ := ht
  refine ⟨?_, ?_⟩
  · cases task with
    | wrap torch object => exact h1
    | read array numpy =>
      obtain ⟨h1, h3, h4⟩ := h1
      obtain ⟨name, hn⟩ := h1.names
      exact ⟨h1.grows h, fun hk => (h3 hk).grows h,
        fun hk => ⟨hn.not_grows h (h4 hk).1, hn.not_grows h (h4 hk).2⟩⟩
    | allocated array numpy => exact ⟨h1.1.grows h, h1.2.1, fun hk => (h1.2.2 hk).grows h⟩
  · cases pc with
    | check => trivial
    | call => trivial
    | assign id => exact Names.grows h h2
    | ret => exact hg _ h2

theorem register_grows (registry : List String) (name : String) :
    Grows registry (Origins.register registry name).1 ∧
    Names (Origins.register registry name).1 (some (Origins.register registry name).2) name := by
  obtain ⟨h1, h2⟩ := Origins.register_spec registry name
  exact ⟨h1, _, rfl, h2⟩

theorem Grows.refl (registry : List String) : Grows registry registry := ⟨[], by simp⟩

theorem Invariant.init : Invariant Process.init where
  nodup := by decide
  first := rfl
  global _ := .inl rfl
  threads n t h := by cases h
  arrays a h := by cases h
  reads r h := by cases h
  answers r h := by cases h

theorem Invariant.setThread {s : Process} (h : Invariant s) (thread : Nat) (t : Option (Task × Kind × Pc))
    (ht : ∀ t', t = some t' → ThreadOk s.registry s.global t') : Invariant (s.setThread thread t) where
  nodup := h.nodup
  first := h.first
  global := h.global
  threads n t' hn := by
    change (if n = thread then t else s.threads n) = some t' at hn
    split at hn
    · exact ht t' hn
    · exact h.threads n t' hn
  arrays := h.arrays
  reads := h.reads
  answers := h.answers

theorem first_grows {registry registry' : List String} (h : Grows registry registry')
    (h0 : registry[0]? = some "unregistered origin") : registry'[0]? = some "unregistered origin" := by
  obtain ⟨t, rfl⟩ := h
  rw [List.getElem?_append_left (List.getElem?_eq_some_iff.1 h0).1]
  exact h0

/-- Registering a name keeps everything. -/
theorem Invariant.register {s : Process} (h : Invariant s) (name : String) :
    Invariant { s with registry := (Origins.register s.registry name).1 } := by
  obtain ⟨h1, _⟩ := register_grows s.registry name
  exact {
    nodup := Origins.register_nodup h.nodup name
    first := first_grows h1 h.first
    global := fun k => (h.global k).imp_right (Names.grows h1)
    threads := fun n t hn => (h.threads n t hn).grows h1 fun _ hk => hk
    arrays := fun a ha => (h.arrays a ha).grows h1
    reads := h.reads
    answers := h.answers }

theorem get_of_names {registry : List String} {origin : Option Nat} {name : String} (h : Names registry origin name) :
    origin.map (Origins.get registry) = some (.ok name) := by
  obtain ⟨i, rfl, hi⟩ := h
  obtain ⟨hlt, hi'⟩ := List.getElem?_eq_some_iff.1 hi
  simp [Origins.get, hlt, Res.expect, hi']

theorem Kind.name_inj {a b : Kind} (h : a.name = b.name) : a = b := by
  revert h
  cases a <;> cases b <;> simp [Kind.name]

/-- Which origins are those of Python. -/
theorem OriginOf.python_iff {registry : List String} {origin : Option Nat} {what : What}
    (h : OriginOf registry origin what) :
    (Names registry origin Kind.numpy.name ∨ Names registry origin Kind.torch.name) ↔
      ∃ torch object, what = .python torch object := by
  constructor
  · intro hn
    cases what with
    | python torch object => exact ⟨torch, object, rfl⟩
    | rust array =>
      exfalso
      rcases hn with hn | hn
      · exact absurd (Names.unique h hn) (by simp [Kind.name])
      · exact absurd (Names.unique h hn) (by simp [Kind.name])
    | other name =>
      exfalso
      rcases hn with hn | hn
      · exact h.2 _ (h.1.unique hn)
      · exact h.2 _ (h.1.unique hn)
    | failing =>
      exfalso
      rcases hn with hn | hn
      · exact absurd (Names.unique h hn) (by simp [Kind.name])
      · exact absurd (Names.unique h hn) (by simp [Kind.name])
  · rintro ⟨torch, object, rfl⟩
    cases torch
    · exact .inl h
    · exact .inr h

theorem Invariant.resume {s : Process} (h : Invariant s) {thread : Nat} {task : Task} {kind : Kind} {value : Option Nat}
    (ht : ThreadOk s.registry s.global (task, kind, .check)) (hv : Names s.registry value kind.name) :
    Invariant (s.resume thread task kind value) := by
  have hnone : Invariant (s.setThread thread none) := h.setThread thread none fun _ h => by cases h
  cases task with
  | wrap torch object =>
    have hk : kind = if torch then .torch else .numpy := ht.1
    refine { hnone with arrays := fun a ha => ?_ }
    rcases List.mem_cons.1 ha with rfl | ha
    · change Names s.registry value _
      rw [hk] at hv
      cases torch <;> exact hv
    · exact h.arrays a ha
  | read array numpy =>
    obtain ⟨⟨h1, h2, h3⟩, _⟩ := ht
    cases kind with
    | numpy =>
      refine h.setThread thread _ fun t' e => ?_
      cases e
      exact ⟨⟨h1, fun _ => hv, fun h => by cases h⟩, trivial⟩
    | torch =>
      have hn := h2 (by simp)
      unfold Process.resume
      simp only
      split
      · rename_i hmem
        refine { hnone with reads := fun r hr => ?_ }
        rcases List.mem_cons.1 hr with rfl | hr
        · have : ∃ torch object, array.what = .python torch object := by
            rw [← h1.python_iff]
            rcases List.mem_cons.1 hmem with e | e
            · rw [e]; exact .inl hn
            · rw [List.mem_singleton.1 e]; exact .inr hv
          obtain ⟨torch, object, e⟩ := this
          change ReadsAs array.what .object
          rw [e]
          rfl
        · exact h.reads r hr
      · rename_i hmem
        refine h.setThread thread _ fun t' e => ?_
        cases e
        refine ⟨⟨h1, fun _ => hn, fun _ => ⟨fun h' => hmem ?_, fun h' => hmem ?_⟩⟩, trivial⟩
        · rw [h'.inj h.nodup hn]; exact List.mem_cons_self
        · rw [h'.inj h.nodup hv]; exact List.mem_cons_of_mem _ (List.mem_singleton.2 rfl)
    | rust =>
      obtain ⟨h4, h5⟩ := h3 rfl
      have hpy : ∀ torch object, array.what ≠ .python torch object := by
        intro torch object e
        rcases h1.python_iff.2 ⟨torch, object, e⟩ with h | h
        · exact h4 h
        · exact h5 h
      unfold Process.resume
      simp only
      split
      · rename_i he
        refine { hnone with reads := fun r hr => ?_ }
        rcases List.mem_cons.1 hr with rfl | hr
        · change ReadsAs array.what .view
          rw [he] at h1
          cases hw : array.what with
          | python torch object => exact (hpy _ _ hw).elim
          | rust a => rfl
          | other name => rw [hw] at h1; exact (h1.2 .rust (h1.1.unique hv)).elim
          | failing => rw [hw] at h1; exact absurd (Names.unique h1 hv) (by simp [Kind.name])
        · exact h.reads r hr
      · rename_i he
        refine { hnone with reads := fun r hr => ?_ }
        rcases List.mem_cons.1 hr with rfl | hr
        · simp only
          cases hw : array.what with
          | python torch object => exact (hpy _ _ hw).elim
          | rust a => rw [hw] at h1; exact (he (Names.inj h.nodup h1 hv)).elim
          | other name =>
            rw [hw] at h1
            rw [get_of_names h1.1]
            rfl
          | failing => exact ⟨_, rfl⟩
        · exact h.reads r hr
  | allocated array numpy =>
    obtain ⟨⟨h1, h2, h3⟩, _⟩ := ht
    cases kind with
    | numpy =>
      refine h.setThread thread _ fun t' e => ?_
      cases e
      exact ⟨⟨h1, by simp, fun _ => hv⟩, trivial⟩
    | rust => exact (h2 rfl).elim
    | torch =>
      have hn := h3 (by simp)
      refine { hnone with answers := fun r hr => ?_ }
      rcases List.mem_cons.1 hr with rfl | hr
      · simp only [decide_eq_true_eq]
        rw [← h1.python_iff]
        constructor
        · intro hmem
          rcases List.mem_cons.1 hmem with e | e
          · rw [e]; exact .inl hn
          · rw [List.mem_singleton.1 e]; exact .inr hv
        · rintro (h' | h')
          · rw [h'.inj h.nodup hn]; exact List.mem_cons_self
          · rw [h'.inj h.nodup hv]; exact List.mem_cons_of_mem _ (List.mem_singleton.2 rfl)
      · exact h.answers r hr

theorem Invariant.step {s : Process} (h : Invariant s) (thread : Nat) : Invariant (s.step thread) := by
  unfold Process.step
  cases ht : s.threads thread with
  | none => exact h
  | some t =>
    obtain ⟨task, kind, pc⟩ := t
    have hok := h.threads thread _ ht
    cases pc with
    | check =>
      refine h.setThread thread _ fun t' e => ?_
      cases e
      refine ⟨hok.1, ?_⟩
      split
      · rename_i hc
        split at hc <;> simp_all
      · rename_i hc
        split at hc <;> simp_all
      · trivial
    | call =>
      obtain ⟨h1, h2⟩ := register_grows s.registry kind.name
      have := (h.register kind.name).setThread thread (some (task, kind, .assign (Origins.register s.registry kind.name).2))
        fun t' e => by
          cases e
          exact ⟨(hok.grows h1 (fun _ hk => hk)).1, h2⟩
      exact this
    | assign id =>
      have hid : Names s.registry (some id) kind.name := hok.2
      have hg : ∀ k, s.global k ≠ none → (fun k => if k = kind then some id else s.global k) k ≠ none := by
        intro k hk
        simp only
        split
        · simp
        · exact hk
      have h' : Invariant { s with global := fun k => if k = kind then some id else s.global k } :=
        { h with
          global := fun k => by
            simp only
            split
            · rename_i e; subst e; exact .inr hid
            · exact h.global k
          threads := fun n t hn => (h.threads n t hn).grows (Grows.refl _) hg }
      have := h'.setThread thread (some (task, kind, .ret)) fun t' e => by
        cases e
        exact ⟨(hok.grows (Grows.refl _) hg).1, by simp⟩
      exact this
    | ret =>
      refine h.resume ⟨hok.1, trivial⟩ ?_
      rcases h.global kind with h1 | h1
      · exact (hok.2 h1).elim
      · exact h1

theorem Invariant.make {s : Process} (h : Invariant s) {what : What} {name : String}
    (hw : ∀ registry origin, Names registry origin name → OriginOf registry origin what) :
    Invariant (s.make what name) := by
  obtain ⟨h1, h2⟩ := register_grows s.registry name
  refine { h.register name with arrays := fun a ha => ?_ }
  rcases List.mem_cons.1 ha with rfl | ha
  · exact hw _ _ h2
  · exact (h.arrays a ha).grows h1

/-- What is required from an event. -/
def Allowed : Event → Prop
  | .other name => ∀ k : Kind, name ≠ k.name
  | .failing written => written = none
  | _ => True

theorem Invariant.event {s : Process} (h : Invariant s) (e : Event) (he : Allowed e) : Invariant (s.event e) := by
  cases e with
  | wrap thread torch object =>
    unfold Process.event
    simp only
    split
    · refine h.setThread thread _ fun t' e => ?_
      cases e
      exact ⟨rfl, trivial⟩
    · exact h
  | read thread array =>
    unfold Process.event
    simp only
    split
    · rename_i a h1 h2
      refine h.setThread thread _ fun t' e => ?_
      cases e
      exact ⟨⟨h.arrays _ (List.mem_of_getElem? h2), by simp, by simp⟩, trivial⟩
    · exact h
  | allocated thread array =>
    unfold Process.event
    simp only
    split
    · rename_i a h1 h2
      refine h.setThread thread _ fun t' e => ?_
      cases e
      exact ⟨⟨h.arrays _ (List.mem_of_getElem? h2), by simp, by simp⟩, trivial⟩
    · exact h
  | step thread => exact h.step thread
  | rust array => exact h.make fun _ _ h => h
  | other name => exact h.make fun _ _ h => ⟨h, he⟩
  | failing written =>
    have he : written = none := he
    subst he
    refine { h with arrays := fun a ha => ?_ }
    rcases List.mem_cons.1 ha with rfl | ha
    · exact ⟨0, rfl, h.first⟩
    · exact h.arrays a ha

theorem Invariant.run {s : Process} (h : Invariant s) (events : List Event) (he : ∀ e ∈ events, Allowed e) :
    Invariant (s.run events) := by
  induction events generalizing s with
  | nil => exact h
  | cons e events ih =>
    exact ih (h.event e (he e List.mem_cons_self)) fun e' h' => he e' (List.mem_cons_of_mem _ h')

/-! ### Threads finish what they started -/

/-- How many steps a thread has left, at most. -/
def left : Option (Task × Kind × Pc) → Nat
  | none => 0
  | some (_, kind, pc) =>
    (match kind with | .numpy => 8 | .torch => 4 | .rust => 0) +
    (match pc with | .check => 4 | .call => 3 | .assign _ => 2 | .ret => 1)

theorem left_le (t : Option (Task × Kind × Pc)) : left t ≤ 12 := by
  rcases t with _ | ⟨task, kind, pc⟩
  · simp [left]
  · cases kind <;> cases pc <;> simp [left]

theorem left_eq_zero {t : Option (Task × Kind × Pc)} (h : left t = 0) : t = none := by
  rcases t with _ | ⟨task, kind, pc⟩
  · rfl
  · cases kind <;> cases pc <;> simp [left] at h

theorem threads_resume (s : Process) (thread : Nat) (task : Task) (kind : Kind) (value : Option Nat) :
    ∃ t, left t < left (some (task, kind, .ret)) ∧
      (s.resume thread task kind value).threads = fun n => if n = thread then t else s.threads n := by
  cases task with
  | wrap torch object => exact ⟨none, by cases kind <;> simp [left], rfl⟩
  | read array numpy =>
    cases kind with
    | numpy => exact ⟨_, by simp [left], rfl⟩
    | torch =>
      unfold Process.resume
      simp only
      split
      · exact ⟨none, by simp [left], rfl⟩
      · exact ⟨_, by simp [left], rfl⟩
    | rust =>
      unfold Process.resume
      simp only
      split
      · exact ⟨none, by simp [left], rfl⟩
      · exact ⟨none, by simp [left], rfl⟩
  | allocated array numpy =>
    cases kind with
    | numpy => exact ⟨_, by simp [left], rfl⟩
    | torch => exact ⟨none, by simp [left], rfl⟩
    | rust => exact ⟨none, by simp [left], rfl⟩

theorem threads_step (s : Process) (thread : Nat) :
    ∃ t, (left t = 0 ∨ left t < left (s.threads thread)) ∧
      (s.step thread).threads = fun n => if n = thread then t else s.threads n := by
  unfold Process.step
  cases ht : s.threads thread with
  | none =>
    refine ⟨none, .inl rfl, ?_⟩
    funext n
    by_cases e : n = thread
    · subst e; simpa using ht
    · simp [e]
  | some t =>
    obtain ⟨task, kind, pc⟩ := t
    cases pc with
    | check =>
      refine ⟨_, .inr ?_, rfl⟩
      by_cases hg : s.global kind = none
      · simp [left, hg]
      · simp [left, hg]
    | call => exact ⟨_, .inr (by simp [left]), rfl⟩
    | assign id => exact ⟨_, .inr (by simp [left]), rfl⟩
    | ret =>
      obtain ⟨t, h1, h2⟩ := threads_resume s thread task kind (s.global kind)
      exact ⟨t, .inr h1, h2⟩

theorem threads_event {s : Process} {thread : Nat} {e : Event} (h : StartsNothing thread [e]) (he : e ≠ .step thread) :
    (s.event e).threads thread = s.threads thread := by
  have h := h e List.mem_cons_self
  cases e with
  | wrap t torch object =>
    unfold Process.event
    simp only
    split
    · change (if thread = t then _ else _) = _
      rw [if_neg (Ne.symm h)]
    · rfl
  | read t array =>
    unfold Process.event
    simp only
    split
    · change (if thread = t then _ else _) = _
      rw [if_neg (Ne.symm h)]
    · rfl
  | allocated t array =>
    unfold Process.event
    simp only
    split
    · change (if thread = t then _ else _) = _
      rw [if_neg (Ne.symm h)]
    · rfl
  | step t =>
    obtain ⟨t', _, h2⟩ := threads_step s t
    change (s.step t).threads thread = _
    rw [h2]
    have : thread ≠ t := fun e => he (by rw [e])
    simp [this]
  | rust array => rfl
  | other name => rfl
  | failing written => rfl

theorem threads_run {thread : Nat} (events : List Event) (h : StartsNothing thread events) (s : Process)
    (hc : left (s.threads thread) ≤ events.count (.step thread)) : (s.run events).threads thread = none := by
  induction events generalizing s with
  | nil => exact left_eq_zero (t := s.threads thread) (by simpa using hc)
  | cons e events ih =>
    have h' : StartsNothing thread events := fun e he => h e (List.mem_cons_of_mem _ he)
    refine ih h' (s.event e) ?_
    by_cases he : e = .step thread
    · subst he
      obtain ⟨t, h1, h2⟩ := threads_step s thread
      change left ((s.step thread).threads thread) ≤ _
      rw [h2]
      simp only [if_true]
      rw [List.count_cons_self] at hc
      omega
    · rw [threads_event (fun e' he' => h e' (by
        rw [List.mem_singleton.1 he']; exact List.mem_cons_self)) he]
      rwa [List.count_cons_of_ne he] at hc

end PyOrigins
end Equistore
