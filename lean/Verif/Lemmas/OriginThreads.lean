import Verif.Spec.OriginThreads
import Verif.Props.Origins

/-!
# Threads using the registry of data origins: the invariant
-/

namespace Equistore
namespace OriginThreads

open Spec.OriginThreads

/-! ### What is true of each thread -/

/-- The call leading to a goal. -/
def Goal.call : Goal → Call
  | .register name none => .register name
  | .register _ (some which) => .own which
  | .get id => .get id

/-- The call of a thread, before it has an effect. -/
def Phase.pending : Phase → Option Call
  | .cell which => some (.own which)
  | .starting goal | .initializing goal | .locking goal => some goal.call
  | .scanning name f _ | .pushing name f => some (Goal.call (.register name f))
  | .reading id => some (.get id)
  | _ => none

/-- What a call will return, after it had its effect. -/
def Phase.reply : Phase → Option Reply
  | .unlocking r _ => some r
  | .setting _ id => some (.id id)
  | .returning r => some r
  | _ => none

/-- The thread has the lock. -/
def Phase.holds : Phase → Bool
  | .scanning _ _ _ | .pushing _ _ | .reading _ | .unlocking _ _ => true
  | _ => false

/-- The thread needs the registry. -/
def Phase.needsReady : Phase → Bool
  | .locking _ | .scanning _ _ _ | .pushing _ _ | .reading _ | .unlocking _ _ | .setting _ _ => true
  | _ => false

/-- The thread runs the function making the registry. -/
def Phase.initializes : Phase → Bool
  | .initializing _ => true
  | _ => false

/-- The static variable a goal is for. -/
def Goal.forCell : Goal → Option Own
  | .register _ f => f
  | .get _ => none

/-- The static variable this thread gives a value to. -/
def Phase.forCell : Phase → Option Own
  | .starting goal | .initializing goal | .locking goal => goal.forCell
  | .scanning _ f _ | .pushing _ f | .unlocking _ f => f
  | .setting which _ => some which
  | _ => none

/-- The name registered for a static variable is the right one. -/
def Goal.Right : Goal → Prop
  | .register name (some which) => name = which.name
  | _ => True

/-- What a thread knows. -/
def Phase.Knows (names : List String) : Phase → Prop
  | .starting goal | .initializing goal | .locking goal => goal.Right
  | .scanning name f i => Goal.Right (.register name f) ∧ i ≤ names.length ∧ ∀ j < i, names[j]? ≠ some name
  | .pushing name f => Goal.Right (.register name f) ∧ name ∉ names
  | .unlocking r f => ∀ which, f = some which → ∃ id, r = .id id ∧ names[id]? = some which.name
  | .setting which id => names[id]? = some which.name
  | _ => True

/-- The static variables and a thread fit together. -/
structure Fits (t : Tid) (p : Phase) (s : Shared) : Prop where
  knows : p.Knows s.names
  holds : p.holds = true ↔ s.mutex = .held t
  ready : p.needsReady = true → s.registry = .ready ()
  initializes : p.initializes = true ↔ s.registry = .busy t
  forCell : ∀ which, p.forCell = some which ↔ s.cell which = .busy t

/-- The names in the registry, also before it is made. -/
def Shared.registered (s : Shared) : List String :=
  match s.registry with
  | .ready _ => s.names
  | _ => Origins.init

/-- What is true of the static variables. -/
structure Sound (count : Nat) (s : Shared) : Prop where
  mutex : s.mutex ≠ .poisoned
  mutexHeld : ∀ t, s.mutex = .held t → t < count
  registryBusy : ∀ t, s.registry = .busy t → t < count
  cellBusy : ∀ which t, s.cell which = .busy t → t < count
  cellReady : ∀ which id, s.cell which = .ready id → s.registry = .ready () ∧ s.names[id]? = some which.name
  nodup : s.registered.Nodup
  nonempty : s.registered ≠ []

/-- A step has no effect which could be seen, or it is the effect of the whole call. -/
def Effect (names : List String) (p : Phase) (names' : List String) (p' : Phase) : Option (Call × Reply) → Prop
  | none => names' = names ∧ p'.pending = p.pending ∧ p'.reply = p.reply
  | some (c, r) => p.pending = some c ∧ p.reply = none ∧ p'.pending = none ∧ p'.reply = some r ∧
    alone names c = (names', r)

theorem register_found {names : List String} {name : String} {i : Nat} (hn : names.Nodup) (h : names[i]? = some name) :
    Origins.register names name = (names, i) := by
  unfold Origins.register
  obtain ⟨hi, he⟩ := List.getElem?_eq_some_iff.1 h
  have : names.findIdx? (· == name) = some i := by
    rw [List.findIdx?_eq_some_iff_getElem]
    refine ⟨hi, by simp [he], fun j hj => ?_⟩
    simp only [beq_iff_eq]
    intro hj'
    have := (List.Nodup.getElem_inj_iff hn (hi := Nat.lt_trans hj hi) (hj := hi)).1 (hj'.trans he.symm)
    omega
  rw [this]

theorem register_new {names : List String} {name : String} (h : name ∉ names) :
    Origins.register names name = (names ++ [name], (names ++ [name]).length - 1) := by
  unfold Origins.register
  have : names.findIdx? (· == name) = none := by
    rw [List.findIdx?_eq_none_iff]
    intro x hx
    simp only [beq_eq_false_iff_ne, ne_eq]
    rintro rfl
    exact h hx
  rw [this]

theorem cell_setCell (s : Shared) (which which' : Own) (v : LazyState Nat) :
    (s.setCell which v).cell which' = if which' = which then v else s.cell which' := by
  cases which <;> cases which' <;> rfl

theorem setCell_rest (s : Shared) (which : Own) (v : LazyState Nat) :
    (s.setCell which v).registry = s.registry ∧ (s.setCell which v).names = s.names ∧ (s.setCell which v).mutex = s.mutex := by
  cases which <;> exact ⟨rfl, rfl, rfl⟩

theorem Goal.alone_call {names names' : List String} {name : String} {f : Option Own} {id : Nat}
    (hr : Goal.Right (.register name f)) (h : Origins.register names name = (names', id)) :
    alone names (Goal.call (.register name f)) = (names', .id id) := by
  cases f with
  | none => simp [Goal.call, alone, h]
  | some which =>
    have hr : name = which.name := hr
    subst hr
    simp [Goal.call, alone, h]

theorem registered_ready {s : Shared} (h : s.registry = .ready ()) : s.registered = s.names := by
  simp [Shared.registered, h]

theorem registered_congr {s s' : Shared} (h : s'.registry = s.registry) (h' : s'.names = s.names) :
    s'.registered = s.registered := by
  simp [Shared.registered, h, h']

/-- Giving another value to one of the static variables. -/
theorem Fits.setCell {t : Tid} {p : Phase} {s : Shared} {which : Own} {v : LazyState Nat} (h : Fits t p s)
    (hv : v ≠ .busy t) (hc : s.cell which ≠ .busy t) : Fits t p (s.setCell which v) := by
  obtain ⟨h1, h2, h3⟩ := setCell_rest s which v
  refine ⟨by rw [h2]; exact h.knows, by rw [h3]; exact h.holds, by rw [h1]; exact h.ready, by rw [h1]; exact h.initializes,
    fun w => ?_⟩
  rw [cell_setCell, h.forCell w]
  by_cases hw : w = which
  · simp [hw, hv, hc]
  · simp [hw]

/-- What one step of a thread does. -/
theorem step_fits {count : Nat} {t : Tid} {s s' : Shared} {p p' : Phase} (ht : t < count) (hs : Sound count s)
    (hf : Fits t p s) (h : step t s p = some (s', p')) :
    Sound count s' ∧ Fits t p' s' ∧ (∀ t' q, t' ≠ t → Fits t' q s → Fits t' q s') ∧
      ∃ e, Effect s.registered p s'.registered p' e := by
  cases p with
  | idle => simp [step] at h
  | returning r => simp [step] at h
  | cell which =>
    simp only [step] at h
    cases hc : s.cell which with
    | busy t' => simp [hc] at h
    | ready id =>
      simp only [hc, Option.some.injEq, Prod.mk.injEq] at h
      obtain ⟨rfl, rfl⟩ := h
      obtain ⟨h1, h2⟩ := hs.cellReady which id hc
      refine ⟨hs, ⟨trivial, hf.holds, fun h => (by cases h), hf.initializes, hf.forCell⟩, fun _ _ _ h => h,
        some (.own which, .id id), rfl, rfl, rfl, rfl, ?_⟩
      rw [registered_ready h1]
      have := register_found (registered_ready h1 ▸ hs.nodup) h2
      simp [alone, this]
    | empty =>
      simp only [hc, Option.some.injEq, Prod.mk.injEq] at h
      obtain ⟨rfl, rfl⟩ := h
      obtain ⟨h1, h2, h3⟩ := setCell_rest s which (.busy t)
      have hreg := registered_congr h1 h2
      refine ⟨⟨by rw [h3]; exact hs.mutex, by rw [h3]; exact hs.mutexHeld, by rw [h1]; exact hs.registryBusy, ?_, ?_,
        by rw [hreg]; exact hs.nodup, by rw [hreg]; exact hs.nonempty⟩,
        ⟨rfl, by rw [h3]; exact hf.holds, fun h => (by cases h), by rw [h1]; exact hf.initializes, fun w => ?_⟩,
        fun t' q htt hq => hq.setCell (by simpa using fun h => htt h.symm) (by simp [hc]), none, hreg, rfl, rfl⟩
      · intro w t'
        rw [cell_setCell]
        split
        · intro he; cases he; exact ht
        · exact hs.cellBusy w t'
      · intro w id
        rw [cell_setCell, h1, h2]
        split
        · intro he; cases he
        · exact hs.cellReady w id
      · rw [cell_setCell]
        by_cases hw : w = which
        · simp [hw, Phase.forCell, Goal.forCell]
        · have := hf.forCell w
          simp only [Phase.forCell, reduceCtorEq, false_iff] at this
          simp only [hw, if_false, this, iff_false, Phase.forCell, Goal.forCell]
          exact fun he => hw (Option.some.inj he).symm
  | starting goal =>
    simp only [step] at h
    cases hr : s.registry with
    | busy t' => simp [hr] at h
    | ready u =>
      simp only [hr, Option.some.injEq, Prod.mk.injEq] at h
      obtain ⟨rfl, rfl⟩ := h
      exact ⟨hs, ⟨hf.knows, hf.holds, fun _ => hr, hf.initializes, hf.forCell⟩, fun _ _ _ h => h, none, rfl, rfl, rfl⟩
    | empty =>
      simp only [hr, Option.some.injEq, Prod.mk.injEq] at h
      obtain ⟨rfl, rfl⟩ := h
      have hreg : Shared.registered { s with registry := .busy t } = s.registered := by simp [Shared.registered, hr]
      refine ⟨⟨hs.mutex, hs.mutexHeld, ?_, hs.cellBusy, ?_, by rw [hreg]; exact hs.nodup, by rw [hreg]; exact hs.nonempty⟩,
        ⟨hf.knows, hf.holds, fun h => (by cases h), by simp [Phase.initializes], hf.forCell⟩, fun t' q htt hq => ?_, none, hreg, rfl, rfl⟩
      · intro t' he; cases he; exact ht
      · intro w id hc
        have := (hs.cellReady w id hc).1
        rw [hr] at this
        cases this
      · refine ⟨hq.knows, hq.holds, fun h => ?_, ?_, hq.forCell⟩
        · have := hq.ready h
          rw [hr] at this
          cases this
        · have := hq.initializes
          rw [hr] at this
          rw [this]
          simpa using fun h => htt h.symm
  | initializing goal =>
    simp only [step, Option.some.injEq, Prod.mk.injEq] at h
    obtain ⟨rfl, rfl⟩ := h
    have hr : s.registry = .busy t := hf.initializes.1 rfl
    have hreg : s.registered = Origins.init := by simp [Shared.registered, hr]
    refine ⟨⟨hs.mutex, hs.mutexHeld, fun _ he => (by cases he), hs.cellBusy, ?_, by simp [Shared.registered, Origins.init], by simp [Shared.registered, Origins.init]⟩,
      ⟨hf.knows, hf.holds, fun _ => rfl, by simp [Phase.initializes], hf.forCell⟩, fun t' q htt hq => ?_, none, by rw [hreg]; rfl, rfl, rfl⟩
    · intro w id hc
      have := (hs.cellReady w id hc).1
      rw [hr] at this
      cases this
    · have hnr : q.needsReady = false := by
        by_contra hne
        have := hq.ready (by simpa using hne)
        rw [hr] at this
        cases this
      have hni : q.initializes = false := by
        by_contra hne
        have := hq.initializes.1 (by simpa using hne)
        rw [hr] at this
        cases this
        exact htt rfl
      refine ⟨?_, hq.holds, fun _ => rfl, by simp [hni], hq.forCell⟩
      have hk := hq.knows
      cases q <;> simp_all [Phase.needsReady, Phase.Knows]
  | locking goal =>
    have hr : s.registry = .ready () := hf.ready rfl
    simp only [step] at h
    cases hm : s.mutex with
    | held t' => simp [hm] at h
    | poisoned => exact absurd hm hs.mutex
    | free =>
      simp only [hm, Option.some.injEq, Prod.mk.injEq] at h
      obtain ⟨rfl, rfl⟩ := h
      refine ⟨⟨by simp, fun t' he => (by cases he; exact ht), hs.registryBusy, hs.cellBusy, hs.cellReady, hs.nodup, hs.nonempty⟩, ?_,
        fun t' q htt hq => ⟨hq.knows, ?_, hq.ready, hq.initializes, hq.forCell⟩, none, ?_⟩
      · cases goal with
        | register name f =>
          exact ⟨⟨hf.knows, Nat.zero_le _, fun j hj => absurd hj (Nat.not_lt_zero _)⟩, by simp [Phase.holds], fun _ => hr, hf.initializes, hf.forCell⟩
        | get id => exact ⟨trivial, by simp [Phase.holds], fun _ => hr, hf.initializes, hf.forCell⟩
      · have := hq.holds
        rw [hm] at this
        rw [this]
        simpa using fun h => htt h.symm
      · cases goal <;> exact ⟨rfl, rfl, rfl⟩
  | scanning name f i =>
    have hr : s.registry = .ready () := hf.ready rfl
    have hreg := registered_ready hr
    obtain ⟨hk1, hk2, hk3⟩ := hf.knows
    simp only [step] at h
    cases hi : s.names[i]? with
    | none =>
      simp only [hi, Option.some.injEq, Prod.mk.injEq] at h
      obtain ⟨rfl, rfl⟩ := h
      refine ⟨hs, ⟨⟨hk1, ?_⟩, hf.holds, hf.ready, hf.initializes, hf.forCell⟩, fun _ _ _ h => h, none, rfl, rfl, rfl⟩
      intro hmem
      obtain ⟨j, hj, he⟩ := List.getElem_of_mem hmem
      have : s.names.length ≤ i := by simpa using hi
      exact hk3 j (by omega) (by rw [List.getElem?_eq_getElem hj, he])
    | some x =>
      simp only [hi, Option.some.injEq, Prod.mk.injEq] at h
      obtain ⟨rfl, rfl⟩ := h
      have hlt := (List.getElem?_eq_some_iff.1 hi).1
      by_cases hx : x = name
      · subst hx
        simp only [if_true]
        refine ⟨hs, ⟨?_, hf.holds, hf.ready, hf.initializes, hf.forCell⟩, fun _ _ _ h => h,
          some (Goal.call (.register x f), .id i), rfl, rfl, rfl, rfl, ?_⟩
        · rintro w rfl
          have : x = w.name := hk1
          exact ⟨i, rfl, this ▸ hi⟩
        · rw [hreg]
          exact Goal.alone_call hk1 (register_found (hreg ▸ hs.nodup) hi)
      · simp only [hx, if_false]
        refine ⟨hs, ⟨⟨hk1, hlt, fun j hj => ?_⟩, hf.holds, hf.ready, hf.initializes, hf.forCell⟩, fun _ _ _ h => h, none, rfl, rfl, rfl⟩
        by_cases hji : j = i
        · subst hji
          rw [hi]
          simpa using hx
        · exact hk3 j (by omega)
  | pushing name f =>
    have hr : s.registry = .ready () := hf.ready rfl
    have hreg := registered_ready hr
    obtain ⟨hk1, hk2⟩ := hf.knows
    simp only [step, Option.some.injEq, Prod.mk.injEq] at h
    obtain ⟨rfl, rfl⟩ := h
    have hreg' : Shared.registered { s with names := s.names ++ [name] } = s.names ++ [name] := registered_ready hr
    have hget : ∀ {i : Nat} {x : String}, s.names[i]? = some x → (s.names ++ [name])[i]? = some x := fun {i x} h => by
      rw [List.getElem?_append_left (List.getElem?_eq_some_iff.1 h).1, h]
    refine ⟨⟨hs.mutex, hs.mutexHeld, hs.registryBusy, hs.cellBusy, fun w id hc => ?_, ?_, by rw [hreg']; simp⟩,
      ⟨?_, hf.holds, fun _ => hr, hf.initializes, hf.forCell⟩, fun t' q htt hq => ?_,
      some (Goal.call (.register name f), .id ((s.names ++ [name]).length - 1)), rfl, rfl, rfl, rfl, ?_⟩
    · exact ⟨(hs.cellReady w id hc).1, hget (hs.cellReady w id hc).2⟩
    · rw [hreg']
      have := Origins.register_nodup (hreg ▸ hs.nodup) name
      rwa [register_new hk2] at this
    · rintro w rfl
      have : name = w.name := hk1
      exact ⟨_, rfl, by simp [this]⟩
    · have hnh : q.holds = false := by
        by_contra hne
        have h1 := hq.holds.1 (by simpa using hne)
        have h2 := hf.holds.1 rfl
        rw [h1] at h2
        cases h2
        exact htt rfl
      refine ⟨?_, hq.holds, hq.ready, hq.initializes, hq.forCell⟩
      have hk := hq.knows
      cases q <;> first
        | exact hk
        | exact hget hk
        | cases hnh
    · rw [hreg, hreg']
      exact Goal.alone_call hk1 (register_new hk2)
  | reading id =>
    have hr : s.registry = .ready () := hf.ready rfl
    have hreg := registered_ready hr
    have hne : s.names ≠ [] := hreg ▸ hs.nonempty
    have hpos : 0 < s.names.length := List.length_pos_of_ne_nil hne
    have hget : ∃ name, (if id < s.names.length then s.names[id]? else s.names[0]?) = some name ∧
        Origins.get s.names id = .ok name := by
      unfold Origins.get
      by_cases hlt : id < s.names.length
      · exact ⟨s.names[id], by simp [hlt], by simp [hlt, Res.expect]⟩
      · exact ⟨s.names[0], by simp [hlt, hpos], by simp [hlt, hpos, Res.expect]⟩
    obtain ⟨name, h1, h2⟩ := hget
    simp only [step, h1, Option.some.injEq, Prod.mk.injEq] at h
    obtain ⟨rfl, rfl⟩ := h
    refine ⟨hs, ⟨fun w hw => (by cases hw), hf.holds, hf.ready, hf.initializes, hf.forCell⟩, fun _ _ _ h => h,
      some (.get id, .name name), rfl, rfl, rfl, rfl, ?_⟩
    rw [hreg]
    simp [alone, h2]
  | unlocking r f =>
    have hr : s.registry = .ready () := hf.ready rfl
    have hm : s.mutex = .held t := hf.holds.1 rfl
    simp only [step, Option.some.injEq, Prod.mk.injEq] at h
    obtain ⟨rfl, rfl⟩ := h
    refine ⟨⟨by simp, fun _ he => (by cases he), hs.registryBusy, hs.cellBusy, hs.cellReady, hs.nodup, hs.nonempty⟩, ?_,
      fun t' q htt hq => ⟨hq.knows, ?_, hq.ready, hq.initializes, hq.forCell⟩, none, rfl, ?_⟩
    · cases f with
      | none => exact ⟨trivial, by simp [Phase.holds], fun h => (by cases h), hf.initializes, hf.forCell⟩
      | some w =>
        obtain ⟨id, rfl, hid⟩ := hf.knows w rfl
        exact ⟨hid, by simp [Phase.holds], fun _ => hr, hf.initializes, hf.forCell⟩
    · have := hq.holds
      rw [hm] at this
      rw [this]
      simpa using fun h => htt h.symm
    · cases f with
      | none => exact ⟨rfl, rfl⟩
      | some w =>
        obtain ⟨id, rfl, hid⟩ := hf.knows w rfl
        exact ⟨rfl, rfl⟩
  | setting which id =>
    have hr : s.registry = .ready () := hf.ready rfl
    have hc : s.cell which = .busy t := (hf.forCell which).1 rfl
    simp only [step, Option.some.injEq, Prod.mk.injEq] at h
    obtain ⟨rfl, rfl⟩ := h
    obtain ⟨h1, h2, h3⟩ := setCell_rest s which (.ready id)
    have hreg := registered_congr h1 h2
    refine ⟨⟨by rw [h3]; exact hs.mutex, by rw [h3]; exact hs.mutexHeld, by rw [h1]; exact hs.registryBusy, ?_, ?_,
      by rw [hreg]; exact hs.nodup, by rw [hreg]; exact hs.nonempty⟩,
      ⟨trivial, by rw [h3]; exact hf.holds, fun h => (by cases h), by rw [h1]; exact hf.initializes, fun w => ?_⟩,
      fun t' q htt hq => hq.setCell (by simp) (by rw [hc]; simpa using fun h => htt h.symm), none, hreg, rfl, rfl⟩
    · intro w t'
      rw [cell_setCell]
      split
      · intro he; cases he
      · exact hs.cellBusy w t'
    · intro w id'
      rw [cell_setCell, h1, h2]
      split
      · rename_i hw
        intro he
        cases he
        subst hw
        exact ⟨hr, hf.knows⟩
      · exact hs.cellReady w id'
    · rw [cell_setCell]
      by_cases hw : w = which
      · simp [hw, Phase.forCell]
      · have := hf.forCell w
        simp only [Phase.forCell, Option.some.injEq] at this
        simp only [hw, if_false, ← this, Phase.forCell, reduceCtorEq, false_iff]
        exact fun h => hw h.symm

/-! ### Executions -/

/-- The names after calls made one after the other. -/
def namesAfter (names : List String) (order : List (Tid × Call × Reply)) : List String :=
  order.foldl (fun names x => (alone names x.2.1).1) names

theorem sequential_append {names : List String} {order order' : List (Tid × Call × Reply)} :
    Sequential names (order ++ order') ↔ Sequential names order ∧ Sequential (namesAfter names order) order' := by
  induction order generalizing names with
  | nil => simp [Sequential, namesAfter]
  | cons x order ih =>
    obtain ⟨t, c, r⟩ := x
    simp only [List.cons_append, Sequential, ih, and_assoc]
    rfl

theorem callsOf_append (t : Tid) (seen seen' : List Event) :
    callsOf t (seen ++ seen') = callsOf t seen ++ callsOf t seen' := by simp [callsOf]

theorem repliesOf_append (t : Tid) (seen seen' : List Event) :
    repliesOf t (seen ++ seen') = repliesOf t seen ++ repliesOf t seen' := by simp [repliesOf]

theorem ofThread_append (t : Tid) (order order' : List (Tid × Call × Reply)) :
    ofThread t (order ++ order') = ofThread t order ++ ofThread t order' := by simp [ofThread]

/-- The calls and replies of a thread, compared to where it is now. -/
structure Trace (t : Tid) (p : Phase) (seen : List Event) (order : List (Tid × Call × Reply)) : Prop where
  calls : callsOf t seen = (ofThread t order).map (·.1) ++ p.pending.toList
  replies : (ofThread t order).map (·.2) = repliesOf t seen ++ p.reply.toList

/-- What is true at any time. -/
structure Inv (count : Nat) (s : State) (seen : List Event) (order : List (Tid × Call × Reply)) : Prop where
  length : s.threads.length = count
  sound : Sound count s.shared
  fits : ∀ t p, s.threads[t]? = some p → Fits t p s.shared ∧ Trace t p seen order
  others : ∀ t, s.threads[t]? = none → Trace t .idle seen order
  names : namesAfter Origins.init order = s.shared.registered
  sequential : Sequential Origins.init order
  realTime : ∀ n ≤ seen.length, ∃ k ≤ order.length, ∀ t,
    (repliesOf t (seen.take n)).length ≤ (ofThread t (order.take k)).length ∧
    (ofThread t (order.take k)).length ≤ (callsOf t (seen.take n)).length

theorem Trace.bounds {t : Tid} {p : Phase} {seen : List Event} {order : List (Tid × Call × Reply)}
    (h : Trace t p seen order) :
    (repliesOf t seen).length ≤ (ofThread t order).length ∧ (ofThread t order).length ≤ (callsOf t seen).length := by
  have h1 := congrArg List.length h.calls
  have h2 := congrArg List.length h.replies
  simp only [List.length_append, List.length_map] at h1 h2
  omega

/-- The order grows, and more is seen. -/
theorem realTime_append {seen seen' : List Event} {order order' : List (Tid × Call × Reply)}
    (h : ∀ n ≤ seen.length, ∃ k ≤ order.length, ∀ t,
      (repliesOf t (seen.take n)).length ≤ (ofThread t (order.take k)).length ∧
      (ofThread t (order.take k)).length ≤ (callsOf t (seen.take n)).length)
    (hseen : seen'.length ≤ 1)
    (hnow : ∀ t, (repliesOf t (seen ++ seen')).length ≤ (ofThread t (order ++ order')).length ∧
      (ofThread t (order ++ order')).length ≤ (callsOf t (seen ++ seen')).length) :
    ∀ n ≤ (seen ++ seen').length, ∃ k ≤ (order ++ order').length, ∀ t,
      (repliesOf t ((seen ++ seen').take n)).length ≤ (ofThread t ((order ++ order').take k)).length ∧
      (ofThread t ((order ++ order').take k)).length ≤ (callsOf t ((seen ++ seen').take n)).length := by
  intro n hn
  by_cases hle : n ≤ seen.length
  · obtain ⟨k, hk, hb⟩ := h n hle
    refine ⟨k, by simp only [List.length_append]; omega, fun t => ?_⟩
    rw [List.take_append_of_le_length hle, List.take_append_of_le_length hk]
    exact hb t
  · have hn' : n = (seen ++ seen').length := by
      simp only [List.length_append] at hn ⊢
      omega
    refine ⟨(order ++ order').length, Nat.le_refl _, fun t => ?_⟩
    rw [hn', List.take_length, List.take_length]
    exact hnow t

theorem Inv.bounds {s : State} {seen : List Event} {order : List (Tid × Call × Reply)}
    (h : ∀ t p, s.threads[t]? = some p → Trace t p seen order)
    (ho : ∀ t, s.threads[t]? = none → Trace t .idle seen order) (t : Tid) :
    (repliesOf t seen).length ≤ (ofThread t order).length ∧ (ofThread t order).length ≤ (callsOf t seen).length := by
  cases hp : s.threads[t]? with
  | none => exact (ho t hp).bounds
  | some p => exact (h t p hp).bounds

/-- Replace one thread, see at most one event of it, and add at most one call to the order. -/
theorem Inv.update {count : Nat} {s : State} {seen : List Event} {order : List (Tid × Call × Reply)} {t : Tid}
    {p p' : Phase} {s' : Shared} {seen' : List Event} {order' : List (Tid × Call × Reply)}
    (h : Inv count s seen order) (hp : s.threads[t]? = some p) (hs' : Sound count s') (hf : Fits t p' s')
    (hothers : ∀ t' q, t' ≠ t → Fits t' q s.shared → Fits t' q s')
    (hseen : seen'.length ≤ 1) (hseen' : ∀ t' ≠ t, callsOf t' seen' = [] ∧ repliesOf t' seen' = [])
    (horder : ∀ t' ≠ t, ofThread t' order' = [])
    (htrace : Trace t p' (seen ++ seen') (order ++ order'))
    (hnames : namesAfter s.shared.registered order' = s'.registered)
    (hseq : Sequential s.shared.registered order') :
    Inv count ⟨s', s.threads.set t p'⟩ (seen ++ seen') (order ++ order') := by
  have hlt := (List.getElem?_eq_some_iff.1 hp).1
  have htr : ∀ t' ≠ t, ∀ q, Trace t' q seen order → Trace t' q (seen ++ seen') (order ++ order') := by
    intro t' ht q hq
    refine ⟨?_, ?_⟩
    · rw [callsOf_append, (hseen' t' ht).1, ofThread_append, horder t' ht, List.append_nil, List.append_nil, hq.calls]
    · rw [repliesOf_append, (hseen' t' ht).2, ofThread_append, horder t' ht, List.append_nil, List.append_nil, hq.replies]
  have hfits : ∀ t' q, (s.threads.set t p')[t']? = some q → Fits t' q s' ∧ Trace t' q (seen ++ seen') (order ++ order') := by
    intro t' q hq
    by_cases ht : t' = t
    · subst ht
      rw [List.getElem?_set_self hlt] at hq
      cases hq
      exact ⟨hf, htrace⟩
    · rw [List.getElem?_set_ne (fun h => ht h.symm)] at hq
      obtain ⟨h1, h2⟩ := h.fits t' q hq
      exact ⟨hothers t' q ht h1, htr t' ht q h2⟩
  have hnone : ∀ t', (s.threads.set t p')[t']? = none → Trace t' .idle (seen ++ seen') (order ++ order') := by
    intro t' hn
    have ht : t' ≠ t := by
      rintro rfl
      rw [List.getElem?_set_self hlt] at hn
      cases hn
    rw [List.getElem?_set_ne (fun h => ht h.symm)] at hn
    exact htr t' ht .idle (h.others t' hn)
  refine ⟨by simp [h.length], hs', hfits, hnone, ?_, ?_, ?_⟩
  · rw [← hnames, ← h.names]
    simp [namesAfter]
  · rw [sequential_append, h.names]
    exact ⟨h.sequential, hseq⟩
  · exact realTime_append h.realTime hseen
      (Inv.bounds (s := ⟨s', s.threads.set t p'⟩) (fun t q hq => (hfits t q hq).2) hnone)

theorem exec_inv {count : Nat} {s : State} {seen : List Event} (h : Exec count s seen) :
    ∃ order, Inv count s seen order := by
  induction h with
  | start =>
    have htrace : ∀ t, Trace t .idle [] [] := fun t => ⟨rfl, rfl⟩
    refine ⟨[], by simp [State.start], ⟨by simp [State.start, Shared.start], by simp [State.start, Shared.start],
      by simp [State.start, Shared.start], ?_, ?_, by simp [State.start, Shared.start, Shared.registered, Origins.init],
      by simp [State.start, Shared.start, Shared.registered, Origins.init]⟩, ?_, fun t _ => htrace t, rfl, trivial, ?_⟩
    · intro w t; cases w <;> simp [State.start, Shared.start, Shared.cell]
    · intro w t; cases w <;> simp [State.start, Shared.start, Shared.cell]
    · intro t p hp
      have : p = .idle := by
        simp only [State.start, List.getElem?_replicate] at hp
        split at hp
        · exact (Option.some.inj hp).symm
        · cases hp
      subst this
      refine ⟨⟨trivial, by simp [Phase.holds, State.start, Shared.start], by simp [Phase.needsReady],
        by simp [Phase.initializes, State.start, Shared.start], ?_⟩, htrace t⟩
      intro w; cases w <;> simp [Phase.forCell, State.start, Shared.start, Shared.cell]
    · intro n hn
      exact ⟨0, Nat.le_refl _, fun t => by simp [repliesOf, ofThread]⟩
  | @call s seen t c _ hp ih =>
    obtain ⟨order, hi⟩ := ih
    obtain ⟨hf, ht⟩ := hi.fits t _ hp
    have hpend : c.begin.pending = some c := by cases c <;> rfl
    have hrep : c.begin.reply = none := by cases c <;> rfl
    have hfits : Fits t c.begin s.shared := by
      cases c with
      | register name => exact ⟨trivial, hf.holds, fun h => (by cases h), hf.initializes, hf.forCell⟩
      | get id => exact ⟨trivial, hf.holds, fun h => (by cases h), hf.initializes, hf.forCell⟩
      | own w => exact ⟨trivial, hf.holds, fun h => (by cases h), hf.initializes, hf.forCell⟩
    have := hi.update (seen' := [.call t c]) (order' := []) hp hi.sound hfits (fun _ _ _ h => h) (by simp)
      (fun t' h => ⟨by simp [callsOf, h.symm], by simp [repliesOf]⟩) (fun _ _ => rfl) ⟨?_, ?_⟩ rfl trivial
    · exact ⟨_, this⟩
    · rw [callsOf_append, ht.calls, List.append_nil, hpend]
      simp [callsOf, Phase.pending]
    · rw [repliesOf_append, List.append_nil, ht.replies, hrep]
      simp [repliesOf, Phase.reply]
  | @step s s' seen t _ hstep ih =>
    obtain ⟨order, hi⟩ := ih
    unfold State.step at hstep
    cases hp : s.threads[t]? with
    | none => simp [hp] at hstep
    | some p =>
      simp only [hp, Option.map_eq_some_iff] at hstep
      obtain ⟨⟨sh, p'⟩, h1, rfl⟩ := hstep
      obtain ⟨hf, ht⟩ := hi.fits t _ hp
      have hlt : t < count := by rw [← hi.length]; exact (List.getElem?_eq_some_iff.1 hp).1
      obtain ⟨g1, g2, g3, e, g4⟩ := step_fits hlt hi.sound hf h1
      cases e with
      | none =>
        obtain ⟨k1, k2, k3⟩ := g4
        have := hi.update (seen' := []) (order' := []) hp g1 g2 g3 (by simp) (fun _ _ => ⟨rfl, rfl⟩) (fun _ _ => rfl)
          ⟨by rw [List.append_nil, List.append_nil, k2]; exact ht.calls, by rw [List.append_nil, List.append_nil, k3]; exact ht.replies⟩
          k1.symm trivial
        rw [List.append_nil, List.append_nil] at this
        exact ⟨order, this⟩
      | some e =>
        obtain ⟨c, r⟩ := e
        obtain ⟨k1, k2, k3, k4, k5⟩ := g4
        have hself : ofThread t [(t, c, r)] = [(c, r)] := by simp [ofThread]
        have := hi.update (seen' := []) (order' := [(t, c, r)]) hp g1 g2 g3 (by simp) (fun _ _ => ⟨rfl, rfl⟩)
          (fun t' h => by simp [ofThread, h.symm]) ⟨?_, ?_⟩ (by simp [namesAfter, k5]) ⟨by simp [k5], trivial⟩
        · rw [List.append_nil] at this
          exact ⟨_, this⟩
        · rw [List.append_nil, ht.calls, ofThread_append, hself, k1, k3]
          simp
        · rw [List.append_nil, ofThread_append, hself, List.map_append, ht.replies, k2, k4]
          simp
  | @ret s seen t r _ hp ih =>
    obtain ⟨order, hi⟩ := ih
    obtain ⟨hf, ht⟩ := hi.fits t _ hp
    have hfits : Fits t .idle s.shared := ⟨trivial, hf.holds, fun h => (by cases h), hf.initializes, hf.forCell⟩
    have := hi.update (seen' := [.ret t r]) (order' := []) hp hi.sound hfits (fun _ _ _ h => h) (by simp)
      (fun t' h => ⟨by simp [callsOf], by simp [repliesOf, h.symm]⟩) (fun _ _ => rfl) ⟨?_, ?_⟩ rfl trivial
    · exact ⟨_, this⟩
    · rw [callsOf_append, ht.calls, List.append_nil]
      simp [callsOf, Phase.pending]
    · rw [repliesOf_append, List.append_nil, ht.replies]
      simp [repliesOf, Phase.reply]

/-! ### Progress -/

theorem step_holds {t : Tid} {s : Shared} {p : Phase} (h : p.holds = true) :
    (step t s p).isSome = true := by
  cases p with
  | scanning name f i =>
    simp only [step]
    cases s.names[i]? <;> rfl
  | pushing name f => rfl
  | reading id =>
    simp only [step]
    cases (if id < s.names.length then s.names[id]? else s.names[0]?) <;> rfl
  | unlocking r f => rfl
  | _ => simp [Phase.holds] at h

/-- Nobody has the lock, and nobody makes the registry: then only threads waiting for a static variable have to wait. -/
theorem step_free {t : Tid} {s : Shared} {p : Phase} (hm : s.mutex = .free) (hr : ∀ t', s.registry ≠ .busy t')
    (hh : p.holds = false) (hi : p ≠ .idle) (hret : ∀ r, p ≠ .returning r) (hc : ∀ w, p ≠ .cell w) :
    (step t s p).isSome = true := by
  cases p with
  | idle => exact absurd rfl hi
  | cell w => exact absurd rfl (hc w)
  | returning r => exact absurd rfl (hret r)
  | starting goal =>
    simp only [step]
    cases h : s.registry with
    | busy t' => exact absurd h (hr t')
    | empty => rfl
    | ready u => rfl
  | initializing goal => rfl
  | locking goal => simp [step, hm]
  | setting w id => rfl
  | scanning _ _ _ => simp [Phase.holds] at hh
  | pushing _ _ => simp [Phase.holds] at hh
  | reading _ => simp [Phase.holds] at hh
  | unlocking _ _ => simp [Phase.holds] at hh

theorem moves_of_step {s : State} {t : Tid} {p : Phase} (hp : s.threads[t]? = some p)
    (h : (step t s.shared p).isSome = true) : ∃ s', Moves s s' := by
  obtain ⟨⟨sh, p'⟩, h⟩ := Option.isSome_iff_exists.1 h
  exact ⟨_, .step (t := t) (by simp only [State.step, hp, h, Option.map_some]; rfl)⟩

theorem Inv.progress {count : Nat} {s : State} {seen : List Event} {order : List (Tid × Call × Reply)}
    (h : Inv count s seen order) {t : Tid} {p : Phase} (hp : s.threads[t]? = some p) (hi : p ≠ .idle) :
    ∃ s', Moves s s' := by
  have phase : ∀ t' < count, ∃ q, s.threads[t']? = some q ∧ Fits t' q s.shared := by
    intro t' ht
    rw [← h.length] at ht
    exact ⟨_, List.getElem?_eq_getElem ht, (h.fits t' _ (List.getElem?_eq_getElem ht)).1⟩
  cases hm : s.shared.mutex with
  | poisoned => exact absurd hm h.sound.mutex
  | held t0 =>
    obtain ⟨q, hq, hf⟩ := phase t0 (h.sound.mutexHeld t0 hm)
    have hh := hf.holds.2 hm
    exact moves_of_step hq (step_holds hh)
  | free =>
    have nohold : ∀ (t' : Tid) (q : Phase), s.threads[t']? = some q → q.holds = false := by
      intro t' q hq
      cases hh : q.holds with
      | false => rfl
      | true =>
        have := (h.fits t' q hq).1.holds.1 hh
        rw [hm] at this
        cases this
    by_cases hb : ∃ t', s.shared.registry = .busy t'
    · obtain ⟨t0, hb⟩ := hb
      obtain ⟨q, hq, hf⟩ := phase t0 (h.sound.registryBusy t0 hb)
      have hh := hf.initializes.2 hb
      refine moves_of_step hq ?_
      cases q <;> first | rfl | simp [Phase.initializes] at hh
    · have hb' : ∀ t', s.shared.registry ≠ .busy t' := fun t' h => hb ⟨t', h⟩
      cases p with
      | idle => exact absurd rfl hi
      | returning r => exact ⟨_, .ret hp⟩
      | cell w =>
        cases hc : s.shared.cell w with
        | empty => exact moves_of_step hp (by simp [step, hc])
        | ready id => exact moves_of_step hp (by simp [step, hc])
        | busy t0 =>
          obtain ⟨q, hq, hf⟩ := phase t0 (h.sound.cellBusy w t0 hc)
          have hh := (hf.forCell w).2 hc
          refine moves_of_step hq (step_free hm hb' (nohold t0 q hq) ?_ ?_ ?_)
          · rintro rfl; simp [Phase.forCell] at hh
          · rintro r rfl; simp [Phase.forCell] at hh
          · rintro w rfl; simp [Phase.forCell] at hh
      | _ => exact moves_of_step hp (step_free hm hb' (nohold t _ hp) (by simp) (by simp) (by simp))

/-! ### How many moves -/

/-- The sum of a number over all threads. -/
def total (f : Phase → Nat) (threads : List Phase) : Nat := (threads.map f).sum

theorem total_set (f : Phase → Nat) {threads : List Phase} {t : Tid} {p : Phase} (p' : Phase)
    (h : threads[t]? = some p) : total f (threads.set t p') + f p = total f threads + f p' := by
  induction threads generalizing t with
  | nil => simp at h
  | cons q threads ih =>
    cases t with
    | zero =>
      simp only [List.getElem?_cons_zero, Option.some.injEq] at h
      subst h
      simp only [total, List.set_cons_zero, List.map_cons, List.sum_cons]
      omega
    | succ t =>
      simp only [List.getElem?_cons_succ] at h
      have := ih h
      simp only [total, List.set_cons_succ, List.map_cons, List.sum_cons] at this ⊢
      omega

theorem total_mono {f g : Phase → Nat} (h : ∀ p, f p ≤ g p) (threads : List Phase) : total f threads ≤ total g threads := by
  induction threads with
  | nil => exact Nat.le_refl _
  | cons q threads ih =>
    have := h q
    simp only [total, List.map_cons, List.sum_cons] at ih ⊢
    omega

theorem total_le {f : Phase → Nat} {n : Nat} (h : ∀ p, f p ≤ n) (threads : List Phase) :
    total f threads ≤ threads.length * n := by
  induction threads with
  | nil => simp [total]
  | cons q threads ih =>
    have := h q
    simp only [total, List.map_cons, List.sum_cons, List.length_cons, Nat.add_mul] at ih ⊢
    omega

/-- 1 for a call without effect yet. -/
def Phase.weight (p : Phase) : Nat := if p.pending.isSome then 1 else 0

/-- The largest number of names which are possible without new calls. -/
def State.room (s : State) : Nat := s.shared.registered.length + total Phase.weight s.threads

/-- How many moves a thread does at most, with at most `room` names. -/
def Phase.rank (room : Nat) : Phase → Nat
  | .idle => 0
  | .returning _ => 1
  | .setting _ _ => 2
  | .unlocking _ _ => 3
  | .reading _ | .pushing _ _ => 4
  | .scanning _ _ i => 5 + (room - i)
  | .locking _ => room + 6
  | .initializing _ => room + 7
  | .starting _ => room + 8
  | .cell _ => room + 9

/-- How many moves all threads do at most. -/
def State.rank (s : State) : Nat := total (Phase.rank s.room) s.threads

theorem Phase.rank_mono {m n : Nat} (h : m ≤ n) (p : Phase) : p.rank m ≤ p.rank n := by
  cases p <;> simp only [Phase.rank] <;> omega

theorem Phase.rank_le (n : Nat) (p : Phase) : p.rank n ≤ n + 9 := by
  cases p <;> simp only [Phase.rank] <;> omega

theorem step_rank {t : Tid} {s s' : Shared} {p p' : Phase} {room : Nat} (hroom : p.needsReady = true → s.names.length ≤ room)
    (h : step t s p = some (s', p')) : p'.rank room < p.rank room := by
  cases p with
  | idle => simp [step] at h
  | returning r => simp [step] at h
  | cell w =>
    simp only [step] at h
    cases hc : s.cell w <;> simp only [hc, Option.some.injEq, Prod.mk.injEq, reduceCtorEq] at h
    all_goals obtain ⟨_, rfl⟩ := h; simp only [Phase.rank]; omega
  | starting goal =>
    simp only [step] at h
    cases hc : s.registry <;> simp only [hc, Option.some.injEq, Prod.mk.injEq, reduceCtorEq] at h
    all_goals obtain ⟨_, rfl⟩ := h; simp only [Phase.rank]; omega
  | initializing goal =>
    simp only [step, Option.some.injEq, Prod.mk.injEq] at h
    obtain ⟨_, rfl⟩ := h; simp only [Phase.rank]; omega
  | locking goal =>
    simp only [step] at h
    cases hc : s.mutex <;> simp only [hc, Option.some.injEq, Prod.mk.injEq, reduceCtorEq] at h
    · obtain ⟨_, rfl⟩ := h
      cases goal <;> simp only [Phase.rank] <;> omega
    · obtain ⟨_, rfl⟩ := h; simp only [Phase.rank]; omega
  | scanning name f i =>
    simp only [step] at h
    cases hc : s.names[i]? with
    | none =>
      simp only [hc, Option.some.injEq, Prod.mk.injEq] at h
      obtain ⟨_, rfl⟩ := h; simp only [Phase.rank]; omega
    | some x =>
      have hi := (List.getElem?_eq_some_iff.1 hc).1
      have hroom := hroom rfl
      simp only [hc, Option.some.injEq, Prod.mk.injEq] at h
      obtain ⟨_, rfl⟩ := h
      split <;> simp only [Phase.rank] <;> omega
  | pushing name f =>
    simp only [step, Option.some.injEq, Prod.mk.injEq] at h
    obtain ⟨_, rfl⟩ := h; simp only [Phase.rank]; omega
  | reading id =>
    simp only [step] at h
    cases hc : (if id < s.names.length then s.names[id]? else s.names[0]?) <;>
      simp only [hc, Option.some.injEq, Prod.mk.injEq] at h
    all_goals obtain ⟨_, rfl⟩ := h; simp only [Phase.rank]; omega
  | unlocking r f =>
    simp only [step, Option.some.injEq, Prod.mk.injEq] at h
    obtain ⟨_, rfl⟩ := h
    split <;> simp only [Phase.rank] <;> omega
  | setting w id =>
    simp only [step, Option.some.injEq, Prod.mk.injEq] at h
    obtain ⟨_, rfl⟩ := h; simp only [Phase.rank]; omega

theorem alone_length (names : List String) (c : Call) : (alone names c).1.length ≤ names.length + 1 := by
  have : ∀ name, (Origins.register names name).1.length ≤ names.length + 1 := by
    intro name
    unfold Origins.register
    cases names.findIdx? (· == name) <;> simp
  cases c with
  | register name => exact this name
  | own which => exact this which.name
  | get id => simp [alone]

theorem Moves.rank {count : Nat} {s s' : State} {seen : List Event} (he : Exec count s seen) (h : Moves s s') :
    s'.rank < s.rank ∧ s'.room ≤ s.room ∧ ∃ seen', Exec count s' seen' := by
  obtain ⟨order, hi⟩ := exec_inv he
  cases h with
  | @ret t r hp =>
    have h1 := total_set Phase.weight .idle hp
    have hroom : State.room ⟨s.shared, s.threads.set t .idle⟩ = s.room := by
      simp only [State.room]
      simp only [Phase.weight, Phase.pending] at h1 ⊢
      simpa using h1
    refine ⟨?_, Nat.le_of_eq hroom, _, .ret he hp⟩
    have h2 := total_set (Phase.rank s.room) .idle hp
    simp only [State.rank, hroom]
    simp only [Phase.rank] at h2
    omega
  | @step _ t hstep =>
    have he' := Exec.step he hstep
    unfold State.step at hstep
    cases hp : s.threads[t]? with
    | none => simp [hp] at hstep
    | some p =>
      simp only [hp, Option.map_eq_some_iff] at hstep
      obtain ⟨⟨sh, p'⟩, h1, rfl⟩ := hstep
      obtain ⟨hf, -⟩ := hi.fits t _ hp
      have hlt : t < count := by rw [← hi.length]; exact (List.getElem?_eq_some_iff.1 hp).1
      obtain ⟨-, -, -, e, g4⟩ := step_fits hlt hi.sound hf h1
      have hw := total_set Phase.weight p' hp
      have hroom : State.room ⟨sh, s.threads.set t p'⟩ ≤ s.room := by
        simp only [State.room]
        cases e with
        | none =>
          obtain ⟨k1, k2, k3⟩ := g4
          have : p'.weight = p.weight := by simp only [Phase.weight, k2]
          rw [k1]
          omega
        | some e =>
          obtain ⟨c, r⟩ := e
          obtain ⟨k1, k2, k3, k4, k5⟩ := g4
          have h1 : p.weight = 1 := by simp [Phase.weight, k1]
          have h2 : p'.weight = 0 := by simp [Phase.weight, k3]
          have h3 := alone_length s.shared.registered c
          rw [k5] at h3
          simp only at h3
          omega
      refine ⟨?_, hroom, _, he'⟩
      have hr : p'.rank s.room < p.rank s.room := by
        refine step_rank (fun hr => ?_) h1
        simp only [State.room, Shared.registered, hf.ready hr]
        omega
      have h2 := total_set (Phase.rank s.room) p' hp
      have h3 := total_mono (Phase.rank_mono hroom) (s.threads.set t p')
      simp only [State.rank] at h3 ⊢
      omega

theorem MovesTo.rank {count n : Nat} {s s' : State} {seen : List Event} (he : Exec count s seen) (h : MovesTo n s s') :
    n + s'.rank ≤ s.rank ∧ ∃ seen', Exec count s' seen' := by
  induction h with
  | done => exact ⟨by omega, _, he⟩
  | more _ hm ih =>
    obtain ⟨h1, seen', h2⟩ := ih he
    obtain ⟨h3, -, h4⟩ := Moves.rank h2 hm
    exact ⟨by omega, h4⟩

theorem rank_le {count : Nat} {s : State} {seen : List Event} (he : Exec count s seen) :
    s.rank ≤ count * (s.shared.names.length + count + 10) := by
  obtain ⟨order, hi⟩ := exec_inv he
  have h1 := total_le (Phase.rank_le s.room) s.threads
  rw [hi.length] at h1
  refine Nat.le_trans h1 (Nat.mul_le_mul_left _ ?_)
  have h2 : total Phase.weight s.threads ≤ count * 1 := by
    rw [← hi.length]
    refine total_le (fun p => ?_) _
    unfold Phase.weight
    split <;> omega
  have h3 : s.shared.registered.length ≤ s.shared.names.length + 1 := by
    unfold Shared.registered
    split
    · omega
    · simp [Origins.init]
  simp only [State.room]
  omega

/-! ### Ids -/

theorem alone_spec {names names' : List String} {c : Call} {r : Reply} (h : alone names c = (names', r)) :
    (∃ l, names' = names ++ l) ∧ (names.Nodup → names'.Nodup) ∧
    ∀ name, asks c = some name → ∃ i, r = .id i ∧ names'[i]? = some name := by
  cases c with
  | register name =>
    simp only [alone, Prod.mk.injEq] at h
    obtain ⟨rfl, rfl⟩ := h
    obtain ⟨h1, h2⟩ := Origins.register_spec names name
    refine ⟨h1, fun h => Origins.register_nodup h name, fun name' h => ?_⟩
    cases h
    exact ⟨_, rfl, h2⟩
  | own which =>
    simp only [alone, Prod.mk.injEq] at h
    obtain ⟨rfl, rfl⟩ := h
    obtain ⟨h1, h2⟩ := Origins.register_spec names which.name
    refine ⟨h1, fun h => Origins.register_nodup h which.name, fun name' h => ?_⟩
    cases h
    exact ⟨_, rfl, h2⟩
  | get id =>
    simp only [alone, Prod.mk.injEq] at h
    obtain ⟨rfl, -⟩ := h
    exact ⟨⟨[], by simp⟩, fun h => h, fun name h => by cases h⟩

theorem namesAfter_spec {names : List String} (order : List (Tid × Call × Reply)) :
    (∃ l, namesAfter names order = names ++ l) ∧ (names.Nodup → (namesAfter names order).Nodup) := by
  induction order generalizing names with
  | nil => exact ⟨⟨[], by simp [namesAfter]⟩, id⟩
  | cons x order ih =>
    obtain ⟨⟨l1, h1⟩, h2, -⟩ := alone_spec (names := names) (names' := (alone names x.2.1).1) (c := x.2.1) (r := (alone names x.2.1).2) rfl
    obtain ⟨⟨l2, h3⟩, h4⟩ := ih (names := (alone names x.2.1).1)
    refine ⟨⟨l1 ++ l2, ?_⟩, fun h => h4 (h2 h)⟩
    have : namesAfter names (x :: order) = namesAfter (alone names x.2.1).1 order := rfl
    rw [this, h3, h1, List.append_assoc]

/-- The id given to a call stays the one of the name. -/
theorem sequential_id {names : List String} {order : List (Tid × Call × Reply)} (h : Sequential names order)
    {t : Tid} {c : Call} {r : Reply} (hm : (t, c, r) ∈ order) {name : String} (ha : asks c = some name) :
    ∃ i, r = .id i ∧ (namesAfter names order)[i]? = some name := by
  induction order generalizing names with
  | nil => simp at hm
  | cons x order ih =>
    obtain ⟨t', c', r'⟩ := x
    obtain ⟨h1, h2⟩ := h
    rcases List.mem_cons.1 hm with hm | hm
    · cases hm
      obtain ⟨-, -, h3⟩ := alone_spec (names := names) (c := c) (r := r) (by rw [h1])
      obtain ⟨i, h4, h5⟩ := h3 name ha
      obtain ⟨l, h6⟩ := (namesAfter_spec (names := (alone names c).1) order).1
      refine ⟨i, h4, ?_⟩
      have : namesAfter names ((t, c, r) :: order) = namesAfter (alone names c).1 order := rfl
      rw [this, h6, List.getElem?_append_left (List.getElem?_eq_some_iff.1 h5).1]
      exact h5
    · exact ih h2 hm

/-- What `get` returns for an id given before. -/
theorem sequential_get {names : List String} {order : List (Tid × Call × Reply)} (h : Sequential names order)
    {t : Tid} {i : Nat} {r : Reply} (hm : (t, .get i, r) ∈ order) {name : String} (hi : names[i]? = some name) :
    r = .name name := by
  induction order generalizing names with
  | nil => simp at hm
  | cons x order ih =>
    obtain ⟨t', c', r'⟩ := x
    obtain ⟨h1, h2⟩ := h
    have hlt := (List.getElem?_eq_some_iff.1 hi).1
    rcases List.mem_cons.1 hm with hm | hm
    · cases hm
      rw [h1]
      simp [alone, Origins.get, hlt, (List.getElem?_eq_some_iff.1 hi).2]
    · obtain ⟨⟨l, h3⟩, -⟩ := alone_spec (names := names) (names' := (alone names c').1) (c := c') (r := (alone names c').2) rfl
      refine ih h2 hm ?_
      rw [h3, List.getElem?_append_left hlt]
      exact hi

theorem ofThread_mem {t : Tid} {order : List (Tid × Call × Reply)} {c : Call} {r : Reply}
    (h : (c, r) ∈ ofThread t order) : (t, c, r) ∈ order := by
  simp only [ofThread, List.mem_filterMap, Option.ite_none_right_eq_some, Option.some.injEq, Prod.mk.injEq] at h
  obtain ⟨⟨t', c', r'⟩, h1, rfl, rfl, rfl⟩ := h
  exact h1

/-- A call which returned is in the order. -/
theorem answered_order {order : List (Tid × Call × Reply)} {seen : List Event} (h : Explains order seen) {t : Tid}
    {k : Nat} {c : Call} {r : Reply} (ha : Answered seen t k c r) : (ofThread t order)[k]? = some (c, r) := by
  obtain ⟨h1, h2⟩ := ha
  obtain ⟨l1, h3⟩ := h.replies t
  obtain ⟨l2, h4⟩ := h.calls t
  have hk := (List.getElem?_eq_some_iff.1 h2).1
  have h5 : ((ofThread t order).map (·.2))[k]? = some r := by
    rw [← h3, List.getElem?_append_left hk]
    exact h2
  rw [List.getElem?_map, Option.map_eq_some_iff] at h5
  obtain ⟨⟨c', r'⟩, h6, rfl⟩ := h5
  have hk' := (List.getElem?_eq_some_iff.1 h6).1
  rw [← h4, List.getElem?_append_left (by simpa using hk'), List.getElem?_map, h6] at h1
  simp only [Option.map_some, Option.some.injEq] at h1
  rw [h6, ← h1]

theorem exec_explains {count : Nat} {s : State} {seen : List Event} (h : Exec count s seen) :
    ∃ order, Explains order seen := by
  obtain ⟨order, hi⟩ := exec_inv h
  have htrace : ∀ t, ∃ p, Trace t p seen order := by
    intro t
    cases hp : s.threads[t]? with
    | none => exact ⟨_, hi.others t hp⟩
    | some p => exact ⟨p, (hi.fits t p hp).2⟩
  refine ⟨order, hi.sequential, fun t => ?_, fun t => ?_, hi.realTime⟩
  · obtain ⟨p, hp⟩ := htrace t
    exact ⟨_, hp.calls.symm⟩
  · obtain ⟨p, hp⟩ := htrace t
    exact ⟨_, hp.replies.symm⟩

theorem alone_panics {names : List String} (hn : names ≠ []) (c : Call) (m : String) : (alone names c).2 ≠ .panic m := by
  cases c with
  | register name => simp [alone]
  | own which => simp [alone]
  | get id =>
    cases names with
    | nil => exact absurd rfl hn
    | cons x l =>
      simp only [alone, Origins.get]
      by_cases h : id < (x :: l).length
      · rw [if_pos h, List.getElem?_eq_getElem h]
        simp
      · rw [if_neg h]
        simp

theorem sequential_panics {names : List String} (hn : names ≠ []) {order : List (Tid × Call × Reply)}
    (h : Sequential names order) {t : Tid} {c : Call} {m : String} : (t, c, .panic m) ∉ order := by
  induction order generalizing names with
  | nil => simp
  | cons x order ih =>
    obtain ⟨t', c', r'⟩ := x
    obtain ⟨h1, h2⟩ := h
    intro hm
    rcases List.mem_cons.1 hm with hm | hm
    · cases hm
      exact alone_panics hn c m h1.symm
    · obtain ⟨⟨l, h3⟩, -⟩ := alone_spec (names := names) (names' := (alone names c').1) (c := c') (r := (alone names c').2) rfl
      exact ih (by rw [h3]; simp [hn]) h2 hm

end OriginThreads
end Equistore
