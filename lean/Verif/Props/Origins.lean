import Verif.Model.Data
import Verif.Lemmas.Res
import Mathlib.Data.List.Nodup

/-!
# Properties of the registry of data origins (C30, C31)

The registry is protected by a mutex (`src/data.rs` lines 28 and 45), so any
execution of any number of threads is a sequence of whole calls. The theorems
quantify over all sequences.
-/

namespace Equistore
namespace Origins

/-- A call made by some thread. -/
inductive Call where
  | register (thread : Nat) (name : String)
  | get (thread : Nat) (id : Nat)

/-- The registry after a sequence of calls. -/
def exec : List String → List Call → List String
  | s, [] => s
  | s, .register _ name :: calls => exec (register s name).1 calls
  | s, .get _ _ :: calls => exec s calls

/-- The ids returned by the registrations in a sequence of calls, with the
corresponding names. -/
def returned : List String → List Call → List (String × Nat)
  | _, [] => []
  | s, .register _ name :: calls =>
    (name, (register s name).2) :: returned (register s name).1 calls
  | s, .get _ _ :: calls => returned s calls

theorem register_spec (s : List String) (name : String) :
    (∃ t, (register s name).1 = s ++ t) ∧ (register s name).1[(register s name).2]? = some name := by
  unfold register
  cases h : s.findIdx? (· == name) with
  | some i =>
    obtain ⟨hi, h1, _⟩ := List.findIdx?_eq_some_iff_getElem.1 h
    refine ⟨⟨[], by simp⟩, ?_⟩
    simp only [List.getElem?_eq_getElem hi]
    simpa using h1
  | none => exact ⟨⟨[name], rfl⟩, by simp⟩

theorem register_nodup {s : List String} (hs : s.Nodup) (name : String) :
    (register s name).1.Nodup := by
  unfold register
  cases h : s.findIdx? (· == name) with
  | some i => exact hs
  | none =>
    rw [List.findIdx?_eq_none_iff] at h
    simp only
    rw [List.nodup_append]
    refine ⟨hs, by simp, ?_⟩
    intro a ha b hb
    simp only [List.mem_singleton] at hb
    subst hb
    rintro rfl
    have := h a ha
    simp at this

theorem exec_prefix (s : List String) (calls : List Call) : ∃ t, exec s calls = s ++ t := by
  induction calls generalizing s with
  | nil => exact ⟨[], by simp [exec]⟩
  | cons c calls ih =>
    cases c with
    | get t i => exact ih s
    | register t name =>
      obtain ⟨t1, h1⟩ := (register_spec s name).1
      obtain ⟨t2, h2⟩ := ih (register s name).1
      exact ⟨t1 ++ t2, by rw [exec, h2, h1, List.append_assoc]⟩

theorem exec_nodup {s : List String} (hs : s.Nodup) (calls : List Call) : (exec s calls).Nodup := by
  induction calls generalizing s with
  | nil => exact hs
  | cons c calls ih =>
    cases c with
    | get t i => exact ih hs
    | register t name => exact ih (register_nodup hs name)

theorem register_of_getElem {s : List String} (hs : s.Nodup) {name : String} {id : Nat}
    (h : s[id]? = some name) : register s name = (s, id) := by
  have hid := (List.getElem?_eq_some_iff.1 h)
  obtain ⟨hlt, hget⟩ := hid
  have : s.findIdx? (· == name) = some id := by
    rw [List.findIdx?_eq_some_iff_getElem]
    refine ⟨hlt, by simpa using hget, ?_⟩
    intro j hj
    simp only [beq_iff_eq]
    intro hc
    have hj' : j < s.length := Nat.lt_trans hj hlt
    have h1 := (List.Nodup.getElem_inj_iff hs (i := j) (hi := hj') (j := id) (hj := hlt)).1 (by rw [hc, hget])
    omega
  simp [register, this]

/-- **C30.** Register a name at any point of any execution; after any further
calls by any threads, the id still gives this name, registering the name again
gives the same id and changes nothing, and any other name gets another id. -/
theorem C30_origins_stable_injective (before between : List Call) (name : String)
    (s s' s'' : List String) (id : Nat) (hs : s = exec init before)
    (hr : register s name = (s', id)) (hs'' : s'' = exec s' between) :
    get s'' id = .ok name ∧
    register s'' name = (s'', id) ∧
    (∀ name', name' ≠ name → (register s'' name').2 ≠ id) ∧
    (∀ i n, s[i]? = some n → get s'' i = .ok n) := by
  have hnd : s.Nodup := hs ▸ exec_nodup (by decide) before
  have hreg := register_spec s name
  have hnd' := register_nodup hnd name
  rw [hr] at hreg hnd'
  obtain ⟨⟨t1, h1⟩, hid⟩ := hreg
  obtain ⟨t2, h2⟩ := exec_prefix s' between
  have hnd'' := exec_nodup hnd' between
  simp only at h1 h2 hnd' hnd'' hid
  rw [← hs''] at h2 hnd''
  have hlt : id < s'.length := (List.getElem?_eq_some_iff.1 hid).1
  have hid'' : s''[id]? = some name := by
    rw [h2, List.getElem?_append_left hlt]; exact hid
  have hget : ∀ i n, s''[i]? = some n → get s'' i = .ok n := by
    intro i n h
    have hi := (List.getElem?_eq_some_iff.1 h).1
    simp [get, hi]
    rw [← Option.some.injEq, ← h, List.getElem?_eq_getElem hi]
  refine ⟨hget _ _ hid'', register_of_getElem hnd'' hid'', ?_, ?_⟩
  · intro name' hne heq
    obtain ⟨⟨t3, h3⟩, h4⟩ := register_spec s'' name'
    rw [heq, h3, List.getElem?_append_left (List.getElem?_eq_some_iff.1 hid'').1, hid''] at h4
    simp only [Option.some.injEq] at h4
    exact hne h4.symm
  · intro i n h
    apply hget
    have hi := (List.getElem?_eq_some_iff.1 h).1
    rw [h2, h1, List.append_assoc, List.getElem?_append_left hi]
    exact h

theorem returned_covers (s : List String) (calls : List Call) (i : Nat) (hi : s.length ≤ i)
    (hlt : i < (exec s calls).length) : ∃ name, (name, i) ∈ returned s calls := by
  induction calls generalizing s with
  | nil => simp [exec] at hlt; omega
  | cons c calls ih =>
    cases c with
    | get t j => exact ih s hi hlt
    | register t name =>
      simp only [exec] at hlt
      by_cases h : (register s name).1.length ≤ i
      · obtain ⟨n, hn⟩ := ih _ h hlt
        exact ⟨n, by simp [returned, hn]⟩
      · refine ⟨name, ?_⟩
        simp only [returned, List.mem_cons, Prod.mk.injEq, true_and]
        left
        unfold register at h ⊢
        cases hf : s.findIdx? (· == name) with
        | some k => rw [hf] at h; simp at h; omega
        | none => rw [hf] at h; simp at h ⊢; omega

/-- **C30**, unknown ids: an id which was never returned by a registration gives
"unregistered origin". -/
theorem C30_unknown_origin (calls : List Call) (id : Nat)
    (h : ∀ name, (name, id) ∉ returned init calls) :
    get (exec init calls) id = .ok "unregistered origin" := by
  obtain ⟨t, ht⟩ := exec_prefix init calls
  have h0 : (exec init calls)[0]? = some "unregistered origin" := by rw [ht]; rfl
  unfold get
  split
  · rename_i hlt
    by_cases hid : init.length ≤ id
    · obtain ⟨n, hn⟩ := returned_covers init calls id hid hlt
      exact absurd hn (h n)
    · have : id = 0 := by simp [init] at hid; exact hid
      subst this
      rw [h0]; rfl
  · rw [h0]; rfl

/-- **C30**, the ids returned in one execution: equal exactly when the names are. -/
theorem C30_returned_ids (calls : List Call) (n₁ n₂ : String) (i₁ i₂ : Nat)
    (h₁ : (n₁, i₁) ∈ returned init calls) (h₂ : (n₂, i₂) ∈ returned init calls) :
    i₁ = i₂ ↔ n₁ = n₂ := by
  have key : ∀ (s : List String) (calls : List Call) (n : String) (i : Nat),
      (n, i) ∈ returned s calls → (exec s calls)[i]? = some n := by
    intro s calls
    induction calls generalizing s with
    | nil => intro n i h; simp [returned] at h
    | cons c calls ih =>
      intro n i h
      cases c with
      | get t j => exact ih s n i h
      | register t name =>
        simp only [returned, List.mem_cons, Prod.mk.injEq] at h
        rcases h with ⟨rfl, rfl⟩ | h
        · have hs := (register_spec s n).2
          obtain ⟨t2, h2⟩ := exec_prefix (register s n).1 calls
          rw [exec, h2, List.getElem?_append_left (List.getElem?_eq_some_iff.1 hs).1]
          exact hs
        · exact ih _ n i h
  have e₁ := key _ _ _ _ h₁
  have e₂ := key _ _ _ _ h₂
  have hnd : (exec init calls).Nodup := exec_nodup (by decide) calls
  constructor
  · rintro rfl; rw [e₁] at e₂; simpa using e₂
  · rintro rfl
    have r₁ := register_of_getElem hnd e₁
    have r₂ := register_of_getElem hnd e₂
    rw [r₁] at r₂
    simpa using r₂

/-- Non-vacuity of C30: three threads, one name registered twice. -/
example : returned init [.register 0 "numpy", .get 1 3, .register 1 "torch", .register 2 "numpy"]
    = [("numpy", 1), ("torch", 2), ("numpy", 1)] := by decide +kernel

/-- **C31** is false of the code for one name: registering the reserved name gives
the id 0 of unregistered origins. -/
theorem C31_reserved_name_gets_zero (calls : List Call) :
    (register (exec init calls) "unregistered origin").2 = 0 := by
  obtain ⟨t, ht⟩ := exec_prefix init calls
  have hnd : (exec init calls).Nodup := exec_nodup (by decide) calls
  rw [register_of_getElem (id := 0) hnd (by rw [ht]; rfl)]

/-- **C31**, for all the other names: at any point of any execution, a registered
name gets an id different from 0. Missing: the reserved name itself. -/
theorem C31_registered_not_zero_partial (calls : List Call) (name : String)
    (hname : name ≠ "unregistered origin") :
    (register (exec init calls) name).2 ≠ 0 := by
  intro h
  obtain ⟨t, ht⟩ := exec_prefix init calls
  obtain ⟨⟨t1, h1⟩, h2⟩ := register_spec (exec init calls) name
  rw [h, h1, ht] at h2
  have h3 : some "unregistered origin" = some name := h2
  rw [Option.some.injEq] at h3
  exact hname h3.symm

end Origins
end Equistore
