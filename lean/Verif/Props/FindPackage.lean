import Verif.Spec.FindPackage
import Mathlib.Data.Nat.Find

/-!
# C105: the library can be found from CMake
-/

namespace Equistore
namespace Props

open FindPackage Spec.FindPackage

/-! ### Versions -/

private theorem before_nil (b : List Nat) : Before [] b ↔ ∃ i, 0 < part b i := by
  constructor
  · rintro ⟨i, h, _⟩
    exact ⟨i, Nat.lt_of_le_of_lt (Nat.zero_le _) h⟩
  · intro h
    classical
    let i := Nat.find h
    refine ⟨i, Nat.find_spec h, fun j hj => ?_⟩
    have := Nat.find_min h hj
    have h0 : part [] j = 0 := by simp [part]
    omega

private theorem versionGreater_iff (a b : List Nat) : versionGreater a b = true ↔ Before b a := by
  induction a generalizing b with
  | nil =>
    simp only [versionGreater, Bool.false_eq_true, false_iff]
    rintro ⟨i, h, _⟩
    simp [part] at h
  | cons x a ih =>
    cases b with
    | nil =>
      simp only [versionGreater, Bool.or_eq_true, decide_eq_true_eq, ih, before_nil]
      constructor
      · rintro (h | ⟨i, h⟩)
        · exact ⟨0, h⟩
        · exact ⟨i + 1, h⟩
      · rintro ⟨i, h⟩
        cases i with
        | zero => exact .inl h
        | succ i => exact .inr ⟨i, h⟩
    | cons y b =>
      simp only [versionGreater, Bool.or_eq_true, decide_eq_true_eq, Bool.and_eq_true, beq_iff_eq, ih]
      constructor
      · rintro (h | ⟨rfl, i, h, hj⟩)
        · exact ⟨0, h, fun j hj => absurd hj (Nat.not_lt_zero j)⟩
        · refine ⟨i + 1, h, fun j hlt => ?_⟩
          cases j with
          | zero => rfl
          | succ j => exact hj j (Nat.lt_of_succ_lt_succ hlt)
      · rintro ⟨i, h, hj⟩
        cases i with
        | zero => exact .inl h
        | succ i => exact .inr ⟨(hj 0 (Nat.succ_pos i)).symm, i, h, fun j hlt => hj (j + 1) (Nat.succ_lt_succ hlt)⟩

private theorem same_iff (a b : List Nat) : SameVersion a b ↔ ¬ Before a b ∧ ¬ Before b a := by
  constructor
  · intro h
    exact ⟨fun ⟨i, hi, _⟩ => by have := h i; omega, fun ⟨i, hi, _⟩ => by have := h i; omega⟩
  · rintro ⟨h1, h2⟩
    classical
    by_contra hne
    simp only [SameVersion, not_forall] at hne
    have hmin : ∀ j < Nat.find hne, part a j = part b j := fun j hj => by
      have := Nat.find_min hne hj
      omega
    rcases Nat.lt_or_gt_of_ne (Nat.find_spec hne) with h | h
    · exact h1 ⟨_, h, hmin⟩
    · exact h2 ⟨_, h, fun j hj => (hmin j hj).symm⟩

private theorem versionEqual_iff (a b : List Nat) : versionEqual a b = true ↔ SameVersion a b := by
  have h1 := versionGreater_iff a b
  have h2 := versionGreater_iff b a
  rw [same_iff]
  simp only [versionEqual, Bool.and_eq_true, Bool.not_eq_true', ← h1, ← h2]
  constructor
  · rintro ⟨a, b⟩; simp [a, b]
  · rintro ⟨a, b⟩; exact ⟨by simpa using b, by simpa using a⟩

private theorem unsuitable_iff (installed : Installed) (built : Option Nat) (request : Request) (pointer : Option Nat) :
    (versionFile installed built request pointer).unsuitable = false ↔ SamePointers built pointer := by
  cases built <;> cases pointer <;> simp [versionFile, SamePointers]

private theorem compatible_iff (installed : Installed) (built : Option Nat) (request : Request) (pointer : Option Nat) :
    (versionFile installed built request pointer).compatible = true ↔
      Compatible request.numbers installed.numbers := by
  have hg := versionGreater_iff request.numbers installed.numbers
  have h0 : part installed.numbers 0 = installed.major := rfl
  have h1 : part installed.numbers 1 = installed.minor := rfl
  have hle : ¬ Before installed.numbers request.numbers → part request.numbers 0 ≤ installed.major := by
    intro h
    by_contra hlt
    exact h ⟨0, by omega, fun j hj => absurd hj (Nat.not_lt_zero j)⟩
  simp only [Compatible, h0, h1, ← hg]
  simp only [versionFile]
  show (if installed.major = 0 then _ else _) = true ↔ _
  change (if installed.major = 0 then if part request.numbers 1 ≠ installed.minor then false
      else !versionGreater request.numbers installed.numbers
    else if part request.numbers 0 ≠ installed.major then false
      else !versionGreater request.numbers installed.numbers) = true ↔ _
  rw [← hg] at hle
  split
  · rename_i hm
    split
    · rename_i hne
      simp only [Bool.false_eq_true, false_iff]
      rintro ⟨_, _, h⟩
      exact hne (h hm)
    · rename_i heq
      simp only [ne_eq, not_not] at heq
      simp only [Bool.not_eq_true', Bool.not_eq_true]
      constructor
      · intro h
        have := hle (by simp [h])
        exact ⟨h, by omega, fun _ => heq⟩
      · exact fun h => h.1
  · rename_i hm
    split
    · rename_i hne
      simp only [Bool.false_eq_true, false_iff]
      rintro ⟨_, h, _⟩
      exact hne h
    · rename_i heq
      simp only [ne_eq, not_not] at heq
      simp only [Bool.not_eq_true', Bool.not_eq_true]
      exact ⟨fun h => ⟨h, heq, fun h0 => absurd h0 hm⟩, fun h => h.1⟩

private theorem compatible_of_same {a b : List Nat} (h : SameVersion a b) : Compatible a b :=
  ⟨((same_iff a b).1 h).2, h 0, fun _ => h 1⟩

private theorem found_compatible (installed : Installed) (built : Option Nat) (request : Request) (pointer : Option Nat) :
    ((versionFile installed built request pointer).exact || (versionFile installed built request pointer).compatible) = true ↔
      Compatible request.numbers installed.numbers := by
  rw [Bool.or_eq_true, compatible_iff]
  constructor
  · rintro (h | h)
    · exact compatible_of_same ((versionEqual_iff _ _).1 h)
    · exact h
  · exact .inr

/-- The full property: an installed library is found exactly if its version fits the request and it has the pointer size of the
project; and `find_package` can be called in all directories of a project. -/
def C105_full_statement : Prop :=
  (∀ (installed : Installed) (built pointer : Option Nat) (request : Request),
    accepted request (versionFile installed built request pointer) = true ↔
      SamePointers built pointer ∧ ShouldFind installed.numbers request) ∧
  ∀ commands : List Command, ∃ scope, configure commands = some scope

/-- **C105** (partial): this is true for requests which are not ranges. -/
theorem C105_version_partial (installed : Installed) (built pointer : Option Nat) (request : Request)
    (hr : ∀ lower upper excluded, request ≠ .range lower upper excluded) :
    accepted request (versionFile installed built request pointer) = true ↔
      SamePointers built pointer ∧ ShouldFind installed.numbers request := by
  have hu := unsuitable_iff installed built request pointer
  simp only [accepted, Bool.and_eq_true, Bool.not_eq_true', hu]
  cases request with
  | any => simp [ShouldFind]
  | version numbers exact =>
    cases exact with
    | true =>
      have : (versionFile installed built (.version numbers true) pointer).exact = true ↔ _ :=
        versionEqual_iff numbers installed.numbers
      simp only [ShouldFind, this]
    | false =>
      have := found_compatible installed built (.version numbers false) pointer
      simp only [ShouldFind, this]
      rfl
  | range lower upper excluded => exact absurd rfl (hr lower upper excluded)

/-- **C105**, what happens for ranges: the upper end is ignored, and the library has to be compatible with the lower end. -/
theorem C105_range (installed : Installed) (built pointer : Option Nat) (lower upper : List Nat) (excluded : Bool) :
    accepted (.range lower upper excluded) (versionFile installed built (.range lower upper excluded) pointer) = true ↔
      SamePointers built pointer ∧ Compatible lower installed.numbers := by
  have hu := unsuitable_iff installed built (.range lower upper excluded) pointer
  have := found_compatible installed built (.range lower upper excluded) pointer
  simp only [accepted, Bool.and_eq_true, Bool.not_eq_true', hu, this]
  rfl

/-! ### Directories -/

private theorem go_cons_map (n : Nat) (l : List (List Nat)) (first : List Nat) (rest : List (List Nat))
    (h : l = first :: rest) : l.map (n :: ·) = (n :: first) :: rest.map (n :: ·) := by
  rw [h]; rfl

private theorem inside_cons (n : Nat) (d first : List Nat) : Inside (n :: d) (n :: first) ↔ Inside d first := by
  simp [Inside]

private theorem runAll_found : (commands : List Command) → runAll commands ⟨true, true⟩ = some ⟨true, true⟩
  | [] => rfl
  | .findPackage :: rest => by
    simp only [runAll, Command.run, configFile]
    exact runAll_found rest
  | .subdirectory inner :: rest => by
    simp only [runAll, Command.run, runAll_found inner, Option.map_some]
    exact runAll_found rest

private theorem runAll_elsewhere : (commands : List Command) → (n : Nat) →
    (findsIn.go commands n = [] → runAll commands ⟨true, false⟩ = some ⟨true, false⟩) ∧
    (findsIn.go commands n ≠ [] → runAll commands ⟨true, false⟩ = none)
  | [], n => ⟨fun _ => rfl, fun h => absurd (by simp [findsIn.go]) h⟩
  | .findPackage :: rest, n => ⟨fun h => by simp [findsIn.go] at h, fun _ => rfl⟩
  | .subdirectory inner :: rest, n => by
    have hi := runAll_elsewhere inner 0
    have hr := runAll_elsewhere rest (n + 1)
    simp only [findsIn.go, List.append_eq_nil_iff, List.map_eq_nil_iff, ne_eq, not_and]
    simp only [runAll, Command.run]
    by_cases h : findsIn.go inner 0 = []
    · simp only [hi.1 h, Option.map_some, h, true_implies, true_and]
      exact hr
    · simp [hi.2 h, h]

/-- What happens before the library was found. -/
private theorem runAll_start : (commands : List Command) → (n : Nat) →
    (findsIn.go commands n = [] → runAll commands ⟨false, false⟩ = some ⟨false, false⟩) ∧
    ∀ first rest, findsIn.go commands n = first :: rest →
      ((∀ d ∈ rest, Inside d first) → runAll commands ⟨false, false⟩ = some ⟨true, first.isEmpty⟩) ∧
      ((∃ d ∈ rest, ¬ Inside d first) → runAll commands ⟨false, false⟩ = none)
  | [], n => ⟨fun _ => rfl, fun _ _ h => by simp [findsIn.go] at h⟩
  | .findPackage :: rest, n => by
    refine ⟨fun h => by simp [findsIn.go] at h, fun first others h => ?_⟩
    simp only [findsIn.go, List.cons.injEq] at h
    obtain ⟨rfl, rfl⟩ := h
    have hrun : runAll (.findPackage :: rest) ⟨false, false⟩ = some ⟨true, true⟩ := by
      simp [runAll, Command.run, configFile, runAll_found]
    refine ⟨fun _ => by rw [hrun]; rfl, ?_⟩
    rintro ⟨d, _, hd⟩
    exact absurd (List.nil_prefix) hd
  | .subdirectory inner :: rest, n => by
    have hi := runAll_start inner 0
    have hr := runAll_start rest (n + 1)
    simp only [runAll, Command.run, findsIn.go]
    cases hin : findsIn.go inner 0 with
    | nil =>
      simp only [hi.1 hin, Option.map_some, List.map_nil, List.nil_append]
      exact hr
    | cons f fs =>
      have hi2 := hi.2 f fs hin
      refine ⟨fun h => by simp at h, fun first others h => ?_⟩
      simp only [List.map_cons, List.cons_append, List.cons.injEq] at h
      obtain ⟨rfl, rfl⟩ := h
      have he := runAll_elsewhere rest (n + 1)
      have hout : ∀ d ∈ findsIn.go rest (n + 1), ¬ Inside d (n :: f) := by
        intro d hd hin
        obtain ⟨t, rfl⟩ := hin
        have : ∀ (commands : List Command) (k : Nat) (x : Nat) (xs : List Nat),
            (x :: xs) ∈ findsIn.go commands k → k ≤ x := by
          intro commands
          induction commands with
          | nil => intro k x xs h; simp [findsIn.go] at h
          | cons c rest ih =>
            intro k x xs h
            cases c with
            | findPackage =>
              simp only [findsIn.go, List.mem_cons, reduceCtorEq, false_or] at h
              exact ih k x xs h
            | subdirectory inner =>
              simp only [findsIn.go, List.mem_append, List.mem_map, List.cons.injEq] at h
              rcases h with ⟨_, _, rfl, _⟩ | h
              · exact Nat.le_refl _
              · have := ih (k + 1) x xs h
                omega
        have := this rest (n + 1) n (f ++ t) hd
        omega
      constructor
      · intro hall
        have h1 := hi2.1 (fun d hd => (inside_cons n d f).1 (hall (n :: d) (by simp [hd])))
        have hnil : findsIn.go rest (n + 1) = [] := by
          rw [List.eq_nil_iff_forall_not_mem]
          intro d hd
          exact hout d hd (hall d (by simp [hd]))
        simp only [h1, Option.map_some]
        rw [he.1 hnil]
        rfl
      · rintro ⟨d, hd, hnot⟩
        simp only [List.mem_append, List.mem_map] at hd
        rcases hd with ⟨d', hd', rfl⟩ | hd
        · rw [inside_cons] at hnot
          simp [hi2.2 ⟨d', hd', hnot⟩]
        · by_cases hok : ∀ d ∈ fs, Inside d f
          · simp only [hi2.1 hok, Option.map_some]
            exact he.2 (List.ne_nil_of_mem hd)
          · simp only [not_forall] at hok
            obtain ⟨d', hd', hn'⟩ := hok
            simp [hi2.2 ⟨d', hd', hn'⟩]

/-- **C105** (partial): a project can be configured exactly if all `find_package` are in the directory of the first one, or in
directories inside of it. -/
theorem C105_directories_partial (commands : List Command) :
    (∃ scope, configure commands = some scope) ↔
      ∀ first rest, findsIn commands = first :: rest → ∀ d ∈ rest, Inside d first := by
  have h := runAll_start commands 0
  constructor
  · rintro ⟨scope, hs⟩ first rest hf d hd
    by_contra hn
    have := (h.2 first rest hf).2 ⟨d, hd, hn⟩
    rw [configure, this] at hs
    cases hs
  · intro hall
    cases hf : findsIn commands with
    | nil => exact ⟨_, h.1 hf⟩
    | cons first rest => exact ⟨_, (h.2 first rest hf).1 (hall first rest hf)⟩

/-- **C105** is false: two directories next to each other can not both use `find_package`. -/
theorem C105_counterexample : ¬ C105_full_statement := by
  rintro ⟨_, h⟩
  obtain ⟨scope, hs⟩ := h [.subdirectory [.findPackage], .subdirectory [.findPackage]]
  have : configure [.subdirectory [.findPackage], .subdirectory [.findPackage]] = none := by decide +kernel
  rw [this] at hs
  cases hs

/-- **C105** is also false for ranges: with 1.5.0 installed, `find_package(equistore 1.0...<1.2)` finds it; and with 0.5.0
installed, `find_package(equistore 0.4...<0.6)` does not. -/
theorem C105_counterexample_range :
    (accepted (.range [1, 0] [1, 2] true) (versionFile ⟨1, 5, 0⟩ none (.range [1, 0] [1, 2] true) none) = true ∧
      ¬ ShouldFind [1, 5, 0] (.range [1, 0] [1, 2] true)) ∧
    (accepted (.range [0, 4] [0, 6] true) (versionFile ⟨0, 5, 0⟩ none (.range [0, 4] [0, 6] true) none) = false ∧
      ShouldFind [0, 5, 0] (.range [0, 4] [0, 6] true)) := by
  refine ⟨⟨by decide, ?_⟩, by decide, ?_⟩
  · rintro ⟨_, h⟩
    simp only [if_true] at h
    exact absurd ((versionGreater_iff [1, 2] [1, 5, 0]).2 h) (by decide)
  · refine ⟨fun h => absurd ((versionGreater_iff [0, 4] [0, 5, 0]).2 h) (by decide), ?_⟩
    simp only [if_true]
    exact (versionGreater_iff [0, 6] [0, 5, 0]).1 (by decide)

/-! ### Examples -/

example : Compatible [0, 5] [0, 5, 2] ∧ ¬ Compatible [0, 4] [0, 5, 2] ∧ Compatible [1, 2, 3] [1, 4, 0] ∧
    ¬ Compatible [1, 4, 1] [1, 4, 0] ∧ ¬ Compatible [1] [2, 0, 0] := by
  refine ⟨?_, ?_, ?_, ?_, ?_⟩
  · exact (compatible_iff ⟨0, 5, 2⟩ none (.version [0, 5] false) none).1 (by decide)
  · exact fun h => absurd ((compatible_iff ⟨0, 5, 2⟩ none (.version [0, 4] false) none).2 h) (by decide)
  · exact (compatible_iff ⟨1, 4, 0⟩ none (.version [1, 2, 3] false) none).1 (by decide)
  · exact fun h => absurd ((compatible_iff ⟨1, 4, 0⟩ none (.version [1, 4, 1] false) none).2 h) (by decide)
  · exact fun h => absurd ((compatible_iff ⟨2, 0, 0⟩ none (.version [1] false) none).2 h) (by decide)

/-- A 64-bit library is not found by a 32-bit project. -/
example : accepted .any (versionFile ⟨0, 5, 2⟩ (some 8) .any (some 4)) = false ∧
    accepted (.version [0, 5, 2, 0] true) (versionFile ⟨0, 5, 2⟩ (some 8) (.version [0, 5, 2, 0] true) (some 8)) = true := by
  decide

/-- A project with `find_package` at the top and in two directories. -/
example : findsIn [.findPackage, .subdirectory [.findPackage], .subdirectory [.subdirectory [.findPackage], .findPackage]] =
      [[], [0], [1, 0], [1]] ∧
    configure [.findPackage, .subdirectory [.findPackage], .subdirectory [.subdirectory [.findPackage], .findPackage]] =
      some ⟨true, true⟩ := by
  refine ⟨by simp [findsIn, findsIn.go], by decide +kernel⟩

end Props
end Equistore
