import Verif.Lemmas.PyLabels
import Verif.Spec.PyIndexing

/-!
# Indexing labels in Python
-/

namespace Equistore
open Spec
namespace PyLabels

/-- Labels which are a view into memory: `full` are the elements of the memory for each entry, including those which are in no
field. -/
structure Shows (v : PyLabels) (full : List (List LabelValue)) : Prop where
  count : v.count = full.length
  row : ∀ r ∈ full, r.length = v.itemsize
  fields : ∀ f ∈ v.fields, f.2 < v.itemsize
  names : v.names.Nodup
  start : 0 < v.itemsize → v.start ≤ v.memory.length
  read : ∀ i (hi : i < full.length) j, j < v.itemsize → v.read i j = (full[i])[j]?

variable {v v' : PyLabels} {full : List (List LabelValue)}

/-- The values of an entry, from all the elements of memory. -/
def pick (fields : List (String × Nat)) (r : List LabelValue) : List LabelValue := fields.map fun f => r.getD f.2 0

theorem Shows.entries (h : v.Shows full) : v.entries = some (full.map (pick v.fields)) := by
  unfold PyLabels.entries
  rw [h.count, mapM_option_eq (g := fun i => pick v.fields (full.getD i []))]
  · congr 1
    refine List.ext_getElem (by simp) fun i h1 h2 => ?_
    have : i < full.length := by simpa using h1
    simp [this]
  · intro i hi
    have hi : i < full.length := by simpa using hi
    rw [mapM_option_eq (g := fun f => (full.getD i []).getD f.2 0)]
    · rfl
    · intro f hf
      have hj := h.fields f hf
      have hl := h.row _ (List.getElem_mem hi)
      rw [h.read i hi _ hj]
      simp [hi, hl, hj]

theorem Canonical.shows {rows : List (List LabelValue)} (h : v.Canonical rows) (hn : v.names.Nodup)
    (hs : v.start ≤ v.memory.length) : v.Shows rows := by
  refine ⟨h.count, fun r hr => by rw [h.row r hr, h.itemsize], fun f hf => ?_, hn, fun _ => hs, fun i hi j hj => ?_⟩
  · rw [h.fields] at hf
    have := List.mem_map_of_mem (f := Prod.snd) hf
    rw [zipIdx_map_snd] at this
    rw [h.itemsize]
    simpa using this
  · rw [h.itemsize] at hj
    rw [h.read hi hj]
    simp [h.row _ (List.getElem_mem hi), hj]

/-- Positions of a slice. -/
def slicePositions (first step : Int) (count : Nat) : List Nat := (List.range count).map fun k : Nat => (first + k * step).toNat

theorem slice_positive {n : Nat} {start stop : Option Int} {step : Int} (hs : 0 < step) {first last : Int}
    (hf : first = (start.map fun x => max 0 (min (n : Int) (fromEnd n x))).getD 0)
    (hl : last = (stop.map fun x => max 0 (min (n : Int) (fromEnd n x))).getD n) {count : Nat}
    (hc : count = if first < last then ((last - first - 1) / step + 1).toNat else 0) :
    (∀ k < count, 0 ≤ first + k * step ∧ first + k * step < n) ∧
    SliceTakes n start stop step (slicePositions first step count) := by
  have hf0 : 0 ≤ first ∧ first ≤ n := by
    rw [hf]
    cases start <;> simp only [Option.map_none, Option.map_some, Option.getD_none, Option.getD_some] <;> omega
  have hl0 : 0 ≤ last ∧ last ≤ n := by
    rw [hl]
    cases stop <;> simp only [Option.map_none, Option.map_some, Option.getD_none, Option.getD_some] <;> omega
  have hk : ∀ k : Nat, k < count ↔ first + k * step < last := by
    intro k
    rw [hc]
    split
    · next hlt =>
      have hd : 0 ≤ (last - first - 1) / step := Int.ediv_nonneg (by omega) (by omega)
      have h1 : k < ((last - first - 1) / step + 1).toNat ↔ (k : Int) ≤ (last - first - 1) / step := by omega
      rw [h1, Int.le_ediv_iff_mul_le hs]
      omega
    · next hlt =>
      have : 0 ≤ (k : Int) * step := Int.mul_nonneg (by omega) (by omega)
      omega
  have hpos : ∀ k : Nat, 0 ≤ (k : Int) * step := fun k => Int.mul_nonneg (by omega) (by omega)
  refine ⟨fun k h => ⟨by have := hpos k; omega, by have := (hk k).1 h; omega⟩, ?_⟩
  unfold SliceTakes
  rw [if_pos hs]
  constructor
  · unfold slicePositions
    rw [List.pairwise_map]
    refine List.Pairwise.imp ?_ List.pairwise_lt_range
    intro a b hab
    have h1 := hpos a
    have h2 := hpos b
    have : (a : Int) * step < b * step := Int.mul_lt_mul_of_pos_right (by omega) hs
    omega
  · intro p
    have hmem : p ∈ slicePositions first step count ↔ ∃ k : Nat, first + k * step < last ∧ (p : Int) = first + k * step := by
      unfold slicePositions
      simp only [List.mem_map, List.mem_range]
      constructor
      · rintro ⟨k, h1, rfl⟩
        have := hpos k
        exact ⟨k, (hk k).1 h1, by omega⟩
      · rintro ⟨k, h1, h2⟩
        exact ⟨k, (hk k).2 h1, by omega⟩
    rw [hmem]
    have hdiv : step ∣ (p : Int) - first → first ≤ p → ∃ k : Nat, (p : Int) = first + k * step := by
      rintro ⟨q, hq⟩ hle
      have hq0 : 0 ≤ q := by
        rcases Int.lt_or_le q 0 with h | h
        · have := Int.mul_neg_of_pos_of_neg hs h
          omega
        · exact h
      obtain ⟨k, rfl⟩ := Int.eq_ofNat_of_zero_le hq0
      refine ⟨k, ?_⟩
      have : (k : Int) * step = step * k := Int.mul_comm _ _
      omega
    have hback : (∃ k : Nat, (p : Int) = first + k * step) → step ∣ (p : Int) - first ∧ first ≤ p := by
      rintro ⟨k, hk⟩
      have := hpos k
      refine ⟨⟨k, ?_⟩, by omega⟩
      have : (k : Int) * step = step * k := Int.mul_comm _ _
      omega
    have key : (∃ k : Nat, first + k * step < last ∧ (p : Int) = first + k * step) ↔
        (p : Int) < last ∧ first ≤ p ∧ step ∣ (p : Int) - first := by
      constructor
      · rintro ⟨k, h1, h2⟩
        obtain ⟨h3, h4⟩ := hback ⟨k, h2⟩
        exact ⟨by omega, h4, h3⟩
      · rintro ⟨h1, h2, h3⟩
        obtain ⟨k, h4⟩ := hdiv h3 h2
        exact ⟨k, by omega, h4⟩
    rw [key]
    have hstop : (p : Int) < last ↔ p < n ∧ ∀ b ∈ stop, (p : Int) < fromEnd n b := by
      rw [hl]
      cases stop with
      | none => simp
      | some b => simp only [Option.map_some, Option.getD_some, Option.mem_some_iff, forall_eq']; omega
    rw [hstop]
    cases start with
    | none =>
      simp only [Option.map_none, Option.getD_none] at hf
      subst hf
      simp only [Option.map_none, Option.getD_none, Option.not_mem_none, false_implies, implies_true, true_and, Int.max_self]
      constructor
      · rintro ⟨⟨a, b⟩, -, c⟩
        exact ⟨a, b, c⟩
      · rintro ⟨a, b, c⟩
        exact ⟨⟨a, b⟩, by omega, c⟩
    | some a =>
      simp only [Option.map_some, Option.getD_some] at hf
      simp only [Option.map_some, Option.getD_some, Option.mem_some_iff, forall_eq']
      by_cases hpn : p < n
      · have h1 : first ≤ p ↔ fromEnd n a ≤ p := by omega
        rw [h1]
        by_cases h2 : fromEnd n a ≤ p
        · have : first = max 0 (fromEnd n a) := by omega
          rw [this]
          constructor
          · rintro ⟨⟨x, y⟩, z, w⟩
            exact ⟨x, z, y, w⟩
          · rintro ⟨x, z, y, w⟩
            exact ⟨⟨x, y⟩, z, w⟩
        · simp [h2]
      · simp [hpn]

theorem slice_negative {n : Nat} {start stop : Option Int} {step : Int} (hs : step < 0) {first last : Int}
    (hf : first = (start.map fun x => max (-1) (min (n - 1 : Int) (fromEnd n x))).getD (n - 1))
    (hl : last = (stop.map fun x => max (-1) (min (n - 1 : Int) (fromEnd n x))).getD (-1)) {count : Nat}
    (hc : count = if last < first then ((first - last - 1) / (-step) + 1).toNat else 0) :
    (∀ k < count, 0 ≤ first + k * step ∧ first + k * step < n) ∧
    SliceTakes n start stop step (slicePositions first step count) := by
  have hf0 : -1 ≤ first ∧ first ≤ n - 1 := by
    rw [hf]
    cases start <;> simp only [Option.map_none, Option.map_some, Option.getD_none, Option.getD_some] <;> omega
  have hl0 : -1 ≤ last ∧ last ≤ n - 1 := by
    rw [hl]
    cases stop <;> simp only [Option.map_none, Option.map_some, Option.getD_none, Option.getD_some] <;> omega
  have hpos : ∀ k : Nat, (k : Int) * step ≤ 0 := fun k => by
    have := Int.mul_nonneg (a := (k : Int)) (b := -step) (by omega) (by omega)
    rw [Int.mul_neg] at this
    omega
  have hk : ∀ k : Nat, k < count ↔ last < first + k * step := by
    intro k
    rw [hc]
    split
    · next hlt =>
      have hd : 0 ≤ (first - last - 1) / (-step) := Int.ediv_nonneg (by omega) (by omega)
      have h1 : k < ((first - last - 1) / (-step) + 1).toNat ↔ (k : Int) ≤ (first - last - 1) / (-step) := by omega
      rw [h1, Int.le_ediv_iff_mul_le (by omega), Int.mul_neg]
      omega
    · next hlt =>
      have := hpos k
      omega
  refine ⟨fun k h => ⟨by have := (hk k).1 h; omega, by have := hpos k; omega⟩, ?_⟩
  unfold SliceTakes
  rw [if_neg (by omega)]
  constructor
  · unfold slicePositions
    rw [List.pairwise_map, List.pairwise_iff_getElem]
    intro a b ha hb hab
    simp only [List.length_range] at ha hb
    simp only [List.getElem_range]
    have h2 := (hk b).1 hb
    have : (b : Int) * step < a * step := Int.mul_lt_mul_of_neg_right (by omega) hs
    omega
  · intro p
    have hmem : p ∈ slicePositions first step count ↔ ∃ k : Nat, last < first + k * step ∧ (p : Int) = first + k * step := by
      unfold slicePositions
      simp only [List.mem_map, List.mem_range]
      constructor
      · rintro ⟨k, h1, rfl⟩
        have := (hk k).1 h1
        exact ⟨k, this, by omega⟩
      · rintro ⟨k, h1, h2⟩
        exact ⟨k, (hk k).2 h1, by omega⟩
    rw [hmem]
    have hdiv : step ∣ first - (p : Int) → (p : Int) ≤ first → ∃ k : Nat, (p : Int) = first + k * step := by
      rintro ⟨q, hq⟩ hle
      have hq0 : q ≤ 0 := by
        rcases Int.lt_or_le 0 q with h | h
        · have := Int.mul_neg_of_neg_of_pos hs h
          omega
        · exact h
      obtain ⟨k, hk⟩ := Int.eq_ofNat_of_zero_le (a := -q) (by omega)
      refine ⟨k, ?_⟩
      rw [← hk, Int.neg_mul, Int.mul_comm q step]
      omega
    have hback : (∃ k : Nat, (p : Int) = first + k * step) → step ∣ first - (p : Int) ∧ (p : Int) ≤ first := by
      rintro ⟨k, hk⟩
      have := hpos k
      refine ⟨⟨-k, ?_⟩, by omega⟩
      rw [Int.mul_neg, Int.mul_comm]
      omega
    have key : (∃ k : Nat, last < first + k * step ∧ (p : Int) = first + k * step) ↔
        last < (p : Int) ∧ (p : Int) ≤ first ∧ step ∣ first - (p : Int) := by
      constructor
      · rintro ⟨k, h1, h2⟩
        obtain ⟨h3, h4⟩ := hback ⟨k, h2⟩
        exact ⟨by omega, h4, h3⟩
      · rintro ⟨h1, h2, h3⟩
        obtain ⟨k, h4⟩ := hdiv h3 h2
        exact ⟨k, by omega, h4⟩
    rw [key]
    by_cases hpn : p < n
    · have hstop : last < (p : Int) ↔ ∀ b ∈ stop, fromEnd n b < (p : Int) := by
        rw [hl]
        cases stop with
        | none => simp; omega
        | some b => simp only [Option.map_some, Option.getD_some, Option.mem_some_iff, forall_eq']; omega
      rw [hstop]
      cases start with
      | none =>
        simp only [Option.map_none, Option.getD_none] at hf
        subst hf
        simp only [Option.map_none, Option.getD_none, Option.not_mem_none, false_implies, implies_true, true_and, Int.min_self]
        constructor
        · rintro ⟨b, -, c⟩
          exact ⟨hpn, b, c⟩
        · rintro ⟨-, b, c⟩
          exact ⟨b, by omega, c⟩
      | some a =>
        simp only [Option.map_some, Option.getD_some] at hf
        simp only [Option.map_some, Option.getD_some, Option.mem_some_iff, forall_eq']
        have h1 : (p : Int) ≤ first ↔ (p : Int) ≤ fromEnd n a := by omega
        rw [h1]
        by_cases h2 : (p : Int) ≤ fromEnd n a
        · have : first = min (n - 1 : Int) (fromEnd n a) := by omega
          rw [this]
          constructor
          · rintro ⟨y, z, w⟩
            exact ⟨hpn, z, y, w⟩
          · rintro ⟨-, z, y, w⟩
            exact ⟨y, z, w⟩
        · simp [h2]
    · constructor
      · rintro ⟨-, h, -⟩
        omega
      · rintro ⟨h, -⟩
        exact absurd h hpn

/-- Python's indices of a slice are the documented ones. -/
theorem sliceIndices_takes {n : Nat} {start stop step : Option Int} {first s : Int} {count : Nat}
    (h : sliceIndices n start stop step = some (first, s, count)) :
    s = step.getD 1 ∧ s ≠ 0 ∧ (∀ k < count, 0 ≤ first + k * s ∧ first + k * s < n) ∧
    SliceTakes n start stop s (slicePositions first s count) := by
  unfold sliceIndices at h
  simp only at h
  split at h
  · cases h
  · next h0 =>
    split at h
    · next hpos =>
      simp only [Option.some.injEq, Prod.mk.injEq] at h
      obtain ⟨h1, h2, h3⟩ := h
      rw [h1, h2] at h3
      rw [h2] at h0 hpos
      exact ⟨h2.symm, h0, slice_positive hpos h1.symm rfl h3.symm⟩
    · next hpos =>
      simp only [Option.some.injEq, Prod.mk.injEq] at h
      obtain ⟨h1, h2, h3⟩ := h
      rw [h1, h2] at h3
      rw [h2] at h0 hpos
      exact ⟨h2.symm, h0, slice_negative (by omega) h1.symm rfl h3.symm⟩

theorem sliceIndices_none {n : Nat} {start stop step : Option Int} :
    sliceIndices n start stop step = none ↔ step = some 0 := by
  unfold sliceIndices
  simp only
  cases step with
  | none => simp
  | some s =>
    simp only [Option.getD_some, Option.some.injEq]
    by_cases h : s = 0
    · simp [h]
    · rw [if_neg h]
      split <;> simp [h]

theorem Shows.slice (h : v.Shows full) {start stop step : Option Int} (hv : v.getItem (.slice start stop step) = .ok v') :
    v'.names = v.names ∧ ∃ positions, SliceTakes full.length start stop (step.getD 1) positions ∧
      (∀ p ∈ positions, p < full.length) ∧ v'.Shows (positions.map fun p => full.getD p []) ∧ v'.fields = v.fields ∧
      v'.itemsize = v.itemsize := by
  unfold getItem at hv
  cases hi : sliceIndices v.count start stop step with
  | none =>
    simp only [hi] at hv
    cases hv
  | some q =>
    obtain ⟨first, s, count⟩ := q
    simp only [hi] at hv
    cases hv
    obtain ⟨rfl, h0, hin, ht⟩ := sliceIndices_takes hi
    rw [h.count] at hin ht
    refine ⟨rfl, _, ht, ?_, ?_, rfl, rfl⟩
    · intro p hp
      unfold slicePositions at hp
      obtain ⟨k, hk, rfl⟩ := List.mem_map.1 hp
      have := hin k (by simpa using hk)
      omega
    have hlen : ∀ k, k < count → (first + k * step.getD 1).toNat < full.length := fun k hk => by
      have := hin k hk
      omega
    have hstart : 0 < v.itemsize → count ≠ 0 → 0 ≤ v.start + first * v.stride ∧
        (v.start + first * v.stride).toNat < v.memory.length := by
      intro hi0 hc0
      have hz := hin 0 (by omega)
      simp only [Int.ofNat_zero, Int.zero_mul, Int.add_zero] at hz
      obtain ⟨f, rfl⟩ := Int.eq_ofNat_of_zero_le hz.1
      have hfl : f < full.length := by omega
      have hr := h.read f hfl 0 hi0
      rw [List.getElem?_eq_getElem (by rw [h.row _ (List.getElem_mem hfl)]; exact hi0)] at hr
      unfold PyLabels.read at hr
      simp only [Int.natCast_zero, Int.add_zero] at hr
      split at hr
      · next hp =>
        obtain ⟨hlt, -⟩ := List.getElem?_eq_some_iff.1 hr
        exact ⟨hp, hlt⟩
      · cases hr
    refine ⟨by simp [slicePositions], ?_, h.fields, h.names, ?_, ?_⟩
    · intro r hr
      unfold slicePositions at hr
      simp only [List.map_map, List.mem_map, List.mem_range, Function.comp] at hr
      obtain ⟨k, hk, rfl⟩ := hr
      have := hlen k hk
      simp only [List.getD_eq_getElem?_getD, List.getElem?_eq_getElem this, Option.getD_some]
      exact h.row _ (List.getElem_mem this)
    · intro hi0
      change (if count = 0 then v.start else (v.start + first * v.stride).toNat) ≤ v.memory.length
      split
      · exact h.start hi0
      · next hc0 => exact Nat.le_of_lt (hstart hi0 hc0).2
    · intro i hi j hj
      have hic : i < count := by simpa [slicePositions] using hi
      have hc0 : count ≠ 0 := by omega
      have hlt := hlen i hic
      have hr := h.read _ hlt j hj
      have hs := (hstart (by change j < v.itemsize at hj; omega) hc0).1
      have e1 : ((first + i * step.getD 1).toNat : Int) = first + i * step.getD 1 := by
        have := hin i hic
        omega
      have hget : (List.map (fun p => full.getD p []) (slicePositions first (step.getD 1) count))[i] =
          full[(first + i * step.getD 1).toNat] := by
        simp [slicePositions, hlt]
      rw [hget, ← hr]
      unfold PyLabels.read
      have e2 : ((((if count = 0 then v.start else (v.start + first * v.stride).toNat : Nat) : Int) +
          i * (v.stride * step.getD 1) + j : Int)) =
          v.start + ((first + i * step.getD 1).toNat : Int) * v.stride + j := by
        rw [if_neg hc0, e1, Int.toNat_of_nonneg hs, Int.add_mul]
        have : (i : Int) * (v.stride * step.getD 1) = i * step.getD 1 * v.stride := by
          rw [Int.mul_comm v.stride, Int.mul_assoc]
        rw [this]
        omega
      simp only [e2]

theorem read_packed (h1 : v.start = 0) (h2 : v.stride = v.itemsize) {i j : Nat} :
    v.read i j = v.memory[i * v.itemsize + j]? := by
  unfold PyLabels.read
  have e : ((v.start : Int) + i * v.stride + j : Int) = ((i * v.itemsize + j : Nat) : Int) := by
    rw [h1, h2]
    push_cast
    omega
  simp only [e, Int.toNat_natCast]
  rw [if_pos (by omega)]

theorem Shows.positions (h : v.Shows full) {given : List Int} (hv : v.getItem (.positions given) = .ok v') :
    ∃ indices : List Nat, indices.map Int.ofNat = given.map (fromEnd full.length) ∧ (∀ i ∈ indices, i < full.length) ∧
      v'.names = v.names ∧ v'.Shows (indices.map fun p => full.getD p []) ∧
      v'.fields = v.fields ∧ v'.itemsize = v.itemsize ∧ v'.stride = v'.itemsize := by
  simp only [getItem] at hv
  split at hv
  · cases hv
  · next indices ha =>
    cases hv
    rw [h.count] at ha
    obtain ⟨hg, hlt⟩ := wrapIndices ha
    refine ⟨indices, hg, ?_⟩
    have hrow : ∀ r ∈ indices.map fun p => full.getD p [], r.length = v.itemsize := by
      intro r hr
      obtain ⟨i, hi, rfl⟩ := List.mem_map.1 hr
      have := hlt i hi
      simp only [List.getD_eq_getElem?_getD, List.getElem?_eq_getElem this, Option.getD_some]
      exact h.row _ (List.getElem_mem this)
    have hmem : (indices.flatMap fun i => (List.range v.itemsize).map fun j => (v.read i j).getD 0) =
        (indices.map fun p => full.getD p []).flatten := by
      rw [← List.flatMap_def]
      apply List.flatMap_congr
      intro i hi
      have hi := hlt i hi
      have hl := h.row _ (List.getElem_mem hi)
      rw [← hl, map_range_getElem]
      · simp [hi]
      · intro j hj
        rw [h.read i hi j (by omega)]
        simp [hj]
    refine ⟨hlt, rfl, ⟨by simp, hrow, h.fields, h.names, fun _ => Nat.zero_le _, ?_⟩, rfl, rfl, rfl⟩
    intro i hi j hj
    have := flatten_getElem? hrow hi hj []
    rw [List.append_nil, ← hmem] at this
    rw [read_packed rfl rfl]
    refine this.trans ?_
    rw [List.getElem?_eq_getElem]

theorem lookup_field {fields : List (String × Nat)} {name : String} {offset : Nat}
    (h : fields.lookup name = some offset) : (name, offset) ∈ fields := by
  induction fields with
  | nil => cases h
  | cons f fields ih =>
    obtain ⟨a, b⟩ := f
    rw [List.lookup_cons] at h
    split at h
    · next he =>
      cases h
      rw [beq_iff_eq.1 he]
      exact List.mem_cons_self
    · exact List.mem_cons_of_mem _ (ih h)

theorem lookup_isSome {fields : List (String × Nat)} {name : String} (h : name ∈ fields.map Prod.fst) :
    ∃ offset, fields.lookup name = some offset := by
  induction fields with
  | nil => cases h
  | cons f fields ih =>
    obtain ⟨a, b⟩ := f
    rw [List.lookup_cons]
    split
    · exact ⟨b, rfl⟩
    · next he =>
      apply ih
      rcases List.mem_cons.1 h with h | h
      · simp only at h
        simp [h] at he
      · exact h

theorem mapM_lookup {fields : List (String × Nat)} {names : List String} {out : List (String × Nat)}
    (h : (names.mapM fun name => (fields.lookup name).map fun offset => (name, offset)) = some out) :
    out.map Prod.fst = names ∧ ∀ f ∈ out, f ∈ fields := by
  induction names generalizing out with
  | nil =>
    cases h
    simp
  | cons name names ih =>
    rw [List.mapM_cons] at h
    cases hl : fields.lookup name with
    | none => simp [hl] at h
    | some offset =>
      cases hr : names.mapM fun name => (fields.lookup name).map fun offset => (name, offset) with
      | none => simp [hr] at h
      | some rest =>
        simp [hl, hr] at h
        subst h
        obtain ⟨h1, h2⟩ := ih hr
        refine ⟨by simp [h1], fun f hf => ?_⟩
        rcases List.mem_cons.1 hf with rfl | hf
        · exact lookup_field hl
        · exact h2 f hf

theorem mapM_lookup_none {fields : List (String × Nat)} {names : List String} :
    (names.mapM fun name => (fields.lookup name).map fun offset => (name, offset)) = none →
    ∃ name ∈ names, name ∉ fields.map Prod.fst := by
  induction names with
  | nil => intro h; cases h
  | cons name names ih =>
    intro h
    by_cases hn : name ∈ fields.map Prod.fst
    · obtain ⟨offset, hl⟩ := lookup_isSome hn
      rw [List.mapM_cons, hl] at h
      cases hr : names.mapM fun name => (fields.lookup name).map fun offset => (name, offset) with
      | none =>
        obtain ⟨x, hx, hx'⟩ := ih hr
        exact ⟨x, List.mem_cons_of_mem _ hx, hx'⟩
      | some rest => simp [hr] at h
    · exact ⟨name, List.mem_cons_self, hn⟩

theorem Shows.select (h : v.Shows full) {names : List String} (hv : v.getItem (.names names) = .ok v') :
    v'.names = names ∧ v'.Shows full ∧ (∀ f ∈ v'.fields, f ∈ v.fields) ∧ names ≠ [] ∧ v'.itemsize = v.itemsize := by
  simp only [getItem] at hv
  split at hv
  · cases hv
  · next hok =>
    split at hv
    · cases hv
    · next fields hm =>
      cases hv
      obtain ⟨h1, h2⟩ := mapM_lookup hm
      simp only [Bool.or_eq_true, not_or, Bool.not_eq_true] at hok
      have hnd : names.Nodup := by simpa using hok.2
      refine ⟨h1, ⟨h.count, h.row, fun f hf => h.fields f (h2 f hf), ?_, h.start, h.read⟩, h2, ?_, rfl⟩
      · change (fields.map Prod.fst).Nodup
        rw [h1]
        exact hnd
      · rintro rfl
        simp at hok

end PyLabels
end Equistore
