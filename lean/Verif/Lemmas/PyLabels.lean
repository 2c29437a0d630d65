import Verif.Model.PyLabels
import Verif.Spec.PyLabels
import Verif.Lemmas.CLabels

/-!
# Labels in Python
-/

namespace Equistore
open Spec

theorem mapM_option_eq {α β : Type} {f : α → Option β} {g : α → β} {l : List α}
    (h : ∀ x ∈ l, f x = some (g x)) : l.mapM f = some (l.map g) := by
  induction l with
  | nil => rfl
  | cons x l ih =>
    rw [List.mapM_cons, h x (by simp), ih fun y hy => h y (by simp [hy])]
    rfl

theorem zipIdx_map_snd {α : Type} (l : List α) : l.zipIdx.map Prod.snd = List.range l.length := by
  rw [List.zipIdx_map_snd, List.range_eq_range']

theorem zipIdx_map_fst' {α : Type} (l : List α) : l.zipIdx.map Prod.fst = l := by
  simp

/-- A list is made of its elements. -/
theorem map_range_getElem {α : Type} (l : List α) (f : Nat → α) (h : ∀ i (hi : i < l.length), f i = l[i]) :
    (List.range l.length).map f = l := by
  refine List.ext_getElem (by simp) fun i h₁ h₂ => ?_
  simp [h i h₂]

/-- An element of the memory behind entries which are one after the other. -/
theorem flatten_getElem? {α : Type} {n : Nat} {rows : List (List α)} (h : ∀ r ∈ rows, r.length = n) {i j : Nat}
    (hi : i < rows.length) (hj : j < n) (rest : List α) :
    (rows.flatten ++ rest)[i * n + j]? = some ((rows[i])[j]'(by rw [h _ (List.getElem_mem hi)]; exact hj)) := by
  have hlen := flatten_length_const h
  have hlt : i * n + j < rows.flatten.length := by
    rw [hlen]
    have : (i + 1) * n ≤ rows.length * n := Nat.mul_le_mul_right n hi
    rw [Nat.add_mul] at this
    omega
  rw [List.getElem?_append_left hlt]
  have hc := flatten_chunk_const h hi
  have : ((rows.flatten.drop (i * n)).take n)[j]? = (rows[i])[j]? := by rw [hc]
  rw [List.getElem?_take, if_pos hj, List.getElem?_drop] at this
  rw [this, List.getElem?_eq_getElem]

namespace PyLabels

/-- Labels whose entries are one after the other in memory, with the fields in the order of the
names. -/
structure Canonical (v : PyLabels) (rows : List (List LabelValue)) : Prop where
  fields : v.fields = v.names.zipIdx
  itemsize : v.itemsize = v.names.length
  stride : v.stride = v.names.length
  count : v.count = rows.length
  row : ∀ r ∈ rows, r.length = v.names.length
  memory : ∃ rest, v.memory.drop v.start = rows.flatten ++ rest

variable {v v' : PyLabels} {rows : List (List LabelValue)}

theorem Canonical.read (h : v.Canonical rows) {i j : Nat} (hi : i < rows.length) (hj : j < v.names.length) :
    v.read i j = some ((rows[i])[j]'(by rw [h.row _ (List.getElem_mem hi)]; exact hj)) := by
  obtain ⟨rest, hm⟩ := h.memory
  have := flatten_getElem? h.row hi hj rest
  rw [← hm, List.getElem?_drop] at this
  unfold PyLabels.read
  have he : (v.start + i * v.stride + j : Int) = ((v.start + (i * v.names.length + j) : Nat) : Int) := by
    rw [h.stride]; push_cast; omega
  simp only [he, Int.toNat_natCast]
  rw [if_pos (by omega), this]

theorem Canonical.entries (h : v.Canonical rows) : v.entries = some rows := by
  unfold PyLabels.entries
  rw [h.count]
  have hrow : ∀ i ∈ List.range rows.length,
      (v.fields.mapM fun f => v.read i f.2) = some (rows.getD i []) := by
    intro i hi
    have hi : i < rows.length := by simpa using hi
    have hl := h.row _ (List.getElem_mem hi)
    rw [mapM_option_eq (g := fun f => (rows[i]).getD f.2 0)]
    · congr 1
      rw [h.fields]
      have : (v.names.zipIdx.map fun f => (rows[i]).getD f.2 0)
          = (v.names.zipIdx.map Prod.snd).map fun j => (rows[i]).getD j 0 := by rw [List.map_map]; rfl
      rw [this, zipIdx_map_snd, ← hl, map_range_getElem]
      · simp [hi]
      · intro j hj
        simp [hj]
    · intro f hf
      have hj : f.2 < v.names.length := by
        rw [h.fields] at hf
        have := List.mem_map_of_mem (f := Prod.snd) hf
        rw [zipIdx_map_snd] at this
        simpa using this
      rw [h.read hi hj]
      simp [hl, hj]
  rw [mapM_option_eq hrow, map_range_getElem]
  intro i hi
  simp [hi]

theorem Canonical.readable (h : v.Canonical rows) : v.readable = true := by
  obtain ⟨rest, hm⟩ := h.memory
  unfold PyLabels.readable
  rw [hm, h.count, decide_eq_true_eq, List.length_append, flatten_length_const h.row]
  omega

theorem Canonical.describes (h : v.Canonical rows) (hn : ∀ n ∈ v.names, '\x00' ∉ n.toList) :
    Describes v.toC v.names rows := by
  obtain ⟨rest, hm⟩ := h.memory
  refine ⟨rfl, h.count, ⟨v.names.map cstring, [], by simp [toC], ?_⟩, .inr ⟨rest, by simp [toC, hm]⟩, h.row⟩
  rw [List.forall₂_map_left_iff, List.forall₂_same]
  exact fun n hmem => isCString_cstring (hn n hmem)

theorem names_ofMemory (names : List String) (memory : List LabelValue) (count : Nat) (c : Option CLabels) :
    (ofMemory names memory count c).names = names := by
  simp [PyLabels.names, ofMemory]

theorem canonical_ofMemory {names : List String} (c : Option CLabels) (h : ∀ r ∈ rows, r.length = names.length) :
    (ofMemory names rows.flatten rows.length c).Canonical rows := by
  have hn := names_ofMemory names rows.flatten rows.length c
  refine ⟨by rw [hn]; rfl, by rw [hn]; rfl, by rw [hn]; rfl, rfl, by rw [hn]; exact h, ⟨[], by simp [ofMemory]⟩⟩

/-! ### Indexing -/

/-- Slices without a step are a part of the positions. -/
theorem sliceIndices_one {n : Nat} {start stop step : Option Int} (hs : step.getD 1 = 1) {first s : Int} {count : Nat}
    (h : sliceIndices n start stop step = some (first, s, count)) :
    s = 1 ∧ 0 ≤ first ∧ (count = 0 ∨ first + count ≤ n) := by
  simp only [sliceIndices, hs] at h
  rw [if_neg (by decide), if_pos (by decide)] at h
  simp only [Int.ediv_one, Option.some.injEq, Prod.mk.injEq] at h
  obtain ⟨h1, h2, h3⟩ := h
  have hf : 0 ≤ first := by
    rw [← h1]
    cases start <;> simp only [Option.map_none, Option.map_some, Option.getD_none, Option.getD_some] <;> omega
  refine ⟨h2.symm, hf, ?_⟩
  rw [h1] at h3
  have hl : (stop.map fun x => max 0 (min (n : Int) (if x < 0 then x + n else x))).getD (n : Int) ≤ n := by
    cases stop <;> simp only [Option.map_none, Option.map_some, Option.getD_none, Option.getD_some] <;> omega
  generalize (stop.map fun x => max 0 (min (n : Int) (if x < 0 then x + n else x))).getD (n : Int) = last at *
  split at h3
  · right
    omega
  · left
    omega

theorem Canonical.slice_of (h : v.Canonical rows) {start stop step : Option Int} {f count : Nat}
    (hi : sliceIndices v.count start stop step = some ((f : Int), 1, count))
    (hb : count = 0 ∨ f + count ≤ rows.length)
    (hv : v.getItem (.slice start stop step) = .ok v') :
    v'.Canonical ((rows.drop f).take count) ∧ v'.names = v.names := by
  unfold getItem at hv
  simp only [hi] at hv
  cases hv
  obtain ⟨rest, hm⟩ := h.memory
  refine ⟨?_, rfl⟩
  have hrow : ∀ r ∈ (rows.drop f).take count, r.length = v.names.length := fun r hr =>
    h.row r (List.mem_of_mem_drop (List.mem_of_mem_take hr))
  by_cases h0 : count = 0
  · subst h0
    exact ⟨h.fields, h.itemsize, by simp [h.stride]; rfl, by simp, by simp, ⟨v.memory.drop v.start, by simp⟩⟩
  · have hc : f + count ≤ rows.length := by omega
    refine ⟨h.fields, h.itemsize, by simp [h.stride]; rfl, by simp; omega, hrow, ?_⟩
    simp only [h0, if_false]
    have he : (v.start + (f : Int) * v.stride : Int).toNat = v.start + f * v.names.length := by
      rw [h.stride]
      have : (v.start + (f : Int) * (v.names.length : Int) : Int) = ((v.start + f * v.names.length : Nat) : Int) := by
        push_cast; rfl
      rw [this, Int.toNat_natCast]
    refine ⟨((rows.drop f).drop count).flatten ++ rest, ?_⟩
    change v.memory.drop (v.start + (f : Int) * v.stride : Int).toNat = _
    rw [he, ← List.drop_drop, hm, ← List.append_assoc, ← List.flatten_append, List.take_append_drop,
      List.drop_append_of_le_length (by
        rw [flatten_length_const h.row]; exact Nat.mul_le_mul_right _ (by omega)),
      flatten_drop_const h.row]

theorem Canonical.slice (h : v.Canonical rows) {start stop step : Option Int} (hs : step.getD 1 = 1)
    (hv : v.getItem (.slice start stop step) = .ok v') :
    ∃ first count : Nat, v'.Canonical ((rows.drop first).take count) ∧ v'.names = v.names := by
  cases hi : sliceIndices v.count start stop step with
  | none =>
    unfold getItem at hv
    simp only [hi] at hv
    cases hv
  | some p =>
    obtain ⟨first, s, count⟩ := p
    obtain ⟨rfl, hf, hc⟩ := sliceIndices_one hs hi
    obtain ⟨f, rfl⟩ := Int.eq_ofNat_of_zero_le hf
    rw [h.count] at hc
    exact ⟨f, count, h.slice_of hi (by omega) hv⟩

theorem wrapIndex_eq_some {n : Nat} {i : Int} {p : Nat} : wrapIndex n i = some p ↔ fromEnd n i = p ∧ p < n := by
  unfold wrapIndex fromEnd
  dsimp only
  generalize (if i < 0 then i + (n : Int) else i) = j
  split
  · rw [Option.some_inj]
    omega
  · constructor
    · intro h; cases h
    · omega

theorem wrapIndex_eq_none {n : Nat} {i : Int} :
    wrapIndex n i = none ↔ ¬ (0 ≤ fromEnd n i ∧ fromEnd n i < n) := by
  unfold wrapIndex fromEnd
  dsimp only
  generalize (if i < 0 then i + (n : Int) else i) = j
  split
  · next h => simp [h]
  · next h => simp only [h, not_false_eq_true]

theorem wrapIndices {n : Nat} {indices : List Int} {ps : List Nat} (h : indices.mapM (wrapIndex n) = some ps) :
    ps.map Int.ofNat = indices.map (fromEnd n) ∧ ∀ p ∈ ps, p < n := by
  induction indices generalizing ps with
  | nil => cases h; simp
  | cons i indices ih =>
    rw [List.mapM_cons] at h
    cases hi : wrapIndex n i with
    | none => rw [hi] at h; cases h
    | some p =>
      cases hr : indices.mapM (wrapIndex n) with
      | none => rw [hi, hr] at h; cases h
      | some rest =>
        rw [hi, hr] at h
        cases h
        obtain ⟨h1, h2⟩ := ih hr
        obtain ⟨h3, h4⟩ := wrapIndex_eq_some.1 hi
        simp only [List.map_cons, h1, List.mem_cons, forall_eq_or_imp]
        exact ⟨by rw [h3]; rfl, h4, h2⟩

theorem wrapIndices_none {n : Nat} {indices : List Int} :
    indices.mapM (wrapIndex n) = none ↔ ∃ i ∈ indices, ¬ (0 ≤ fromEnd n i ∧ fromEnd n i < n) := by
  induction indices with
  | nil => constructor <;> intro h <;> simp at h
  | cons i indices ih =>
    rw [List.mapM_cons]
    simp only [List.mem_cons, exists_eq_or_imp]
    rw [← wrapIndex_eq_none, ← ih]
    cases wrapIndex n i with
    | none => simp
    | some p =>
      cases indices.mapM (wrapIndex n) <;> simp

theorem Canonical.positions (h : v.Canonical rows) {given : List Int}
    (hv : v.getItem (.positions given) = .ok v') :
    ∃ indices : List Nat, indices.map Int.ofNat = given.map (fromEnd rows.length) ∧ (∀ i ∈ indices, i < rows.length) ∧
      v'.Canonical (indices.map fun i => rows.getD i []) ∧ v'.names = v.names := by
  simp only [getItem] at hv
  split at hv
  · cases hv
  · next indices ha =>
    cases hv
    rw [h.count] at ha
    obtain ⟨hg, hlt⟩ := wrapIndices ha
    refine ⟨indices, hg, hlt, ⟨h.fields, h.itemsize, by simp [h.itemsize]; rfl, by simp, ?_, ⟨[], ?_⟩⟩, rfl⟩
    · intro r hr
      obtain ⟨i, hi, rfl⟩ := List.mem_map.1 hr
      have := hlt i hi
      simp only [List.getD_eq_getElem?_getD, List.getElem?_eq_getElem this, Option.getD_some]
      exact h.row _ (List.getElem_mem this)
    · simp only [List.drop_zero, List.append_nil, ← List.flatMap_def]
      apply List.flatMap_congr
      intro i hi
      have hi := hlt i hi
      have hl := h.row _ (List.getElem_mem hi)
      rw [h.itemsize, ← hl, map_range_getElem]
      · simp [hi]
      · intro j hj
        rw [h.read hi (by omega)]
        rfl

end PyLabels
end Equistore
