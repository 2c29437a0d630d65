import Verif.Model.Data
import Verif.Lemmas.Res
import Verif.Model.KeysToProperties
import Mathlib.Data.List.Nodup

/-! Indexing in `NdArray`. -/

namespace Equistore

/-- An index inside of an array of the given shape. -/
def ValidIdx (shape idx : List Nat) : Prop := List.Forall₂ (fun n i => i < n) shape idx

theorem ValidIdx.length_eq {shape idx : List Nat} (h : ValidIdx shape idx) :
    shape.length = idx.length := List.Forall₂.length_eq h

theorem shapeSize_nil : shapeSize [] = 1 := rfl
theorem shapeSize_cons (n : Nat) (s : List Nat) : shapeSize (n :: s) = n * shapeSize s := rfl

theorem shapeSize_append (s t : List Nat) : shapeSize (s ++ t) = shapeSize s * shapeSize t := by
  induction s with
  | nil => simp [shapeSize_nil]
  | cons n s ih => simp [shapeSize_cons, ih, Nat.mul_assoc]

theorem allIdx_length (shape : List Nat) : (allIdx shape).length = shapeSize shape := by
  induction shape with
  | nil => rfl
  | cons n s ih =>
    simp only [allIdx, List.length_flatMap, List.length_map, ih, shapeSize_cons]
    simp

theorem mem_allIdx {shape idx : List Nat} : idx ∈ allIdx shape ↔ ValidIdx shape idx := by
  induction shape generalizing idx with
  | nil => simp [allIdx, ValidIdx]
  | cons n s ih =>
    simp only [allIdx, List.mem_flatMap, List.mem_range, List.mem_map, ValidIdx]
    constructor
    · rintro ⟨i, hi, t, ht, rfl⟩; exact .cons hi (ih.1 ht)
    · intro h
      cases h with
      | cons h1 h2 => exact ⟨_, h1, _, ih.2 h2, rfl⟩

theorem offset_lt {shape idx : List Nat} (h : ValidIdx shape idx) : offset shape idx < shapeSize shape := by
  induction h with
  | nil => simp [offset, shapeSize_nil]
  | @cons n i s t hi _ ih =>
    simp only [offset, shapeSize_cons]
    calc i * shapeSize s + offset s t < i * shapeSize s + shapeSize s := by omega
      _ = (i + 1) * shapeSize s := by rw [Nat.add_mul, Nat.one_mul]
      _ ≤ n * shapeSize s := Nat.mul_le_mul_right _ hi

theorem getElem?_flatMap_const {α β : Type} {l : List α} {f : α → List β} {m : Nat}
    (h : ∀ a ∈ l, (f a).length = m) {i j : Nat} (hj : j < m) :
    (l.flatMap f)[i * m + j]? = (l[i]?).bind fun a => (f a)[j]? := by
  induction l generalizing i with
  | nil => simp
  | cons a l ih =>
    have ha := h a List.mem_cons_self
    cases i with
    | zero => simp only [Nat.zero_mul, Nat.zero_add, List.flatMap_cons]; rw [List.getElem?_append_left (by omega)]; simp
    | succ i =>
      rw [List.flatMap_cons, List.getElem?_append_right (by rw [ha, Nat.add_mul]; omega)]
      have : (i + 1) * m + j - (f a).length = i * m + j := by rw [ha, Nat.add_mul]; omega
      rw [this, ih fun a h' => h a (List.mem_cons_of_mem _ h')]
      simp

theorem allIdx_offset {shape idx : List Nat} (h : ValidIdx shape idx) :
    (allIdx shape)[offset shape idx]? = some idx := by
  induction h with
  | nil => rfl
  | @cons n i s t hi ht ih =>
    simp only [allIdx, offset]
    rw [getElem?_flatMap_const (m := shapeSize s) (by simp [allIdx_length]) (offset_lt ht)]
    simp [hi, ih]

theorem offset_inj {shape i j : List Nat} (hi : ValidIdx shape i) (hj : ValidIdx shape j)
    (h : offset shape i = offset shape j) : i = j := by
  have h1 := allIdx_offset hi
  rw [h, allIdx_offset hj] at h1
  exact (Option.some.inj h1).symm

namespace NdArray

/-- The invariant of `ndarray`: as many elements as the shape says. -/
def WF (a : NdArray) : Prop := a.elements.length = shapeSize a.shape

theorem build_wf (shape : List Nat) (f : List Nat → Elt) : (build shape f).WF := by
  simp [WF, build, allIdx_length]

@[simp] theorem build_shape (shape : List Nat) (f : List Nat → Elt) : (build shape f).shape = shape := rfl

theorem get_build {shape idx : List Nat} (h : ValidIdx shape idx) (f : List Nat → Elt) :
    (build shape f).get idx = f idx := by
  simp [get, build, List.getD_eq_getElem?_getD, allIdx_offset h]

theorem ext_get {a b : NdArray} (ha : a.WF) (hb : b.WF) (hs : a.shape = b.shape)
    (h : ∀ idx, ValidIdx a.shape idx → a.get idx = b.get idx) : a = b := by
  have hl : a.elements.length = b.elements.length := by rw [ha, hb, hs]
  have key : a.elements = b.elements := by
    apply List.ext_getElem hl
    intro n h1 h2
    have hn : n < (allIdx a.shape).length := by rw [allIdx_length, ← ha]; exact h1
    have hv : ValidIdx a.shape (allIdx a.shape)[n] := mem_allIdx.1 (List.getElem_mem hn)
    have ho : offset a.shape (allIdx a.shape)[n] = n := by
      have h3 := allIdx_offset hv
      -- the list of indices has no duplicates
      have hlt := offset_lt hv
      have hnd : (allIdx a.shape).Nodup := by
        clear h h1 h2 hn hv h3 hlt
        generalize a.shape = s
        induction s with
        | nil => simp [allIdx]
        | cons m s ih =>
          simp only [allIdx]
          rw [List.nodup_flatMap]
          refine ⟨fun i _ => ih.map (by intro x y hxy; simpa using hxy), ?_⟩
          refine List.Pairwise.imp ?_ List.nodup_range
          intro x y hxy
          simp only [Function.onFun, List.disjoint_left, List.mem_map]
          rintro _ ⟨u, _, rfl⟩ ⟨v, _, hv⟩
          simp only [List.cons.injEq] at hv
          exact hxy hv.1.symm
      rw [List.getElem?_eq_some_iff] at h3
      obtain ⟨h4, h5⟩ := h3
      exact (List.Nodup.getElem_inj_iff hnd).1 h5
    have := h _ hv
    simp only [get, ← hs, ho, List.getD_eq_getElem?_getD, List.getElem?_eq_getElem h1,
      List.getElem?_eq_getElem h2, Option.getD_some] at this
    exact this
  cases a; cases b; simp_all

theorem create_get (a : NdArray) {shape idx : List Nat} (h : ValidIdx shape idx) :
    (a.create shape).get idx = 0 := get_build h _

theorem canBroadcast_self (s : List Nat) : canBroadcast s s = true := by
  simp only [canBroadcast, Nat.le_refl, decide_true, Nat.sub_self, List.drop_zero, Bool.true_and]
  induction s with
  | nil => rfl
  | cons a s ih => simp [ih]

theorem broadcastIdx_self {s idx : List Nat} (h : ValidIdx s idx) : broadcastIdx s idx = idx := by
  have hl := h.length_eq
  unfold broadcastIdx
  rw [← hl, Nat.sub_self, List.drop_zero]
  clear hl
  induction h with
  | nil => rfl
  | @cons n i s t hi _ ih =>
    simp only [List.zipWith_cons_cons, ih, List.cons.injEq, and_true]
    split
    · omega
    · rfl

theorem validIdx_append {s t i j : List Nat} (h1 : ValidIdx s i) (h2 : ValidIdx t j) :
    ValidIdx (s ++ t) (i ++ j) := List.rel_append h1 h2

theorem validIdx_split {n p : Nat} {mid idx : List Nat} (h : ValidIdx (n :: mid ++ [p]) idx) :
    ∃ i k j, idx = i :: k ++ [j] ∧ i < n ∧ ValidIdx mid k ∧ j < p := by
  cases h with
  | @cons _ i _ t hi ht =>
    have hne : t ≠ [] := by rintro rfl; have := ht.length_eq; simp at this
    refine ⟨i, t.dropLast, t.getLast hne, ?_, hi, ?_⟩
    · simp [List.dropLast_append_getLast]
    · change List.Forall₂ _ (mid ++ [p]) t at ht
      rw [← List.dropLast_append_getLast hne] at ht
      have hl : mid.length = t.dropLast.length := by
        have := List.Forall₂.length_eq ht; simp at this; simpa using this
      have h1 := List.forall₂_take_append _ _ _ ht
      have h2 := List.forall₂_drop_append _ _ _ ht
      rw [← hl, List.take_left'  rfl] at h1
      rw [← hl, List.drop_left'  rfl] at h2
      cases h2 with
      | cons h3 _ => exact ⟨h1, h3⟩

theorem validIdx_mk {n p i j : Nat} {mid k : List Nat} (hi : i < n) (hk : ValidIdx mid k) (hj : j < p) :
    ValidIdx (n :: mid ++ [p]) (i :: k ++ [j]) :=
  .cons hi (validIdx_append hk (.cons hj .nil))

/-- Region of the output written by a move. -/
theorem moveOne_spec {output input : NdArray} {m : SampleMapping} {start stop nIn nOut p : Nat}
    {mid : List Nat} (hi : input.shape = nIn :: mid ++ [stop - start])
    (ho : output.shape = nOut :: mid ++ [p])
    (h1 : m.input < nIn) (h2 : m.output < nOut) (h3 : start ≤ stop) (h4 : stop ≤ p) :
    ∃ out, moveOne output input m start stop = some out ∧ out.WF ∧ out.shape = output.shape ∧
      ∀ i k j, i < nOut → ValidIdx mid k → j < p →
        out.get (i :: k ++ [j]) = if i = m.output ∧ start ≤ j ∧ j < stop then
          input.get (m.input :: k ++ [j - start]) else output.get (i :: k ++ [j]) := by
  have e : ∃ out, moveOne output input m start stop = some out ∧
      out = build output.shape fun idx =>
            let last := idx.getLastD 0
            if idx.head? = some m.output ∧ start ≤ last ∧ last < stop then
              input.get (m.input :: broadcastIdx (mid ++ [stop - start]) (idx.tail.dropLast ++ [last - start]))
            else
              output.get idx := by
    unfold moveOne
    rw [hi, ho]
    simp only [List.cons_append, h1, h2, and_self, if_true]
    simp only [List.getLast?_append, List.getLast?_singleton, Option.some_or, List.dropLast_concat,
      canBroadcast_self, and_true]
    rw [if_pos ⟨by omega, h4⟩]
    exact ⟨_, rfl, rfl⟩
  obtain ⟨out, e1, e2⟩ := e
  refine ⟨out, e1, by rw [e2]; exact build_wf _ _, by rw [e2]; rfl, ?_⟩
  intro i k j hi' hk hj
  have hv : ValidIdx output.shape (i :: k ++ [j]) := by rw [ho]; exact validIdx_mk hi' hk hj
  rw [e2, get_build hv]
  simp only [List.cons_append, List.head?_cons, Option.some.injEq, List.tail_cons,
    List.dropLast_concat]
  have hlast : (i :: (k ++ [j])).getLastD 0 = j := by
    rw [← List.cons_append, List.getLastD_eq_getLast?, List.getLast?_concat]; rfl
  rw [hlast]
  by_cases hc : i = m.output ∧ start ≤ j ∧ j < stop
  · rw [if_pos hc, if_pos hc, broadcastIdx_self]
    exact validIdx_append hk (.cons (by omega) .nil)
  · rw [if_neg hc, if_neg hc]

theorem moveLoop_spec {input : NdArray} {start stop nIn nOut p : Nat} {mid : List Nat}
    (hi : input.shape = nIn :: mid ++ [stop - start]) (h3 : start ≤ stop) (h4 : stop ≤ p)
    {samples : List SampleMapping} (hm : ∀ m ∈ samples, m.input < nIn ∧ m.output < nOut)
    {output : NdArray} (hw : output.WF) (ho : output.shape = nOut :: mid ++ [p]) :
    ∃ out, moveLoop input start stop output samples = (out, .ok ()) ∧ out.WF ∧
      out.shape = output.shape ∧
      (∀ i k j, i < nOut → ValidIdx mid k → j < p →
        (start ≤ j → j < stop → ∀ m ∈ samples, m.output ≠ i) →
        out.get (i :: k ++ [j]) = output.get (i :: k ++ [j])) ∧
      ((samples.map (·.output)).Nodup → ∀ m ∈ samples, ∀ k j, ValidIdx mid k → start ≤ j → j < stop →
        out.get (m.output :: k ++ [j]) = input.get (m.input :: k ++ [j - start])) := by
  induction samples generalizing output with
  | nil => exact ⟨output, rfl, hw, rfl, by simp, by simp⟩
  | cons m samples ih =>
    have hm0 := hm m List.mem_cons_self
    obtain ⟨out₁, e1, w1, s1, g1⟩ := moveOne_spec hi ho hm0.1 hm0.2 h3 h4
    obtain ⟨out, e2, w2, s2, g2, g3⟩ := ih (fun m h => hm m (List.mem_cons_of_mem _ h)) w1 (s1.trans ho)
    refine ⟨out, ?_, w2, s2.trans s1, ?_, ?_⟩
    · simp [moveLoop, e1, e2]
    · intro i k j hi' hk hj hne
      rw [g2 i k j hi' hk hj (fun h h' m hm => hne h h' m (List.mem_cons_of_mem _ hm)),
        g1 i k j hi' hk hj, if_neg]
      rintro ⟨rfl, h, h'⟩
      exact hne h h' m List.mem_cons_self rfl
    · intro hnd m' hm' k j hk hj hj'
      simp only [List.map_cons, List.nodup_cons] at hnd
      rcases List.mem_cons.1 hm' with rfl | hm'
      · rw [g2 _ k j hm0.2 hk (by omega), g1 _ k j hm0.2 hk (by omega), if_pos ⟨rfl, hj, hj'⟩]
        intro _ _ m hm hc
        exact hnd.1 (List.mem_map.2 ⟨m, hm, hc⟩)
      · exact g3 hnd.2 m' hm' k j hk hj hj'

/-- Moves into an array which fit its shape. -/
structure MoveOk (nOut : Nat) (mid : List Nat) (p : Nat) (input : NdArray)
    (mapping : List SampleMapping) (start stop : Nat) : Prop where
  le : start ≤ stop
  bound : stop ≤ p
  shape : ∃ nIn, input.shape = nIn :: mid ++ [stop - start] ∧
    ∀ m ∈ mapping, m.input < nIn ∧ m.output < nOut
  nodup : (mapping.map (·.output)).Nodup

theorem moveSamples_spec {nOut : Nat} {mid : List Nat} {p : Nat} {input : NdArray}
    {mapping : List SampleMapping} {start stop : Nat} (h : MoveOk nOut mid p input mapping start stop)
    {output : NdArray} (hw : output.WF) (ho : output.shape = nOut :: mid ++ [p]) :
    ∃ out, moveSamples output input mapping start stop = .ok out ∧ out.WF ∧
      out.shape = output.shape ∧
      (∀ i k j, i < nOut → ValidIdx mid k → j < p →
        (start ≤ j → j < stop → ∀ m ∈ mapping, m.output ≠ i) →
        out.get (i :: k ++ [j]) = output.get (i :: k ++ [j])) ∧
      (∀ m ∈ mapping, ∀ k j, ValidIdx mid k → start ≤ j → j < stop →
        out.get (m.output :: k ++ [j]) = input.get (m.input :: k ++ [j - start])) := by
  obtain ⟨nIn, hs, hm⟩ := h.shape
  obtain ⟨out, e, w, s, g1, g2⟩ := moveLoop_spec hs h.le h.bound hm hw ho
  refine ⟨out, ?_, w, s, g1, g2 h.nodup⟩
  have hlen : 2 ≤ output.shape.length := by rw [ho]; simp
  unfold moveSamples
  have : ArrayLike.moveSamplesFrom output input mapping start stop = (out, .ok ()) := by
    change NdArray.moveSamplesFrom _ _ _ _ _ = _
    rw [NdArray.moveSamplesFrom, if_pos hlen, e]
  rw [this]

/-- The regions written by two moves do not overlap. -/
def MoveDisjoint (a b : (NdArray × List SampleMapping) × Option (Nat × Nat)) : Prop :=
  ∀ s e s' e', a.2 = some (s, e) → b.2 = some (s', e') →
    ∀ m ∈ a.1.2, ∀ m' ∈ b.1.2, m.output = m'.output →
      ∀ j, s ≤ j → j < e → s' ≤ j → j < e' → False

theorem moveAllProperties_spec {nOut : Nat} {mid : List Nat} {p : Nat}
    {items : List ((NdArray × List SampleMapping) × Option (Nat × Nat))}
    (hok : ∀ it ∈ items, ∀ s e, it.2 = some (s, e) → MoveOk nOut mid p it.1.1 it.1.2 s e)
    (hd : items.Pairwise MoveDisjoint)
    {output : NdArray} (hw : output.WF) (ho : output.shape = nOut :: mid ++ [p]) :
    ∃ out, moveAllProperties output items = .ok out ∧ out.WF ∧ out.shape = output.shape ∧
      (∀ i k j, i < nOut → ValidIdx mid k → j < p →
        (∀ it ∈ items, ∀ s e, it.2 = some (s, e) → s ≤ j → j < e → ∀ m ∈ it.1.2, m.output ≠ i) →
        out.get (i :: k ++ [j]) = output.get (i :: k ++ [j])) ∧
      (∀ it ∈ items, ∀ s e, it.2 = some (s, e) → ∀ m ∈ it.1.2, ∀ k j, ValidIdx mid k → s ≤ j → j < e →
        out.get (m.output :: k ++ [j]) = it.1.1.get (m.input :: k ++ [j - s])) := by
  induction items generalizing output with
  | nil => exact ⟨output, rfl, hw, rfl, by simp, by simp⟩
  | cons it items ih =>
    obtain ⟨⟨input, mapping⟩, range⟩ := it
    rw [List.pairwise_cons] at hd
    have hok' : ∀ it ∈ items, ∀ s e, it.2 = some (s, e) → MoveOk nOut mid p it.1.1 it.1.2 s e :=
      fun it h => hok it (List.mem_cons_of_mem _ h)
    cases range with
    | none =>
      obtain ⟨out, e1, w, s, g1, g2⟩ := ih hok' hd.2 hw ho
      refine ⟨out, by simp [moveAllProperties, e1], w, s, ?_, ?_⟩
      · intro i k j hi hk hj h
        exact g1 i k j hi hk hj fun it hit => h it (List.mem_cons_of_mem _ hit)
      · intro it hit s e hs
        rcases List.mem_cons.1 hit with rfl | hit
        · simp at hs
        · exact g2 it hit s e hs
    | some r =>
      obtain ⟨s₀, e₀⟩ := r
      have hmo := hok _ List.mem_cons_self s₀ e₀ rfl
      obtain ⟨out₁, e1, w1, s1, g1, g2⟩ := moveSamples_spec hmo hw ho
      obtain ⟨out, e2, w2, s2, g3, g4⟩ := ih hok' hd.2 w1 (s1.trans ho)
      refine ⟨out, by simp [moveAllProperties, e1, e2], w2, s2.trans s1, ?_, ?_⟩
      · intro i k j hi hk hj h
        rw [g3 i k j hi hk hj fun it hit => h it (List.mem_cons_of_mem _ hit),
          g1 i k j hi hk hj (h _ List.mem_cons_self s₀ e₀ rfl)]
      · intro it hit s e hs
        rcases List.mem_cons.1 hit with rfl | hit
        · simp only [Option.some.injEq, Prod.mk.injEq] at hs
          obtain ⟨rfl, rfl⟩ := hs
          intro m hm k j hk hj hj'
          have hb := hmo.bound
          obtain ⟨_, _, hmm⟩ := hmo.shape
          rw [g3 _ k j (hmm m hm).2 hk (by omega), g2 m hm k j hk hj hj']
          intro it hit s' e' hs' hj1 hj2 m' hm' hc
          exact hd.1 it hit s₀ e₀ s' e' rfl hs' m hm m' hm' hc.symm j hj hj' hj1 hj2
        · exact g4 it hit s e hs

/-- Moving whole rows is moving to the full range of properties. -/
theorem moveAllSamples_eq {A : Type} [ArrayLike A] (stop : Nat) (output : A)
    (items : List (A × List SampleMapping)) :
    moveAllSamples stop output items =
      moveAllProperties output (items.map fun it => (it, some (0, stop))) := by
  induction items generalizing output with
  | nil => rfl
  | cons it items ih =>
    obtain ⟨input, mapping⟩ := it
    simp only [moveAllSamples, List.map_cons, moveAllProperties, ih]

end NdArray
end Equistore
