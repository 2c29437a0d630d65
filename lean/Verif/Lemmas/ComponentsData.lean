import Verif.Lemmas.Components

/-! The data after `components_to_properties`, for `ndarray` arrays. -/

namespace Equistore
open Spec NdArray

theorem swapList_self {α : Type} (l : List α) (i : Nat) : swapList l i i = l := by
  unfold swapList
  cases h : l[i]? with
  | none => rfl
  | some a =>
    obtain ⟨hi, rfl⟩ := List.getElem?_eq_some_iff.1 h
    simp

theorem swapList_append {α : Type} (a m r : List α) (x y : α) :
    swapList (a ++ x :: m ++ y :: r) a.length (a.length + 1 + m.length) =
      a ++ y :: m ++ x :: r := by
  have h1 : (a ++ x :: m ++ y :: r)[a.length]? = some x := by simp
  have h2 : (a ++ x :: m ++ y :: r)[a.length + 1 + m.length]? = some y := by
    rw [List.getElem?_append_right (by simp; omega)]
    simp
    have : a.length + 1 + m.length - (a.length + (m.length + 1)) = 0 := by omega
    rw [this]; rfl
  unfold swapList
  rw [h1, h2]
  simp only
  have e : (a ++ x :: m ++ y :: r).set a.length y = a ++ y :: m ++ y :: r := by
    simp
  rw [e, List.set_append_right _ _ (by simp; omega)]
  have : a.length + 1 + m.length - (a ++ y :: m).length = 0 := by simp; omega
  rw [this]; rfl

theorem swapList_length {α : Type} (l : List α) (i j : Nat) : (swapList l i j).length = l.length := by
  unfold swapList
  split <;> simp

theorem offset_append {s t i j : List Nat} (h : s.length = i.length) :
    offset (s ++ t) (i ++ j) = offset s i * shapeSize t + offset t j := by
  induction s generalizing i with
  | nil =>
    cases i with
    | nil => simp [offset]
    | cons _ _ => simp at h
  | cons n s ih =>
    cases i with
    | nil => simp at h
    | cons a i =>
      simp only [List.cons_append, offset]
      rw [ih (by simpa using h), shapeSize_append, Nat.add_mul, Nat.mul_assoc, Nat.add_assoc]

/-- Merging the two last axes does not move data. -/
theorem offset_merge {s k : List Nat} (h : s.length = k.length) (nc np jc jp : Nat) :
    offset (s ++ [nc * np]) (k ++ [jc * np + jp]) = offset (s ++ [nc, np]) (k ++ [jc, jp]) := by
  rw [offset_append h, offset_append h]
  simp [offset, shapeSize]

theorem NdArray.swapAxes_ok {a : NdArray} {i j : Nat} (hi : i < a.shape.length)
    (hj : j < a.shape.length) : NdArray.swapAxes a i j =
      (build (swapList a.shape i j) fun idx => a.get (swapList idx i j), .ok ()) := by
  unfold NdArray.swapAxes
  rw [if_pos ⟨hi, hj⟩]

theorem NdArray.reshape_ok {a a' : NdArray} {shape : List Nat}
    (h : NdArray.reshape a shape = (a', .ok ())) :
    shapeSize shape = shapeSize a.shape ∧ a' = { a with shape } := by
  unfold NdArray.reshape at h
  split at h
  · rename_i hs
    rw [Prod.mk.injEq] at h
    exact ⟨hs, h.1.symm⟩
  · simp at h

/-- Where the elements go, when at most one component follows the one moved. -/
theorem moveAxis_get {a d d' : NdArray} {n₀ : Nat} {s₁ : List Nat} {nc : Nat} {s₂ : List Nat} {np : Nat}
    (hs : a.shape = n₀ :: s₁ ++ nc :: s₂ ++ [np]) (h2 : s₂.length ≤ 1)
    (hd : NdArray.swapAxes a (s₁.length + 1) (a.shape.length - 1 - 1) = (d, .ok ()))
    (hd' : NdArray.reshape d (n₀ :: (s₁ ++ s₂) ++ [nc * np]) = (d', .ok ()))
    {i jc jp : Nat} {k₁ k₂ : List Nat} (hi : i < n₀) (hk₁ : ValidIdx s₁ k₁) (hjc : jc < nc)
    (hk₂ : ValidIdx s₂ k₂) (hjp : jp < np) :
    d'.get (i :: (k₁ ++ k₂) ++ [jc * np + jp]) = a.get (i :: (k₁ ++ jc :: k₂) ++ [jp]) := by
  obtain ⟨-, rfl⟩ := NdArray.reshape_ok hd'
  have hl1 := hk₁.length_eq
  have hl2 := hk₂.length_eq
  rw [NdArray.swapAxes_ok (by rw [hs]; simp) (by rw [hs]; simp; omega), Prod.mk.injEq] at hd
  obtain ⟨rfl, -⟩ := hd
  have main : (build (swapList a.shape (s₁.length + 1) (a.shape.length - 1 - 1)) fun idx =>
      a.get (swapList idx (s₁.length + 1) (a.shape.length - 1 - 1))).get
        (i :: (k₁ ++ k₂) ++ [jc, jp]) = a.get (i :: (k₁ ++ jc :: k₂) ++ [jp]) ∧
      (swapList a.shape (s₁.length + 1) (a.shape.length - 1 - 1)) = n₀ :: (s₁ ++ s₂) ++ [nc, np] := by
    cases s₂ with
    | nil =>
      cases hk₂
      have e : a.shape.length - 1 - 1 = s₁.length + 1 := by rw [hs]; simp
      have hv : ValidIdx a.shape (i :: (k₁ ++ []) ++ [jc, jp]) := by
        rw [hs]
        have := validIdx_append (.cons hi hk₁ : ValidIdx (n₀ :: s₁) (i :: k₁))
          (.cons hjc (.cons hjp .nil) : ValidIdx [nc, np] [jc, jp])
        simpa using this
      rw [e, swapList_self]
      refine ⟨?_, ?_⟩
      · rw [get_build hv, swapList_self]; simp
      · rw [hs]; simp
    | cons y m =>
      cases m with
      | cons _ _ => simp at h2
      | nil =>
        cases hk₂ with
        | @cons _ jy _ _ hjy hk =>
          cases hk
          have e : a.shape.length - 1 - 1 = (n₀ :: s₁).length + 1 + ([] : List Nat).length := by
            rw [hs]; simp
          have e' : a.shape.length - 1 - 1 = (i :: k₁).length + 1 + ([] : List Nat).length := by
            rw [e]; simp; omega
          have hsw : swapList a.shape (s₁.length + 1) (a.shape.length - 1 - 1) =
              n₀ :: (s₁ ++ [y]) ++ [nc, np] := by
            rw [e]
            have := swapList_append (n₀ :: s₁) [] [np] nc y
            rw [hs]
            simpa using this
          refine ⟨?_, hsw⟩
          rw [hsw, get_build]
          · congr 1
            have := swapList_append (i :: k₁) [] [jp] jy jc
            have e2 : s₁.length + 1 = (i :: k₁).length := by simp; omega
            rw [e', e2]
            simpa using this
          · have := validIdx_append (.cons hi hk₁ : ValidIdx (n₀ :: s₁) (i :: k₁))
              (.cons hjy (.cons hjc (.cons hjp .nil)) : ValidIdx [y, nc, np] [jy, jc, jp])
            simpa using this
  rw [← main.1]
  have hl : (n₀ :: (s₁ ++ s₂)).length = (i :: (k₁ ++ k₂)).length := by simp; omega
  unfold NdArray.get
  simp only [build_shape, main.2]
  rw [offset_merge hl]

theorem CompAt.append_iff {C₁ C₂ : List Labels} {k : List Nat} {cs₁ cs₂ : List (List LabelValue)}
    (h : cs₁.length = C₁.length) :
    CompAt (C₁ ++ C₂) k (cs₁ ++ cs₂) ↔ ∃ k₁ k₂, k = k₁ ++ k₂ ∧ CompAt C₁ k₁ cs₁ ∧ CompAt C₂ k₂ cs₂ := by
  induction C₁ generalizing k cs₁ with
  | nil =>
    have : cs₁ = [] := List.length_eq_zero_iff.1 h
    subst this
    constructor
    · intro h
      exact ⟨[], k, rfl, ⟨.nil, rfl⟩, h⟩
    · rintro ⟨k₁, k₂, rfl, h1, h2⟩
      have : k₁ = [] := List.length_eq_zero_iff.1 h1.2
      subst this
      exact h2
  | cons c C ih =>
    cases cs₁ with
    | nil => simp at h
    | cons e cs =>
      have h' : cs.length = C.length := by simpa using h
      constructor
      · rintro ⟨h1, h2⟩
        cases k with
        | nil => simp at h2
        | cons i k =>
          simp only [List.cons_append, List.zip_cons_cons] at h1
          cases h1 with
          | cons h3 h4 =>
            obtain ⟨k₁, k₂, rfl, h5, h6⟩ := (ih (k := k) h').1 ⟨h4, by simpa using h2⟩
            exact ⟨i :: k₁, k₂, rfl, ⟨.cons h3 h5.1, by simpa using h5.2⟩, h6⟩
      · rintro ⟨k₁, k₂, rfl, ⟨h1, h2⟩, h3⟩
        cases k₁ with
        | nil => simp at h2
        | cons i k₁ =>
          simp only [List.zip_cons_cons] at h1
          cases h1 with
          | cons h4 h5 =>
            have := (ih (k := k₁ ++ k₂) h').2 ⟨k₁, k₂, rfl, ⟨h5, by simpa using h2⟩, h3⟩
            exact ⟨.cons h4 this.1, by simpa using this.2⟩

theorem CompAt.cons_iff {c : Labels} {C : List Labels} (hc : c.WF) {k : List Nat} {e : List LabelValue}
    {cs : List (List LabelValue)} :
    CompAt (c :: C) k (e :: cs) ↔ ∃ j k', k = j :: k' ∧ c.rows[j]? = some e ∧ CompAt C k' cs := by
  constructor
  · rintro ⟨h1, h2⟩
    cases k with
    | nil => simp at h2
    | cons i k =>
      simp only [List.zip_cons_cons] at h1
      cases h1 with
      | cons h3 h4 => exact ⟨i, k, rfl, (entryAt_iff hc).1 h3, h4, by simpa using h2⟩
  · rintro ⟨j, k', rfl, h1, h2, h3⟩
    exact ⟨.cons ((entryAt_iff hc).2 h1) h2, by simpa using h3⟩

/-- The position of a property after the move. -/
theorem componentRows_getElem? {c P : Labels} (hc : c.WF) {e p : List LabelValue}
    (he : e.length = c.names.length) {j : Nat} :
    (componentRows c P)[j]? = some (e ++ p) ↔
      ∃ jc jp, j = jc * P.rows.length + jp ∧ c.rows[jc]? = some e ∧ P.rows[jp]? = some p := by
  unfold componentRows
  have hlen : ∀ a ∈ c.rows, (P.rows.map (a ++ ·)).length = P.rows.length := by simp
  constructor
  · intro h
    have hpos : 0 < P.rows.length := by
      rcases Nat.eq_zero_or_pos P.rows.length with h0 | h0
      · rw [List.length_eq_zero_iff.1 h0] at h
        simp at h
      · exact h0
    have hj : j = j / P.rows.length * P.rows.length + j % P.rows.length := by
      rw [Nat.mul_comm]; exact (Nat.div_add_mod _ _).symm
    rw [hj, getElem?_flatMap_const hlen (Nat.mod_lt _ hpos)] at h
    cases hr : c.rows[j / P.rows.length]? with
    | none => rw [hr] at h; simp at h
    | some e' =>
      rw [hr, Option.bind_some, List.getElem?_map] at h
      cases hp : P.rows[j % P.rows.length]? with
      | none => rw [hp] at h; simp at h
      | some p' =>
        rw [hp, Option.map_some, Option.some.injEq] at h
        have hl := Labels.Holds.row_length hc e' (List.mem_of_getElem? hr)
        obtain ⟨rfl, rfl⟩ := List.append_inj h (by omega)
        exact ⟨_, _, hj, hr, hp⟩
  · rintro ⟨jc, jp, rfl, h1, h2⟩
    rw [getElem?_flatMap_const hlen (List.getElem?_eq_some_iff.1 h2).1, h1, Option.bind_some,
      List.getElem?_map, h2, Option.map_some]

variable {vars : List String} {b b' : BasicBlock NdArray} {pre post : List Labels} {c : Labels}

theorem componentRows_length (c P : Labels) :
    (componentRows c P).length = c.rows.length * P.rows.length := by
  unfold componentRows
  rw [List.length_flatMap]
  simp

theorem count_forall₂ {s : List Nat} {l : List Labels} (hl : ∀ c ∈ l, c.WF)
    (h : List.Forall₂ (fun n labels => Labels.count labels = .ok n) s l) :
    s = l.map fun c => c.rows.length := by
  induction h with
  | nil => rfl
  | cons h1 _ ih =>
    rw [List.forall_mem_cons] at hl
    rw [Labels.Holds.count_eq hl.1, Res.ok.injEq] at h1
    rw [List.map_cons, ← h1, ih hl.2]

/-- The values after the move. -/
theorem BasicMoved.hasValue (hb : BasicValid b) (h : BasicMoved vars b b' pre c post)
    (hpost : post.length ≤ 1) {s : List LabelValue} {cs₁ cs₂ : List (List LabelValue)}
    {e p : List LabelValue} {x : Elt} (hcs : cs₁.length = pre.length) (he : e.length = vars.length) :
    HasValue b' s (cs₁ ++ cs₂) (e ++ p) x ↔ HasValue b s (cs₁ ++ e :: cs₂) p x := by
  have hw := BasicValid.wf hb
  have hcw := hw.components c (by rw [h.split]; simp)
  have hP := (componentPropertyLabels_iff hcw hw.properties).1 h.properties
  have hpre : ∀ l ∈ pre, l.WF := fun l hl => hw.components l (by rw [h.split]; simp [hl])
  have hpo : ∀ l ∈ post, l.WF := fun l hl => hw.components l (by rw [h.split]; simp [hl])
  have hw' : BlockWF b' := by
    refine ⟨by rw [h.samples]; exact hw.samples, ?_, Labels.Holds.wf hP⟩
    rw [h.components]
    intro l hl
    rcases List.mem_append.1 hl with hl | hl
    · exact hpre l hl
    · exact hpo l hl
  have hrows : b'.properties.rows = componentRows c b.properties := hP.rows_eq
  obtain ⟨shape, h1, h2⟩ := hb.shape
  obtain ⟨shape', n, d, h3, h4, h5, h6, h7⟩ := h.data
  rw [h1, Res.ok.injEq] at h3
  subst h3
  rw [h.split] at h2
  obtain ⟨n₀, s₁, nc, s₂, np, hs⟩ := ShapeSplit.exists h2
  rw [hs.newShape] at h7
  have hsh : b.data.shape = n₀ :: s₁ ++ nc :: s₂ ++ [np] := by
    have : b.data.shape = shape := Res.ok.inj h1
    rw [this, hs.shape_eq]
  have e0 : n₀ = b.samples.rows.length := by
    have := hs.samples; rw [Labels.Holds.count_eq hw.samples, Res.ok.injEq] at this; exact this.symm
  have ec : nc = c.rows.length := by
    have := hs.component; rw [Labels.Holds.count_eq hcw, Res.ok.injEq] at this; exact this.symm
  have ep : np = b.properties.rows.length := by
    have := hs.properties
    rw [Labels.Holds.count_eq hw.properties, Res.ok.injEq] at this; exact this.symm
  have e1 := count_forall₂ hpre hs.before
  have e2 := count_forall₂ hpo hs.after
  have en : n = nc * np := by
    rw [Labels.Holds.count_eq hw'.properties, Res.ok.injEq, hrows, componentRows_length] at h5
    rw [← h5, ec, ep]
  have hl : s₁.length = pre.length := by rw [e1]; simp
  have hshl : shape.length = b.data.shape.length := by rw [hsh, hs.shape_eq]
  have key := @moveAxis_get b.data d b'.data n₀ s₁ nc s₂ np hsh (by rw [e2]; simpa using hpost)
    (by rw [hl, ← hshl]; exact h6) (by rw [← en]; exact h7)
  rw [hasValue_iff hw', hasValue_iff hw, h.split, h.components, h.samples, hrows]
  constructor
  · rintro ⟨i, k, j, h8, h9, h10, h11⟩
    obtain ⟨k₁, k₂, rfl, h12, h13⟩ := (CompAt.append_iff hcs).1 h9
    obtain ⟨jc, jp, rfl, h14, h15⟩ := (componentRows_getElem? hcw (by rw [he, h.names])).1 h10
    refine ⟨i, k₁ ++ jc :: k₂, jp, h8, (CompAt.append_iff hcs).2 ⟨k₁, _, rfl, h12,
      (CompAt.cons_iff hcw).2 ⟨jc, k₂, rfl, h14, h13⟩⟩, h15, ?_⟩
    rw [← ep] at h11
    rw [← h11]
    exact (key (by rw [e0]; exact (List.getElem?_eq_some_iff.1 h8).1)
      (by rw [e1]; exact h12.valid hpre) (by rw [ec]; exact (List.getElem?_eq_some_iff.1 h14).1)
      (by rw [e2]; exact h13.valid hpo) (by rw [ep]; exact (List.getElem?_eq_some_iff.1 h15).1)).symm
  · rintro ⟨i, k, jp, h8, h9, h10, h11⟩
    obtain ⟨k₁, k₂', rfl, h12, h13⟩ := (CompAt.append_iff hcs).1 h9
    obtain ⟨jc, k₂, rfl, h14, h15⟩ := (CompAt.cons_iff hcw).1 h13
    refine ⟨i, k₁ ++ k₂, jc * b.properties.rows.length + jp, h8,
      (CompAt.append_iff hcs).2 ⟨k₁, k₂, rfl, h12, h15⟩,
      (componentRows_getElem? hcw (by rw [he, h.names])).2 ⟨jc, jp, rfl, h14, h10⟩, ?_⟩
    rw [← h11, ← ep]
    exact key (by rw [e0]; exact (List.getElem?_eq_some_iff.1 h8).1)
      (by rw [e1]; exact h12.valid hpre) (by rw [ec]; exact (List.getElem?_eq_some_iff.1 h14).1)
      (by rw [e2]; exact h15.valid hpo) (by rw [ep]; exact (List.getElem?_eq_some_iff.1 h10).1)

theorem lawful_ndArray : LawfulArray NdArray := by
  refine ⟨?_, fun _ _ _ _ => rfl, fun _ _ _ _ _ => rfl⟩
  intro a a' shape h
  obtain ⟨-, rfl⟩ := NdArray.reshape_ok h
  rfl

theorem lawful_emptyArray : LawfulArray EmptyArray := by
  refine ⟨?_, fun _ _ _ _ => rfl, fun _ _ _ _ _ => rfl⟩
  intro a a' shape h
  have h : (({ shape } : EmptyArray), (Res.ok () : Res Unit)) = (a', .ok ()) := h
  rw [Prod.mk.injEq] at h
  rw [← h.1]
  rfl

end Equistore
