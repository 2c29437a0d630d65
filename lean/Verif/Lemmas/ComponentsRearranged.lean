import Verif.Lemmas.ComponentsData
import Verif.Lemmas.MoveOutcome

/-! Where the values are after `components_to_properties`, whatever the position of the component. -/

namespace Equistore
open Spec NdArray

theorem lastFirst_append {α : Type} (m : List α) (y : α) : lastFirst (m ++ [y]) = y :: m := by
  simp [lastFirst]

theorem lastFirst_nil {α : Type} : lastFirst ([] : List α) = [] := rfl

theorem lastFirst_length {α : Type} (l : List α) : (lastFirst l).length = l.length := by
  rcases List.eq_nil_or_concat l with rfl | ⟨m, y, rfl⟩
  · rfl
  · simp [lastFirst_append]

theorem lastFirst_map {α β : Type} (f : α → β) (l : List α) : lastFirst (l.map f) = (lastFirst l).map f := by
  rcases List.eq_nil_or_concat l with rfl | ⟨m, y, rfl⟩
  · rfl
  · simp [lastFirst_append]

theorem lastFirst_mem {α : Type} {l : List α} {x : α} : x ∈ lastFirst l ↔ x ∈ l := by
  rcases List.eq_nil_or_concat l with rfl | ⟨m, y, rfl⟩
  · rfl
  · simp only [List.concat_eq_append, lastFirst_append, List.mem_cons, List.mem_append, List.not_mem_nil,
      or_false]
    exact or_comm

theorem combinations_length {C : List Labels} (hC : ∀ c ∈ C, c.WF) :
    (combinations C).length = shapeSize (C.map fun c => c.rows.length) := by
  induction C with
  | nil => rfl
  | cons c C ih =>
    rw [List.forall_mem_cons] at hC
    unfold combinations
    rw [entriesOf_wf hC.1, List.length_flatMap, List.map_cons, shapeSize_cons, ← ih hC.2]
    simp

/-- The position of a combination. -/
theorem combinations_getElem? {C : List Labels} (hC : ∀ c ∈ C, c.WF) {n : Nat} {cs : List (List LabelValue)} :
    (combinations C)[n]? = some cs ↔ ∃ k, CompAt C k cs ∧ offset (C.map fun c => c.rows.length) k = n := by
  induction C generalizing n cs with
  | nil =>
    constructor
    · intro h
      cases n with
      | zero =>
        simp only [combinations, List.getElem?_cons_zero, Option.some.injEq] at h
        subst h
        exact ⟨[], ⟨.nil, rfl⟩, rfl⟩
      | succ n => simp [combinations] at h
    · rintro ⟨k, ⟨h1, h2⟩, rfl⟩
      have h3 := h1.length_eq
      simp only [List.length_nil, List.length_zip] at h3
      have : k = [] := List.length_eq_zero_iff.1 (by omega)
      subst this
      have : cs = [] := List.length_eq_zero_iff.1 h2.symm
      subst this
      rfl
  | cons c C ih =>
    rw [List.forall_mem_cons] at hC
    have hl := combinations_length hC.2
    have hlen : ∀ a ∈ c.rows, ((combinations C).map (a :: ·)).length = (combinations C).length := by simp
    unfold combinations
    rw [entriesOf_wf hC.1]
    constructor
    · intro h
      have hpos : 0 < (combinations C).length := by
        rcases Nat.eq_zero_or_pos (combinations C).length with h0 | h0
        · rw [List.length_eq_zero_iff.1 h0] at h
          simp at h
        · exact h0
      have hj : n = n / (combinations C).length * (combinations C).length + n % (combinations C).length := by
        rw [Nat.mul_comm]; exact (Nat.div_add_mod _ _).symm
      rw [hj, getElem?_flatMap_const hlen (Nat.mod_lt _ hpos)] at h
      cases hr : c.rows[n / (combinations C).length]? with
      | none => rw [hr] at h; simp at h
      | some e =>
        rw [hr, Option.bind_some, List.getElem?_map] at h
        cases hp : (combinations C)[n % (combinations C).length]? with
        | none => rw [hp] at h; simp at h
        | some cs' =>
          rw [hp, Option.map_some, Option.some.injEq] at h
          subst h
          obtain ⟨k, h1, h2⟩ := (ih hC.2).1 hp
          refine ⟨n / (combinations C).length :: k, (CompAt.cons_iff hC.1).2 ⟨_, k, rfl, hr, h1⟩, ?_⟩
          rw [List.map_cons]
          unfold offset
          rw [h2, ← hl]
          exact hj.symm
    · rintro ⟨k, h, rfl⟩
      cases cs with
      | nil =>
        obtain ⟨h1, h2⟩ := h
        have : k = [] := List.length_eq_zero_iff.1 h2
        subst this
        cases h1
      | cons e cs =>
        obtain ⟨j, k', rfl, h1, h2⟩ := (CompAt.cons_iff hC.1).1 h
        have h3 := (ih hC.2 (n := offset (C.map fun c => c.rows.length) k') (cs := cs)).2 ⟨k', h2, rfl⟩
        rw [List.map_cons]
        unfold offset
        rw [← hl, getElem?_flatMap_const hlen (List.getElem?_eq_some_iff.1 h3).1, h1, Option.bind_some,
          List.getElem?_map, h3, Option.map_some]

theorem CompAt.lastFirst {C : List Labels} (hC : ∀ c ∈ C, c.WF) {k : List Nat} {cs : List (List LabelValue)}
    (hcs : cs.length = C.length) :
    CompAt (lastFirst C) k (lastFirst cs) ↔ ∃ k', k = lastFirst k' ∧ CompAt C k' cs := by
  rcases List.eq_nil_or_concat C with rfl | ⟨D, c, rfl⟩
  · have : cs = [] := List.length_eq_zero_iff.1 hcs
    subst this
    constructor
    · rintro ⟨h1, h2⟩
      have : k = [] := List.length_eq_zero_iff.1 h2
      subst this
      exact ⟨[], rfl, h1, h2⟩
    · rintro ⟨k', rfl, h1, h2⟩
      have : k' = [] := List.length_eq_zero_iff.1 h2
      subst this
      exact ⟨h1, h2⟩
  · rcases List.eq_nil_or_concat cs with rfl | ⟨ds, e, rfl⟩
    · simp at hcs
    · simp only [List.concat_eq_append, List.length_append, List.length_cons, List.length_nil,
        Nat.add_right_cancel_iff] at hcs hC ⊢
      have hc : c.WF := hC c (by simp)
      have hn : ∀ k, CompAt [] k [] ↔ k = [] := by
        intro k
        constructor
        · intro h; exact List.length_eq_zero_iff.1 h.2
        · rintro rfl; exact ⟨.nil, rfl⟩
      rw [lastFirst_append, lastFirst_append, CompAt.cons_iff hc]
      constructor
      · rintro ⟨j, k', rfl, h1, h2⟩
        exact ⟨k' ++ [j], (lastFirst_append _ _).symm, (CompAt.append_iff hcs).2 ⟨k', [j], rfl, h2,
          (CompAt.cons_iff hc).2 ⟨j, [], rfl, h1, (hn _).2 rfl⟩⟩⟩
      · rintro ⟨k', rfl, h⟩
        obtain ⟨k₁, k₂, rfl, h1, h2⟩ := (CompAt.append_iff hcs).1 h
        obtain ⟨j, k₃, rfl, h3, h4⟩ := (CompAt.cons_iff hc).1 h2
        rw [(hn _).1 h4, lastFirst_append]
        exact ⟨j, k₁, rfl, h3, h1⟩

/-- The elements after swapping axes and reshaping. -/
theorem moveAxis_rearranged {a d d' : NdArray} {n₀ : Nat} {s₁ : List Nat} {nc : Nat} {s₂ : List Nat} {np : Nat}
    (hs : a.shape = n₀ :: s₁ ++ nc :: s₂ ++ [np])
    (hd : NdArray.swapAxes a (s₁.length + 1) (a.shape.length - 1 - 1) = (d, .ok ()))
    (hd' : NdArray.reshape d (n₀ :: (s₁ ++ s₂) ++ [nc * np]) = (d', .ok ()))
    {i jc jp : Nat} {k₁ k₂ k₂' : List Nat} (hi : i < n₀) (hk₁ : ValidIdx s₁ k₁) (hjc : jc < nc)
    (hk₂ : ValidIdx s₂ k₂) (hk₂' : ValidIdx s₂ k₂') (hjp : jp < np)
    (hoff : offset s₂ k₂ = offset (lastFirst s₂) (lastFirst k₂')) :
    d'.get (i :: (k₁ ++ k₂) ++ [jc * np + jp]) = a.get (i :: (k₁ ++ jc :: k₂') ++ [jp]) := by
  rcases List.eq_nil_or_concat s₂ with rfl | ⟨m, y, rfl⟩
  · cases hk₂
    cases hk₂'
    exact moveAxis_get hs (by simp) hd hd' hi hk₁ hjc .nil hjp
  rw [List.concat_eq_append] at *
  obtain ⟨km, jy, rfl⟩ : ∃ km jy, k₂' = km ++ [jy] := by
    rcases List.eq_nil_or_concat k₂' with rfl | ⟨km, jy, rfl⟩
    · have := hk₂'.length_eq
      simp at this
    · exact ⟨km, jy, by simp⟩
  have hlm : m.length = km.length := by
    have := hk₂'.length_eq
    simpa using this
  rw [lastFirst_append, lastFirst_append] at hoff
  obtain ⟨-, rfl⟩ := NdArray.reshape_ok hd'
  have hl1 := hk₁.length_eq
  have hl2 := hk₂.length_eq
  rw [NdArray.swapAxes_ok (by rw [hs]; simp) (by rw [hs]; simp; omega), Prod.mk.injEq] at hd
  obtain ⟨rfl, -⟩ := hd
  have e : a.shape.length - 1 - 1 = (n₀ :: s₁).length + 1 + m.length := by
    rw [hs]; simp; omega
  have hsw : swapList a.shape (s₁.length + 1) (a.shape.length - 1 - 1) =
      (n₀ :: s₁) ++ ((y :: m) ++ [nc, np]) := by
    rw [e]
    have := swapList_append (n₀ :: s₁) m [np] nc y
    rw [hs]
    simpa using this
  have hv : ValidIdx ((n₀ :: s₁) ++ ((y :: m) ++ [nc, np])) ((i :: k₁) ++ ((jy :: km) ++ [jc, jp])) := by
    refine validIdx_append (.cons hi hk₁) (validIdx_append ?_ (.cons hjc (.cons hjp .nil)))
    have h := hk₂'
    obtain ⟨h1, h2⟩ : ValidIdx m km ∧ ValidIdx [y] [jy] := by
      refine ⟨?_, ?_⟩
      · have h3 := List.forall₂_take m.length h
        rw [List.take_left' rfl, hlm, List.take_left' rfl] at h3
        exact h3
      · have h3 := List.forall₂_drop m.length h
        rw [List.drop_left' rfl, hlm, List.drop_left' rfl] at h3
        exact h3
    cases h2 with
    | cons h4 _ => exact .cons h4 h1
  have main : (build (swapList a.shape (s₁.length + 1) (a.shape.length - 1 - 1)) fun idx =>
      a.get (swapList idx (s₁.length + 1) (a.shape.length - 1 - 1))).get
        ((i :: k₁) ++ ((jy :: km) ++ [jc, jp])) = a.get (i :: (k₁ ++ jc :: (km ++ [jy])) ++ [jp]) := by
    rw [get_build (by rw [hsw]; exact hv)]
    congr 1
    have := swapList_append (i :: k₁) km [jp] jy jc
    have e2 : s₁.length + 1 = (i :: k₁).length := by simp; omega
    have e3 : a.shape.length - 1 - 1 = (i :: k₁).length + 1 + km.length := by
      rw [e]; simp; omega
    rw [e3, e2]
    simpa using this
  rw [← main]
  unfold NdArray.get
  simp only [build_shape, hsw]
  congr 1
  have e4 : n₀ :: (s₁ ++ (m ++ [y])) ++ [nc * np] = (n₀ :: s₁) ++ ((m ++ [y]) ++ [nc * np]) := by simp
  have e5 : i :: (k₁ ++ k₂) ++ [jc * np + jp] = (i :: k₁) ++ (k₂ ++ [jc * np + jp]) := by simp
  have e6 : (n₀ :: s₁).length = (i :: k₁).length := by simp; omega
  have e7 : (y :: m).length = (jy :: km).length := by simp; omega
  rw [e4, e5, offset_append e6, offset_append e6, offset_append hl2, offset_append e7, hoff]
  simp only [shapeSize_append, shapeSize_cons, shapeSize_nil, Nat.mul_one]
  have e8 : shapeSize m * y * (nc * np) = y * shapeSize m * (nc * np) := by rw [Nat.mul_comm (shapeSize m)]
  rw [e8]
  simp [offset, shapeSize]

variable {vars : List String} {b b' : BasicBlock NdArray} {pre post : List Labels} {c : Labels}

/-- Where the values are after the move. -/
theorem BasicMoved.rearranged (hb : BasicValid b) (h : BasicMoved vars b b' pre c post)
    {n : Nat} {cs₂ cs₂' : List (List LabelValue)} (hn : (combinations post)[n]? = some cs₂)
    (hn' : (combinations (lastFirst post))[n]? = some (lastFirst cs₂'))
    {s : List LabelValue} {cs₁ : List (List LabelValue)}
    {e p : List LabelValue} {x : Elt} (hcs : cs₁.length = pre.length) (he : e.length = vars.length) :
    HasValue b' s (cs₁ ++ cs₂) (e ++ p) x ↔ HasValue b s (cs₁ ++ e :: cs₂') p x := by
  have hw := BasicValid.wf hb
  have hcw := hw.components c (by rw [h.split]; simp)
  have hP := (componentPropertyLabels_iff hcw hw.properties).1 h.properties
  have hpre : ∀ l ∈ pre, l.WF := fun l hl => hw.components l (by rw [h.split]; simp [hl])
  have hpo : ∀ l ∈ post, l.WF := fun l hl => hw.components l (by rw [h.split]; simp [hl])
  have hw' : BlockWF b' := by
    refine ⟨by rw [h.samples]; exact hw.samples, ?_, Labels.Holds.wf hP⟩
    rw [h.components]
    intro l hl
    rcases List.mem_append.1 hl with hl | hl
    · exact hpre l hl
    · exact hpo l hl
  have hrows : b'.properties.rows = componentRows c b.properties := hP.rows_eq
  obtain ⟨shape, h1, h2⟩ := hb.shape
  obtain ⟨shape', m, d, h3, h4, h5, h6, h7⟩ := h.data
  rw [h1, Res.ok.injEq] at h3
  subst h3
  rw [h.split] at h2
  obtain ⟨n₀, s₁, nc, s₂, np, hs⟩ := ShapeSplit.exists h2
  rw [hs.newShape] at h7
  have hsh : b.data.shape = n₀ :: s₁ ++ nc :: s₂ ++ [np] := by
    have : b.data.shape = shape := Res.ok.inj h1
    rw [this, hs.shape_eq]
  have e0 : n₀ = b.samples.rows.length := by
    have := hs.samples; rw [Labels.Holds.count_eq hw.samples, Res.ok.injEq] at this; exact this.symm
  have ec : nc = c.rows.length := by
    have := hs.component; rw [Labels.Holds.count_eq hcw, Res.ok.injEq] at this; exact this.symm
  have ep : np = b.properties.rows.length := by
    have := hs.properties
    rw [Labels.Holds.count_eq hw.properties, Res.ok.injEq] at this; exact this.symm
  have e1 := count_forall₂ hpre hs.before
  have e2 := count_forall₂ hpo hs.after
  have en : m = nc * np := by
    rw [Labels.Holds.count_eq hw'.properties, Res.ok.injEq, hrows, componentRows_length] at h5
    rw [← h5, ec, ep]
  have hl : s₁.length = pre.length := by rw [e1]; simp
  have hshl : shape.length = b.data.shape.length := by rw [hsh, hs.shape_eq]
  have key := @moveAxis_rearranged b.data d b'.data n₀ s₁ nc s₂ np hsh
    (by rw [hl, ← hshl]; exact h6) (by rw [← en]; exact h7)
  have hpo' : ∀ l ∈ lastFirst post, l.WF := fun l hl => hpo l (lastFirst_mem.1 hl)
  obtain ⟨κ, hκ, hκn⟩ := (combinations_getElem? hpo).1 hn
  obtain ⟨κ₁, hκ₁, hκn₁⟩ := (combinations_getElem? hpo').1 hn'
  have hlen' : cs₂'.length = post.length := by
    have h1 := hκ₁.valid hpo'
    have h2 := h1.length_eq
    have h3 := hκ₁.2
    rw [List.length_map, lastFirst_length] at h2
    rw [lastFirst_length] at h3
    omega
  obtain ⟨κ', rfl, hκ'⟩ := (CompAt.lastFirst hpo hlen').1 hκ₁
  have hoff : offset s₂ κ = offset (lastFirst s₂) (lastFirst κ') := by
    rw [e2, lastFirst_map, hκn, hκn₁]
  rw [hasValue_iff hw', hasValue_iff hw, h.split, h.components, h.samples, hrows]
  constructor
  · rintro ⟨i, k, j, h8, h9, h10, h11⟩
    obtain ⟨k₁, k₂, rfl, h12, h13⟩ := (CompAt.append_iff hcs).1 h9
    obtain rfl := CompAt.unique hpo h13 hκ
    obtain ⟨jc, jp, rfl, h14, h15⟩ := (componentRows_getElem? hcw (by rw [he, h.names])).1 h10
    refine ⟨i, k₁ ++ jc :: κ', jp, h8, (CompAt.append_iff hcs).2 ⟨k₁, _, rfl, h12,
      (CompAt.cons_iff hcw).2 ⟨jc, κ', rfl, h14, hκ'⟩⟩, h15, ?_⟩
    rw [← ep] at h11
    rw [← h11]
    exact (key (by rw [e0]; exact (List.getElem?_eq_some_iff.1 h8).1)
      (by rw [e1]; exact h12.valid hpre) (by rw [ec]; exact (List.getElem?_eq_some_iff.1 h14).1)
      (by rw [e2]; exact h13.valid hpo) (by rw [e2]; exact hκ'.valid hpo)
      (by rw [ep]; exact (List.getElem?_eq_some_iff.1 h15).1) hoff).symm
  · rintro ⟨i, k, jp, h8, h9, h10, h11⟩
    obtain ⟨k₁, k₂', rfl, h12, h13⟩ := (CompAt.append_iff hcs).1 h9
    obtain ⟨jc, k₂, rfl, h14, h15⟩ := (CompAt.cons_iff hcw).1 h13
    obtain rfl := CompAt.unique hpo h15 hκ'
    refine ⟨i, k₁ ++ κ, jc * b.properties.rows.length + jp, h8,
      (CompAt.append_iff hcs).2 ⟨k₁, κ, rfl, h12, hκ⟩,
      (componentRows_getElem? hcw (by rw [he, h.names])).2 ⟨jc, jp, rfl, h14, h10⟩, ?_⟩
    rw [← h11, ← ep]
    exact key (by rw [e0]; exact (List.getElem?_eq_some_iff.1 h8).1)
      (by rw [e1]; exact h12.valid hpre) (by rw [ec]; exact (List.getElem?_eq_some_iff.1 h14).1)
      (by rw [e2]; exact hκ.valid hpo) (by rw [e2]; exact h15.valid hpo)
      (by rw [ep]; exact (List.getElem?_eq_some_iff.1 h10).1) hoff

end Equistore
