import Verif.Lemmas.Writer

/-! The order in which parts are written. -/

namespace Equistore
open Spec
variable {A : Type} [ArrayLike A] {hash : HashOrder}

/-- Whether a part is the data of a block or gradient. -/
def Part.isData : Part → Bool
  | .values _ .data => true
  | .gradient _ _ .data => true
  | _ => false

/-- The gradient of a part. -/
def Part.group : Part → Option String
  | .gradient _ p _ => some p
  | _ => none

/-- `y` is written before `x`: keys first, blocks in order, and the data before the labels. -/
def Precedes (y x : Part) : Prop :=
  (y = .keys ∧ x ≠ .keys) ∨
  (Part.block y = Part.block x ∧ Part.group y = Part.group x ∧ Part.isData y = true ∧ Part.isData x = false) ∨
  ∃ i j, Part.block y = some i ∧ Part.block x = some j ∧ i < j

theorem not_precedes {i : Nat} {x y : Part} (hx : Part.block x = some i) (hy : Part.block y = some i)
    (h : Part.isData y = false ∨ Part.group y ≠ Part.group x) : ¬ Precedes y x := by
  rintro (⟨rfl, -⟩ | ⟨-, h2, h3, -⟩ | ⟨a, b, h1, h2, h3⟩)
  · simp [Part.block] at hy
  · rcases h with h | h
    · rw [h] at h3; cases h3
    · exact h h2
  · rw [hy, Option.some.injEq] at h1
    rw [hx, Option.some.injEq] at h2
    omega

/-- The parts in a list are in an order which agrees with `Precedes`. -/
def Ordered (parts : List (Part × SaveSource A)) : Prop := parts.Pairwise fun x y => ¬ Precedes y.1 x.1

/-- Parts of one block or gradient. -/
structure Group (i : Nat) (group : Option String) (parts : List (Part × SaveSource A)) : Prop where
  all : ∀ x ∈ parts, Part.block x.1 = some i ∧ Part.group x.1 = group
  tail : ∀ x ∈ parts.tail, Part.isData x.1 = false

theorem Group.ordered {i : Nat} {group : Option String} {parts : List (Part × SaveSource A)} (h : Group i group parts) :
    Ordered parts := by
  unfold Ordered
  cases parts with
  | nil => exact .nil
  | cons a parts =>
    have ha := h.all a List.mem_cons_self
    rw [List.pairwise_cons]
    refine ⟨fun y hy => not_precedes ha.1 (h.all y (List.mem_cons_of_mem _ hy)).1 (.inl (h.tail y hy)), ?_⟩
    have : ∀ x ∈ parts, Part.block x.1 = some i ∧ Part.isData x.1 = false :=
      fun x hx => ⟨(h.all x (List.mem_cons_of_mem _ hx)).1, h.tail x hx⟩
    refine List.pairwise_of_forall_mem_list fun x hx y hy => ?_
    exact not_precedes (this x hx).1 (this y hy).1 (.inl (this y hy).2)

theorem gradientParts_group (i : Nat) (g : String × BasicBlock A) : Group i (some g.1) (gradientParts i g) := by
  unfold gradientParts componentParts
  refine ⟨fun x hx => ?_, fun x hx => ?_⟩
  · simp only [List.cons_append, List.nil_append, List.mem_cons, List.mem_map] at hx
    rcases hx with rfl | rfl | ⟨c, -, rfl⟩ <;> exact ⟨rfl, rfl⟩
  · simp only [List.cons_append, List.nil_append, List.tail_cons, List.mem_cons, List.mem_map] at hx
    rcases hx with rfl | ⟨c, -, rfl⟩ <;> rfl

theorem valuesParts_group (b : TensorBlock A × Nat) :
    Group b.2 none ([(.values b.2 .data, .data b.1.values.data), (.values b.2 .samples, .labels b.1.values.samples)] ++
      componentParts (fun c => .values b.2 (.component c)) b.1.values.components 0 ++
      [(.values b.2 .properties, .labels b.1.values.properties)] : List (Part × SaveSource A)) := by
  unfold componentParts
  refine ⟨fun x hx => ?_, fun x hx => ?_⟩
  · simp only [List.cons_append, List.nil_append, List.mem_cons, List.mem_append, List.mem_map, List.not_mem_nil, or_false] at hx
    rcases hx with rfl | rfl | ⟨c, -, rfl⟩ | rfl <;> exact ⟨rfl, rfl⟩
  · simp only [List.cons_append, List.nil_append, List.tail_cons, List.mem_cons, List.mem_append, List.mem_map,
      List.not_mem_nil, or_false] at hx
    rcases hx with rfl | ⟨c, -, rfl⟩ | rfl <;> rfl

theorem blockParts_block (b : TensorBlock A × Nat) : ∀ x ∈ blockParts hash b, Part.block x.1 = some b.2 := by
  intro x hx
  unfold blockParts at hx
  rw [List.mem_append, List.mem_flatMap] at hx
  rcases hx with hx | ⟨g, -, hx⟩
  · exact ((valuesParts_group b).all x hx).1
  · exact ((gradientParts_group b.2 g).all x hx).1

theorem blockParts_ordered {b : TensorBlock A × Nat} (hb : b.1.GradientsNodup) : Ordered (blockParts hash b) := by
  unfold Ordered blockParts
  rw [List.pairwise_append]
  refine ⟨(valuesParts_group b).ordered, ?_, ?_⟩
  · rw [List.pairwise_flatMap]
    refine ⟨fun g _ => (gradientParts_group b.2 g).ordered, ?_⟩
    have hn : ((hash.order b.1.gradients).map Prod.fst).Nodup :=
      ((hash.perm b.1.gradients).map Prod.fst).nodup_iff.2 hb
    rw [List.Nodup, List.pairwise_map] at hn
    refine hn.imp ?_
    intro g g' hne x hx y hy
    have hx := (gradientParts_group b.2 g).all x hx
    have hy := (gradientParts_group b.2 g').all y hy
    refine not_precedes hx.1 hy.1 (.inr ?_)
    rw [hx.2, hy.2]
    intro h
    exact hne (Option.some.inj h).symm
  · intro x hx y hy
    rw [List.mem_flatMap] at hy
    obtain ⟨g, -, hy⟩ := hy
    have hx := (valuesParts_group b).all x hx
    have hy := (gradientParts_group b.2 g).all y hy
    refine not_precedes hx.1 hy.1 (.inr ?_)
    rw [hx.2, hy.2]
    simp

theorem tensorParts_ordered {t : TensorMap A} (ht : ∀ b ∈ t.blocks, b.GradientsNodup) : Ordered (tensorParts hash t) := by
  unfold Ordered tensorParts
  rw [List.pairwise_cons]
  constructor
  · rintro y hy (⟨h1, -⟩ | ⟨h1, -, -, -⟩ | ⟨i, j, -, h2, -⟩)
    · rw [List.mem_flatMap] at hy
      obtain ⟨b, -, hy⟩ := hy
      have := blockParts_block b y hy
      rw [h1] at this
      cases this
    · rw [List.mem_flatMap] at hy
      obtain ⟨b, -, hy⟩ := hy
      have := blockParts_block b y hy
      rw [h1] at this
      cases this
    · cases h2
  · rw [List.pairwise_flatMap]
    constructor
    · rintro ⟨b, i⟩ hb
      rw [List.mem_zipIdx_iff_getElem?] at hb
      exact blockParts_ordered (ht b (List.mem_of_getElem? hb))
    · have hn : (t.blocks.zipIdx.map Prod.snd).Pairwise (· < ·) := by
        rw [List.zipIdx_map_snd]
        exact List.pairwise_lt_range'
      rw [List.pairwise_map] at hn
      refine hn.imp ?_
      intro b c hlt x hx y hy
      have hx := blockParts_block b x hx
      have hy := blockParts_block c y hy
      rintro (⟨h1, -⟩ | ⟨h1, -, -, -⟩ | ⟨i, j, h1, h2, h3⟩)
      · rw [h1] at hy; cases hy
      · rw [hx, hy, Option.some.injEq] at h1
        omega
      · rw [hy, Option.some.injEq] at h1
        rw [hx, Option.some.injEq] at h2
        omega

/-- A part which has to be written before the one which failed has been written. -/
theorem Ordered.before {before after : List (Part × SaveSource A)} {x y : Part × SaveSource A}
    (h : Ordered (before ++ x :: after)) (hy : y ∈ before ++ x :: after) (hp : Precedes y.1 x.1) : y ∈ before := by
  unfold Ordered at h
  rw [List.mem_append, List.mem_cons] at hy
  rw [List.pairwise_append, List.pairwise_cons] at h
  rcases hy with hy | rfl | hy
  · exact hy
  · exfalso
    rcases hp with ⟨h1, h2⟩ | ⟨-, -, h1, h2⟩ | ⟨i, j, h1, h2, h3⟩
    · exact h2 h1
    · rw [h1] at h2; cases h2
    · rw [h1, Option.some.injEq] at h2; omega
  · exact absurd hp (h.2.1.1 y hy)

/-- A part which has to be written after the one which failed has not been written. -/
theorem Ordered.not_before {before after : List (Part × SaveSource A)} {x y : Part × SaveSource A}
    (h : Ordered (before ++ x :: after)) (hp : Precedes x.1 y.1) : y ∉ before := by
  intro hy
  unfold Ordered at h
  rw [List.pairwise_append] at h
  exact h.2.2 y hy x List.mem_cons_self hp

end Equistore
