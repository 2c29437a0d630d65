import Verif.Spec.Blocks
import Verif.Lemmas.Labels
import Verif.Lemmas.Act

namespace Equistore
open Spec

variable {A : Type} [ArrayLike A]

/-! ### Labels from builders -/

theorem Labels.FromBuilder.wf {l : Labels} (h : l.FromBuilder) (hn : l.names ≠ []) : l.WF := by
  obtain ⟨names, entries, hb⟩ := h
  by_cases hnm : names = []
  · subst hnm
    obtain ⟨_, rfl⟩ := Labels.build_nil_eq_ok.1 hb
    exact absurd rfl hn
  · exact ((Labels.build_eq_ok (List.length_pos_iff.2 hnm)).1 hb).wf

theorem Labels.WF.fromBuilder {l : Labels} (h : l.WF) : l.FromBuilder :=
  ⟨l.names, l.rows, (Labels.build_eq_ok h.names_pos).2 h⟩

theorem Labels.WF.names_ne {l : Labels} (h : l.WF) : l.names ≠ [] := by
  have := h.names_pos
  intro hc; rw [hc] at this; simp at this

theorem Labels.count_ok_ne {l : Labels} {n : Nat} (h : l.count = .ok n) : l.names ≠ [] := by
  intro hc
  simp [Labels.count, Labels.size, hc, Res.bind_eq_ok] at h

theorem Labels.FromBuilder.wf_of_count {l : Labels} (h : l.FromBuilder) {n : Nat}
    (hc : l.count = .ok n) : l.WF := h.wf (Labels.count_ok_ne hc)

theorem Labels.WF.count_eq {l : Labels} (h : l.WF) : l.count = .ok l.rows.length :=
  Labels.Holds.count_eq h

/-! ### Checks -/

theorem checkComponentsShape_iff {context : String} {shape : List Nat} {d : Nat} {cs : List Labels} {u : Unit} :
    checkComponentsShape context shape d cs = .ok u ↔
      List.Forall₂ (fun n l => Labels.count l = .ok n) ((shape.drop d).take cs.length) cs := by
  induction cs generalizing d with
  | nil => simp [checkComponentsShape]
  | cons c cs ih =>
    simp only [checkComponentsShape, Res.bind_eq_ok, Res.expect_eq_ok, Res.guardErr_eq_ok,
      beq_iff_eq, ih]
    constructor
    · rintro ⟨n, hn, m, hm, _, rfl, h⟩
      rw [List.drop_eq_getElem?_toList_append, hn]
      simp only [Option.toList_some, List.singleton_append, List.length_cons, List.take_succ_cons]
      exact .cons hm h
    · intro h
      cases hs : shape[d]? with
      | none =>
        have : shape.length ≤ d := List.getElem?_eq_none_iff.1 hs
        rw [List.drop_eq_nil_of_le this] at h
        simp at h
      | some n =>
        rw [List.drop_eq_getElem?_toList_append, hs] at h
        simp only [Option.toList_some, List.singleton_append, List.length_cons, List.take_succ_cons,
          List.forall₂_cons] at h
        exact ⟨n, rfl, n, h.1, (), rfl, h.2⟩

theorem checkDataAndLabels_iff {context : String} {data : A} {samples : Labels}
    {components : List Labels} {properties : Labels} {u : Unit} :
    checkDataAndLabels context data samples components properties = .ok u ↔
      ((∃ shape, ArrayLike.shape data = .ok shape ∧ ShapeMatches shape samples components properties) ∧
        (components.map (·.names)).Nodup) := by
  have hcd : (countDistinct (components.map (·.names)) = components.length) ↔
      (components.map (·.names)).Nodup := by
    rw [← countDistinct_eq_length, List.length_map]
  simp only [checkDataAndLabels, Res.bind_eq_ok, Res.guardErr_eq_ok, beq_iff_eq,
    Res.expect_eq_ok, checkComponentsShape_iff, hcd]
  unfold ShapeMatches
  constructor
  · rintro ⟨shape, hshape, _, hlen, n, hn, m, hm, _, rfl, _, hnd, _, hcs, p, hp, q, hq, rfl⟩
    refine ⟨⟨shape, hshape, ?_⟩, hnd⟩
    cases shape with
    | nil => simp at hn
    | cons a t =>
      simp only [List.getElem?_cons_zero, Option.some.injEq] at hn
      subst hn
      simp only [List.cons_append]
      refine .cons hm ?_
      simp only [List.drop_succ_cons, List.drop_zero] at hcs
      have ht : t = t.take components.length ++ [p] := by
        have h1 : t.length = components.length + 1 := by simpa using hlen
        have h2 : t[components.length]? = some p := by
          rw [Nat.add_comm] at hp; simpa using hp
        have h3 := List.take_append_drop components.length t
        rw [List.drop_eq_getElem?_toList_append, h2, List.drop_eq_nil_of_le (by omega)] at h3
        simpa using h3.symm
      rw [ht]
      exact List.rel_append hcs (.cons hq .nil)
  · rintro ⟨⟨shape, hshape, h⟩, hnd⟩
    have hlen := h.length_eq
    simp at hlen
    cases shape with
    | nil => simp at h
    | cons a t =>
      simp only [List.cons_append, List.forall₂_cons] at h
      obtain ⟨ha, ht⟩ := h
      have hcs := List.forall₂_take components.length ht
      have hp := List.forall₂_drop components.length ht
      simp only [List.take_left'] at hcs
      rw [List.drop_left' rfl] at hp
      cases hp' : t.drop components.length with
      | nil => rw [hp'] at hp; simp at hp
      | cons p r =>
        rw [hp'] at hp
        simp only [List.forall₂_cons] at hp
        have hget : t[components.length]? = some p := by
          rw [← List.head?_drop, hp']; rfl
        refine ⟨a :: t, hshape, (), by simp [hlen], a, rfl, a, ha, (), rfl, (), hnd, (), ?_,
          p, ?_, p, hp.1, rfl⟩
        · simpa using hcs
        · rw [Nat.add_comm]; simpa using hget

theorem checkComponentLabels_iff {i : Nat} {cs : List Labels} {u : Unit} :
    checkComponentLabels i cs = .ok u ↔ ∀ c ∈ cs, c.names.length = 1 := by
  induction cs generalizing i with
  | nil => simp [checkComponentLabels]
  | cons c cs ih =>
    simp [checkComponentLabels, Res.bind_eq_ok, ih, Labels.size]

theorem BasicBlock.new_eq_ok {data : A} {samples : Labels} {components : List Labels}
    {properties : Labels} {b : BasicBlock A} :
    BasicBlock.new data samples components properties = .ok b ↔
      ((∃ shape, ArrayLike.shape data = .ok shape ∧ ShapeMatches shape samples components properties) ∧
        ComponentsOk components ∧ b = ⟨data, samples, components, properties⟩) := by
  simp only [BasicBlock.new, Res.bind_eq_ok, checkDataAndLabels_iff, checkComponentLabels_iff,
    Res.pure_eq, Res.ok.injEq, ComponentsOk]
  constructor
  · rintro ⟨_, ⟨h1, h2⟩, _, h3, rfl⟩; exact ⟨h1, ⟨h3, h2⟩, rfl⟩
  · rintro ⟨h1, ⟨h3, h2⟩, rfl⟩; exact ⟨(), ⟨h1, h2⟩, (), h3, rfl⟩

theorem TensorBlock.new_eq_ok {data : A} {samples : Labels} {components : List Labels}
    {properties : Labels} {b : TensorBlock A} :
    TensorBlock.new data samples components properties = .ok b ↔
      ((∃ shape, ArrayLike.shape data = .ok shape ∧ ShapeMatches shape samples components properties) ∧
        ComponentsOk components ∧ b = ⟨⟨data, samples, components, properties⟩, [], []⟩) := by
  simp only [TensorBlock.new, Res.bind_eq_ok, BasicBlock.new_eq_ok, Res.pure_eq, Res.ok.injEq]
  constructor
  · rintro ⟨_, ⟨h1, h2, rfl⟩, rfl⟩; exact ⟨h1, h2, rfl⟩
  · rintro ⟨h1, h2, rfl⟩; exact ⟨_, ⟨h1, h2, rfl⟩, rfl⟩

/-! ### Panics -/

theorem Labels.WF.count_ne_panic {l : Labels} (h : l.WF) {m : String} : l.count ≠ .panic m := by
  rw [h.count_eq]; simp

theorem checkComponentsShape_ne_panic {context : String} {shape : List Nat} {d : Nat} {cs : List Labels}
    {m : String} (hcs : ∀ c ∈ cs, c.WF) (hl : d + cs.length ≤ shape.length) :
    checkComponentsShape context shape d cs ≠ .panic m := by
  induction cs generalizing d with
  | nil => simp [checkComponentsShape]
  | cons c cs ih =>
    have hd : d < shape.length := by simp at hl; omega
    have hc : c.WF := hcs c List.mem_cons_self
    simp only [checkComponentsShape, List.getElem?_eq_getElem hd, Res.expect_some, Res.ok_bind,
      hc.count_eq]
    intro h
    rw [Res.bind_eq_panic] at h
    rcases h with h | ⟨_, _, h⟩
    · simp at h
    · exact ih (fun c hc => hcs c (List.mem_cons_of_mem _ hc)) (by simp at hl; omega) h

theorem checkDataAndLabels_err {context : String} {data : A} {shape : List Nat} {samples : Labels}
    {components : List Labels} {properties : Labels}
    (hshape : ArrayLike.shape data = .ok shape)
    (hs : samples.WF) (hc : ∀ c ∈ components, c.WF) (hp : properties.WF) :
    (∃ u, checkDataAndLabels context data samples components properties = .ok u) ∨
    (∃ msg, checkDataAndLabels context data samples components properties
      = .err (.invalidParameter msg)) := by
  have hcomp : ∀ (d : Nat) (cs : List Labels), (∀ c ∈ cs, c.WF) → d + cs.length ≤ shape.length →
      (∃ u, checkComponentsShape context shape d cs = .ok u) ∨
      (∃ msg, checkComponentsShape context shape d cs = .err (.invalidParameter msg)) := by
    intro d cs
    induction cs generalizing d with
    | nil => intro _ _; left; exact ⟨(), rfl⟩
    | cons c cs ih =>
      intro hcs hl
      have hd : d < shape.length := by simp at hl; omega
      have hc : c.WF := hcs c List.mem_cons_self
      simp only [checkComponentsShape, List.getElem?_eq_getElem hd, Res.expect_some, Res.ok_bind,
        hc.count_eq]
      by_cases hg : (shape[d] == c.rows.length) = true
      · rw [hg, Res.guardErr_true, Res.ok_bind]
        exact ih _ (fun c hc => hcs c (List.mem_cons_of_mem _ hc)) (by simp at hl; omega)
      · right; simp only [Res.guardErr, hg]; exact ⟨_, rfl⟩
  unfold checkDataAndLabels
  rw [hshape, Res.ok_bind]
  by_cases h1 : (shape.length == components.length + 2) = true
  · rw [h1, Res.guardErr_true, Res.ok_bind]
    have hlen : shape.length = components.length + 2 := by simpa using h1
    rw [List.getElem?_eq_getElem (by omega : 0 < shape.length), Res.expect_some, Res.ok_bind,
      hs.count_eq, Res.ok_bind]
    by_cases h2 : (shape[0]'(by omega) == samples.rows.length) = true
    · rw [h2, Res.guardErr_true, Res.ok_bind]
      by_cases h3 : (countDistinct (components.map (·.names)) == components.length) = true
      · rw [h3, Res.guardErr_true, Res.ok_bind]
        rcases hcomp 1 components hc (by omega) with ⟨u, h4⟩ | ⟨msg, h4⟩
        · rw [h4, Res.ok_bind, List.getElem?_eq_getElem (by omega : 1 + components.length < shape.length),
            Res.expect_some, Res.ok_bind, hp.count_eq, Res.ok_bind]
          by_cases h5 : (shape[1 + components.length]'(by omega) == properties.rows.length) = true
          · left; rw [h5]; exact ⟨(), rfl⟩
          · right; simp only [Res.guardErr, h5]; exact ⟨_, rfl⟩
        · right; rw [h4]; exact ⟨_, rfl⟩
      · right; simp only [Res.guardErr, h3]; exact ⟨_, rfl⟩
    · right; simp only [Res.guardErr, h2]; exact ⟨_, rfl⟩
  · right; simp only [Res.guardErr, h1]; exact ⟨_, rfl⟩

theorem checkComponentLabels_err {i : Nat} {cs : List Labels} :
    (∃ u, checkComponentLabels i cs = .ok u) ∨
    (∃ msg, checkComponentLabels i cs = .err (.invalidParameter msg)) := by
  induction cs generalizing i with
  | nil => left; exact ⟨(), rfl⟩
  | cons c cs ih =>
    unfold checkComponentLabels
    by_cases h : (c.size == 1) = true
    · rw [h, Res.guardErr_true, Res.ok_bind]; exact ih
    · right; simp only [Res.guardErr, h]; exact ⟨_, rfl⟩

/-! ### add_gradient -/

theorem checkGradientComponents_iff {i : Nat} {l : List (Labels × Labels)} {u : Unit} :
    TensorBlock.checkGradientComponents i l = .ok u ↔ ∀ p ∈ l, p.1 = p.2 := by
  induction l generalizing i with
  | nil => simp [TensorBlock.checkGradientComponents]
  | cons p l ih =>
    obtain ⟨a, b⟩ := p
    simp [TensorBlock.checkGradientComponents, Res.bind_eq_ok, ih]

theorem zip_all_eq {α : Type} {l l' : List α} (h : l.length = l'.length) :
    (∀ p ∈ l.zip l', p.1 = p.2) ↔ l = l' := by
  induction l generalizing l' with
  | nil => cases l' <;> simp_all
  | cons a l ih =>
    cases l' with
    | nil => simp at h
    | cons b l' =>
      simp only [List.zip_cons_cons, List.mem_cons, forall_eq_or_imp, List.cons.injEq]
      rw [ih (by simpa using h)]

theorem suffix_check_iff {gc vc : List Labels} {i : Nat} {u : Unit} (h : vc.length ≤ gc.length) :
    TensorBlock.checkGradientComponents i ((gc.drop (gc.length - vc.length)).zip vc) = .ok u ↔
      ∃ extra, gc = extra ++ vc := by
  rw [checkGradientComponents_iff, zip_all_eq (by simp; omega)]
  constructor
  · intro hd
    exact ⟨gc.take (gc.length - vc.length),
      by conv => { lhs; rw [← List.take_append_drop (gc.length - vc.length) gc, hd] }⟩
  · rintro ⟨extra, rfl⟩
    simp

theorem checkGradient_iff {b : TensorBlock A} {parameter : String} {data : A} {samples : Labels}
    {components : List Labels} {u : Unit} :
    TensorBlock.checkGradient b parameter data samples components = .ok u ↔
      GradientAcceptable b parameter data samples components := by
  simp only [TensorBlock.checkGradient, Res.bind_eq_ok, Res.guardErr_eq_ok, beq_iff_eq,
    checkComponentLabels_iff, checkDataAndLabels_iff, Option.isNone_iff_eq_none, bne_iff_ne,
    decide_eq_true_eq]
  constructor
  · rintro ⟨_, h1, o, ho, o', ho', _, rfl, _, h2, _, h3, _, h4, _, h5, _, h6, h7, h8⟩
    exact ⟨h1, h2, ⟨_, ho, ho'⟩, h3, (suffix_check_iff h5).1 h6, ⟨h4, h8⟩, h7⟩
  · intro h
    obtain ⟨o, ho, ho'⟩ := h.origin
    obtain ⟨extra, hextra⟩ := h.suffix
    have hle : b.values.components.length ≤ components.length := by rw [hextra]; simp
    exact ⟨(), h.fresh, o, ho, o, ho', (), rfl, (), h.reserved, (), h.sampleName, (),
      h.componentsOk.1, (), hle, (), (suffix_check_iff hle).2 h.suffix, h.shape,
      h.componentsOk.2⟩

/-- The gradient block added by `add_gradient`. -/
def TensorBlock.gradientBlock (b : TensorBlock A) (data : A) (samples : Labels)
    (components : List Labels) : BasicBlock A :=
  { data, samples, components, properties := b.values.properties }

theorem addGradient_eq (b : TensorBlock A) (parameter : String) (data : A) (samples : Labels)
    (components : List Labels) :
    TensorBlock.addGradient parameter data samples components b =
      match TensorBlock.checkGradient b parameter data samples components with
      | .ok _ =>
        if parameter.toList.contains '\x00' then
          ({ b with gradients := b.gradients ++ [(parameter, b.gradientBlock data samples components)] },
            .panic "invalid C string")
        else
          ({ b with
              gradients := b.gradients ++ [(parameter, b.gradientBlock data samples components)]
              gradientParameters := b.gradientParameters ++ [parameter] }, .ok ())
      | .err e => (b, .err e)
      | .panic m => (b, .panic m) := by
  unfold TensorBlock.addGradient
  simp only [Act.get_bind, Act.lift_bind]
  cases TensorBlock.checkGradient b parameter data samples components with
  | err e => rfl
  | panic m => rfl
  | ok u =>
    simp only [Act.set_bind, Act.lift_bind]
    by_cases h : parameter.toList.contains '\x00' = true
    · rw [h]; rfl
    · simp only [Bool.not_eq_true] at h
      rw [h]; rfl

theorem lookup_eq_none_iff_not_mem {α : Type} {l : List (String × α)} {k : String} :
    l.lookup k = none ↔ k ∉ l.map Prod.fst := by
  induction l with
  | nil => simp
  | cons p l ih =>
    obtain ⟨n, v⟩ := p
    rw [List.lookup_cons]
    by_cases h : k = n
    · subst h; simp
    · have : (k == n) = false := by simpa using h
      simp [this, ih, h]

theorem lookup_eq_some_iff {α : Type} {l : List (String × α)} {k : String} {v : α}
    (hn : (l.map Prod.fst).Nodup) : l.lookup k = some v ↔ (k, v) ∈ l := by
  induction l with
  | nil => simp
  | cons p l ih =>
    obtain ⟨n, w⟩ := p
    simp only [List.map_cons, List.nodup_cons] at hn
    rw [List.lookup_cons]
    by_cases h : k = n
    · subst h
      simp only [beq_self_eq_true, Option.some.injEq, List.mem_cons, Prod.mk.injEq, true_and]
      constructor
      · rintro rfl; exact .inl rfl
      · rintro (rfl | hm)
        · rfl
        · exact absurd (List.mem_map_of_mem (f := Prod.fst) hm) hn.1
    · have : (k == n) = false := by simpa using h
      simp only [this, ih hn.2, List.mem_cons, Prod.mk.injEq, h, false_and, false_or]

/-- A successful `add_gradient` preserves block validity. -/
theorem Spec.BlockValid.addGradient {b : TensorBlock A} (hb : BlockValid b) {parameter : String} {data : A}
    {samples : Labels} {components : List Labels}
    (hl : ∀ l ∈ samples :: components, l.FromBuilder)
    (hok : GradientAcceptable b parameter data samples components) :
    BlockValid { b with
      gradients := b.gradients ++ [(parameter, b.gradientBlock data samples components)]
      gradientParameters := b.gradientParameters ++ [parameter] } := by
  refine ⟨hb.values, ?_, ?_, ?_, ?_⟩
  · intro name g hg
    simp only [List.mem_append, List.mem_singleton, Prod.mk.injEq] at hg
    rcases hg with hg | ⟨rfl, rfl⟩
    · exact hb.gradients name g hg
    · refine ⟨⟨hok.shape, hok.componentsOk, ?_⟩, rfl, hok.suffix, hok.sampleName, hok.origin⟩
      intro l hl'
      simp only [TensorBlock.gradientBlock, List.cons_append, List.mem_cons, List.mem_append,
        List.not_mem_nil, or_false] at hl'
      rcases hl' with rfl | h | rfl
      · exact hl _ List.mem_cons_self
      · exact hl _ (List.mem_cons_of_mem _ h)
      · exact hb.values.labels _ (by simp)
  · simp only [List.map_append, List.map_cons, List.map_nil]
    rw [List.nodup_append]
    refine ⟨hb.names, by simp, ?_⟩
    intro a ha c hc
    simp only [List.mem_singleton] at hc
    subst hc
    rintro rfl
    exact lookup_eq_none_iff_not_mem.1 hok.fresh ha
  · simp only [List.map_append, List.map_cons, List.map_nil, List.mem_append, List.mem_singleton, not_or]
    exact ⟨hb.reserved, fun h => hok.reserved h.symm⟩
  · simp [hb.list]

theorem Spec.BlockValid.new {data : A} {samples : Labels} {components : List Labels}
    {properties : Labels} {b : TensorBlock A}
    (hl : ∀ l ∈ samples :: components ++ [properties], l.FromBuilder)
    (h : TensorBlock.new data samples components properties = .ok b) : BlockValid b := by
  obtain ⟨h1, h2, rfl⟩ := TensorBlock.new_eq_ok.1 h
  exact ⟨⟨h1, h2, hl⟩, by simp, by simp, by simp, rfl⟩

end Equistore
