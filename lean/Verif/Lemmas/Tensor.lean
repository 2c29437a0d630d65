import Verif.Model.Tensor
import Verif.Lemmas.Blocks
import Verif.Lemmas.Act
import Verif.Spec.Tensor
import Mathlib.Data.List.Perm.Subperm

namespace Equistore
open Spec

variable {A : Type} [ArrayLike A]

/-! ### Consistency -/

theorem checkComponentNames_iff {ctx : String} {l : List (Labels × List String)} {u : Unit} :
    checkComponentNames ctx l = .ok u ↔ ∀ p ∈ l, p.1.names = p.2 := by
  induction l with
  | nil => simp [checkComponentNames]
  | cons a l ih => simp [checkComponentNames, Res.bind_eq_ok, ih]

theorem checkComponentNames_ne_panic {ctx : String} {l : List (Labels × List String)} {m : String} :
    checkComponentNames ctx l ≠ .panic m := by
  induction l with
  | nil => simp [checkComponentNames]
  | cons a l ih => simp [checkComponentNames, Res.bind_eq_panic, ih]

theorem zip_names_iff {cs : List Labels} {names : List (List String)}
    (h : cs.length = names.length) :
    (∀ p ∈ cs.zip names, p.1.names = p.2) ↔ cs.map (·.names) = names := by
  induction cs generalizing names with
  | nil => cases names <;> simp_all
  | cons c cs ih =>
    cases names with
    | nil => simp at h
    | cons n ns =>
      simp only [List.length_cons, Nat.add_right_cancel_iff] at h
      rw [List.zip_cons_cons, List.forall_mem_cons, ih h, List.map_cons, List.cons.injEq]

theorem checkLabelsNames_iff {b : BasicBlock A} {s : List String} {c : List (List String)}
    {ctx : String} {u : Unit} :
    checkLabelsNames b s c ctx = .ok u ↔
      (b.samples.names = s ∧ b.components.map (·.names) = c) := by
  unfold checkLabelsNames
  simp only [Res.bind_eq_ok, Res.guardErr_eq_ok, beq_iff_eq, checkComponentNames_iff, exists_prop,
    exists_const]
  constructor
  · rintro ⟨h1, h2, h3⟩; exact ⟨h1, (zip_names_iff h2).1 h3⟩
  · rintro ⟨h1, h2⟩
    have h3 : b.components.length = c.length := by rw [← h2]; simp
    exact ⟨h1, h3, (zip_names_iff h3).2 h2⟩

theorem checkLabelsNames_ne_panic {b : BasicBlock A} {s : List String} {c : List (List String)}
    {ctx : String} {m : String} : checkLabelsNames b s c ctx ≠ .panic m := by
  unfold checkLabelsNames
  simp [Res.bind_eq_panic, checkComponentNames_ne_panic]

theorem checkGradientsNames_iff {first l : List (String × BasicBlock A)} {u : Unit} :
    checkGradientsNames first l = .ok u ↔
      ∀ p g, (p, g) ∈ l → ∃ g', first.lookup p = some g' ∧ SameNames g g' := by
  induction l with
  | nil => simp [checkGradientsNames]
  | cons a l ih =>
    obtain ⟨p, g⟩ := a
    simp only [checkGradientsNames]
    cases h : first.lookup p with
    | none =>
      simp only [reduceCtorEq, false_iff, not_forall]
      exact ⟨p, g, List.mem_cons_self, by simp [h]⟩
    | some g' =>
      simp only [Res.bind_eq_ok, checkLabelsNames_iff, ih, exists_prop, exists_const]
      constructor
      · rintro ⟨h1, h2⟩ q k hk
        rcases List.mem_cons.1 hk with hk | hk
        · cases hk; exact ⟨g', h, h1⟩
        · exact h2 q k hk
      · intro h1
        obtain ⟨g'', e, h2⟩ := h1 p g List.mem_cons_self
        rw [h] at e; cases e
        exact ⟨h2, fun q k hk => h1 q k (List.mem_cons_of_mem _ hk)⟩

theorem checkGradientsNames_ne_panic {first l : List (String × BasicBlock A)} {m : String} :
    checkGradientsNames first l ≠ .panic m := by
  induction l with
  | nil => simp [checkGradientsNames]
  | cons a l ih =>
    obtain ⟨p, g⟩ := a
    simp only [checkGradientsNames]
    cases h : first.lookup p with
    | none => simp
    | some g' => simp [Res.bind_eq_panic, checkLabelsNames_ne_panic, ih]

/-- Gradient parameters of a block are distinct: they are keys of a hash map. -/
def TensorBlock.GradientsNodup (b : TensorBlock A) : Prop := (b.gradients.map Prod.fst).Nodup

theorem gradient_eq_some {b : TensorBlock A} (hb : b.GradientsNodup) {p : String} {g : BasicBlock A} :
    b.gradient p = some g ↔ (p, g) ∈ b.gradients := lookup_eq_some_iff hb

theorem gradient_isSome {b : TensorBlock A} {p : String} :
    (b.gradient p).isSome = true ↔ p ∈ b.gradients.map Prod.fst := by
  have := lookup_eq_none_iff_not_mem (l := b.gradients) (k := p)
  unfold TensorBlock.gradient
  cases h : b.gradients.lookup p with
  | none => rw [h] at this; simpa using this.1 rfl
  | some g => rw [h] at this; simp at this; simpa using this

theorem same_parameters_of_subset {a b : TensorBlock A} (ha : a.GradientsNodup)
    (hl : a.gradients.length = b.gradients.length)
    (hs : ∀ p, (a.gradient p).isSome = true → (b.gradient p).isSome = true) (p : String) :
    (a.gradient p).isSome = (b.gradient p).isSome := by
  have hsub : a.gradients.map Prod.fst ⊆ b.gradients.map Prod.fst := by
    intro q hq; exact gradient_isSome.1 (hs q (gradient_isSome.2 hq))
  have hperm : (a.gradients.map Prod.fst).Perm (b.gradients.map Prod.fst) :=
    (List.Nodup.subperm ha hsub).perm_of_length_le (by simp [hl])
  rw [Bool.eq_iff_iff, gradient_isSome, gradient_isSome]
  exact hperm.mem_iff

theorem same_parameters_length {a b : TensorBlock A} (ha : a.GradientsNodup) (hb : b.GradientsNodup)
    (h : ∀ p, (a.gradient p).isSome = (b.gradient p).isSome) :
    a.gradients.length = b.gradients.length := by
  have hperm : (a.gradients.map Prod.fst).Perm (b.gradients.map Prod.fst) := by
    rw [List.perm_ext_iff_of_nodup ha hb]
    intro p
    rw [← gradient_isSome, ← gradient_isSome, h]
  simpa using hperm.length_eq

namespace Spec

theorem SameNames.refl (a : BasicBlock A) : SameNames a a := ⟨rfl, rfl⟩
theorem SameNames.symm {a b : BasicBlock A} (h : SameNames a b) : SameNames b a := ⟨h.1.symm, h.2.symm⟩
theorem SameNames.trans {a b c : BasicBlock A} (h : SameNames a b) (h' : SameNames b c) :
    SameNames a c := ⟨h.1.trans h'.1, h.2.trans h'.2⟩

theorem Consistent.refl (a : TensorBlock A) : Consistent a a :=
  ⟨.refl _, rfl, fun _ => rfl, fun p g g' h h' => by rw [h] at h'; cases h'; exact .refl _⟩

theorem Consistent.symm {a b : TensorBlock A} (h : Consistent a b) : Consistent b a :=
  ⟨h.values.symm, h.properties.symm, fun p => (h.parameters p).symm,
    fun p g g' h1 h2 => (h.gradients p g' g h2 h1).symm⟩

theorem Consistent.trans {a b c : TensorBlock A} (h : Consistent a b) (h' : Consistent b c) :
    Consistent a c := by
  refine ⟨h.values.trans h'.values, h.properties.trans h'.properties,
    fun p => (h.parameters p).trans (h'.parameters p), fun p g g' h1 h2 => ?_⟩
  have := h.parameters p
  rw [h1] at this
  cases hb : b.gradient p with
  | none => rw [hb] at this; simp at this
  | some k => exact (h.gradients p g k h1 hb).trans (h'.gradients p k g' hb h2)

end Spec

theorem checkBlocks_iff {hash : HashOrder} {first : TensorBlock A} {blocks : List (TensorBlock A)}
    {u : Unit} (hf : first.GradientsNodup) (hb : ∀ b ∈ blocks, b.GradientsNodup) :
    checkBlocks hash first blocks = .ok u ↔ ∀ b ∈ blocks, Consistent b first := by
  induction blocks with
  | nil => simp [checkBlocks]
  | cons b blocks ih =>
    have hb' := hb b List.mem_cons_self
    simp only [checkBlocks, Res.bind_eq_ok, checkLabelsNames_iff, Res.guardErr_eq_ok, beq_iff_eq,
      checkGradientsNames_iff, ih fun b h => hb b (List.mem_cons_of_mem _ h), exists_prop,
      exists_const, List.forall_mem_cons]
    refine ⟨?_, ?_⟩
    · rintro ⟨h1, h2, h3, h4, h5⟩
      refine ⟨⟨h1, h2, ?_, ?_⟩, h5⟩
      · apply same_parameters_of_subset hb' h3
        intro p hp
        obtain ⟨g, hg⟩ := Option.isSome_iff_exists.1 hp
        obtain ⟨g', e, _⟩ := h4 p g ((hash.perm _).mem_iff.2 ((gradient_eq_some hb').1 hg))
        exact Option.isSome_iff_exists.2 ⟨g', e⟩
      · intro p g g' hg hg'
        obtain ⟨g'', e, hs⟩ := h4 p g ((hash.perm _).mem_iff.2 ((gradient_eq_some hb').1 hg))
        have : first.gradient p = some g'' := e
        rw [hg'] at this; cases this; exact hs
    · rintro ⟨⟨h1, h2, h3, h4⟩, h5⟩
      refine ⟨h1, h2, same_parameters_length hb' hf h3, ?_, h5⟩
      intro p g hg
      have hg := (gradient_eq_some hb').2 ((hash.perm _).mem_iff.1 hg)
      have hp := h3 p
      rw [hg] at hp
      obtain ⟨g', hg'⟩ := Option.isSome_iff_exists.1 hp.symm
      exact ⟨g', hg', h4 p g g' hg hg'⟩

theorem checkBlocks_ne_panic {hash : HashOrder} {first : TensorBlock A}
    {blocks : List (TensorBlock A)} {m : String} : checkBlocks hash first blocks ≠ .panic m := by
  induction blocks with
  | nil => simp [checkBlocks]
  | cons b blocks ih =>
    simp [checkBlocks, Res.bind_eq_panic, checkLabelsNames_ne_panic, checkGradientsNames_ne_panic, ih]

/-- The only errors of a computation are about invalid parameters. -/
def Res.OnlyInvalidParameter {α : Type} (r : Res α) : Prop := ∀ e, r = .err e → ∃ m, e = .invalidParameter m

theorem Res.OnlyInvalidParameter.bind {α β : Type} {x : Res α} {f : α → Res β} (hx : x.OnlyInvalidParameter)
    (hf : ∀ a, (f a).OnlyInvalidParameter) : (x >>= f).OnlyInvalidParameter := by
  intro e he
  rw [Res.bind_eq_err] at he
  rcases he with he | ⟨a, _, he⟩
  · exact hx e he
  · exact hf a e he

theorem Res.OnlyInvalidParameter.guardErr {c : Bool} {m : String} :
    (Res.guardErr c (.invalidParameter m)).OnlyInvalidParameter := by
  intro e he
  rw [Res.guardErr_eq_err] at he
  exact ⟨m, he.2.symm⟩

theorem checkComponentNames_errors (context : String) (l : List (Labels × List String)) :
    (checkComponentNames context l).OnlyInvalidParameter := by
  induction l with
  | nil => intro e he; simp [checkComponentNames] at he
  | cons a l ih => exact .bind .guardErr fun _ => ih

theorem checkLabelsNames_errors (b : BasicBlock A) (s : List String) (c : List (List String)) (context : String) :
    (checkLabelsNames b s c context).OnlyInvalidParameter :=
  .bind .guardErr fun _ => .bind .guardErr fun _ => checkComponentNames_errors context _

theorem checkGradientsNames_errors (first l : List (String × BasicBlock A)) :
    (checkGradientsNames first l).OnlyInvalidParameter := by
  induction l with
  | nil => intro e he; simp [checkGradientsNames] at he
  | cons a l ih =>
    obtain ⟨p, g⟩ := a
    simp only [checkGradientsNames]
    cases first.lookup p with
    | none => intro e he; simp only [Res.err.injEq] at he; exact ⟨_, he.symm⟩
    | some g' => exact .bind (checkLabelsNames_errors _ _ _ _) fun _ => ih

theorem checkBlocks_errors (hash : HashOrder) (first : TensorBlock A) (blocks : List (TensorBlock A)) :
    (checkBlocks hash first blocks).OnlyInvalidParameter := by
  induction blocks with
  | nil => intro e he; simp [checkBlocks] at he
  | cons b blocks ih =>
    exact .bind (checkLabelsNames_errors _ _ _ _) fun _ => .bind .guardErr fun _ => .bind .guardErr fun _ =>
      .bind (checkGradientsNames_errors _ _) fun _ => ih

theorem TensorMap.new_eq_ok {hash : HashOrder} {keys : Labels} {blocks : List (TensorBlock A)}
    {t : TensorMap A} (hb : ∀ b ∈ blocks, b.GradientsNodup) :
    TensorMap.new hash keys blocks = .ok t ↔
      (keys.count = .ok blocks.length ∧ (∀ a ∈ blocks, ∀ b ∈ blocks, Consistent a b) ∧
        t = ⟨keys, blocks⟩) := by
  unfold TensorMap.new
  simp only [Res.bind_eq_ok, Res.guardErr_eq_ok, beq_iff_eq]
  cases blocks with
  | nil =>
    simp only [Res.pure_eq, Res.ok.injEq]
    constructor
    · rintro ⟨n, hn, _, h1, h2⟩; subst h1; exact ⟨hn, by simp, h2.symm⟩
    · rintro ⟨hn, _, h2⟩; exact ⟨_, hn, (), rfl, h2.symm⟩
  | cons first rest =>
    simp only [Res.bind_eq_ok, checkBlocks_iff (hb first List.mem_cons_self) hb, Res.pure_eq,
      Res.ok.injEq]
    constructor
    · rintro ⟨n, hn, _, h1, _, h2, h3⟩
      subst h1
      exact ⟨hn, fun a ha b hb => (h2 a ha).trans (h2 b hb).symm, h3.symm⟩
    · rintro ⟨hn, h2, h3⟩
      exact ⟨_, hn, (), rfl, (), fun b hb => h2 b hb first List.mem_cons_self, h3.symm⟩

/-! ### Selections -/

theorem requestedVariables_iff {keyNames names : List String} {is : List Nat} :
    TensorMap.requestedVariables keyNames names = .ok is ↔
      List.Forall₂ (fun n i => keyNames.findIdx? (· == n) = some i) names is := by
  induction names generalizing is with
  | nil => cases is <;> simp [TensorMap.requestedVariables]
  | cons n ns ih =>
    simp only [TensorMap.requestedVariables, Res.bind_eq_ok, Res.okOr_eq_ok, ih, Res.pure_eq,
      Res.ok.injEq]
    constructor
    · rintro ⟨i, hi, is, his, rfl⟩; exact .cons hi his
    · intro h; cases h with
      | cons h1 h2 => exact ⟨_, h1, _, h2, rfl⟩

theorem requestedVariables_cases (keyNames names : List String) :
    (∃ is, TensorMap.requestedVariables keyNames names = .ok is) ∧ (∀ n ∈ names, n ∈ keyNames) ∨
    (∃ m, TensorMap.requestedVariables keyNames names = .err (.invalidParameter m)) ∧
      ¬ (∀ n ∈ names, n ∈ keyNames) := by
  induction names with
  | nil => left; exact ⟨⟨[], rfl⟩, by simp⟩
  | cons n ns ih =>
    simp only [TensorMap.requestedVariables]
    cases hf : keyNames.findIdx? (· == n) with
    | none =>
      right
      refine ⟨⟨_, rfl⟩, ?_⟩
      intro h
      have := h n List.mem_cons_self
      rw [List.findIdx?_eq_none_iff] at hf
      simpa using hf n this
    | some i =>
      have hn : n ∈ keyNames := by
        rw [List.findIdx?_eq_some_iff_getElem] at hf
        obtain ⟨h, h1, _⟩ := hf
        have : keyNames[i] = n := by simpa using h1
        rw [← this]; exact List.getElem_mem h
      rcases ih with ⟨⟨is, h⟩, h'⟩ | ⟨⟨m, h⟩, h'⟩
      · left
        refine ⟨⟨i :: is, by simp [Res.okOr, h]⟩, ?_⟩
        intro x hx
        rcases List.mem_cons.1 hx with rfl | hx
        · exact hn
        · exact h' x hx
      · right
        refine ⟨⟨m, by simp [Res.okOr, h]⟩, ?_⟩
        intro hc; exact h' fun x hx => hc x (List.mem_cons_of_mem _ hx)

theorem findIdx?_name {keyNames : List String} (hnd : keyNames.Nodup) {n : String} {i : Nat} :
    keyNames.findIdx? (· == n) = some i ↔ keyNames[i]? = some n := by
  rw [List.findIdx?_eq_some_iff_getElem]
  constructor
  · rintro ⟨h, h1, _⟩
    rw [List.getElem?_eq_getElem h]; simpa using h1
  · intro h
    obtain ⟨hi, he⟩ := List.getElem?_eq_some_iff.1 h
    refine ⟨hi, by simpa using he, ?_⟩
    intro j hj hc
    have : keyNames[j] = keyNames[i] := by rw [he]; simpa using hc
    have := (List.Nodup.getElem_inj_iff hnd).1 this
    omega

theorem keySelected_eq {key : List LabelValue} {req : List (Nat × LabelValue)}
    (h : ∀ p ∈ req, p.1 < key.length) :
    ∃ b, TensorMap.keySelected key req = .ok b ∧ (b = true ↔ ∀ p ∈ req, key[p.1]? = some p.2) := by
  induction req with
  | nil => exact ⟨true, rfl, by simp⟩
  | cons p req ih =>
    obtain ⟨i, v⟩ := p
    obtain ⟨b, hb, hb'⟩ := ih fun p hp => h p (List.mem_cons_of_mem _ hp)
    have hi : i < key.length := h (i, v) List.mem_cons_self
    simp only [TensorMap.keySelected, List.getElem?_eq_getElem hi, Res.expect_some, Res.ok_bind]
    by_cases hv : key[i] = v
    · refine ⟨b, by simp [hv, hb], ?_⟩
      simp [hb', hi, hv]
    · refine ⟨false, by simp [hv], ?_⟩
      simp [hi, hv]

theorem matchingLoop_eq {req : List (Nat × LabelValue)} {keys : List (List LabelValue)} {k : Nat}
    (h : ∀ key ∈ keys, ∀ p ∈ req, p.1 < key.length) :
    ∃ r, TensorMap.matchingLoop req (keys.zipIdx k) = .ok r ∧ r.Pairwise (· < ·) ∧
      (∀ i ∈ r, k ≤ i) ∧
      (∀ i, k + i ∈ r ↔ ∃ key, keys[i]? = some key ∧ ∀ p ∈ req, key[p.1]? = some p.2) := by
  induction keys generalizing k with
  | nil => exact ⟨[], rfl, by simp⟩
  | cons key keys ih =>
    obtain ⟨b, hb, hb'⟩ := keySelected_eq (h key List.mem_cons_self)
    obtain ⟨r, hr, hs, hge, hm⟩ := ih (k := k + 1) fun key hk => h key (List.mem_cons_of_mem _ hk)
    simp only [List.zipIdx_cons, TensorMap.matchingLoop, hb, hr, Res.ok_bind, Res.pure_eq]
    have hm' : ∀ i, k + (i + 1) ∈ r ↔ ∃ key, keys[i]? = some key ∧ ∀ p ∈ req, key[p.1]? = some p.2 := by
      intro i; rw [← hm i]; simp only [Nat.add_assoc, Nat.add_comm 1 i]
    have hk : k ∉ r := fun hc => by have := hge _ hc; omega
    cases b with
    | true =>
      refine ⟨k :: r, by simp, ?_, ?_, ?_⟩
      · exact List.pairwise_cons.2 ⟨fun i hi => by have := hge i hi; omega, hs⟩
      · intro i hi
        rcases List.mem_cons.1 hi with rfl | hi
        · omega
        · have := hge i hi; omega
      · intro i
        cases i with
        | zero =>
          have := hb'.1 rfl
          simp only [Nat.add_zero, List.mem_cons_self, List.getElem?_cons_zero, Option.some.injEq,
            true_iff]
          exact ⟨key, rfl, this⟩
        | succ i =>
          rw [List.mem_cons, hm']
          simp
    | false =>
      refine ⟨r, by simp, hs, fun i hi => by have := hge i hi; omega, ?_⟩
      intro i
      cases i with
      | zero =>
        simp only [Nat.add_zero, List.getElem?_cons_zero, Option.some.injEq]
        constructor
        · intro hc; exact absurd hc hk
        · rintro ⟨_, rfl, hc⟩; exact absurd (hb'.2 hc) (by simp)
      | succ i => rw [hm']; simp

/-- What the request of `blocks_matching` means. -/
theorem request_iff_agrees {keyNames names : List String} {is : List Nat} {row key : List LabelValue}
    (hnd : keyNames.Nodup) (hrow : row.length = names.length) (hkey : key.length = keyNames.length)
    (his : TensorMap.requestedVariables keyNames names = .ok is) :
    (∀ p ∈ is.zip row, key[p.1]? = some p.2) ↔ Agrees keyNames key names row := by
  rw [requestedVariables_iff] at his
  unfold Agrees
  induction his generalizing row with
  | nil => simp
  | @cons n i ns is h1 h2 ih =>
    cases row with
    | nil => simp at hrow
    | cons v row =>
      simp only [List.length_cons, Nat.add_right_cancel_iff] at hrow
      have ih := ih hrow
      rw [List.zip_cons_cons, List.forall_mem_cons, ih]
      simp only [List.zip_cons_cons, List.mem_cons, Prod.mk.injEq]
      rw [findIdx?_name hnd] at h1
      have key_iff : key[i]? = some v ↔ (n, v) ∈ keyNames.zip key := by
        obtain ⟨hi, he⟩ := List.getElem?_eq_some_iff.1 h1
        constructor
        · intro hk
          obtain ⟨hi', he'⟩ := List.getElem?_eq_some_iff.1 hk
          refine List.mem_iff_getElem.2 ⟨i, by rw [List.length_zip]; omega, ?_⟩
          rw [List.getElem_zip, he, he']
        · intro hm
          obtain ⟨j, hj, hje⟩ := List.mem_iff_getElem.1 hm
          rw [List.getElem_zip, Prod.mk.injEq] at hje
          simp only [List.length_zip, Nat.lt_min] at hj
          have : i = j := (List.Nodup.getElem_inj_iff hnd).1 (he.trans hje.1.symm)
          subst this
          rw [List.getElem?_eq_getElem hj.2, hje.2]
      rw [key_iff]
      constructor
      · rintro ⟨h1, h2⟩ a b (⟨rfl, rfl⟩ | h)
        · exact h1
        · exact h2 a b h
      · intro h
        exact ⟨h n v (Or.inl ⟨rfl, rfl⟩), fun a b hab => h a b (Or.inr hab)⟩

theorem request_bounds {keyNames names : List String} {is : List Nat} {row : List LabelValue}
    (his : TensorMap.requestedVariables keyNames names = .ok is) :
    ∀ p ∈ is.zip row, p.1 < keyNames.length := by
  rw [requestedVariables_iff] at his
  rintro ⟨i, v⟩ hp
  have hi : i ∈ is := (List.of_mem_zip hp).1
  obtain ⟨n, hn, h⟩ : ∃ n ∈ names, keyNames.findIdx? (· == n) = some i := by
    clear hp
    induction his with
    | nil => simp at hi
    | @cons n j ns is h1 h2 ih =>
      rcases List.mem_cons.1 hi with rfl | hi
      · exact ⟨n, List.mem_cons_self, h1⟩
      · obtain ⟨m, hm, h⟩ := ih hi
        exact ⟨m, List.mem_cons_of_mem _ hm, h⟩
  rw [List.findIdx?_eq_some_iff_getElem] at h
  exact h.1

/-- Full description of `blocks_matching` for a selection with names. -/
theorem blocksMatching_cases {t : TensorMap A} {sel : Labels} (hk : t.keys.WF) (hs : sel.WF) :
    ((∃ row, sel.rows = [row] ∧ (∀ n ∈ sel.names, n ∈ t.keys.names) ∧
      ∃ r, t.blocksMatching sel = .ok r ∧ r.Pairwise (· < ·) ∧
        ∀ i, i ∈ r ↔ ∃ key, t.keys.rows[i]? = some key ∧ Agrees t.keys.names key sel.names row)) ∨
    ((¬ (sel.rows.length = 1 ∧ ∀ n ∈ sel.names, n ∈ t.keys.names)) ∧
      ∃ m, t.blocksMatching sel = .err (.invalidParameter m)) := by
  have hsz : sel.size ≠ 0 := Labels.Holds.size_ne_zero hs
  unfold TensorMap.blocksMatching
  rw [if_neg hsz, hs.count_eq, Res.ok_bind]
  by_cases h1 : sel.rows.length = 1
  · obtain ⟨row, hrow⟩ := List.length_eq_one_iff.1 h1
    simp only [h1, beq_self_eq_true, Res.guardErr_true, Res.ok_bind]
    rcases requestedVariables_cases t.keys.names sel.names with ⟨⟨is, his⟩, hn⟩ | ⟨⟨m, hm⟩, hn⟩
    · left
      refine ⟨row, hrow, hn, ?_⟩
      rw [his, Res.ok_bind, Labels.Holds.iter_eq hs, Res.ok_bind, hrow]
      simp only [List.head?_cons, Res.expect_some, Res.ok_bind]
      rw [Labels.Holds.iter_eq hk, Res.ok_bind]
      have hlen : ∀ key ∈ t.keys.rows, key.length = t.keys.names.length :=
        Labels.Holds.row_length hk
      have hrl : row.length = sel.names.length :=
        Labels.Holds.row_length hs row (by simp [hrow])
      obtain ⟨r, hr, h2, _, h3⟩ := matchingLoop_eq (req := is.zip row) (keys := t.keys.rows) (k := 0)
        (fun key hk p hp => by rw [hlen key hk]; exact request_bounds his p hp)
      refine ⟨r, hr, h2, fun i => ?_⟩
      have := h3 i
      rw [Nat.zero_add] at this
      rw [this]
      constructor
      · rintro ⟨key, h4, h5⟩
        exact ⟨key, h4, (request_iff_agrees (Labels.Holds.names_ok hk).2 hrl
          (hlen key (List.mem_of_getElem? h4)) his).1 h5⟩
      · rintro ⟨key, h4, h5⟩
        exact ⟨key, h4, (request_iff_agrees (Labels.Holds.names_ok hk).2 hrl
          (hlen key (List.mem_of_getElem? h4)) his).2 h5⟩
    · right
      refine ⟨fun h => hn h.2, m, ?_⟩
      rw [hm]; rfl
  · right
    refine ⟨fun h => h1 h.1, ?_⟩
    have : (sel.rows.length == 1) = false := by simpa using h1
    rw [this]
    exact ⟨_, rfl⟩

theorem blocksMatching_empty {t : TensorMap A} {sel : Labels} (h : sel.names = []) :
    t.blocksMatching sel = .ok (List.range t.blocks.length) := by
  unfold TensorMap.blocksMatching
  simp [Labels.size, h]

theorem agrees_self {names : List String} {key row : List LabelValue} (hnd : names.Nodup)
    (hk : key.length = names.length) (hr : row.length = names.length) :
    Agrees names key names row ↔ key = row := by
  constructor
  · intro h
    apply List.ext_getElem (by omega)
    intro i h1 h2
    have hm : (names[i]'(by omega), row[i]) ∈ names.zip row :=
      List.mem_iff_getElem.2 ⟨i, by simp; omega, by simp⟩
    have := h _ _ hm
    obtain ⟨j, hj, he⟩ := List.mem_iff_getElem.1 this
    rw [List.getElem_zip, Prod.mk.injEq] at he
    simp only [List.length_zip, Nat.lt_min] at hj
    have : j = i := (List.Nodup.getElem_inj_iff hnd).1 he.1
    subst this
    exact he.2
  · rintro rfl; intro a b h; exact h

end Equistore
