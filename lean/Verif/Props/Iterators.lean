import Verif.Props.Tensor
import Verif.Spec.Iterators

/-!
# Property C95: iterators know how many items are left
-/

namespace Equistore
open Spec

variable {A : Type} [ArrayLike A]

/-! ### Calling `next` -/

/-- If some states stand for the items left, in such a way that `next` gives the first
item and keeps the others, then this is what the iterator gives. -/
theorem gives_of {σ α : Type} {it : RustIter σ α} (state : List α → σ)
    (hnil : it.next (state []) = (state [], .ok none)) {P : List α → Prop}
    (hP : ∀ x items, P (x :: items) → P items)
    (hcons : ∀ x items, P (x :: items) →
      it.next (state (x :: items)) = (state items, .ok (some x)))
    (items : List α) (hitems : P items) : Gives it (state items) items := by
  induction items with
  | nil => exact .done hnil
  | cons x items ih => exact .item (hcons x items hitems) (ih (hP x items hitems))

/-- The state after `k` calls to `next` stands for the items which are left. -/
theorem reaches_of {σ α : Type} {it : RustIter σ α} (state : List α → σ)
    (hnil : it.next (state []) = (state [], .ok none)) {P : List α → Prop}
    (hP : ∀ x items, P (x :: items) → P items)
    (hcons : ∀ x items, P (x :: items) →
      it.next (state (x :: items)) = (state items, .ok (some x)))
    {k : Nat} {s' : σ} (items : List α) (hitems : P items)
    (h : Reaches it (state items) k s') :
    s' = state (items.drop k) ∧ P (items.drop k) := by
  induction k generalizing items with
  | zero => cases h; exact ⟨rfl, hitems⟩
  | succ k ih =>
    cases h with
    | step h1 h2 =>
      cases items with
      | nil =>
        rw [hnil] at h1
        simp only [Prod.mk.injEq] at h1
        rw [← h1.1] at h2
        have := ih [] hitems h2
        simpa using this
      | cons x items =>
        rw [hcons x items hitems] at h1
        simp only [Prod.mk.injEq] at h1
        rw [← h1.1] at h2
        exact ih items (hP x items hitems) h2

theorem knowsItsLength_of {σ α : Type} {it : RustIter σ α} (state : List α → σ)
    (hnil : it.next (state []) = (state [], .ok none)) {P : List α → Prop}
    (hP : ∀ x items, P (x :: items) → P items)
    (hcons : ∀ x items, P (x :: items) →
      it.next (state (x :: items)) = (state items, .ok (some x)))
    (hlen : ∀ items, P items → it.len (state items) = .ok items.length)
    (hhint : it.sizeHint = RustIter.defaultSizeHint)
    (items : List α) (hitems : P items) : KnowsItsLength it (state items) items := by
  intro k s' h
  obtain ⟨rfl, hP'⟩ := reaches_of state hnil hP hcons items hitems h
  refine ⟨gives_of state hnil hP hcons _ hP', hlen _ hP', ?_⟩
  rw [hhint]
  exact ⟨Nat.zero_le _, by intro u hu; cases hu⟩

theorem tail_rows {n : Nat} (x : List LabelValue) (items : List (List LabelValue))
    (h : ∀ e ∈ x :: items, e.length = n) : ∀ e ∈ items, e.length = n :=
  fun e he => h e (List.mem_cons_of_mem _ he)

theorem labelsIter_nil {n : Nat} (hn : 0 < n) :
    labelsIter.next ⟨n, ([] : List (List LabelValue)).flatten⟩ =
      (⟨n, ([] : List (List LabelValue)).flatten⟩, .ok none) := by
  simp [labelsIter, LabelsIter.next, hn]

theorem labelsIter_cons {n : Nat} (x : List LabelValue) (items : List (List LabelValue))
    (h : ∀ e ∈ x :: items, e.length = n) :
    labelsIter.next ⟨n, (x :: items).flatten⟩ = (⟨n, items.flatten⟩, .ok (some x)) := by
  have hx : x.length = n := h x (by simp)
  have h1 : ¬ (x ++ items.flatten).length < n := by simp; omega
  simp only [labelsIter, LabelsIter.next, List.flatten_cons, if_neg h1]
  subst hx
  simp

/-! ### C95 -/

/-- **C95** for labels. An iterator over labels visits the entries in order, and after
any number of calls to `next`, `len` is the number of entries left. -/
theorem C95_labels (l : Labels) (hl : l.FromBuilder) (hn : l.names ≠ []) :
    ∃ it entries, l.intoIter = .ok it ∧ l.iter = .ok entries ∧
      KnowsItsLength labelsIter it entries := by
  have hw := hl.wf hn
  have hsz : l.size ≠ 0 := Labels.Holds.size_ne_zero hw
  have hpos : 0 < l.size := by omega
  have hb : (l.size != 0) = true := by simpa using hsz
  refine ⟨⟨l.size, l.values⟩, l.rows, by simp [Labels.intoIter, hb], Labels.Holds.iter_eq hw, ?_⟩
  have hv : l.values = l.rows.flatten := Labels.Holds.values_eq hw
  rw [hv]
  refine knowsItsLength_of (it := labelsIter) (fun items => ⟨l.size, items.flatten⟩)
    (labelsIter_nil hpos) (P := fun items => ∀ e ∈ items, e.length = l.size) tail_rows
    labelsIter_cons ?_ rfl l.rows (Labels.Holds.row_length hw)
  intro items hitems
  simp only [labelsIter, LabelsIter.len]
  rw [flatten_length_const hitems, Nat.mul_div_cancel _ hpos]

/-- **C95** for labels with a size known in advance: `iter_fixed_size` accepts exactly
the size of the labels, and panics for others; the iterator visits the same entries as `iter` and knows how
many are left. -/
theorem C95_fixed_size (build : Build) (l : Labels) (hl : l.FromBuilder) (hn : l.names ≠ []) :
    ∃ it entries, l.intoFixedSizeIter build l.size = .ok it ∧ l.iter = .ok entries ∧
      KnowsItsLength (fixedSizeIter l.size) it entries ∧
      ∀ n, n ≠ l.size → ∃ m, l.intoFixedSizeIter build n = .panic m := by
  have hw := hl.wf hn
  have hsz : l.size ≠ 0 := Labels.Holds.size_ne_zero hw
  have hpos : 0 < l.size := by omega
  have hb : (l.size != 0) = true := by simpa using hsz
  refine ⟨l.values, l.rows, ?_, Labels.Holds.iter_eq hw, ?_, ?_⟩
  · unfold Labels.intoFixedSizeIter Build.debugAssert
    cases build.debug <;> simp [hb, Res.assert]
  rotate_left
  · intro n hne
    unfold Labels.intoFixedSizeIter Build.debugAssert
    cases build.debug <;> exact ⟨_, by simp [hb, Res.assert, hne]; rfl⟩
  have hv : l.values = l.rows.flatten := Labels.Holds.values_eq hw
  rw [hv]
  refine knowsItsLength_of (it := fixedSizeIter l.size) (fun items => items.flatten)
    (by simp [fixedSizeIter, Labels.fixedSizeNext])
    (P := fun items => ∀ e ∈ items, e.length = l.size) tail_rows ?_ ?_ rfl l.rows
    (Labels.Holds.row_length hw)
  · intro x items hitems
    have hx : x.length = l.size := hitems x (by simp)
    have h1 : (x ++ items.flatten).isEmpty = false := by
      cases x with
      | nil => simp at hx; omega
      | cons => rfl
    have h2 : l.size ≤ (x ++ items.flatten).length := by simp; omega
    simp only [fixedSizeIter, Labels.fixedSizeNext, List.flatten_cons, h1, if_pos h2]
    simp [← hx]
  · intro items hitems
    simp only [fixedSizeIter, hb, Res.assert, if_true]
    rw [flatten_length_const hitems, Nat.mul_div_cancel _ hpos]
    rfl

/-- **C95** for labels without names, which have no entries: `iter` panics, and so does `iter_fixed_size` with debug
assertions. Without them it gives an iterator which visits nothing, as it should, but whose `len` panics. -/
theorem C95_no_names (build : Build) (l : Labels) (hl : l.FromBuilder) (hn : l.names = []) :
    (∃ m, l.intoIter = .panic m) ∧
    (build.debug = true → ∃ m, l.intoFixedSizeIter build 0 = .panic m) ∧
    (build.debug = false → ∃ it, l.intoFixedSizeIter build 0 = .ok it ∧ Gives (fixedSizeIter 0) it [] ∧
      ∃ m, (fixedSizeIter 0).len it = .panic m) := by
  obtain ⟨names, entries, hb⟩ := hl
  have hl : l = ⟨[], [], []⟩ := by
    by_cases hnm : names = []
    · subst hnm
      exact (Labels.build_nil_eq_ok.1 hb).2
    · have := ((Labels.build_eq_ok (List.length_pos_iff.2 hnm)).1 hb).wf
      exact absurd hn this.names_ne
  subst hl
  refine ⟨⟨_, rfl⟩, fun h => ?_, fun h => ?_⟩
  · unfold Labels.intoFixedSizeIter Build.debugAssert
    rw [h]
    exact ⟨_, rfl⟩
  · refine ⟨[], ?_, .done (s' := []) rfl, ⟨_, rfl⟩⟩
    unfold Labels.intoFixedSizeIter Build.debugAssert
    rw [h]
    rfl

/-- **C95** for parallel iterators: `len` is the number of blocks, which is the number
of pairs visited. -/
theorem C95_parallel (t : TensorMap A) (ht : TensorValid t) :
    ∃ p pairs, t.parIter = .ok p ∧ t.iter = .ok pairs ∧ p.len = pairs.length ∧
      p.len = t.blocks.length := by
  obtain ⟨p, h1, h2, h3, h4⟩ := parIter_spec ht
  have hkw := ht.keys.wf_of_count ht.count
  have hlen : t.keys.rows.length = t.blocks.length := by
    have := ht.count; rw [hkw.count_eq, Res.ok.injEq] at this; exact this
  have hit : t.iter = .ok (t.keys.rows.zip t.blocks) := by
    unfold TensorMap.iter
    rw [Labels.Holds.iter_eq hkw]; rfl
  have hb : p.values.length / p.size = p.blocks.length := by
    unfold Producer.Balanced at h2
    rw [chunksExact_length] at h2
    exact h2
  have hp : p.len = t.blocks.length := by
    unfold Producer.len
    rw [hb, Nat.min_self, h4]
  exact ⟨p, _, h1, hit, by rw [hp, List.length_zip, hlen, Nat.min_self], hp⟩

/-- **C95**, full statement for tensor maps: the iterator visits every key with its
block, and it knows how many pairs are left. This is false of the code, see
`C95_counterexample`. -/
def C95_full_statement (A : Type) [ArrayLike A] : Prop :=
  ∀ t : TensorMap A, TensorValid t →
    ∃ it pairs, t.intoIter = .ok it ∧ t.iter = .ok pairs ∧ KnowsItsLength (tensorIter A) it pairs

/-- **C95** for tensor maps, partial: the iterators visit every key with its block, in
order. After any number of calls to `next`, the bounds of `size_hint` are right, and `len`
panics as long as something is left to visit. Missing: `len` gives the number of pairs
left. -/
theorem C95_partial (t : TensorMap A) (ht : TensorValid t) :
    ∃ it pairs, t.intoIter = .ok it ∧ t.iter = .ok pairs ∧ pairs.length = t.blocks.length ∧
      ∀ k s', Reaches (tensorIter A) it k s' →
        Gives (tensorIter A) s' (pairs.drop k) ∧
        HintAllows ((tensorIter A).sizeHint s') (pairs.drop k).length ∧
        (t.blocks.length ≤ k → (tensorIter A).len s' = .ok 0) ∧
        (k < t.blocks.length → ∃ m, (tensorIter A).len s' = .panic m) := by
  have hw := ht.keys.wf_of_count ht.count
  have hlen : t.keys.rows.length = t.blocks.length := by
    have := ht.count; rw [hw.count_eq, Res.ok.injEq] at this; exact this
  have hsz : t.keys.size ≠ 0 := Labels.Holds.size_ne_zero hw
  have hpos : 0 < t.keys.size := by omega
  have hb : (t.keys.size != 0) = true := by simpa using hsz
  have hv : t.keys.values = t.keys.rows.flatten := Labels.Holds.values_eq hw
  have hit : t.iter = .ok (t.keys.rows.zip t.blocks) := by
    unfold TensorMap.iter
    rw [Labels.Holds.iter_eq hw]; rfl
  refine ⟨(⟨t.keys.size, t.keys.values⟩, t.blocks), t.keys.rows.zip t.blocks, ?_, hit, ?_, ?_⟩
  · simp [TensorMap.intoIter, Labels.intoIter, hb]
  · rw [List.length_zip, hlen, Nat.min_self]
  intro k s' h
  let state : List (List LabelValue × TensorBlock A) → LabelsIter × List (TensorBlock A) :=
    fun items => (⟨t.keys.size, (items.map Prod.fst).flatten⟩, items.map Prod.snd)
  have hstart : ((⟨t.keys.size, t.keys.values⟩, t.blocks) : LabelsIter × List (TensorBlock A)) =
      state (t.keys.rows.zip t.blocks) := by
    simp only [state]
    rw [List.map_fst_zip (by omega), List.map_snd_zip (by omega), ← hv]
  have hP : ∀ (x : List LabelValue × TensorBlock A) items,
      (∀ e ∈ (x :: items).map Prod.fst, e.length = t.keys.size) →
      ∀ e ∈ items.map Prod.fst, e.length = t.keys.size :=
    fun x items hx => tail_rows x.1 (items.map Prod.fst) hx
  have hnil : (tensorIter A).next (state []) = (state [], .ok none) := by
    have := labelsIter_nil hpos
    simp only [List.flatten_nil] at this
    simp [tensorIter, RustIter.zip, RustIter.zipNext, state, bind, Act.bind, Act.focus, this]
  have hcons : ∀ (x : List LabelValue × TensorBlock A) items,
      (∀ e ∈ (x :: items).map Prod.fst, e.length = t.keys.size) →
      (tensorIter A).next (state (x :: items)) = (state items, .ok (some x)) := by
    intro x items hx
    have := labelsIter_cons x.1 (items.map Prod.fst) hx
    simp only [List.flatten_cons] at this
    simp [tensorIter, RustIter.zip, RustIter.zipNext, state, bind, Act.bind, Act.focus, this,
      RustIter.slice]
  have hrows : ∀ e ∈ (t.keys.rows.zip t.blocks).map Prod.fst, e.length = t.keys.size := by
    rw [List.map_fst_zip (by omega)]
    exact Labels.Holds.row_length hw
  rw [hstart] at h
  obtain ⟨rfl, hP'⟩ := reaches_of (it := tensorIter A) state hnil
    (P := fun items => ∀ e ∈ items.map Prod.fst, e.length = t.keys.size) hP hcons _ hrows h
  refine ⟨gives_of (it := tensorIter A) state hnil
    (P := fun items => ∀ e ∈ items.map Prod.fst, e.length = t.keys.size) hP hcons _ hP',
    ⟨Nat.zero_le _, by intro u hu; cases hu⟩, ?_, ?_⟩
  · intro hk
    have : (t.keys.rows.zip t.blocks).drop k = [] :=
      List.drop_eq_nil_of_le (by rw [List.length_zip]; omega)
    rw [this]
    rfl
  · intro hk
    have hd : ((t.keys.rows.zip t.blocks).drop k).length ≠ 0 := by
      rw [List.length_drop, List.length_zip]; omega
    generalize (t.keys.rows.zip t.blocks).drop k = items at hd
    refine ⟨"assertion failed: `(left == right)`", ?_⟩
    simp [tensorIter, RustIter.zip, RustIter.defaultLen, RustIter.zipSizeHint, labelsIter,
      RustIter.defaultSizeHint, RustIter.slice, state, Res.assert, hd]

/-- **C95.** `tensor.iter().len()` panics for the example tensor map. -/
theorem C95_counterexample : ¬ C95_full_statement NdArray := by
  intro h
  have hv : TensorValid Example.tensor := TensorMap.valid_of_rebuilds (by decide +kernel)
  obtain ⟨it, pairs, h1, h2, h3⟩ := h Example.tensor hv
  obtain ⟨it', pairs', h1', h2', _, h4⟩ := C95_partial Example.tensor hv
  rw [h1] at h1'
  cases h1'
  obtain ⟨m, hm⟩ := (h4 0 it (.here it)).2.2.2 (by decide +kernel)
  have := (h3 0 it (.here it)).2.1
  rw [hm] at this
  cases this

/-- Non-vacuity: the keys of the example tensor map were made with a builder, and the
iterator over its three keys can be advanced twice. -/
example : Example.keys.FromBuilder ∧ Example.keys.names ≠ [] ∧
    ∃ s, Reaches labelsIter ⟨2, Example.keys.values⟩ 2 s ∧ labelsIter.len s = .ok 1 :=
  ⟨Labels.rebuilds_fromBuilder (by decide +kernel), by decide, _,
    .step rfl (.step rfl (.here _)), by decide +kernel⟩

/-- Non-vacuity: the iterator over the example tensor map can be advanced three times,
and only then `len` gives a result. -/
example : TensorValid Example.tensor ∧
    ∃ s, Reaches (tensorIter NdArray) (⟨2, Example.keys.values⟩, Example.tensor.blocks) 3 s ∧
      (tensorIter NdArray).len s = .ok 0 :=
  ⟨TensorMap.valid_of_rebuilds (by decide +kernel), _,
    .step rfl (.step rfl (.step rfl (.here _))), by decide +kernel⟩

/-- Non-vacuity of `C95_no_names`: such labels can be built. -/
example : Labels.build [] [] = .ok ⟨[], [], []⟩ := by decide +kernel

theorem LabelsIter.run_spec {it : LabelsIter} (hn : it.size ≠ 0) {s : Schedule}
    (hs : s.Valid (it.rest.length / it.size)) :
    ∃ leaves, it.run s = .ok leaves ∧ leaves.flatten = chunksExact it.size it.rest := by
  induction s generalizing it with
  | leaf => exact ⟨_, rfl, by simp⟩
  | split i l r ihl ihr =>
    obtain ⟨hi, hl, hr⟩ := hs
    have hle : i * it.size ≤ it.rest.length := (Nat.le_div_iff_mul_le (by omega)).1 hi
    obtain ⟨ll, h1, h2⟩ := ihl (it := { it with rest := it.rest.take (i * it.size) }) hn (by
      rw [List.length_take, Nat.min_eq_left hle, Nat.mul_div_cancel _ (by omega)]
      exact hl)
    obtain ⟨rl, h3, h4⟩ := ihr (it := { it with rest := it.rest.drop (i * it.size) }) hn (by
      rw [List.length_drop, Nat.mul_comm, Nat.sub_mul_div]
      exact hr)
    refine ⟨ll ++ rl, ?_, ?_⟩
    · simp only [LabelsIter.run, Res.assert, decide_eq_true hle, h1, h3, Res.ok_bind, Res.pure_eq, if_true]
    · rw [List.flatten_append, h2, h4]
      exact chunksExact_append.symm

/-- **C15**, for the entries of labels: for any way rayon splits the work of `par_iter`, and any order in which the
leaves run, the entries visited are those of sequential iteration, each once. Without names, it panics. -/
theorem C15_labels_par_iter (build : Build) (l : Labels) (hl : l.FromBuilder) :
    (∀ n, l.count = .ok n → ∀ s : Schedule, s.Valid n →
      ∃ it leaves visited, l.parIter build = .ok it ∧ it.len = n ∧ it.run s = .ok leaves ∧ l.iter = .ok visited ∧
        leaves.flatten = visited ∧ visited.Nodup ∧ (∀ i e, visited[i]? = some e ↔ l.index i = .ok e) ∧
        ∀ executed : List (List (List LabelValue)), executed.Perm leaves → executed.flatten.Perm visited) ∧
    (l.names = [] → ∃ m, l.parIter build = .panic m) := by
  constructor
  · intro n hc s hs
    have hw := hl.wf (Labels.count_ok_ne hc)
    have hsz : l.size ≠ 0 := Labels.Holds.size_ne_zero hw
    have hb : (l.size != 0) = true := by simpa using hsz
    rw [hw.count_eq, Res.ok.injEq] at hc
    have hn : l.values.length / l.size = n := by rw [← hc, Labels.rows, chunksExact_length]
    obtain ⟨leaves, h1, h2⟩ := LabelsIter.run_spec (it := ⟨l.size, l.values⟩) hsz (s := s) (by rw [hn]; exact hs)
    refine ⟨⟨l.size, l.values⟩, leaves, l.rows, ?_, hn, h1, Labels.Holds.iter_eq hw, h2, Labels.Holds.nodup hw, ?_, ?_⟩
    · simp [Labels.parIter, Build.debugAssert, hb]
    · intro i e
      by_cases hi : i < l.rows.length
      · rw [Labels.Holds.index_eq hw hi, List.getElem?_eq_getElem hi, Option.some.injEq, Res.ok.injEq]
      · rw [Labels.Holds.index_panic hw hi, List.getElem?_eq_none (by omega)]
        simp
    · intro ex hex
      exact hex.flatten.trans (List.Perm.of_eq h2)
  · intro hn
    have hz : l.size = 0 := by unfold Labels.size; rw [hn]; rfl
    cases hd : build.debug <;> simp [Labels.parIter, Build.debugAssert, hz, hd, Res.assert]

/-- Non-vacuity of `C15_labels_par_iter`: three keys, visited in three parts. -/
example : Example.keys.FromBuilder ∧ Example.keys.count = .ok 3 ∧
    (Schedule.split 1 .leaf (.split 1 .leaf .leaf)).Valid 3 ∧
    ∃ it, Example.keys.parIter ⟨true⟩ = .ok it ∧ it.run (.split 1 .leaf (.split 1 .leaf .leaf)) =
      .ok (Example.keys.rows.map fun e => [e]) :=
  ⟨Labels.rebuilds_fromBuilder (by decide +kernel), by decide +kernel, by simp [Schedule.Valid], ⟨2, Example.keys.values⟩,
    by rfl, by decide +kernel⟩

end Equistore
