import Verif.Lemmas.Concrete
import Verif.Model.Iter
import Verif.Props.Blocks

/-!
# Properties of tensor maps (C12, C13, C14, C15)
-/

namespace Equistore
open Spec

variable {A : Type} [ArrayLike A]

namespace Example

/-- Keys `(k, l) = (0, 1), (0, 2), (3, 1)`. -/
def keys : Labels := Labels.mk' ["k", "l"] [[0, 1], [0, 2], [3, 1]]

/-- `block` with a gradient. -/
def gradBlock : TensorBlock NdArray :=
  (TensorBlock.addGradient "g" gradientData gradientSamples [direction, component] block).1

/-- Three blocks, all with the same metadata. -/
def tensor : TensorMap NdArray := ⟨keys, [gradBlock, gradBlock, gradBlock]⟩

theorem tensor_new (hash : HashOrder) :
    TensorMap.new hash keys [gradBlock, gradBlock, gradBlock] = .ok tensor := by
  have hg : gradBlock.GradientsNodup := by
    unfold TensorBlock.GradientsNodup; decide +kernel
  rw [TensorMap.new_eq_ok (by simp [hg])]
  refine ⟨by decide +kernel, ?_, rfl⟩
  simp only [List.mem_cons, List.not_mem_nil, or_false, or_self]
  rintro a rfl b rfl
  exact .refl _

theorem keys_wf : keys.WF := by
  have : keys.Holds ["k", "l"] [[0, 1], [0, 2], [3, 1]] :=
    Labels.mk'_holds ⟨by decide +kernel, by decide⟩ (by decide) (by decide) (by decide)
  exact this.wf

end Example

/-! ### C12 -/

/-- **C12.** `TensorMap::new` succeeds iff there is one block per key and all blocks
are consistent with each other, for any iteration order of the hash maps. The
hypothesis says that gradients are stored in a map: at most one per parameter. -/
theorem C12_tensor_created_iff (hash : HashOrder) (keys : Labels) (blocks : List (TensorBlock A))
    (hb : ∀ b ∈ blocks, (b.gradients.map Prod.fst).Nodup) :
    (∃ t, TensorMap.new hash keys blocks = .ok t) ↔
      (keys.count = .ok blocks.length ∧ ∀ a ∈ blocks, ∀ b ∈ blocks, Consistent a b) := by
  simp only [TensorMap.new_eq_ok hb]
  constructor
  · rintro ⟨_, h1, h2, _⟩; exact ⟨h1, h2⟩
  · rintro ⟨h1, h2⟩; exact ⟨_, h1, h2, rfl⟩

/-- **C12**, content: the tensor map holds the keys and blocks it was given; it is
valid if the blocks are. -/
theorem C12_tensor_content (hash : HashOrder) (keys : Labels) (blocks : List (TensorBlock A))
    (t : TensorMap A) (h : TensorMap.new hash keys blocks = .ok t) :
    t.keys = keys ∧ t.blocks = blocks ∧
      (keys.FromBuilder → (∀ b ∈ blocks, BlockValid b) → TensorValid t) := by
  have ht : t = ⟨keys, blocks⟩ := by
    unfold TensorMap.new at h
    simp only [Res.bind_eq_ok] at h
    obtain ⟨n, _, _, _, h⟩ := h
    cases blocks with
    | nil => simpa using h.symm
    | cons a l =>
      simp only [Res.bind_eq_ok, Res.pure_eq, Res.ok.injEq] at h
      obtain ⟨_, _, h⟩ := h
      exact h.symm
  refine ⟨by rw [ht], by rw [ht], fun hk hb => ?_⟩
  obtain ⟨h1, h2, h3⟩ := (TensorMap.new_eq_ok fun b hm => (hb b hm).names).1 h
  subst h3
  exact ⟨hk, h1, hb, h2⟩

/-- **C12**, failures: keys with names never make the creation panic, any failure is
an `InvalidParameter` error. -/
theorem C12_tensor_failure (hash : HashOrder) (keys : Labels) (blocks : List (TensorBlock A))
    (hk : keys.FromBuilder) (hn : keys.names ≠ [])
    (hfail : ∀ t, TensorMap.new hash keys blocks ≠ .ok t) :
    ∃ m, TensorMap.new hash keys blocks = .err (.invalidParameter m) := by
  cases h : TensorMap.new hash keys blocks with
  | ok t => exact absurd h (hfail t)
  | err e =>
    have key : (TensorMap.new hash keys blocks).OnlyInvalidParameter := by
      unfold TensorMap.new
      rw [(hk.wf hn).count_eq]
      refine .bind (fun e he => by cases he) fun _ => .bind .guardErr fun _ => ?_
      cases blocks with
      | nil => intro e he; simp at he
      | cons a l => exact .bind (checkBlocks_errors _ _ _) fun _ e he => by cases he
    obtain ⟨m, hm⟩ := key e h
    exact ⟨m, by rw [hm]⟩
  | panic m =>
    exfalso
    unfold TensorMap.new at h
    rw [(hk.wf hn).count_eq] at h
    simp only [Res.ok_bind, Res.bind_eq_panic, Res.guardErr_eq_panic, false_or] at h
    obtain ⟨_, _, h⟩ := h
    cases blocks with
    | nil => simp at h
    | cons a l => simp [Res.bind_eq_panic, checkBlocks_ne_panic] at h

/-- **C12**, the outcome (also the error or success) depends on the iteration order
at most through the message of the error. -/
theorem C12_tensor_any_order (hash hash' : HashOrder) (keys : Labels)
    (blocks : List (TensorBlock A)) (hb : ∀ b ∈ blocks, (b.gradients.map Prod.fst).Nodup)
    (t : TensorMap A) :
    TensorMap.new hash keys blocks = .ok t ↔ TensorMap.new hash' keys blocks = .ok t := by
  rw [TensorMap.new_eq_ok hb, TensorMap.new_eq_ok hb]

/-- Non-vacuity: a tensor map with three blocks with gradients is accepted, the same
with a block without gradients or with a missing block is not. -/
example (hash : HashOrder) :
    TensorMap.new hash Example.keys [Example.gradBlock, Example.gradBlock, Example.gradBlock]
      = .ok Example.tensor ∧
    (∀ t, TensorMap.new hash Example.keys [Example.gradBlock, Example.gradBlock] ≠ .ok t) ∧
    (∀ t, TensorMap.new hash Example.keys [Example.gradBlock, Example.gradBlock, Example.block]
      ≠ .ok t) := by
  have hg : Example.gradBlock.GradientsNodup := by
    unfold TensorBlock.GradientsNodup; decide +kernel
  have hb : Example.block.GradientsNodup := by
    unfold TensorBlock.GradientsNodup; decide +kernel
  refine ⟨Example.tensor_new hash, ?_, ?_⟩
  · intro t h
    rw [TensorMap.new_eq_ok (by simp [hg])] at h
    exact absurd h.1 (by decide +kernel)
  · intro t h
    rw [TensorMap.new_eq_ok (by simp [hg, hb])] at h
    have := (h.2.1 Example.gradBlock (by simp) Example.block (by simp)).parameters "g"
    exact absurd this (by decide +kernel)

/-! ### C13 -/

/-- **C13.** A selection with names succeeds iff it has exactly one entry and all
its names are names of the keys. -/
theorem C13_blocks_matching_iff (t : TensorMap A) (selection : Labels)
    (hk : t.keys.FromBuilder) (hkn : t.keys.names ≠ [])
    (hs : selection.FromBuilder) (hsn : selection.names ≠ []) :
    (∃ r, t.blocksMatching selection = .ok r) ↔
      (selection.count = .ok 1 ∧ ∀ n ∈ selection.names, n ∈ t.keys.names) := by
  have hsw := hs.wf hsn
  rw [hsw.count_eq, Res.ok.injEq]
  rcases blocksMatching_cases (hk.wf hkn) hsw with ⟨row, h1, h2, r, h3, _⟩ | ⟨h1, m, h2⟩
  · simp [h3, h1]; exact h2
  · rw [h2]
    simp only [reduceCtorEq, exists_false, false_iff]
    exact h1

/-- **C13.** The result is strictly increasing (so has no duplicates), and contains
exactly the indices of the keys agreeing with the selection on all its names. -/
theorem C13_blocks_matching_result (t : TensorMap A) (selection : Labels) (r : List Nat)
    (row : List LabelValue)
    (hk : t.keys.FromBuilder) (hkn : t.keys.names ≠ [])
    (hs : selection.FromBuilder) (hsn : selection.names ≠ [])
    (h : t.blocksMatching selection = .ok r) (hrow : selection.index 0 = .ok row) :
    r.Pairwise (· < ·) ∧
    ∀ i, i ∈ r ↔ ∃ key, t.keys.index i = .ok key ∧ Agrees t.keys.names key selection.names row := by
  have hsw := hs.wf hsn
  have hkw := hk.wf hkn
  rcases blocksMatching_cases hkw hsw with ⟨row', h1, h2, r', h3, h4, h5⟩ | ⟨h1, m, h2⟩
  · rw [h3] at h; cases h
    have : selection.index 0 = .ok row' := by
      rw [Labels.Holds.index_eq hsw (by rw [h1]; simp)]; simp [h1]
    rw [this] at hrow; cases hrow
    refine ⟨h4, fun i => ?_⟩
    rw [h5]
    constructor
    · rintro ⟨key, hi, ha⟩
      obtain ⟨hi', rfl⟩ := List.getElem?_eq_some_iff.1 hi
      exact ⟨_, Labels.Holds.index_eq hkw hi', ha⟩
    · rintro ⟨key, hi, ha⟩
      by_cases hlt : i < t.keys.rows.length
      · rw [Labels.Holds.index_eq hkw hlt] at hi
        cases hi
        exact ⟨_, List.getElem?_eq_getElem hlt, ha⟩
      · rw [Labels.Holds.index_panic hkw hlt] at hi; cases hi
  · rw [h2] at h; cases h

/-- **C13.** Every failure is an `InvalidParameter` error, never a panic. -/
theorem C13_blocks_matching_failure (t : TensorMap A) (selection : Labels)
    (hk : t.keys.FromBuilder) (hkn : t.keys.names ≠ [])
    (hs : selection.FromBuilder) (hsn : selection.names ≠ [])
    (h : ∀ r, t.blocksMatching selection ≠ .ok r) :
    ∃ m, t.blocksMatching selection = .err (.invalidParameter m) := by
  rcases blocksMatching_cases (hk.wf hkn) (hs.wf hsn) with ⟨row', h1, h2, r', h3, h4, h5⟩ | ⟨h1, m, h2⟩
  · exact absurd h3 (h r')
  · exact ⟨m, h2⟩

/-- **C13.** A selection without names matches every block. -/
theorem C13_empty_selection (t : TensorMap A) (selection : Labels) (h : selection.names = []) :
    t.blocksMatching selection = .ok (List.range t.blocks.length) :=
  blocksMatching_empty h

/-- Non-vacuity: selecting `l = 1` in the example gives blocks 0 and 2, `l = 7` gives
nothing, and an unknown name is an error. -/
example :
    Example.tensor.blocksMatching (Labels.mk' ["l"] [[1]]) = .ok [0, 2] ∧
    Example.tensor.blocksMatching (Labels.mk' ["l", "k"] [[1, 3]]) = .ok [2] ∧
    Example.tensor.blocksMatching (Labels.mk' ["l"] [[7]]) = .ok [] ∧
    Example.tensor.blocksMatching (Labels.mk' ["x"] [[1]]) =
      .err (.invalidParameter "'x' is not part of the keys for this tensor") := by
  decide +kernel

/-! ### C14 -/

/-- **C14.** `block_matching` succeeds iff exactly one block matches, and returns it. -/
theorem C14_block_matching_iff (t : TensorMap A) (selection : Labels) (i : Nat) :
    t.blockMatching selection = .ok i ↔ t.blocksMatching selection = .ok [i] := by
  unfold TensorMap.blockMatching
  rw [Res.bind_eq_ok]
  constructor
  · rintro ⟨r, hr, h⟩
    split at h
    · simp only [Res.pure_eq, Res.ok.injEq] at h; subst h; exact hr
    · rw [Res.bind_eq_ok] at h
      obtain ⟨row, _, h⟩ := h
      split at h <;> simp at h
  · intro h; exact ⟨_, h, rfl⟩

/-- **C14.** When zero or several blocks match, `block_matching` is an
`InvalidParameter` error. -/
theorem C14_block_matching_error (t : TensorMap A) (selection : Labels) (r : List Nat)
    (hs : selection.FromBuilder)
    (h : t.blocksMatching selection = .ok r) (hr : r.length ≠ 1) :
    ∃ m, t.blockMatching selection = .err (.invalidParameter m) := by
  have hidx : ∃ row, selection.index 0 = .ok row := by
    by_cases hn : selection.names = []
    · exact ⟨[], by simp [Labels.index, Labels.size, hn]⟩
    · have hw := hs.wf hn
      have h1 : selection.rows.length = 1 := by
        have hsz : selection.size ≠ 0 := Labels.Holds.size_ne_zero hw
        unfold TensorMap.blocksMatching at h
        rw [if_neg hsz, hw.count_eq, Res.ok_bind, Res.bind_eq_ok] at h
        obtain ⟨_, h, _⟩ := h
        simpa using h
      exact ⟨_, Labels.Holds.index_eq hw (by omega)⟩
  obtain ⟨row, hrow⟩ := hidx
  unfold TensorMap.blockMatching
  rw [h, Res.ok_bind]
  split
  · simp at hr
  · rw [hrow, Res.ok_bind]
    split
    · exact ⟨_, rfl⟩
    · exact ⟨_, rfl⟩

/-- **C14.** Selecting with all the names and the values of key `i` gives exactly
block `i`, for every way of passing that key as labels. -/
theorem C14_full_key (t : TensorMap A) (ht : TensorValid t) (i : Nat) (key : List LabelValue)
    (selection : Labels) (hkey : t.keys.index i = .ok key)
    (hsel : Labels.build t.keys.names [key] = .ok selection) :
    t.blocksMatching selection = .ok [i] ∧ t.blockMatching selection = .ok i ∧
    ∃ b, t.blocks[i]? = some b ∧ t.block selection = .ok b := by
  have hkw := ht.keys.wf_of_count ht.count
  have hkn := hkw.names_ne
  have hs := (Labels.build_eq_ok (List.length_pos_iff.2 hkn)).1 hsel
  have hlt : i < t.keys.rows.length := by
    by_contra hc; rw [Labels.Holds.index_panic hkw hc] at hkey; cases hkey
  rw [Labels.Holds.index_eq hkw hlt, Res.ok.injEq] at hkey
  have hm : t.blocksMatching selection = .ok [i] := by
    rcases blocksMatching_cases hkw hs.wf with ⟨row, h1, h2, r, h3, h4, h5⟩ | ⟨h1, m, h2⟩
    · rw [hs.rows_eq] at h1
      cases h1
      rw [hs.names_eq] at h5
      have : r = [i] := by
        have hri : ∀ j, j ∈ r ↔ j = i := by
          intro j
          rw [h5]
          constructor
          · rintro ⟨k, hk, ha⟩
            obtain ⟨hj, rfl⟩ := List.getElem?_eq_some_iff.1 hk
            rw [agrees_self (Labels.Holds.names_ok hkw).2
              (Labels.Holds.row_length hkw _ (List.getElem_mem hj))
              (by rw [← hkey]; exact Labels.Holds.row_length hkw _ (List.getElem_mem hlt)), ← hkey] at ha
            exact (List.Nodup.getElem_inj_iff (Labels.Holds.nodup hkw)).1 ha
          · rintro rfl
            refine ⟨key, by rw [List.getElem?_eq_getElem hlt, hkey], fun a b h => h⟩
        have hnd : r.Nodup := h4.imp (fun h => Nat.ne_of_lt h)
        have hp : r.Perm [i] := by
          rw [List.perm_ext_iff_of_nodup hnd (by simp)]; simpa using hri
        exact List.perm_singleton.1 hp
      rw [h3, this]
    · exact absurd ⟨by rw [hs.rows_eq]; rfl, by rw [hs.names_eq]; exact fun n hn => hn⟩ h1
  have hb := (C14_block_matching_iff t selection i).2 hm
  refine ⟨hm, hb, ?_⟩
  have hlen : i < t.blocks.length := by
    have := ht.count
    rw [hkw.count_eq, Res.ok.injEq] at this
    omega
  refine ⟨t.blocks[i], List.getElem?_eq_getElem hlen, ?_⟩
  unfold TensorMap.block
  rw [hb, Res.ok_bind, List.getElem?_eq_getElem hlen]
  rfl

/-- Non-vacuity: key 1 of the example. -/
example : Example.tensor.keys.index 1 = .ok [0, 2] ∧
    Labels.build Example.tensor.keys.names [[0, 2]] = .ok (Labels.mk' ["k", "l"] [[0, 2]]) ∧
    Example.tensor.blockMatching (Labels.mk' ["k", "l"] [[0, 2]]) = .ok 1 := by
  decide +kernel

/-! ### C15 -/

/-- **C15.** Sequential iteration visits `(key i, block i)` for every `i`, in order. -/
theorem C15_iter (t : TensorMap A) (ht : TensorValid t) :
    ∃ visited, t.iter = .ok visited ∧ visited.length = t.blocks.length ∧
      ∀ i kb, visited[i]? = some kb ↔
        (t.keys.index i = .ok kb.1 ∧ t.blocks[i]? = some kb.2) := by
  have hkw := ht.keys.wf_of_count ht.count
  have hlen : t.keys.rows.length = t.blocks.length := by
    have := ht.count; rw [hkw.count_eq, Res.ok.injEq] at this; exact this
  refine ⟨t.keys.rows.zip t.blocks, ?_, by simp [hlen], ?_⟩
  · unfold TensorMap.iter; rw [Labels.Holds.iter_eq hkw]; rfl
  · rintro i ⟨k, b⟩
    rw [List.getElem?_zip_eq_some]
    constructor
    · rintro ⟨h1, h2⟩
      obtain ⟨hi, rfl⟩ := List.getElem?_eq_some_iff.1 h1
      exact ⟨Labels.Holds.index_eq hkw hi, h2⟩
    · rintro ⟨h1, h2⟩
      have hi : i < t.keys.rows.length := by
        by_contra hc; rw [Labels.Holds.index_panic hkw hc] at h1; cases h1
      rw [Labels.Holds.index_eq hkw hi] at h1
      cases h1
      exact ⟨List.getElem?_eq_getElem hi, h2⟩

theorem chunksExact_append {n i : Nat} {l : List LabelValue} :
    chunksExact n l = chunksExact n (l.take (i * n)) ++ chunksExact n (l.drop (i * n)) := by
  unfold chunksExact
  by_cases hn : n = 0
  · subst hn; simp
  by_cases hi : i * n ≤ l.length
  · have h1 : (l.take (i * n)).length / n = i := by
      rw [List.length_take, Nat.min_eq_left hi, Nat.mul_div_cancel _ (by omega)]
    have h2 : (l.drop (i * n)).length / n = l.length / n - i := by
      rw [List.length_drop, Nat.mul_comm, Nat.sub_mul_div]
    have h3 : i ≤ l.length / n := (Nat.le_div_iff_mul_le (by omega)).2 hi
    rw [h1, h2]
    apply List.ext_getElem
    · simp; omega
    · intro j hj1 hj2
      by_cases hj : j < i
      · rw [List.getElem_append_left (by simpa using hj)]
        simp only [List.getElem_map, List.getElem_range]
        rw [List.drop_take, List.take_take]
        congr 1
        have : n ≤ i * n - j * n := by
          rw [← Nat.sub_mul]
          exact Nat.le_mul_of_pos_left _ (by omega)
        omega
      · rw [List.getElem_append_right (by simpa using hj)]
        simp only [List.getElem_map, List.getElem_range, List.length_map, List.length_range]
        rw [List.drop_drop]
        congr 2
        rw [← Nat.add_mul]
        congr 1
        omega
  · have h1 : l.take (i * n) = l := List.take_of_length_le (by omega)
    have h2 : l.drop (i * n) = [] := List.drop_eq_nil_of_le (by omega)
    rw [h1, h2]; simp

/-- A producer with as many keys as blocks. -/
def Producer.Balanced (p : Producer A) : Prop :=
  (chunksExact p.size p.values).length = p.blocks.length

theorem Producer.splitAt_spec {p : Producer A} (hp : p.Balanced) {i : Nat} (hi : i ≤ p.blocks.length) :
    (p.splitAt i).1.Balanced ∧ (p.splitAt i).2.Balanced ∧
    (p.splitAt i).1.pairs ++ (p.splitAt i).2.pairs = p.pairs := by
  unfold Producer.Balanced at *
  have h := chunksExact_append (n := p.size) (i := i) (l := p.values)
  have h1 : (chunksExact p.size (p.values.take (i * p.size))).length = i := by
    rw [chunksExact_length] at hp ⊢
    by_cases hn : p.size = 0
    · rw [hn] at hp ⊢; simp at hp ⊢; omega
    · rw [List.length_take]
      have : i * p.size ≤ p.values.length :=
        (Nat.le_div_iff_mul_le (by omega)).1 (by omega)
      rw [Nat.min_eq_left this, Nat.mul_div_cancel _ (by omega)]
  have h2 : (chunksExact p.size (p.values.drop (i * p.size))).length = p.blocks.length - i := by
    have := congrArg List.length h
    rw [List.length_append, hp, h1] at this
    omega
  refine ⟨?_, ?_, ?_⟩
  · simp only [Producer.splitAt, h1, List.length_take]; omega
  · simp only [Producer.splitAt, h2, List.length_drop]
  · simp only [Producer.splitAt, Producer.pairs]
    rw [← List.zip_append (by rw [h1, List.length_take]; omega), ← h, List.take_append_drop]

/-- Schedules rayon can use: positions inside of the slice being split. -/
def Schedule.Valid : Schedule → Nat → Prop
  | .leaf, _ => True
  | .split i left right, n => i ≤ n ∧ left.Valid i ∧ right.Valid (n - i)

theorem Producer.run_spec {p : Producer A} (hp : p.Balanced) {s : Schedule}
    (hs : s.Valid p.blocks.length) : ∃ leaves, p.run s = .ok leaves ∧ leaves.flatten = p.pairs := by
  induction s generalizing p with
  | leaf => exact ⟨_, rfl, by simp⟩
  | split i l r ihl ihr =>
    obtain ⟨hi, hl, hr⟩ := hs
    obtain ⟨b1, b2, hpairs⟩ := Producer.splitAt_spec hp hi
    have n1 : (p.splitAt i).1.blocks.length = i := by simp [Producer.splitAt, hi]
    have n2 : (p.splitAt i).2.blocks.length = p.blocks.length - i := by simp [Producer.splitAt]
    obtain ⟨ll, h1, h2⟩ := ihl b1 (by rw [n1]; exact hl)
    obtain ⟨rl, h3, h4⟩ := ihr b2 (by rw [n2]; exact hr)
    refine ⟨ll ++ rl, ?_, by rw [List.flatten_append, h2, h4, hpairs]⟩
    simp [Producer.run, hi, h1, h3]

theorem Producer.update_spec {p : Producer A} (hp : p.Balanced) {s : Schedule}
    (f : List LabelValue → TensorBlock A → TensorBlock A)
    (hs : s.Valid p.blocks.length) :
    p.update f s = .ok (p.pairs.map fun kb => f kb.1 kb.2) := by
  induction s generalizing p with
  | leaf =>
    have : p.blocks.drop p.pairs.length = [] := by
      apply List.drop_eq_nil_of_le
      unfold Producer.Balanced at hp
      simp [Producer.pairs, hp]
    simp [Producer.update, this]
  | split i l r ihl ihr =>
    obtain ⟨hi, hl, hr⟩ := hs
    obtain ⟨b1, b2, hpairs⟩ := Producer.splitAt_spec hp hi
    have n1 : (p.splitAt i).1.blocks.length = i := by simp [Producer.splitAt, hi]
    have n2 : (p.splitAt i).2.blocks.length = p.blocks.length - i := by simp [Producer.splitAt]
    have h1 := ihl b1 (by rw [n1]; exact hl)
    have h2 := ihr b2 (by rw [n2]; exact hr)
    simp [Producer.update, hi, h1, h2, ← hpairs]

theorem parIter_spec {t : TensorMap A} (ht : TensorValid t) :
    ∃ p, t.parIter = .ok p ∧ p.Balanced ∧ p.pairs = t.keys.rows.zip t.blocks ∧
      p.blocks = t.blocks := by
  have hkw := ht.keys.wf_of_count ht.count
  have hlen : t.keys.rows.length = t.blocks.length := by
    have := ht.count; rw [hkw.count_eq, Res.ok.injEq] at this; exact this
  have hl : t.keys.values.length / t.keys.size = t.blocks.length := by
    rw [← hlen, Labels.rows, chunksExact_length]
  have hsz : t.keys.size ≠ 0 := Labels.Holds.size_ne_zero hkw
  refine ⟨⟨t.keys.size, t.keys.values, t.blocks⟩, ?_, ?_, rfl, rfl⟩
  · have : (t.keys.size != 0) = true := by simpa using hsz
    simp [TensorMap.parIter, this, hl]
  · exact hlen

/-- **C15.** For any way rayon splits the work of `par_iter`, and any order in which
the leaves run, the visited pairs are those of sequential iteration, each once. -/
theorem C15_par_iter (t : TensorMap A) (ht : TensorValid t) (s : Schedule)
    (hs : s.Valid t.blocks.length) :
    ∃ p leaves visited, t.parIter = .ok p ∧ p.run s = .ok leaves ∧ t.iter = .ok visited ∧
      leaves.flatten = visited ∧
      ∀ executed : List (List (List LabelValue × TensorBlock A)), executed.Perm leaves →
        executed.flatten.Perm visited := by
  obtain ⟨p, h1, h2, h3, h4⟩ := parIter_spec ht
  obtain ⟨leaves, h5, h6⟩ := Producer.run_spec h2 (s := s) (by rw [h4]; exact hs)
  have hit : t.iter = .ok (t.keys.rows.zip t.blocks) := by
    unfold TensorMap.iter
    rw [Labels.Holds.iter_eq (ht.keys.wf_of_count ht.count)]; rfl
  refine ⟨p, leaves, _, h1, h5, hit, by rw [h6, h3], ?_⟩
  intro ex hex
  rw [← h3, ← h6]
  exact hex.flatten

/-- **C15.** With `iter_mut` and, for any way of splitting the work, `par_iter_mut`,
each block is updated once, together with its own key. -/
theorem C15_par_iter_mut (t : TensorMap A) (ht : TensorValid t) (s : Schedule)
    (hs : s.Valid t.blocks.length) (f : List LabelValue → TensorBlock A → TensorBlock A) :
    ∃ p new, t.parIter = .ok p ∧ p.update f s = .ok new ∧
      t.iterMut f = .ok { t with blocks := new } ∧ new.length = t.blocks.length ∧
      ∀ i b, t.blocks[i]? = some b →
        ∃ key, t.keys.index i = .ok key ∧ new[i]? = some (f key b) := by
  obtain ⟨p, h1, h2, h3, h4⟩ := parIter_spec ht
  have hkw := ht.keys.wf_of_count ht.count
  have hlen : t.keys.rows.length = t.blocks.length := by
    have := ht.count; rw [hkw.count_eq, Res.ok.injEq] at this; exact this
  have h5 := Producer.update_spec h2 (s := s) f (by rw [h4]; exact hs)
  have hl : ((t.keys.rows.zip t.blocks).map fun kb => f kb.1 kb.2).length = t.blocks.length := by
    simp [hlen]
  refine ⟨p, _, h1, h5, ?_, by rw [h3, hl], ?_⟩
  · unfold TensorMap.iterMut
    rw [Labels.Holds.iter_eq hkw]
    simp only [Res.ok_bind, hl, Res.pure_eq, Res.ok.injEq, h3, List.drop_length, List.append_nil]
  · intro i b hb
    obtain ⟨hi, rfl⟩ := List.getElem?_eq_some_iff.1 hb
    have hi' : i < t.keys.rows.length := by omega
    refine ⟨_, Labels.Holds.index_eq hkw hi', ?_⟩
    rw [h3, List.getElem?_map, List.getElem?_eq_getElem (by simp; omega)]
    simp

/-- The iterator after `k` calls to `next`. -/
def LabelsIter.after (it : LabelsIter) : Nat → LabelsIter
  | 0 => it
  | k + 1 => (it.after k).next.1

/-- **C15.** Iterating over labels one step at a time: after `k` steps, `len` tells
how many entries are left, and the next entry is the one at index `k`. -/
theorem C15_labels_iter_steps (l : Labels) (hl : l.FromBuilder) (hn : l.names ≠ []) (n : Nat)
    (hc : l.count = .ok n) :
    ∃ it, l.intoIter = .ok it ∧
      ∀ k, (it.after k).len = n - k ∧
        (k < n → ∃ e, l.index k = .ok e ∧ (it.after k).next.2 = some e) ∧
        (n ≤ k → (it.after k).next.2 = none) := by
  have hw := hl.wf hn
  have hsz : l.size ≠ 0 := Labels.Holds.size_ne_zero hw
  have hrows : l.rows.length = n := by rw [hw.count_eq, Res.ok.injEq] at hc; exact hc
  have hvals : l.values.length = n * l.size := by
    have h1 := Labels.Holds.values_eq hw
    rw [h1, flatten_length_const (Labels.Holds.row_length hw), hrows]; rfl
  have hpos : 0 < l.size := by omega
  refine ⟨⟨l.size, l.values⟩, by
    have : (l.size != 0) = true := by simpa using hsz
    simp [Labels.intoIter, this], ?_⟩
  have hstate : ∀ k, LabelsIter.after ⟨l.size, l.values⟩ k =
      ⟨l.size, l.values.drop (min k n * l.size)⟩ := by
    intro k
    induction k with
    | zero => simp [LabelsIter.after]
    | succ k ih =>
      rw [LabelsIter.after, ih]
      unfold LabelsIter.next
      simp only [List.length_drop, hvals, ← Nat.sub_mul]
      by_cases hk : k < n
      · have h1 : l.size ≤ (n - min k n) * l.size := Nat.le_mul_of_pos_left _ (by omega)
        rw [if_neg (by omega)]
        simp only [List.drop_drop]
        rw [Nat.min_eq_left (by omega), Nat.min_eq_left (by omega), Nat.add_mul, Nat.one_mul]
      · have h1 : n - min k n = 0 := by omega
        rw [h1, Nat.zero_mul, if_pos hpos, Nat.min_eq_right (by omega), Nat.min_eq_right (by omega)]
  intro k
  rw [hstate k]
  refine ⟨?_, ?_, ?_⟩
  · simp only [LabelsIter.len, List.length_drop, hvals, ← Nat.sub_mul]
    rw [Nat.mul_div_cancel _ hpos]; omega
  · intro hk
    refine ⟨_, Labels.Holds.index_eq hw (by omega), ?_⟩
    unfold LabelsIter.next
    simp only [List.length_drop, hvals, ← Nat.sub_mul]
    have h1 : l.size ≤ (n - min k n) * l.size := Nat.le_mul_of_pos_left _ (by omega)
    rw [if_neg (by omega), Nat.min_eq_left (by omega)]
    simp only [Option.some.injEq]
    have h2 := Labels.Holds.values_eq hw
    rw [h2]
    exact flatten_chunk_const (Labels.Holds.row_length hw) (by omega)
  · intro hk
    unfold LabelsIter.next
    simp only [List.length_drop, hvals, ← Nat.sub_mul]
    have h1 : n - min k n = 0 := by omega
    rw [h1, Nat.zero_mul, if_pos hpos]

/-- Non-vacuity: the example tensor map is valid, and work on its three blocks can be
split in 1 + (0 + 2). -/
example : TensorValid Example.tensor ∧
    (Schedule.split 1 .leaf (.split 0 .leaf .leaf)).Valid Example.tensor.blocks.length ∧
    ∃ leaves, (Example.tensor.parIter >>= fun p => p.run (.split 1 .leaf (.split 0 .leaf .leaf)))
        = .ok leaves ∧ leaves.map List.length = [1, 0, 2] := by
  exact ⟨TensorMap.valid_of_rebuilds (by decide +kernel), by simp [Schedule.Valid]; decide,
    _, rfl, by decide +kernel⟩

end Equistore
