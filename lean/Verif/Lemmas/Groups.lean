import Verif.Model.KeysToProperties
import Verif.Lemmas.Tensor
import Verif.Lemmas.Rows

/-! Which blocks are merged together. -/

namespace Equistore
open Spec

variable {A : Type} [ArrayLike A]

theorem project_filter {keep : String → Bool} {names : List String} {key : List LabelValue} {k : Nat}
    {pre : List LabelValue} (hpre : pre.length = k)
    (h : key.length = names.length) :
    project (((names.zipIdx k).filter fun p => keep p.1).map Prod.snd) (pre ++ key) =
      .ok (restrict keep names key) := by
  unfold project restrict
  induction names generalizing key k pre with
  | nil => simp
  | cons n ns ih =>
    cases key with
    | nil => simp at h
    | cons v key =>
      simp only [List.length_cons, Nat.add_right_cancel_iff] at h
      have ih := ih (k := k + 1) (pre := pre ++ [v]) (by simp [hpre]) h
      rw [List.append_assoc, List.singleton_append] at ih
      rw [List.zipIdx_cons, List.zip_cons_cons]
      by_cases hn : keep n
      · rw [List.filter_cons_of_pos (by simpa using hn), List.filter_cons_of_pos (by simpa using hn)]
        simp only [List.map_cons, List.mapM_cons, ih]
        rw [List.getElem?_append_right (by omega)]
        simp [hpre]
      · rw [List.filter_cons_of_neg (by simpa using hn), List.filter_cons_of_neg (by simpa using hn)]
        exact ih

theorem project_names {keep : String → Bool} {names : List String} {key : List LabelValue}
    (h : key.length = names.length) :
    project ((names.zipIdx.filter fun p => keep p.1).map Prod.snd) key =
      .ok (restrict keep names key) := by
  simpa using project_filter (keep := keep) (k := 0) (pre := []) rfl h

theorem zipIdx_filter_fst {keep : String → Bool} {names : List String} {k : Nat} :
    ((names.zipIdx k).filter fun p => keep p.1).map Prod.fst = names.filter keep := by
  induction names generalizing k with
  | nil => rfl
  | cons n ns ih =>
    rw [List.zipIdx_cons]
    by_cases hn : keep n
    · rw [List.filter_cons_of_pos (by simpa using hn), List.filter_cons_of_pos hn, List.map_cons, ih]
    · rw [List.filter_cons_of_neg (by simpa using hn), List.filter_cons_of_neg hn, ih]

theorem mapM_ok {α β : Type} {f : α → Res β} {g : α → β} {l : List α}
    (h : ∀ a ∈ l, f a = .ok (g a)) : l.mapM f = .ok (l.map g) := by
  induction l with
  | nil => rfl
  | cons a l ih =>
    rw [List.mapM_cons, h a List.mem_cons_self, Res.ok_bind,
      ih fun a ha => h a (List.mem_cons_of_mem _ ha)]
    rfl

theorem mapM_congr {α β : Type} {f g : α → Res β} {l : List α} (h : ∀ a ∈ l, f a = g a) :
    l.mapM f = l.mapM g := by
  induction l with
  | nil => rfl
  | cons a l ih =>
    rw [List.mapM_cons, List.mapM_cons, h a List.mem_cons_self, ih fun a ha => h a (List.mem_cons_of_mem _ ha)]

theorem restrict_length {keep : String → Bool} {names : List String} {key : List LabelValue}
    (h : key.length = names.length) :
    (restrict keep names key).length = (names.filter keep).length := by
  unfold restrict
  induction names generalizing key with
  | nil => simp
  | cons n ns ih =>
    cases key with
    | nil => simp at h
    | cons v key =>
      simp only [List.length_cons, Nat.add_right_cancel_iff] at h
      have ih := ih h
      rw [List.zip_cons_cons]
      by_cases hn : keep n
      · rw [List.filter_cons_of_pos (by simpa using hn), List.filter_cons_of_pos hn]
        simpa using ih
      · rw [List.filter_cons_of_neg (by simpa using hn), List.filter_cons_of_neg hn]
        exact ih

/-- A key is determined by its two parts. -/
theorem restrict_inj {keep : String → Bool} {names : List String} {key key' : List LabelValue}
    (h : key.length = names.length) (h' : key'.length = names.length)
    (h1 : restrict keep names key = restrict keep names key')
    (h2 : restrict (fun n => !keep n) names key = restrict (fun n => !keep n) names key') :
    key = key' := by
  unfold restrict at *
  induction names generalizing key key' with
  | nil =>
    rw [List.length_nil, List.length_eq_zero_iff] at h h'; rw [h, h']
  | cons n ns ih =>
    cases key with
    | nil => simp at h
    | cons v key =>
      cases key' with
      | nil => simp at h'
      | cons v' key' =>
        simp only [List.length_cons, Nat.add_right_cancel_iff] at h h'
        simp only [List.zip_cons_cons] at h1 h2
        by_cases hn : keep n
        · rw [List.filter_cons_of_pos (by simpa using hn), List.filter_cons_of_pos (by simpa using hn),
            List.map_cons, List.map_cons, List.cons.injEq] at h1
          rw [List.filter_cons_of_neg (by simpa using hn), List.filter_cons_of_neg (by simpa using hn)] at h2
          have := ih h h' h1.2 h2
          rw [this, show v = v' from h1.1]
        · rw [List.filter_cons_of_neg (by simpa using hn), List.filter_cons_of_neg (by simpa using hn)] at h1
          rw [List.filter_cons_of_pos (by simpa using hn), List.filter_cons_of_pos (by simpa using hn),
            List.map_cons, List.map_cons, List.cons.injEq] at h2
          have := ih h h' h1 h2.2
          rw [this, show v = v' from h2.1]

/-- Positions of the moved names. -/
def movedPositions (names moved : List String) : List Nat :=
  (names.zipIdx.filter fun p => moved.contains p.1).map Prod.snd

theorem NamesOk.filter {names : List String} (h : NamesOk names) (keep : String → Bool) :
    NamesOk (names.filter keep) :=
  ⟨fun n hn => h.1 n (List.mem_filter.1 hn).1, h.2.filter _⟩

theorem restrict_nil_of_filter_nil {keep : String → Bool} {names : List String}
    {key : List LabelValue} (h : key.length = names.length) (hn : names.filter keep = []) :
    restrict keep names key = [] := by
  have := restrict_length (keep := keep) h
  rw [hn] at this
  exact List.length_eq_zero_iff.1 this

/-- The result of `remove_variables_from_keys`. -/
theorem removeVariablesFromKeys_spec {keys : Labels} (hk : keys.WF) {moved : List String}
    (hm : ∀ n ∈ moved, n ∈ keys.names) :
    ∃ newKeys, removeVariablesFromKeys keys moved = .ok (newKeys, movedPositions keys.names moved) ∧
      newKeys.Holds (remainingNames keys.names moved)
        (if keys.names.filter (fun n => !moved.contains n) = [] then [[0]]
          else indexSet (keys.rows.map (remainingKey keys.names moved))) := by
  unfold removeVariablesFromKeys
  have hf : moved.find? (fun v => !keys.names.contains v) = none := by
    rw [List.find?_eq_none]
    intro n hn
    simpa using hm n hn
  rw [hf]
  simp only
  have hrem : (keys.names.zipIdx.filter fun p => !moved.contains p.1).map Prod.fst =
      keys.names.filter fun n => !moved.contains n :=
    zipIdx_filter_fst (keep := fun n => !moved.contains n)
  by_cases he : keys.names.filter (fun n => !moved.contains n) = []
  · have hemp : (keys.names.zipIdx.filter fun p => !moved.contains p.1) = [] := by
      rw [he] at hrem; exact List.map_eq_nil_iff.1 hrem
    obtain ⟨l, hl, hh⟩ := Labels.single_holds
    rw [hemp]
    refine ⟨l, by simp [hl, movedPositions], ?_⟩
    simp only [remainingNames, he, if_true]
    exact hh
  · have hemp : (keys.names.zipIdx.filter fun p => !moved.contains p.1).isEmpty = false := by
      rw [List.isEmpty_eq_false_iff]
      intro hc
      rw [hc] at hrem
      exact he hrem.symm
    rw [hemp]
    simp only [Bool.false_eq_true, if_false]
    rw [Labels.Holds.iter_eq hk, Res.ok_bind, hrem]
    have hlen := Labels.Holds.row_length hk
    rw [mapM_ok (g := fun key => restrict (fun n => !moved.contains n) keys.names key)
      (fun key hkey => project_names (keep := fun n => !moved.contains n) (hlen key hkey)), Res.ok_bind]
    have hrows : keys.rows.map (fun key => restrict (fun n => !moved.contains n) keys.names key) =
        keys.rows.map (remainingKey keys.names moved) := by
      apply List.map_congr_left
      intro key _
      rw [remainingKey, if_neg he]
    rw [hrows]
    have hpos : 0 < (keys.names.filter fun n => !moved.contains n).length :=
      List.length_pos_iff.2 he
    have hh : (Labels.mk' (keys.names.filter fun n => !moved.contains n)
        (indexSet (keys.rows.map (remainingKey keys.names moved)))).Holds
        (keys.names.filter fun n => !moved.contains n)
        (indexSet (keys.rows.map (remainingKey keys.names moved))) := by
      refine Labels.mk'_holds ((Labels.Holds.names_ok hk).filter _) hpos ?_ (indexSet_nodup _)
      intro r hr
      rw [mem_indexSet, List.mem_map] at hr
      obtain ⟨key, hkey, rfl⟩ := hr
      rw [remainingKey, if_neg he]
      exact restrict_length (hlen key hkey)
    refine ⟨Labels.mk' (keys.names.filter fun n => !moved.contains n)
        (indexSet (keys.rows.map (remainingKey keys.names moved))), ?_, ?_⟩
    · rw [(Labels.build_eq_ok hpos).2 hh]
      rfl
    · simp only [remainingNames, he, if_false]
      exact hh

theorem removeVariablesFromKeys_missing {keys : Labels} {moved : List String}
    (hm : ¬ ∀ n ∈ moved, n ∈ keys.names) :
    ∃ m, removeVariablesFromKeys keys moved = .err (.invalidParameter m) := by
  unfold removeVariablesFromKeys
  cases hf : moved.find? (fun v => !keys.names.contains v) with
  | some n => exact ⟨_, rfl⟩
  | none =>
    rw [List.find?_eq_none] at hf
    exact absurd (fun n hn => by simpa using hf n hn) hm

/-! ### Groups of blocks -/

/-- The part of a pair that is passed to the merging functions. -/
def toMerge (names moved : List String) (kb : List LabelValue × TensorBlock A) :
    List LabelValue × TensorBlock A := (movedKey names moved kb.1, kb.2)

theorem allBlocksToMerge_eq {t : TensorMap A} (hk : t.keys.WF) (moved : List String) :
    allBlocksToMerge t (movedPositions t.keys.names moved) =
      .ok ((t.keys.rows.zip t.blocks).map (toMerge t.keys.names moved)) := by
  unfold allBlocksToMerge
  rw [Labels.Holds.iter_eq hk, Res.ok_bind]
  apply mapM_ok
  rintro ⟨key, block⟩ hkb
  have := project_names (keep := fun n => moved.contains n)
    (Labels.Holds.row_length hk key (List.of_mem_zip hkb).1)
  simp only [movedPositions, this, Res.ok_bind]
  rfl

theorem blocksToMerge_eq {t : TensorMap A} (hk : t.keys.WF)
    (hlen : t.keys.rows.length = t.blocks.length) (moved : List String) {is : List Nat}
    (his : ∀ i ∈ is, i < t.blocks.length) :
    blocksToMerge t (movedPositions t.keys.names moved) is =
      .ok ((is.filterMap fun i => (t.keys.rows.zip t.blocks)[i]?).map (toMerge t.keys.names moved)) := by
  unfold blocksToMerge
  induction is with
  | nil => rfl
  | cons i is ih =>
    have hi := his i List.mem_cons_self
    have hi' : i < t.keys.rows.length := by omega
    rw [List.mapM_cons, List.getElem?_eq_getElem hi, Res.expect_some, Res.ok_bind,
      Labels.Holds.index_eq hk hi', Res.ok_bind]
    have := project_names (keep := fun n => moved.contains n)
      (Labels.Holds.row_length hk _ (List.getElem_mem hi'))
    simp only [movedPositions] at ih ⊢
    rw [this, Res.ok_bind, Res.pure_eq, Res.ok_bind, ih fun i h => his i (List.mem_cons_of_mem _ h)]
    rw [List.filterMap_cons, List.getElem?_eq_getElem (by simp; omega)]
    simp [toMerge, movedKey]

/-- Selecting the elements at an increasing list of positions is filtering. -/
theorem filterMap_getElem?_eq_filter {α : Type} {l : List α} {q : α → Bool} {is : List Nat}
    (hs : is.Pairwise (· < ·)) (h : ∀ i, i ∈ is ↔ ∃ a, l[i]? = some a ∧ q a = true) :
    is.filterMap (fun i => l[i]?) = l.filter q := by
  induction l generalizing is with
  | nil =>
    have : is = [] := by
      rw [List.eq_nil_iff_forall_not_mem]; intro i hi; rw [h] at hi; simp at hi
    simp [this]
  | cons a l ih =>
    have step : ∀ js : List Nat, js.Pairwise (· < ·) → (∀ i ∈ js, 0 < i) →
        (∀ i, 0 < i → (i ∈ js ↔ ∃ b, (a :: l)[i]? = some b ∧ q b = true)) →
        js.filterMap (fun i => (a :: l)[i]?) = l.filter q := by
      intro js hjs hpos hj
      have e : js = (js.map (· - 1)).map (· + 1) := by
        rw [List.map_map]
        conv_lhs => rw [← List.map_id js]
        apply List.map_congr_left
        intro i hi
        have := hpos i hi
        simp; omega
      rw [e, List.filterMap_map]
      have : ((fun i => (a :: l)[i]?) ∘ fun x => x + 1) = fun i => l[i]? := by
        funext i; simp
      rw [this]
      apply ih
      · rw [List.pairwise_map]
        refine List.Pairwise.imp_of_mem ?_ hjs
        intro x y hx hy hxy
        have := hpos x hx; have := hpos y hy; omega
      · intro i
        have := hj (i + 1) (by omega)
        rw [List.getElem?_cons_succ] at this
        rw [← this, List.mem_map]
        constructor
        · rintro ⟨x, hx, rfl⟩
          have := hpos x hx
          rw [Nat.sub_add_cancel this]; exact hx
        · intro hi; exact ⟨i + 1, hi, by simp⟩
    have h0 := h 0
    simp only [List.getElem?_cons_zero, Option.some.injEq, exists_eq_left'] at h0
    by_cases hq : q a = true
    · rw [List.filter_cons_of_pos hq]
      have hmem := h0.2 hq
      cases is with
      | nil => simp at hmem
      | cons i is =>
        rw [List.pairwise_cons] at hs
        have hi0 : i = 0 := by
          rcases List.mem_cons.1 hmem with h | h
          · exact h.symm
          · have := hs.1 0 h; omega
        subst hi0
        simp only [List.filterMap_cons, List.getElem?_cons_zero, List.cons.injEq, true_and]
        apply step is hs.2 hs.1
        intro i hi
        rw [← h i, List.mem_cons]
        constructor
        · exact Or.inr
        · rintro (rfl | h)
          · omega
          · exact h
    · rw [List.filter_cons_of_neg hq]
      apply step is hs
      · intro i hi
        rcases Nat.eq_zero_or_pos i with rfl | h'
        · exact absurd (h0.1 hi) hq
        · exact h'
      · intro i _; exact h i

theorem mem_zip_filter_iff {keep : String → Bool} {names : List String} {key : List LabelValue}
    (h : key.length = names.length) {n : String} {v : LabelValue} :
    (n, v) ∈ (names.filter keep).zip (restrict keep names key) ↔
      ((n, v) ∈ names.zip key ∧ keep n = true) := by
  unfold restrict
  induction names generalizing key with
  | nil => simp
  | cons m ns ih =>
    cases key with
    | nil => simp at h
    | cons w key =>
      simp only [List.length_cons, Nat.add_right_cancel_iff] at h
      have ih := ih h
      rw [List.zip_cons_cons]
      by_cases hn : keep m
      · rw [List.filter_cons_of_pos hn, List.filter_cons_of_pos (by simpa using hn), List.map_cons,
          List.zip_cons_cons, List.mem_cons, List.mem_cons, ih]
        constructor
        · rintro (h | h)
          · simp only [Prod.mk.injEq] at h; exact ⟨Or.inl (by rw [h.1, h.2]), by rw [h.1]; exact hn⟩
          · exact ⟨Or.inr h.1, h.2⟩
        · rintro ⟨h | h, h'⟩
          · exact Or.inl h
          · exact Or.inr ⟨h, h'⟩
      · rw [List.filter_cons_of_neg hn, List.filter_cons_of_neg (by simpa using hn), List.mem_cons, ih]
        constructor
        · rintro ⟨h, h'⟩; exact ⟨Or.inr h, h'⟩
        · rintro ⟨h | h, h'⟩
          · simp only [Prod.mk.injEq] at h; rw [h.1] at h'; exact absurd h' hn
          · exact ⟨h, h'⟩

/-- A key agrees with a selection on the remaining names iff its remaining part is
that selection. -/
theorem agrees_restrict {keep : String → Bool} {names : List String} {key row : List LabelValue}
    (hnd : names.Nodup) (hk : key.length = names.length)
    (hr : row.length = (names.filter keep).length) :
    Agrees names key (names.filter keep) row ↔ restrict keep names key = row := by
  have h1 : Agrees names key (names.filter keep) row ↔
      Agrees (names.filter keep) (restrict keep names key) (names.filter keep) row := by
    unfold Agrees
    constructor
    · intro h n v hm
      rw [mem_zip_filter_iff hk]
      exact ⟨h n v hm, (List.mem_filter.1 (List.of_mem_zip hm).1).2⟩
    · intro h n v hm
      exact ((mem_zip_filter_iff hk).1 (h n v hm)).1
  rw [h1, agrees_self (hnd.filter _) (restrict_length hk) hr]

/-- The blocks merged for each of the new keys. -/
theorem mergeForKeys_eq {t : TensorMap A} (hk : t.keys.WF)
    (hlen : t.keys.rows.length = t.blocks.length) {moved : List String} {newKeys : Labels}
    (hnew : newKeys.Holds (remainingNames t.keys.names moved)
        (if t.keys.names.filter (fun n => !moved.contains n) = [] then [[0]]
          else indexSet (t.keys.rows.map (remainingKey t.keys.names moved))))
    (merge : List (List LabelValue × TensorBlock A) → Res (TensorBlock A)) :
    mergeForKeys t newKeys (movedPositions t.keys.names moved) merge =
      newKeys.rows.mapM fun key' =>
        merge ((group t.keys.names moved (t.keys.rows.zip t.blocks) key').map
          (toMerge t.keys.names moved)) := by
  unfold mergeForKeys
  generalize hrows : (if t.keys.names.filter (fun n => !moved.contains n) = [] then [[0]]
          else indexSet (t.keys.rows.map (remainingKey t.keys.names moved))) = rows at hnew
  replace hrows := hrows.symm
  rw [hnew.count_eq, Res.ok_bind, hnew.rows_eq]
  by_cases h1 : rows.length = 1
  · rw [if_pos h1]
    rw [allBlocksToMerge_eq hk, Res.ok_bind]
    obtain ⟨r, hr⟩ := List.length_eq_one_iff.1 h1
    rw [hr]
    -- all the keys have the same remaining part
    have hg : group t.keys.names moved (t.keys.rows.zip t.blocks) r = t.keys.rows.zip t.blocks := by
      unfold group
      rw [List.filter_eq_self]
      rintro ⟨key, b⟩ hkb
      rw [decide_eq_true_iff]
      have hkey := (List.of_mem_zip hkb).1
      by_cases he : t.keys.names.filter (fun n => !moved.contains n) = []
      · rw [if_pos he] at hrows; rw [hrows] at hr
        simp only [remainingKey, he, if_true]
        simpa using hr
      · rw [if_neg he] at hrows; rw [hrows] at hr
        have : remainingKey t.keys.names moved key ∈
            indexSet (t.keys.rows.map (remainingKey t.keys.names moved)) := by
          rw [mem_indexSet]; exact List.mem_map_of_mem hkey
        rw [hr] at this
        simpa using this
    rw [List.mapM_cons, hg, List.mapM_nil]
    rfl
  · rw [if_neg h1]
    have he : t.keys.names.filter (fun n => !moved.contains n) ≠ [] := by
      intro he; rw [if_pos he] at hrows; rw [hrows] at h1; simp at h1
    rw [if_neg he] at hrows
    subst hrows
    rw [hnew.iter_eq, Res.ok_bind]
    have hn : remainingNames t.keys.names moved = t.keys.names.filter fun n => !moved.contains n := by
      simp only [remainingNames, he, if_false]
    have key : ∀ entry ∈ indexSet (t.keys.rows.map (remainingKey t.keys.names moved)),
        (do
          let selection ← Labels.build newKeys.names [entry]
          let matching ← t.blocksMatching selection
          let blocks ← blocksToMerge t (movedPositions t.keys.names moved) matching
          merge blocks) =
        merge ((group t.keys.names moved (t.keys.rows.zip t.blocks) entry).map
          (toMerge t.keys.names moved)) := by
      intro entry hentry
      have hrl : entry.length = (remainingNames t.keys.names moved).length :=
        hnew.row_length entry hentry
      have hs : (Labels.mk' newKeys.names [entry]).Holds newKeys.names [entry] := by
        rw [hnew.names_eq]
        exact Labels.mk'_holds hnew.names_ok hnew.names_pos (by simpa using hrl) (by simp)
      have hpos : 0 < newKeys.names.length := by rw [hnew.names_eq]; exact hnew.names_pos
      rw [(Labels.build_eq_ok hpos).2 hs, Res.ok_bind]
      rcases blocksMatching_cases hk hs.wf with ⟨row, h2, h3, r, h4, h5, h6⟩ | ⟨h2, m, h3⟩
      · rw [h4, Res.ok_bind]
        rw [hs.rows_eq] at h2
        cases h2
        have hr : ∀ i ∈ r, i < t.blocks.length := by
          intro i hi
          obtain ⟨k, hk', _⟩ := (h6 i).1 hi
          have := (List.getElem?_eq_some_iff.1 hk').1
          omega
        rw [blocksToMerge_eq hk hlen moved hr, Res.ok_bind]
        congr 2
        unfold group
        apply filterMap_getElem?_eq_filter h5
        intro i
        rw [h6 i, hs.names_eq, hnew.names_eq, hn]
        constructor
        · rintro ⟨key, h7, h8⟩
          have hi : i < t.keys.rows.length := (List.getElem?_eq_some_iff.1 h7).1
          refine ⟨(key, t.blocks[i]'(by omega)), ?_, ?_⟩
          · rw [List.getElem?_zip_eq_some]
            exact ⟨h7, List.getElem?_eq_getElem (by omega)⟩
          · rw [decide_eq_true_iff, remainingKey, if_neg he]
            rw [hn] at hrl
            exact (agrees_restrict (Labels.Holds.names_ok hk).2
              (Labels.Holds.row_length hk key (List.mem_of_getElem? h7)) hrl).1 h8
        · rintro ⟨⟨key, b⟩, h7, h8⟩
          rw [List.getElem?_zip_eq_some] at h7
          rw [decide_eq_true_iff, remainingKey, if_neg he] at h8
          rw [hn] at hrl
          exact ⟨key, h7.1, (agrees_restrict (Labels.Holds.names_ok hk).2
              (Labels.Holds.row_length hk key (List.mem_of_getElem? h7.1)) hrl).2 h8⟩
      · refine absurd ⟨by rw [hs.rows_eq]; rfl, ?_⟩ h2
        rw [hs.names_eq, hnew.names_eq, hn]
        intro n hn'
        exact (List.mem_filter.1 hn').1
    exact mapM_congr key

/-- The blocks merged for each of the new keys, when it succeeds. -/
theorem mergeForKeys_iff {t : TensorMap A} (hk : t.keys.WF)
    (hlen : t.keys.rows.length = t.blocks.length) {moved : List String} {newKeys : Labels}
    (hnew : newKeys.Holds (remainingNames t.keys.names moved)
        (if t.keys.names.filter (fun n => !moved.contains n) = [] then [[0]]
          else indexSet (t.keys.rows.map (remainingKey t.keys.names moved))))
    {merge : List (List LabelValue × TensorBlock A) → Res (TensorBlock A)}
    {blocks : List (TensorBlock A)} :
    mergeForKeys t newKeys (movedPositions t.keys.names moved) merge = .ok blocks ↔
      List.Forall₂ (fun key' b =>
        merge ((group t.keys.names moved (t.keys.rows.zip t.blocks) key').map
          (toMerge t.keys.names moved)) = .ok b) newKeys.rows blocks := by
  rw [mergeForKeys_eq hk hlen hnew, mapM_eq_ok]

end Equistore
