import Verif.Lemmas.Moved

/-!
# Moving keys twice
-/

namespace Equistore
open Spec NdArray

/-! ### Keys -/

theorem zip_restrict {keep : String → Bool} {names : List String} {key : List LabelValue} :
    (names.filter keep).zip (restrict keep names key) = (names.zip key).filter fun p => keep p.1 := by
  unfold restrict
  induction names generalizing key with
  | nil => simp
  | cons n names ih =>
    cases key with
    | nil => simp
    | cons v key =>
      rw [List.zip_cons_cons]
      by_cases hn : keep n
      · rw [List.filter_cons_of_pos hn, List.filter_cons_of_pos (by simpa using hn), List.map_cons,
          List.zip_cons_cons, ih]
      · rw [List.filter_cons_of_neg hn, List.filter_cons_of_neg (by simpa using hn), ih]

theorem restrict_restrict {keep keep' : String → Bool} {names : List String} {key : List LabelValue} :
    restrict keep' (names.filter keep) (restrict keep names key) =
      restrict (fun n => keep n && keep' n) names key := by
  rw [restrict, zip_restrict, List.filter_filter, restrict]
  refine congrArg _ (List.filter_congr fun p _ => ?_)
  exact Bool.and_comm _ _

variable {names m₁ m₂ : List String}

theorem notBoth (n : String) : (!(m₁ ++ m₂).contains n) = (!m₁.contains n && !m₂.contains n) := by
  simp only [List.contains_append, Bool.not_or]

theorem filter_ne_nil (hn : names.Nodup) (hs : (m₁ ++ m₂).Sublist names) (h2 : m₂ ≠ []) :
    names.filter (fun n => !m₁.contains n) ≠ [] := by
  obtain ⟨n, hn2⟩ := List.exists_mem_of_ne_nil _ h2
  have hd := (List.nodup_append.1 (hs.nodup hn)).2.2
  refine List.ne_nil_of_mem (a := n) (List.mem_filter.2 ⟨hs.subset (List.mem_append_right _ hn2), ?_⟩)
  simp only [Bool.not_eq_true', List.contains_eq_mem, decide_eq_false_iff_not]
  exact fun h1 => hd n h1 n hn2 rfl

theorem remainingNames_of (h : names.filter (fun n => !m₁.contains n) ≠ []) :
    remainingNames (remainingNames names m₁) m₂ = remainingNames names (m₁ ++ m₂) := by
  have h1 : remainingNames names m₁ = names.filter fun n => !m₁.contains n := by
    simp only [remainingNames, if_neg h]
  rw [h1]
  simp only [remainingNames, List.filter_filter, notBoth, Bool.and_comm]

theorem remainingKey_of (h : names.filter (fun n => !m₁.contains n) ≠ []) (key : List LabelValue) :
    remainingKey (remainingNames names m₁) m₂ (remainingKey names m₁ key) =
      remainingKey names (m₁ ++ m₂) key := by
  have h1 : remainingNames names m₁ = names.filter fun n => !m₁.contains n := by
    simp only [remainingNames, if_neg h]
  rw [h1]
  simp only [remainingKey, if_neg h, List.filter_filter, notBoth, restrict_restrict]
  simp only [Bool.and_comm]

theorem movedKey_of (h : names.filter (fun n => !m₁.contains n) ≠ []) (hd : ∀ n ∈ m₂, n ∉ m₁) (key : List LabelValue) :
    movedKey (remainingNames names m₁) m₂ (remainingKey names m₁ key) = movedKey names m₂ key := by
  have h1 : remainingNames names m₁ = names.filter fun n => !m₁.contains n := by
    simp only [remainingNames, if_neg h]
  rw [h1]
  simp only [remainingKey, if_neg h, movedKey, restrict_restrict]
  unfold restrict
  refine congrArg _ (List.filter_congr fun p _ => ?_)
  by_cases hp : p.1 ∈ m₂
  · have : p.1 ∉ m₁ := hd _ hp
    simp [hp, this]
  · simp [hp]

theorem remainingNames_twice (hn : names.Nodup) (hs : (m₁ ++ m₂).Sublist names) (h2 : m₂ ≠ []) :
    remainingNames (remainingNames names m₁) m₂ = remainingNames names (m₁ ++ m₂) :=
  remainingNames_of (filter_ne_nil hn hs h2)

theorem remainingKey_twice (hn : names.Nodup) (hs : (m₁ ++ m₂).Sublist names) (h2 : m₂ ≠ [])
    (key : List LabelValue) :
    remainingKey (remainingNames names m₁) m₂ (remainingKey names m₁ key) =
      remainingKey names (m₁ ++ m₂) key :=
  remainingKey_of (filter_ne_nil hn hs h2) key

theorem movedKey_twice (hn : names.Nodup) (hs : (m₁ ++ m₂).Sublist names) (h2 : m₂ ≠ [])
    {key : List LabelValue} (hk : key.length = names.length) :
    movedKey names (m₁ ++ m₂) key =
      movedKey names m₁ key ++ movedKey (remainingNames names m₁) m₂ (remainingKey names m₁ key) := by
  have hd := (List.nodup_append.1 (hs.nodup hn)).2.2
  rw [movedKey_of (filter_ne_nil hn hs h2) fun n h2 h1 => hd n h1 n h2 rfl,
    movedKey_eq_valuesFor hn hs hk, movedKey_eq_valuesFor hn ((List.sublist_append_left _ _).trans hs) hk,
    movedKey_eq_valuesFor hn ((List.sublist_append_right _ _).trans hs) hk]
  exact List.filterMap_append

/-! ### First appearances -/

theorem idxOf_le_of_getElem? {α : Type} [DecidableEq α] {l : List α} {i : Nat} {x : α} (h : l[i]? = some x) :
    l.idxOf x ≤ i := by
  by_contra hc
  have hlt : i < l.length := (List.getElem?_eq_some_iff.1 h).1
  have := List.not_of_lt_findIdx (p := (· == x)) (xs := l) (i := i) (by unfold List.idxOf at hc; omega)
  have h2 : l[i] = x := (List.getElem?_eq_some_iff.1 h).2
  simp [h2] at this

/-- The first appearance of `x` after the second step is the first appearance of the first element which
becomes `x`. -/
theorem first_idxOf {α β : Type} [DecidableEq α] [DecidableEq β] {l r : List α} {g : α → β}
    (h : FirstAppearances l r) {x : β} (hx : x ∈ r.map g) :
    ∃ a ∈ r, r.idxOf a = (r.map g).idxOf x ∧ (l.map g).idxOf x = l.idxOf a := by
  have hlt : (r.map g).idxOf x < r.length := by
    have := List.idxOf_lt_length_iff.2 hx; simpa using this
  have hget : g (r[(r.map g).idxOf x]) = x := by
    have := List.getElem_idxOf (xs := r.map g) (x := x) (by simpa using hlt)
    rwa [List.getElem_map] at this
  refine ⟨r[(r.map g).idxOf x], List.getElem_mem _, h.nodup.idxOf_getElem _ _, ?_⟩
  generalize hi : (r.map g).idxOf x = i at *
  have ha : r[i] ∈ l := (h.same _).1 (List.getElem_mem _)
  have hal := List.idxOf_lt_length_iff.2 ha
  apply Nat.le_antisymm
  · refine idxOf_le_of_getElem? ?_
    rw [List.getElem?_map, List.getElem?_eq_getElem hal, List.getElem_idxOf hal]
    simp [hget]
  · by_contra hc
    have hc : (l.map g).idxOf x < l.idxOf r[i] := by omega
    have hpl : (l.map g).idxOf x < l.length := by omega
    have hgb : g (l[(l.map g).idxOf x]) = x := by
      have := List.getElem_idxOf (xs := l.map g) (x := x) (by simpa using hpl)
      rwa [List.getElem_map] at this
    -- the element there comes before in `r`
    have hb : l[(l.map g).idxOf x] ∈ r := (h.same _).2 (List.getElem_mem _)
    obtain ⟨j, hj, hjb⟩ := List.getElem_of_mem hb
    have h1 : l.idxOf r[j] < l.idxOf r[i] := by
      rw [hjb]
      exact Nat.lt_of_le_of_lt (idxOf_le_of_getElem? (List.getElem?_eq_getElem hpl)) hc
    have hji : j < i := by
      rcases Nat.lt_trichotomy j i with h2 | h2 | h2
      · exact h2
      · subst h2; omega
      · have := List.pairwise_iff_getElem.1 h.order i j hlt hj h2; omega
    have : (r.map g).idxOf x ≤ j := by
      refine idxOf_le_of_getElem? ?_
      rw [List.getElem?_map, List.getElem?_eq_getElem hj, hjb]
      simp [hgb]
    omega

theorem firstAppearances_twice {α β : Type} [DecidableEq α] [DecidableEq β] {l r : List α} {r' : List β}
    {g : α → β} (h : FirstAppearances l r) (h' : FirstAppearances (r.map g) r') :
    FirstAppearances (l.map g) r' := by
  refine ⟨h'.nodup, fun x => ?_, ?_⟩
  · rw [h'.same, List.mem_map, List.mem_map]
    exact exists_congr fun a => by rw [h.same]
  · refine h'.order.imp_of_mem fun {x y} hx hy hxy => ?_
    obtain ⟨a, ha, ha1, ha2⟩ := first_idxOf h ((h'.same x).1 hx)
    obtain ⟨b, hb, hb1, hb2⟩ := first_idxOf h ((h'.same y).1 hy)
    rw [ha2, hb2]
    rw [← ha1, ← hb1] at hxy
    have h1 := List.idxOf_lt_length_iff.2 ha
    have h2 := List.idxOf_lt_length_iff.2 hb
    have := List.pairwise_iff_getElem.1 h.order _ _ h1 h2 hxy
    rwa [List.getElem_idxOf h1, List.getElem_idxOf h2] at this

/-! ### Renumbered gradient samples -/

theorem renumbered_trans {S S₁ S₂ : Labels} {f g : List LabelValue → List LabelValue} {r r₁ r₂ : List LabelValue}
    (hS₁ : S₁.WF) (h : SampleRenumbered S S₁ f r r₁) (h' : SampleRenumbered S₁ S₂ g r₁ r₂) :
    SampleRenumbered S S₂ (fun s => g (f s)) r r₂ := by
  obtain ⟨v, v₁, rest, s, i, i₁, rfl, rfl, h1, h2, h3, h4⟩ := h
  obtain ⟨w, w₂, rest', s', j, j₂, hr, rfl, h5, h6, h7, h8⟩ := h'
  obtain ⟨rfl, rfl⟩ := List.cons.inj hr
  rw [h2] at h5
  have hij : i₁ = j := by omega
  subst hij
  have : f s = s' := by
    rw [entryAt_iff hS₁] at h4 h7
    exact Option.some.inj (h4.symm.trans h7)
  subst this
  exact ⟨v, w₂, rest, s, i, j₂, rfl, rfl, h1, h6, h3, h8⟩

/-- The two steps of a renumbering, when the first one is possible. -/
theorem renumbered_split {S S₁ S₂ : Labels} {f g : List LabelValue → List LabelValue} {r r₁ r₂ : List LabelValue}
    (hS : S.WF) (h : SampleRenumbered S S₁ f r r₁) (h' : SampleRenumbered S S₂ (fun s => g (f s)) r r₂) :
    SampleRenumbered S₁ S₂ g r₁ r₂ := by
  obtain ⟨v, v₁, rest, s, i, i₁, rfl, rfl, h1, h2, h3, h4⟩ := h
  obtain ⟨w, w₂, rest', s', j, j₂, hr, rfl, h5, h6, h7, h8⟩ := h'
  obtain ⟨rfl, rfl⟩ := List.cons.inj hr
  rw [h1] at h5
  have hij : i = j := by omega
  subst hij
  have : s = s' := by
    rw [entryAt_iff hS] at h3 h7
    exact Option.some.inj (h3.symm.trans h7)
  subst this
  exact ⟨v₁, w₂, rest, f s, i₁, j₂, rfl, rfl, h2, h6, h4, h8⟩

theorem hasValue_sample {b : BasicBlock NdArray} (hb : BasicValid b) {s p : List LabelValue}
    {cs : List (List LabelValue)} {x : Elt} (h : HasValue b s cs p x) : s ∈ entriesOf b.samples := by
  have hw := BasicValid.wf hb
  obtain ⟨i, k, j, h1, _⟩ := (hasValue_iff hw).1 h
  rw [entriesOf_eq hw.samples]
  exact List.mem_of_getElem? h1

/-! ### Tensor maps -/

/-- Moving names in two steps is the same as moving all of them at once. -/
theorem Spec.MovedToSamples.trans {m₁ m₂ : List String} {sort₁ : Bool} {t t₁ t₂ : TensorMap NdArray}
    (ht : TensorValid t) (hs : (m₁ ++ m₂).Sublist t.keys.names) (h2 : m₂ ≠ [])
    (h : MovedToSamples m₁ sort₁ t t₁) (h' : MovedToSamples m₂ true t₁ t₂) :
    MovedToSamples (m₁ ++ m₂) true t t₂ := by
  have hn := (Labels.Holds.names_ok ht.keys_wf).2
  have hrk : ∀ key, remainingKey t₁.keys.names m₂ (remainingKey t.keys.names m₁ key) =
      remainingKey t.keys.names (m₁ ++ m₂) key := fun key => by
    rw [h.keyNames]; exact remainingKey_twice hn hs h2 key
  have hmk : ∀ key, key.length = t.keys.names.length → movedKey t.keys.names (m₁ ++ m₂) key =
      movedKey t.keys.names m₁ key ++ movedKey t₁.keys.names m₂ (remainingKey t.keys.names m₁ key) :=
    fun key hk => by rw [h.keyNames]; exact movedKey_twice hn hs h2 hk
  refine ⟨h'.valid, h'.arrays, ?_, ?_, ?_, h'.sorted, nofun⟩
  · rw [h'.keyNames, h.keyNames, remainingNames_twice hn hs h2]
  · have := firstAppearances_twice h.keys h'.keys
    rw [List.map_map] at this
    have hc : remainingKey t₁.keys.names m₂ ∘ remainingKey t.keys.names m₁ =
      remainingKey t.keys.names (m₁ ++ m₂) := funext hrk
    rw [hc] at this
    exact this
  · intro pairs pairs₂ hp hp₂ kb₂ hkb₂
    obtain ⟨key₂, b₂⟩ := kb₂
    have hB₂ := h'.blocks _ _ h.valid.iter_eq hp₂ _ hkb₂
    have hb₂v : BlockValid b₂ := by
      rw [h'.valid.iter_eq, Res.ok.injEq] at hp₂
      subst hp₂
      exact h'.valid.blocks _ (List.of_mem_zip hkb₂).2
    have hB₁ := fun kb₁ => h.blocks _ _ hp h.valid.iter_eq kb₁
    rw [ht.iter_eq, Res.ok.injEq] at hp
    subst hp
    generalize hP : t.keys.rows.zip t.blocks = pairs at *
    generalize hP₁ : t₁.keys.rows.zip t₁.blocks = pairs₁ at *
    have hlen : ∀ kb ∈ pairs, kb.1.length = t.keys.names.length := fun kb hkb => by
      subst hP
      exact Labels.Holds.row_length ht.keys_wf _ (List.of_mem_zip (a := kb.1) (b := kb.2) hkb).1
    have hval : ∀ kb ∈ pairs, BlockValid kb.2 := fun kb hkb => by
      subst hP
      exact ht.blocks _ (List.of_mem_zip (a := kb.1) (b := kb.2) hkb).2
    have hval₁ : ∀ kb ∈ pairs₁, BlockValid kb.2 := fun kb hkb => by
      subst hP₁
      exact h.valid.blocks _ (List.of_mem_zip (a := kb.1) (b := kb.2) hkb).2
    -- the blocks merged in the end are the ones merged with the intermediate blocks
    have hdown : ∀ kb₁ ∈ group t₁.keys.names m₂ pairs₁ key₂, ∀ kb ∈ group t.keys.names m₁ pairs kb₁.1,
        kb ∈ group t.keys.names (m₁ ++ m₂) pairs key₂ := by
      intro kb₁ hkb₁ kb hkb
      have e1 := (mem_group (key := kb₁.1) (b := kb₁.2)).1 hkb₁
      have e2 := (mem_group (key := kb.1) (b := kb.2)).1 hkb
      refine (mem_group (key := kb.1) (b := kb.2)).2 ⟨e2.1, ?_⟩
      rw [← hrk, e2.2, e1.2]
    have hup : ∀ kb ∈ group t.keys.names (m₁ ++ m₂) pairs key₂, ∃ kb₁ ∈ group t₁.keys.names m₂ pairs₁ key₂,
        kb ∈ group t.keys.names m₁ pairs kb₁.1 := by
      intro kb hkb
      have e1 := (mem_group (key := kb.1) (b := kb.2)).1 hkb
      have hk₁ : remainingKey t.keys.names m₁ kb.1 ∈ t₁.keys.rows := by
        rw [← entriesOf_eq h.valid.keys_wf, h.keys.same, entriesOf_eq ht.keys_wf]
        refine List.mem_map_of_mem ?_
        have := e1.1
        rw [← hP] at this
        exact (List.of_mem_zip (a := kb.1) (b := kb.2) this).1
      obtain ⟨b₁, hb₁⟩ := zip_mem_of h.valid.length_eq hk₁
      rw [hP₁] at hb₁
      refine ⟨(_, b₁), mem_group.2 ⟨hb₁, ?_⟩, (mem_group (key := kb.1) (b := kb.2)).2 ⟨e1.1, rfl⟩⟩
      rw [hrk]; exact e1.2
    have hmem₁ : ∀ kb₁ ∈ group t₁.keys.names m₂ pairs₁ key₂, kb₁ ∈ pairs₁ := fun kb₁ h => (List.mem_filter.1 h).1
    have hmem : ∀ kb ∈ group t.keys.names (m₁ ++ m₂) pairs key₂, kb ∈ pairs := fun kb h => (List.mem_filter.1 h).1
    have hB₁ := fun kb₁ (hkb₁ : kb₁ ∈ group t₁.keys.names m₂ pairs₁ key₂) => hB₁ kb₁ (hmem₁ kb₁ hkb₁)
    have hmv : ∀ kb₁ ∈ group t₁.keys.names m₂ pairs₁ key₂, ∀ kb ∈ group t.keys.names m₁ pairs kb₁.1,
        movedKey t.keys.names (m₁ ++ m₂) kb.1 =
          movedKey t.keys.names m₁ kb.1 ++ movedKey t₁.keys.names m₂ kb₁.1 := by
      intro kb₁ hkb₁ kb hkb
      have e2 := (mem_group (key := kb.1) (b := kb.2)).1 hkb
      rw [hmk _ (hlen kb e2.1), e2.2]
    have hex : ∀ P : List LabelValue × TensorBlock NdArray → Prop,
        (∃ kb ∈ group t.keys.names (m₁ ++ m₂) pairs key₂, P kb) ↔
        ∃ kb₁ ∈ group t₁.keys.names m₂ pairs₁ key₂, ∃ kb ∈ group t.keys.names m₁ pairs kb₁.1, P kb := by
      intro P
      constructor
      · rintro ⟨kb, h1, h2⟩
        obtain ⟨kb₁, h3, h4⟩ := hup kb h1
        exact ⟨kb₁, h3, kb, h4, h2⟩
      · rintro ⟨kb₁, h3, kb, h4, h2⟩
        exact ⟨kb, hdown kb₁ h3 kb h4, h2⟩
    have hren : ∀ kb₁ ∈ group t₁.keys.names m₂ pairs₁ key₂, ∀ kb ∈ group t.keys.names m₁ pairs kb₁.1,
        (fun s : List LabelValue => s ++ movedKey t.keys.names (m₁ ++ m₂) kb.1) =
          fun s => (s ++ movedKey t.keys.names m₁ kb.1) ++ movedKey t₁.keys.names m₂ kb₁.1 := by
      intro kb₁ hkb₁ kb hkb
      funext s
      rw [hmv kb₁ hkb₁ kb hkb, List.append_assoc]
    have hwf : ∀ kb₁ ∈ group t₁.keys.names m₂ pairs₁ key₂, kb₁.2.values.samples.WF := fun kb₁ h =>
      (BasicValid.wf (hval₁ _ (hmem₁ kb₁ h)).values).samples
    have hwf₀ : ∀ kb₁ ∈ group t₁.keys.names m₂ pairs₁ key₂, ∀ kb ∈ group t.keys.names m₁ pairs kb₁.1,
        kb.2.values.samples.WF := fun kb₁ h₁ kb h =>
      (BasicValid.wf (hval _ (hmem kb (hdown kb₁ h₁ kb h))).values).samples
    have hgw : ∀ kb₁ ∈ group t₁.keys.names m₂ pairs₁ key₂, ∀ kb ∈ group t.keys.names m₁ pairs kb₁.1,
        ∀ q g, kb.2.gradient q = some g → ∃ g₁, kb₁.2.gradient q = some g₁ := by
      intro kb₁ h₁ kb hkb q g hg
      have := (hB₁ kb₁ h₁).parameters kb hkb q
      rw [hg] at this
      exact Option.isSome_iff_exists.1 this
    refine ⟨?_, ?_, ?_, ?_, ?_, ?_, ?_, ?_, ?_, ?_⟩
    · intro kb hkb
      obtain ⟨kb₁, h3, h4⟩ := hup kb hkb
      rw [hB₂.sampleNames kb₁ h3, (hB₁ kb₁ h3).sampleNames kb h4, List.append_assoc]
    · intro s₂
      rw [hB₂.samples, hex]
      refine exists_congr fun kb₁ => and_congr_right fun h3 => ?_
      constructor
      · rintro ⟨s₁, hs₁, rfl⟩
        obtain ⟨kb, h4, s, h5, rfl⟩ := ((hB₁ kb₁ h3).samples s₁).1 hs₁
        exact ⟨kb, h4, s, h5, by rw [hmv kb₁ h3 kb h4, List.append_assoc]⟩
      · rintro ⟨kb, h4, s, h5, rfl⟩
        refine ⟨_, ((hB₁ kb₁ h3).samples _).2 ⟨kb, h4, s, h5, rfl⟩, ?_⟩
        rw [hmv kb₁ h3 kb h4, List.append_assoc]
    · intro kb hkb
      obtain ⟨kb₁, h3, h4⟩ := hup kb hkb
      have e1 := hB₂.labels kb₁ h3
      have e2 := (hB₁ kb₁ h3).labels kb h4
      exact ⟨e1.1.trans e2.1, e1.2.trans e2.2⟩
    · intro s₂ cs p x
      rw [hB₂.values, hex]
      refine exists_congr fun kb₁ => and_congr_right fun h3 => ?_
      constructor
      · rintro ⟨s₁, rfl, hs₁⟩
        obtain ⟨kb, h4, s, rfl, h5⟩ := ((hB₁ kb₁ h3).values s₁ cs p x).1 hs₁
        exact ⟨kb, h4, s, by rw [hmv kb₁ h3 kb h4, List.append_assoc], h5⟩
      · rintro ⟨kb, h4, s, rfl, h5⟩
        refine ⟨_, ?_, ((hB₁ kb₁ h3).values _ cs p x).2 ⟨kb, h4, s, rfl, h5⟩⟩
        rw [hmv kb₁ h3 kb h4, List.append_assoc]
    · intro kb hkb q
      obtain ⟨kb₁, h3, h4⟩ := hup kb hkb
      rw [hB₂.parameters kb₁ h3, (hB₁ kb₁ h3).parameters kb h4]
    · intro kb hkb q g g₂ hg hg₂
      obtain ⟨kb₁, h3, h4⟩ := hup kb hkb
      obtain ⟨g₁, hg₁⟩ := hgw kb₁ h3 kb h4 q g hg
      have e1 := hB₂.gradientLabels kb₁ h3 q g₁ g₂ hg₁ hg₂
      have e2 := (hB₁ kb₁ h3).gradientLabels kb h4 q g g₁ hg hg₁
      exact ⟨e1.1.trans e2.1, e1.2.trans e2.2⟩
    · exact hB₂.gradientSorted
    · intro kb hkb q g hg r hr
      obtain ⟨kb₁, h3, h4⟩ := hup kb hkb
      obtain ⟨g₁, hg₁⟩ := hgw kb₁ h3 kb h4 q g hg
      obtain ⟨r₁, hr₁⟩ := (hB₁ kb₁ h3).gradientKept kb h4 q g hg r hr
      have hr₁m := ((hB₁ kb₁ h3).gradientSamples q g₁ hg₁ r₁).2 ⟨kb, h4, g, hg, r, hr, hr₁⟩
      obtain ⟨r₂, hr₂⟩ := hB₂.gradientKept kb₁ h3 q g₁ hg₁ r₁ hr₁m
      refine ⟨r₂, ?_⟩
      rw [hren kb₁ h3 kb h4]
      exact renumbered_trans (hwf kb₁ h3) hr₁ hr₂
    · intro q g₂ hg₂ r₂
      rw [hB₂.gradientSamples q g₂ hg₂, hex]
      refine exists_congr fun kb₁ => and_congr_right fun h3 => ?_
      constructor
      · rintro ⟨g₁, hg₁, r₁, hr₁m, hr₁⟩
        obtain ⟨kb, h4, g, hg, r, hr, hr'⟩ := ((hB₁ kb₁ h3).gradientSamples q g₁ hg₁ r₁).1 hr₁m
        refine ⟨kb, h4, g, hg, r, hr, ?_⟩
        rw [hren kb₁ h3 kb h4]
        exact renumbered_trans (hwf kb₁ h3) hr' hr₁
      · rintro ⟨kb, h4, g, hg, r, hr, hr'⟩
        obtain ⟨g₁, hg₁⟩ := hgw kb₁ h3 kb h4 q g hg
        obtain ⟨r₁, hr₁⟩ := (hB₁ kb₁ h3).gradientKept kb h4 q g hg r hr
        refine ⟨g₁, hg₁, r₁, ((hB₁ kb₁ h3).gradientSamples q g₁ hg₁ r₁).2 ⟨kb, h4, g, hg, r, hr, hr₁⟩, ?_⟩
        rw [hren kb₁ h3 kb h4] at hr'
        exact renumbered_split (hwf₀ kb₁ h3 kb h4) hr₁ hr'
    · intro q g₂ hg₂ r₂ cs p x
      rw [hB₂.gradientValues q g₂ hg₂, hex]
      refine exists_congr fun kb₁ => and_congr_right fun h3 => ?_
      constructor
      · rintro ⟨g₁, hg₁, r₁, hr₁, hx₁⟩
        obtain ⟨kb, h4, g, hg, r, hr', hx⟩ := ((hB₁ kb₁ h3).gradientValues q g₁ hg₁ r₁ cs p x).1 hx₁
        refine ⟨kb, h4, g, hg, r, ?_, hx⟩
        rw [hren kb₁ h3 kb h4]
        exact renumbered_trans (hwf kb₁ h3) hr' hr₁
      · rintro ⟨kb, h4, g, hg, r, hr', hx⟩
        obtain ⟨g₁, hg₁⟩ := hgw kb₁ h3 kb h4 q g hg
        have hgv := (hval _ (hmem kb (hdown kb₁ h3 kb h4))).gradient_valid hg
        obtain ⟨r₁, hr₁⟩ := (hB₁ kb₁ h3).gradientKept kb h4 q g hg r (hasValue_sample hgv.basic hx)
        refine ⟨g₁, hg₁, r₁, ?_, ((hB₁ kb₁ h3).gradientValues q g₁ hg₁ r₁ cs p x).2 ⟨kb, h4, g, hg, r, hr₁, hx⟩⟩
        rw [hren kb₁ h3 kb h4] at hr'
        exact renumbered_split (hwf₀ kb₁ h3 kb h4) hr₁ hr'

end Equistore
