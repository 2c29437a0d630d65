import Verif.Spec.PySelection
import Verif.Props.PyLabels
import Verif.Props.CBuffers

/-!
# Selecting blocks in Python (C62, C63)
-/

namespace Equistore
open Spec
variable {A : Type} [ArrayLike A]

/-- **C62**, full statement: the block given by `TensorMap.block` is the one all parameters ask for. -/
def C62_full_statement : Prop :=
  ∀ (t : TensorMap NdArray), TensorValid t → ∀ (wraps : Bool) (args : List SelectionArg)
    (kwargs : List (String × Int)) (i : Nat), pyBlock wraps t args kwargs = some (.ok i) →
    (∀ a ∈ args, AskedFor t i a) ∧ KeyIs t i kwargs

theorem agrees_iff {keyNames names : List String} {key row : List LabelValue} :
    Agrees keyNames key names row ↔
      ∀ name value, (name, value) ∈ names.zip (row.map Int32.toInt) →
        (name, value) ∈ keyNames.zip (key.map Int32.toInt) := by
  have hz : ∀ (names : List String) (row : List LabelValue),
      names.zip (row.map Int32.toInt) = (names.zip row).map fun p => (p.1, p.2.toInt) := by
    intro names row
    rw [List.zip_map_right]
    rfl
  simp only [hz, List.mem_map, Prod.mk.injEq, Prod.exists]
  constructor
  · rintro h name value ⟨n, x, hm, rfl, rfl⟩
    exact ⟨n, x, h n x hm, rfl, rfl⟩
  · intro h name value hm
    obtain ⟨n, x, hm', h1, h2⟩ := h name value.toInt ⟨name, value, hm, rfl, rfl⟩
    have := Int32.toInt_inj.1 h2
    subst h1 this
    exact hm'

/-- `blocks_matching` for labels the library sees as the program does. -/
theorem pyMatching_eq {t : TensorMap A} (ht : TensorValid t) (hkn : t.keys.names ≠ []) {v : PyLabels}
    (hv : Obtained PlainNames TakesEntries v) (hn : v.names ≠ []) {entries : List (List LabelValue)}
    (he : v.entries = some entries) :
    (∀ entry, entries = [entry] → (∀ n ∈ v.names, n ∈ t.keys.names) →
      ∃ r, pyMatching t v = some (.ok r) ∧ r.Pairwise (· < ·) ∧
        ∀ i, i ∈ r ↔ KeyIs t i (v.names.zip (entry.map Int32.toInt))) ∧
    (¬ (entries.length = 1 ∧ ∀ n ∈ v.names, n ∈ t.keys.names) → pyMatching t v = some (.error .equistoreError)) := by
  have hkw := ht.keys.wf hkn
  obtain ⟨⟨hread, hsees⟩, entries', he', hlen, hiff⟩ := C60_library_sees_partial v hv hn
  rw [he] at he'
  cases he'
  have hcount : t.keys.rows.length = t.blocks.length := by
    have := hkw.count_eq
    rw [ht.count, Res.ok.injEq] at this
    exact this.symm
  obtain ⟨c, hc, hcc⟩ : ∃ c, t.keys.toC = .ok c ∧ c.count = t.blocks.length := ⟨_, hkw.toC, hcount⟩
  obtain ⟨buffer, count, r, hb, hr1, hr2, _⟩ :=
    C43_blocks_matching_buffer t v.toC (List.replicate c.count 0) c.count (by simp)
  have hpy : pyMatching t v = match r with
      | .ok () => some (.ok (buffer.take count))
      | _ => some (.error .equistoreError) := by
    unfold pyMatching
    simp only [hc, hread, if_true, hb]
    cases r with
    | ok u => cases u; rfl
    | err e => rfl
    | panic m => rfl
  have herr : (¬ ∃ s l, Labels.ofC v.toC = .ok s ∧ t.blocksMatching s = .ok l ∧ l.length ≤ c.count) →
      pyMatching t v = some (.error .equistoreError) := by
    intro h
    rw [hpy]
    cases r with
    | ok u => cases u; exact absurd (hr1.1 rfl) h
    | err e => rfl
    | panic m => rfl
  refine ⟨?_, ?_⟩
  · rintro entry rfl hsub
    obtain ⟨s, hs⟩ := hiff.2 ⟨fun n hm => (isValidLabelName_iff n).1 (hkw.names_ok.1 n (hsub n hm)), by simp⟩
    obtain ⟨hsn, entries', he', hiter⟩ := hsees s hs
    rw [he] at he'
    cases he'
    have hsb : s.FromBuilder := by
      obtain ⟨⟨rows, hr⟩, _, h2⟩ := PyLabels.obtained_canonical hv
      exact ((C04_import v.toC v.names rows (hr.describes h2) hn).2 s hs).1
    have hsn' : s.names ≠ [] := by rw [hsn]; exact hn
    have hsw := hsb.wf hsn'
    have hrows : s.rows = [entry] := by
      have := hsw.iter_eq
      rw [hiter, Res.ok.injEq] at this
      exact this.symm
    rcases blocksMatching_cases hkw hsw with ⟨row, h1, h2, l, h3, h4, h5⟩ | ⟨h1, _⟩
    · rw [hrows] at h1
      cases h1
      have hll := C43_one_entry_per_block t ht hkn s hsb l h3
      rw [← hcc] at hll
      have hok := hr1.2 ⟨s, l, hs, h3, hll⟩
      subst hok
      obtain ⟨h6, h7⟩ := hr2 s l hs h3
      refine ⟨l, by rw [hpy]; simp only; rw [h6, h7 hll], h4, fun i => ?_⟩
      rw [h5, hsn]
      unfold KeyIs
      refine exists_congr fun key => ?_
      rw [agrees_iff]
      refine and_congr_left fun _ => ?_
      by_cases hi : i < t.keys.rows.length
      · rw [hkw.index_eq hi, List.getElem?_eq_getElem hi]
        simp
      · rw [hkw.index_panic hi, List.getElem?_eq_none (by omega)]
        simp
    · exact absurd ⟨by rw [hrows]; rfl, by rw [hsn]; exact hsub⟩ h1
  · intro hno
    apply herr
    rintro ⟨s, l, hs, hl, _⟩
    obtain ⟨hsn, entries', he', hiter⟩ := hsees s hs
    rw [he] at he'
    cases he'
    have hsb : s.FromBuilder := by
      obtain ⟨⟨rows, hr⟩, _, h2⟩ := PyLabels.obtained_canonical hv
      exact ((C04_import v.toC v.names rows (hr.describes h2) hn).2 s hs).1
    have hsn' : s.names ≠ [] := by rw [hsn]; exact hn
    have hsw := hsb.wf hsn'
    have hrows : s.rows = entries := by
      have := hsw.iter_eq
      rw [hiter, Res.ok.injEq] at this
      exact this.symm
    rcases blocksMatching_cases hkw hsw with ⟨row, h1, h2, _⟩ | ⟨_, m, h2⟩
    · exact hno ⟨by rw [← hrows, h1]; rfl, by rw [← hsn]; exact h2⟩
    · rw [h2] at hl
      cases hl

theorem KeyIs.lt {t : TensorMap A} (ht : TensorValid t) (hkn : t.keys.names ≠ []) {i : Nat} {conditions : List (String × Int)}
    (h : KeyIs t i conditions) : i < t.blocks.length := by
  have hkw := ht.keys.wf hkn
  obtain ⟨key, h1, _⟩ := h
  have hcount : t.keys.rows.length = t.blocks.length := by
    have := hkw.count_eq
    rw [ht.count, Res.ok.injEq] at this
    exact this.symm
  rw [← hcount]
  by_contra hi
  rw [hkw.index_panic hi] at h1
  cases h1

theorem pyBlockById_eq {t : TensorMap A} {i : Nat} (hi : i < t.blocks.length)
    (hs : t.blocks.length ≤ 18446744073709551616) : pyBlockById t i = .ok i := by
  unfold pyBlockById
  have : ((i : Int) % 18446744073709551616).toNat = i := by omega
  simp only [this, hi, if_true]

theorem noSingleMatch_eq {v : PyLabels} {entry : List LabelValue} (h : v.entries = some [entry]) :
    noSingleMatch v = .valueError := by
  unfold noSingleMatch PyLabels.asNamedtuples
  rw [h]
  split
  · next e he =>
    split at he
    · cases he; rfl
    · cases he
  · next he =>
    split at he
    · cases he
    · cases he
  · rfl

theorem givenTwice_of {names : List String} (h : NotParameterNames names) : givenTwice names = false ∧ names.contains "self" = false := by
  obtain ⟨h1, h2⟩ := h
  simp [givenTwice, h1, h2]

theorem givenTwice_of_not {names : List String} (h : ¬ NotParameterNames names) : givenTwice names = true := by
  unfold NotParameterNames at h
  simp only [givenTwice, Bool.or_eq_true, List.contains_iff_mem]
  by_cases h1 : "self" ∈ names
  · exact .inl h1
  · exact .inr (Classical.byContradiction fun h2 => h ⟨h1, h2⟩)

/-- The call by the user, and the call in `block` and `blocks`. -/
theorem user_of_matching {t : TensorMap A} {wraps : Bool} {args : List SelectionArg} {kwargs : List (String × Int)}
    (hk : NotParameterNames (kwargs.map Prod.fst)) :
    pyBlocksMatchingUser wraps t args kwargs =
      (pyBlocksMatching wraps t args kwargs).map fun r => r.map fun p => (p.1, none) := by
  obtain ⟨h1, h2⟩ := givenTwice_of hk
  have hne : ∀ p ∈ kwargs, p.1 ≠ "__return_selection" := fun p hp h => hk.2 (h ▸ List.mem_map_of_mem hp)
  have hf : (kwargs.filter fun p => p.1 != "__return_selection") = kwargs :=
    List.filter_eq_self.2 fun p hp => by simpa using hne p hp
  have hl : kwargs.lookup "__return_selection" = none := by
    rw [List.lookup_eq_none_iff]
    intro p hp
    simpa using (hne p hp).symm
  unfold pyBlocksMatchingUser pyBlocksMatching
  rw [h1, h2, hl, hf]
  simp only [Bool.false_eq_true, if_false]
  cases pySelection wraps args kwargs with
  | error e => rfl
  | ok v =>
    simp only
    cases pyMatching t v with
    | none => rfl
    | some r => cases r <;> rfl

/-- `block` and `blocks` follow from `blocks_matching`. -/
theorem block_of_matching {t : TensorMap A} (hs : t.blocks.length ≤ 18446744073709551616) {wraps : Bool}
    {args : List SelectionArg} {kwargs : List (String × Int)} {v : PyLabels} {r : List Nat} {p : Nat → Prop}
    {entry : List LabelValue} (hk : NotParameterNames (kwargs.map Prod.fst)) (hargs : ∀ id rest, args ≠ .int id :: rest)
    (hsel : pySelection wraps args kwargs = .ok v)
    (he : v.entries = some [entry]) (hm : pyMatching t v = some (.ok r)) (hr : r.Pairwise (· < ·))
    (hp : ∀ i, i ∈ r ↔ p i) (hlt : ∀ i, p i → i < t.blocks.length) :
    OnlyMatch p (pyBlock wraps t args kwargs) ∧ AllMatches p (pyBlocks wraps t args kwargs) ∧
    MatchIndexes p (pyBlocksMatchingUser wraps t args kwargs) := by
  obtain ⟨hk1, hk2⟩ := givenTwice_of hk
  have hpm : pyBlocksMatching wraps t args kwargs = some (.ok (r, v)) := by
    unfold pyBlocksMatching
    rw [hk1, hsel]
    simp only [hm]
    rfl
  have hid : ∀ i ∈ r, pyBlockById t i = .ok i := fun i hi => pyBlockById_eq (hlt i ((hp i).1 hi)) hs
  have h1 : pyBlock wraps t args kwargs = some (match (generalizing := false) r with
      | [i] => .ok i
      | _ => .error .valueError) := by
    unfold pyBlock
    rw [if_neg (by rw [hk2]; decide)]
    split
    · next id rest => exact absurd rfl (hargs id rest)
    · rw [hpm]
      simp only [Option.map_some, Option.some.injEq]
      change (match (generalizing := false) r with
        | [i] => pyBlockById t i
        | _ => .error (noSingleMatch v)) = _
      match r, hid with
      | [], _ => simp [noSingleMatch_eq he]
      | [i], hid => simp [hid i (by simp)]
      | i :: j :: l, _ => simp [noSingleMatch_eq he]
  have h2 : pyBlocks wraps t args kwargs = some (match (generalizing := false) r with
      | [] => .error .valueError
      | _ => .ok r) := by
    unfold pyBlocks
    rw [if_neg (by rw [hk2]; decide)]
    split
    · next id rest => exact absurd rfl (hargs id rest)
    · rw [hpm]
      simp only [Option.map_some, Option.some.injEq]
      change (match (generalizing := false) r with
        | [] => Except.error (noSingleMatch v)
        | blocks => blocks.mapM fun (i : Nat) => pyBlockById t i) = _
      cases r with
      | nil => simp [noSingleMatch_eq he]
      | cons i l =>
        simp only
        have : ∀ l : List Nat, (∀ i ∈ l, pyBlockById t i = .ok i) → (l.mapM fun (i : Nat) => pyBlockById t i) = .ok l := by
          intro l
          induction l with
          | nil => intro _; rfl
          | cons x l ih =>
            intro h
            rw [List.mapM_cons, h x (by simp), ih fun y hy => h y (by simp [hy])]
            rfl
        exact this _ hid
  rw [h1, h2]
  refine ⟨⟨fun i => ?_, fun hno => ?_⟩, ⟨fun ⟨i, hi⟩ => ?_, fun hno => ?_⟩, r, by rw [user_of_matching hk, hpm]; rfl, hr, hp⟩
  · match r, hr, hp with
    | [], _, hp =>
      simp only [Option.some.injEq, reduceCtorEq, false_iff]
      intro h
      have := (hp i).2 ((h i).2 rfl)
      simp at this
    | [k], _, hp =>
      simp only [Option.some.injEq, Except.ok.injEq]
      constructor
      · rintro rfl j
        rw [← hp]; simp
      · intro h
        have := (hp i).2 ((h i).2 rfl)
        simp at this
        exact this.symm
    | a :: b :: l, hr, hp =>
      simp only [Option.some.injEq, reduceCtorEq, false_iff]
      intro h
      have ha := (h a).1 ((hp a).1 (by simp))
      have hb := (h b).1 ((hp b).1 (by simp))
      have := (List.pairwise_cons.1 hr).1 b (by simp)
      omega
  · match r, hp with
    | [], _ => rfl
    | [k], hp => exact absurd ⟨k, fun j => by rw [← hp]; simp⟩ hno
    | a :: b :: l, _ => rfl
  · have := (hp i).2 hi
    cases r with
    | nil => simp at this
    | cons a l => exact ⟨a :: l, rfl, hr, hp⟩
  · cases r with
    | nil => rfl
    | cons a l => exact absurd ⟨a, (hp a).1 (by simp)⟩ hno

theorem int32Array_eq {wraps : Bool} {values : List Int} (h : ∀ x ∈ values, Fits x) :
    int32Array wraps values = .ok (values.map Int32.ofInt) := by
  unfold int32Array
  rw [if_pos]
  rw [List.all_eq_true]
  intro x hx
  obtain ⟨h1, h2⟩ := h x hx
  simp [h1, h2]

/-- The selection made from keyword parameters. -/
theorem selectionOfKeywords_eq {wraps : Bool} {kwargs : List (String × Int)} (h0 : kwargs ≠ [])
    (hd : (kwargs.map Prod.fst).Nodup) (hp : PlainNames (kwargs.map Prod.fst)) (hf : ∀ p ∈ kwargs, Fits p.2) :
    ∃ v, selectionOfKeywords wraps kwargs = .ok v ∧ Obtained PlainNames TakesEntries v ∧ v.names = kwargs.map Prod.fst ∧
      ∃ entry, v.entries = some [entry] ∧ v.names.zip (entry.map Int32.toInt) = kwargs := by
  have hfit : ∀ x ∈ kwargs.map Prod.snd, Fits x := by
    intro x hx
    obtain ⟨p, h1, rfl⟩ := List.mem_map.1 hx
    exact hf p h1
  have hback := map_toInt_ofInt hfit
  obtain ⟨h1, h2⟩ := C59_new_partial (kwargs.map Prod.fst) [kwargs.map Prod.snd] (by simpa using h0)
    (fun h => (hp "" h).1 rfl) (by simp) (by simpa using fun x n h => hf (n, x) h)
  obtain ⟨v, hv⟩ := h1.2 ⟨hd, by simp⟩
  obtain ⟨h3, entries, h4, h5⟩ := h2 v hv
  refine ⟨v, ?_, .new hp ?_ hv, h3, ?_⟩
  · unfold selectionOfKeywords
    rw [int32Array_eq hfit]
    change PyLabels.new _ (.array true [1, kwargs.length] ((kwargs.map Prod.snd).map Int32.ofInt |>.map Int32.toInt)) none = _
    rw [hback]
    unfold matrix at hv
    simpa using hv
  · simp [ValuesArg.Complete, matrix]
  · match entries, h4, h5 with
    | [entry], h4, h5 =>
      refine ⟨entry, h4, ?_⟩
      simp only [List.map_cons, List.map_nil, List.cons.injEq, and_true] at h5
      rw [h5, h3]
      exact (List.zip_of_prod rfl rfl).symm
    | [], _, h5 => simp at h5
    | _ :: _ :: _, _, h5 => simp at h5

theorem keys_names_ne {t : TensorMap A} (ht : TensorValid t) : t.keys.names ≠ [] := by
  have := (ht.keys.wf_of_count ht.count).names_pos
  intro h
  rw [h] at this
  exact absurd this (by simp)

/-- **C62.** With keyword parameters only, for values fitting in 32 bits, and names which are not empty and contain no NUL (Python does
not allow the same name twice): `block` gives the only block whose key has these values, `blocks` all of them in
order, and an exception is raised if there is no such block, or a name which is not a name of the keys; `blocks_matching`
gives the indexes of these blocks. What is missing from the full statement: mixing keyword parameters and others,
and the names `self` and `__return_selection` (`C62_own_names`). -/
theorem C62_keywords_partial (t : TensorMap A) (ht : TensorValid t)
    (hs : t.blocks.length ≤ 18446744073709551616) (wraps : Bool) (kwargs : List (String × Int)) (h0 : kwargs ≠ [])
    (hd : (kwargs.map Prod.fst).Nodup) (hp : PlainNames (kwargs.map Prod.fst)) (hf : ∀ p ∈ kwargs, Fits p.2)
    (hk : NotParameterNames (kwargs.map Prod.fst)) :
    ((∀ p ∈ kwargs, p.1 ∈ t.keys.names) →
      OnlyMatch (fun i => KeyIs t i kwargs) (pyBlock wraps t [] kwargs) ∧
      AllMatches (fun i => KeyIs t i kwargs) (pyBlocks wraps t [] kwargs) ∧
      MatchIndexes (fun i => KeyIs t i kwargs) (pyBlocksMatchingUser wraps t [] kwargs)) ∧
    ((∃ p ∈ kwargs, p.1 ∉ t.keys.names) →
      pyBlock wraps t [] kwargs = some (.error .equistoreError) ∧
      pyBlocks wraps t [] kwargs = some (.error .equistoreError) ∧
      pyBlocksMatchingUser wraps t [] kwargs = some (.error .equistoreError)) := by
  have hkn := keys_names_ne ht
  obtain ⟨v, h1, h2, h3, entry, h4, h5⟩ := selectionOfKeywords_eq (wraps := wraps) h0 hd hp hf
  have hvn : v.names ≠ [] := by rw [h3]; simpa using h0
  obtain ⟨h6, h7⟩ := pyMatching_eq ht hkn h2 hvn h4
  constructor
  · intro hsub
    obtain ⟨r, h8, h9, h10⟩ := h6 entry rfl (by
      rw [h3]
      intro n hm
      obtain ⟨p, hp', rfl⟩ := List.mem_map.1 hm
      exact hsub p hp')
    rw [h5] at h10
    exact block_of_matching hs hk (by simp) h1 h4 h8 h9 h10 fun i hi => KeyIs.lt ht hkn hi
  · rintro ⟨p, hp1, hp2⟩
    have hm := h7 (fun h => hp2 (h.2 p.1 (by rw [h3]; exact List.mem_map_of_mem hp1)))
    have hb : pyBlocksMatching wraps t [] kwargs = some (.error .equistoreError) := by
      unfold pyBlocksMatching pySelection
      rw [(givenTwice_of hk).1]
      simp only [h1, hm]
      rfl
    rw [user_of_matching hk]
    unfold pyBlock pyBlocks
    rw [(givenTwice_of hk).2]
    simp only [hb]
    exact ⟨rfl, rfl, rfl⟩

/-- **C62.** The same for an entry of labels, with its names: `tensor.block(keys[i])`. -/
theorem C62_entry_partial (t : TensorMap A) (ht : TensorValid t)
    (hs : t.blocks.length ≤ 18446744073709551616) (wraps : Bool) (entry : List (String × LabelValue)) (h0 : entry ≠ [])
    (hd : (entry.map Prod.fst).Nodup) (hp : PlainNames (entry.map Prod.fst))
    (hsub : ∀ p ∈ entry, p.1 ∈ t.keys.names) (hk : NotParameterNames (entry.map Prod.fst)) :
    OnlyMatch (fun i => AskedFor t i (.entry entry)) (pyBlock wraps t [.entry entry] []) ∧
    AllMatches (fun i => AskedFor t i (.entry entry)) (pyBlocks wraps t [.entry entry] []) ∧
    MatchIndexes (fun i => AskedFor t i (.entry entry)) (pyBlocksMatchingUser wraps t [.entry entry] []) := by
  have hkn := keys_names_ne ht
  have hfst : (entry.map fun (name, value) => (name, value.toInt)).map Prod.fst = entry.map Prod.fst := by simp
  have h := (C62_keywords_partial t ht hs wraps (entry.map fun (name, value) => (name, value.toInt)) (by simpa using h0)
    (by rw [hfst]; exact hd) (by rw [hfst]; exact hp) (by
      intro p hp'
      obtain ⟨q, _, rfl⟩ := List.mem_map.1 hp'
      exact ⟨Int32.le_toInt _, Int32.toInt_lt _⟩) (by rw [hfst]; exact hk)).1 (by
      intro p hp'
      obtain ⟨q, hq, rfl⟩ := List.mem_map.1 hp'
      exact hsub q hq)
  have hsel : pySelection wraps [.entry entry] [] =
      pySelection wraps [] (entry.map fun (name, value) => (name, value.toInt)) := by
    change (if givenTwice (entry.map Prod.fst) then _ else _) = _
    rw [(givenTwice_of hk).1]
    rfl
  have hm : pyBlocksMatching wraps t [.entry entry] [] =
      pyBlocksMatching wraps t [] (entry.map fun (name, value) => (name, value.toInt)) := by
    unfold pyBlocksMatching
    rw [hsel, hfst, (givenTwice_of hk).1]
    rfl
  have hu : pyBlocksMatchingUser wraps t [.entry entry] [] =
      pyBlocksMatchingUser wraps t [] (entry.map fun (name, value) => (name, value.toInt)) := by
    rw [user_of_matching (kwargs := entry.map fun (name, value) => (name, value.toInt)) (by rw [hfst]; exact hk),
      user_of_matching (kwargs := []) (by simp [NotParameterNames]), hm]
  have h1 : pyBlock wraps t [.entry entry] [] = pyBlock wraps t [] (entry.map fun (name, value) => (name, value.toInt)) := by
    unfold pyBlock
    rw [hm, hfst, (givenTwice_of hk).2]
    rfl
  have h2 : pyBlocks wraps t [.entry entry] [] = pyBlocks wraps t [] (entry.map fun (name, value) => (name, value.toInt)) := by
    unfold pyBlocks
    rw [hm, hfst, (givenTwice_of hk).2]
    rfl
  rw [h1, h2, hu]
  exact h

/-- **C62.** The same for labels with one entry, obtained from `Labels(...)` or the library, in particular by `keys[i:i+1]`
or `keys[[i]]`. Labels with no entry, more entries, or names which are not names of the keys raise an exception. What is missing from the full statement: other views of labels, see C60. -/
theorem C62_labels_partial (t : TensorMap A) (ht : TensorValid t)
    (hs : t.blocks.length ≤ 18446744073709551616) (wraps : Bool) (v : PyLabels) (hv : Obtained PlainNames TakesEntries v)
    (hvn : v.names ≠ []) (entries : List (List LabelValue)) (he : v.entries = some entries) :
    (∀ entry, entries = [entry] → (∀ n ∈ v.names, n ∈ t.keys.names) →
      OnlyMatch (fun i => AskedFor t i (.labels v)) (pyBlock wraps t [.labels v] []) ∧
      AllMatches (fun i => AskedFor t i (.labels v)) (pyBlocks wraps t [.labels v] []) ∧
      MatchIndexes (fun i => AskedFor t i (.labels v)) (pyBlocksMatchingUser wraps t [.labels v] [])) ∧
    (¬ (entries.length = 1 ∧ ∀ n ∈ v.names, n ∈ t.keys.names) →
      pyBlock wraps t [.labels v] [] = some (.error .equistoreError) ∧
      pyBlocks wraps t [.labels v] [] = some (.error .equistoreError) ∧
      pyBlocksMatchingUser wraps t [.labels v] [] = some (.error .equistoreError)) := by
  have hkn := keys_names_ne ht
  obtain ⟨h6, h7⟩ := pyMatching_eq ht hkn hv hvn he
  constructor
  · rintro entry rfl hsub
    obtain ⟨r, h8, h9, h10⟩ := h6 entry rfl hsub
    refine block_of_matching hs (by simp [NotParameterNames]) (by simp) rfl he h8 h9 (fun i => ?_) ?_
    · rw [h10]
      constructor
      · exact fun h => ⟨entry, he, h⟩
      · rintro ⟨entry', h1, h2⟩
        rw [he] at h1
        cases h1
        exact h2
    · rintro i ⟨_, _, h2⟩
      exact KeyIs.lt ht hkn h2
  · intro hno
    have hm := h7 hno
    have hb : pyBlocksMatching wraps t [.labels v] [] = some (.error .equistoreError) := by
      unfold pyBlocksMatching pySelection
      simp only [hm]
      rfl
    rw [user_of_matching (by simp [NotParameterNames])]
    unfold pyBlock pyBlocks
    simp only [hb]
    exact ⟨rfl, rfl, rfl⟩

/-- **C62.** For an integer from -2^63 to 2^63: `block` gives the block at this position if there is one, otherwise an exception.
What is missing from the full statement: larger integers. -/
theorem C62_int_partial (t : TensorMap A) (hs : t.blocks.length ≤ 9223372036854775808) (wraps : Bool) (i : Int)
    (hi : -9223372036854775808 ≤ i ∧ i ≤ 9223372036854775808) :
    (∀ k, pyBlock wraps t [.int i] [] = some (.ok k) ↔ i = k ∧ k < t.blocks.length) ∧
    (¬ (0 ≤ i ∧ i < t.blocks.length) → pyBlock wraps t [.int i] [] = some (.error .equistoreError)) := by
  have h : pyBlock wraps t [.int i] [] = some (if (i % 18446744073709551616).toNat < t.blocks.length then
      .ok (i % 18446744073709551616).toNat else .error .equistoreError) := rfl
  rw [h]
  constructor
  · intro k
    split
    · simp only [Option.some.injEq, Except.ok.injEq]
      omega
    · simp only [Option.some.injEq, reduceCtorEq, false_iff]
      omega
  · intro hno
    rw [if_neg (by omega)]

/-- **C62.** Without parameters, `blocks` gives all the blocks, in order. -/
theorem C62_no_parameters (t : TensorMap A) (ht : TensorValid t)
    (hs : t.blocks.length ≤ 18446744073709551616) (h0 : t.blocks ≠ []) (wraps : Bool) :
    pyBlocks wraps t [] [] = some (.ok (List.range t.blocks.length)) := by
  have hkn := keys_names_ne ht
  have hkw := ht.keys.wf hkn
  have hcount : t.keys.rows.length = t.blocks.length := by
    have := hkw.count_eq
    rw [ht.count, Res.ok.injEq] at this
    exact this.symm
  obtain ⟨c, hc, hcc⟩ : ∃ c, t.keys.toC = .ok c ∧ c.count = t.blocks.length := ⟨_, hkw.toC, hcount⟩
  obtain ⟨v, hv, hread, s, hsel, hsize⟩ : ∃ v, pySelection wraps [] [] = .ok v ∧ v.readable = true ∧
      ∃ s, Labels.ofC v.toC = .ok s ∧ s.size = 0 := by
    refine ⟨PyLabels.ofMemory [] [] 1 none, by cases wraps <;> decide +kernel, by decide +kernel, ?_⟩
    cases h : Labels.ofC (PyLabels.ofMemory [] [] 1 none).toC with
    | ok s =>
      refine ⟨s, rfl, ?_⟩
      have : (match Labels.ofC (PyLabels.ofMemory [] [] 1 none).toC with
        | .ok s => s.size
        | _ => 1) = 0 := by decide +kernel
      rw [h] at this
      exact this
    | err e =>
      have : (match Labels.ofC (PyLabels.ofMemory [] [] 1 none).toC with
        | .ok s => s.size
        | _ => 1) = 0 := by decide +kernel
      rw [h] at this
      cases this
    | panic m =>
      have : (match Labels.ofC (PyLabels.ofMemory [] [] 1 none).toC with
        | .ok s => s.size
        | _ => 1) = 0 := by decide +kernel
      rw [h] at this
      cases this
  obtain ⟨buffer, count, r, hb, hr1, hr2, _⟩ :=
    C43_blocks_matching_buffer t v.toC (List.replicate c.count 0) c.count (by simp)
  have hl : t.blocksMatching s = .ok (List.range t.blocks.length) := by
    unfold TensorMap.blocksMatching
    rw [if_pos hsize]
    rfl
  have hok := hr1.2 ⟨s, _, hsel, hl, by simp [hcc]⟩
  subst hok
  obtain ⟨h6, h7⟩ := hr2 s _ hsel hl
  have hm : pyMatching t v = some (.ok (List.range t.blocks.length)) := by
    unfold pyMatching
    simp only [hc, hread, if_true, hb]
    rw [h6, h7 (by simp [hcc])]
  have hpm : pyBlocksMatching wraps t [] [] = some (.ok (List.range t.blocks.length, v)) := by
    unfold pyBlocksMatching
    rw [hv]
    simp only [hm]
    rfl
  have hall : ∀ l : List Nat, (∀ i ∈ l, i < t.blocks.length) → (l.mapM fun (i : Nat) => pyBlockById t i) = .ok l := by
    intro l
    induction l with
    | nil => intro _; rfl
    | cons x l ih =>
      intro h
      rw [List.mapM_cons, pyBlockById_eq (h x (by simp)) hs, ih fun y hy => h y (by simp [hy])]
      rfl
  unfold pyBlocks
  rw [hpm]
  simp only [List.map_nil, List.contains_nil, Bool.false_eq_true, if_false, Option.map_some, Option.some.injEq]
  have hne : List.range t.blocks.length ≠ [] := by simpa using h0
  have hall' := hall (List.range t.blocks.length) (by simp)
  revert hne hall'
  generalize List.range t.blocks.length = l
  intro hne hall'
  cases l with
  | nil => exact absurd rfl hne
  | cons x l => exact hall'

/-- **C62**, full statement for keys: `tensor.block(tensor.keys[i])` is `tensor.block(i)`. -/
def C62_key_statement : Prop :=
  ∀ (t : TensorMap NdArray), TensorValid t → t.blocks.length ≤ 18446744073709551616 → ∀ (wraps : Bool) (i : Nat)
    (key : List LabelValue), t.keys.index i = .ok key →
    pyBlock wraps t [.entry (t.keys.names.zip key)] [] = some (.ok i)

/-- **C62.** Asking for the block of a key gives the block at the position of this key: `tensor.block(tensor.keys[i])` is
`tensor.block(i)`. What is missing from `C62_key_statement`: keys with the name `self` or `__return_selection`. -/
theorem C62_key_partial (t : TensorMap A) (ht : TensorValid t)
    (hs : t.blocks.length ≤ 18446744073709551616) (wraps : Bool) (i : Nat) (key : List LabelValue)
    (hi : t.keys.index i = .ok key) (hk : NotParameterNames t.keys.names) :
    pyBlock wraps t [.entry (t.keys.names.zip key)] [] = some (.ok i) := by
  have hkn := keys_names_ne ht
  have hkw := ht.keys.wf hkn
  have hlt : i < t.keys.rows.length := by
    by_contra h
    rw [hkw.index_panic h] at hi
    cases hi
  have hkey : t.keys.rows[i] = key := by
    have := hkw.index_eq hlt
    rw [hi, Res.ok.injEq] at this
    exact this.symm
  have hlen : ∀ j (hj : j < t.keys.rows.length), t.keys.rows[j].length = t.keys.names.length :=
    fun j hj => hkw.row_length _ (List.getElem_mem hj)
  have hkl : key.length = t.keys.names.length := by rw [← hkey]; exact hlen i hlt
  have hfst : (t.keys.names.zip key).map Prod.fst = t.keys.names := List.map_fst_zip (by omega)
  have h := (C62_entry_partial t ht hs wraps (t.keys.names.zip key)
    (fun h => hkn (by rw [← hfst, h]; rfl)) (by rw [hfst]; exact hkw.names_ok.2)
    (by
      rw [hfst]
      intro n hn
      have hid := (isValidLabelName_iff n).1 (hkw.names_ok.1 n hn)
      exact ⟨(by rintro rfl; obtain ⟨_, _, h, _⟩ := hid; cases h), identifier_no_nul hid⟩)
    (by
      rintro ⟨n, x⟩ hp
      exact (List.of_mem_zip hp).1) (by rw [hfst]; exact hk)).1
  refine (h.1 i).2 fun j => ?_
  have hz : ∀ k : List LabelValue, t.keys.names.zip (k.map Int32.toInt) = (t.keys.names.zip k).map fun p => (p.1, p.2.toInt) := by
    intro k
    rw [List.zip_map_right]
    rfl
  constructor
  · rintro ⟨key', h1, h2⟩
    have hj : j < t.keys.rows.length := by
      by_contra h
      rw [hkw.index_panic h] at h1
      cases h1
    have hkey' : t.keys.rows[j] = key' := by
      have := hkw.index_eq hj
      rw [h1, Res.ok.injEq] at this
      exact this.symm
    have hag : Agrees t.keys.names key' t.keys.names key := by
      rw [agrees_iff, hz key]
      exact h2
    have hkl' : key'.length = t.keys.names.length := by rw [← hkey']; exact hlen j hj
    have heq : key = key' := by
      apply List.ext_getElem (by omega)
      intro a h3 h4
      have hmem : (t.keys.names[a], key[a]) ∈ t.keys.names.zip key :=
        List.mem_iff_getElem.2 ⟨a, by simp; omega, by simp⟩
      have := hag _ _ hmem
      obtain ⟨b, hb, hb'⟩ := List.mem_iff_getElem.1 this
      simp only [List.getElem_zip, Prod.mk.injEq] at hb'
      have hab : b = a := (hkw.names_ok.2.getElem_inj_iff).1 hb'.1
      subst hab
      exact hb'.2.symm
    have : t.keys.rows[j] = t.keys.rows[i] := by rw [hkey, hkey', heq]
    exact (hkw.nodup.getElem_inj_iff).1 this
  · rintro rfl
    refine ⟨key, hi, ?_⟩
    intro name value hm
    rw [hz]
    exact hm

/-- **C62.** Keyword parameters, or entries of labels, with the name `self` or `__return_selection` raise a `TypeError`, whatever
the tensor map. -/
theorem C62_own_names (t : TensorMap A) (wraps : Bool) :
    (∀ kwargs : List (String × Int), ¬ NotParameterNames (kwargs.map Prod.fst) →
      pyBlock wraps t [] kwargs = some (.error .typeError) ∧ pyBlocks wraps t [] kwargs = some (.error .typeError)) ∧
    (∀ entry : List (String × LabelValue), ¬ NotParameterNames (entry.map Prod.fst) →
      pyBlock wraps t [.entry entry] [] = some (.error .typeError) ∧
      pyBlocks wraps t [.entry entry] [] = some (.error .typeError) ∧
      pyBlocksMatchingUser wraps t [.entry entry] [] = some (.error .typeError)) := by
  constructor
  · intro kwargs h
    have h1 := givenTwice_of_not h
    unfold pyBlock pyBlocks pyBlocksMatching
    rw [h1]
    simp only [if_true]
    constructor
    · split <;> rfl
    · split <;> rfl
  · intro entry h
    have h1 : pySelection wraps [.entry entry] [] = .error .typeError := by
      change (if givenTwice (entry.map Prod.fst) then _ else _) = _
      rw [givenTwice_of_not h]
      rfl
    rw [user_of_matching (kwargs := []) (by simp [NotParameterNames])]
    unfold pyBlock pyBlocks pyBlocksMatching
    rw [h1]
    exact ⟨rfl, rfl, rfl⟩

/-- **C62.** A named tuple which was not given by `as_namedtuples` is never accepted. -/
theorem C62_namedtuple (t : TensorMap A) (wraps : Bool) (values : List (String × Int)) :
    ∃ e, (e = .attributeError ∨ e = .typeError) ∧ pyBlock wraps t [.namedtuple values] [] = some (.error e) ∧
      pyBlocks wraps t [.namedtuple values] [] = some (.error e) ∧
      pyBlocksMatchingUser wraps t [.namedtuple values] [] = some (.error e) := by
  refine ⟨if (values.map Prod.fst).contains "as_dict" then .typeError else .attributeError, ?_, rfl, rfl, rfl⟩
  split
  · exact .inr rfl
  · exact .inl rfl

/-- **C62** is false: keyword parameters are ignored beside a position or labels, and only the last 64 bits of a position are
used. Here the first key is `k = 0, l = 1`. -/
theorem C62_counterexample : ¬ C62_full_statement := by
  intro h
  have h1 := (h Example.tensor Example.tensor_valid false [.int 0] [("l", 7)] 0 (by decide +kernel)).2
  obtain ⟨key, h2, h3⟩ := h1
  have h4 : Example.tensor.keys.index 0 = .ok [0, 1] := by decide +kernel
  rw [h4] at h2
  cases h2
  exact absurd (h3 "l" 7 (by simp)) (by decide +kernel)

/-- **C62** is false even without keyword parameters: `tensor.block(2**64)` is the first block. -/
theorem C62_counterexample_position :
    ¬ ∀ (t : TensorMap NdArray), TensorValid t → ∀ (position : Int) (i : Nat),
      pyBlock false t [.int position] [] = some (.ok i) → position = i := by
  intro h
  have h1 := h Example.tensor Example.tensor_valid 18446744073709551616 0 (by decide +kernel)
  cases h1

/-- **C62.** Keyword parameters with an integer which does not fit in 32 bits raise an exception with numpy 2; before, this
is only so for integers which do not fit in 64 bits. -/
theorem C62_too_large (t : TensorMap A) (wraps : Bool) (kwargs : List (String × Int)) (p : String × Int)
    (hp : p ∈ kwargs) (hk : NotParameterNames (kwargs.map Prod.fst))
    (hf : if wraps then ¬ (-9223372036854775808 ≤ p.2 ∧ p.2 < 9223372036854775808) else ¬ Fits p.2) :
    pyBlock wraps t [] kwargs = some (.error .overflowError) ∧
    pyBlocks wraps t [] kwargs = some (.error .overflowError) := by
  have hmem : p.2 ∈ kwargs.map Prod.snd := List.mem_map_of_mem hp
  have h32 : ((kwargs.map Prod.snd).all fun x => -2147483648 ≤ x && x < 2147483648) = false := by
    rw [List.all_eq_false]
    refine ⟨p.2, hmem, ?_⟩
    cases wraps <;> simp [Fits] at hf ⊢ <;> omega
  have h64 : (wraps && (kwargs.map Prod.snd).all fun x => -9223372036854775808 ≤ x && x < 9223372036854775808) = false := by
    cases wraps
    · rfl
    · rw [Bool.true_and, List.all_eq_false]
      refine ⟨p.2, hmem, ?_⟩
      simp at hf ⊢
      omega
  have hi : int32Array wraps (kwargs.map Prod.snd) = .error .overflowError := by
    unfold int32Array
    rw [h32, h64]
    rfl
  have hs : pySelection wraps [] kwargs = .error .overflowError := by
    unfold pySelection selectionOfKeywords
    simp only [hi]
    rfl
  unfold pyBlock pyBlocks pyBlocksMatching
  rw [(givenTwice_of hk).1, (givenTwice_of hk).2]
  simp only [hs]
  exact ⟨rfl, rfl⟩

/-- **C62** is false before numpy 2: only the last 32 bits of keyword parameters are used, so that `k=2**32 + 3` gives
the block with `k = 3`. -/
theorem C62_counterexample_keywords :
    ¬ ∀ (t : TensorMap NdArray), TensorValid t → ∀ (kwargs : List (String × Int)) (i : Nat),
      pyBlock true t [] kwargs = some (.ok i) → KeyIs t i kwargs := by
  intro h
  obtain ⟨key, h2, h3⟩ := h Example.tensor Example.tensor_valid [("k", 4294967299)] 2 (by decide +kernel)
  have h4 : Example.tensor.keys.index 2 = .ok [3, 1] := by decide +kernel
  rw [h4] at h2
  cases h2
  exact absurd (h3 "k" 4294967299 (by simp)) (by decide +kernel)

/-- Non-vacuity of `C62_too_large`. -/
example : pyBlock false Example.tensor [] [("l", 1), ("k", 4294967299)] = some (.error .overflowError) :=
  (C62_too_large Example.tensor false _ ("k", 4294967299) (by simp) (by simp [NotParameterNames]) (by simp [Fits])).1

/-- Non-vacuity of `C62_keywords_partial`: blocks 0 and 1 have `k = 0`, only block 2 has `k = 3`. -/
example : pyBlocks false Example.tensor [] [("k", 0)] = some (.ok [0, 1]) ∧
    pyBlock false Example.tensor [] [("k", 3)] = some (.ok 2) ∧
    pyBlock false Example.tensor [] [("k", 0)] = some (.error .valueError) ∧
    pyBlock false Example.tensor [] [("a", 0)] = some (.error .equistoreError) := by
  obtain ⟨_, h2⟩ := (C62_keywords_partial Example.tensor Example.tensor_valid (by decide +kernel) false [("k", 0)]
    (by simp) (by simp) (by unfold PlainNames; decide +kernel) (by simp [Fits]) (by simp [NotParameterNames])).1 (by decide +kernel)
  obtain ⟨r, h3, _⟩ := h2.1.1 ⟨0, [0, 1], by decide +kernel, fun name value h => by
    simp only [List.mem_singleton, Prod.mk.injEq] at h
    obtain ⟨rfl, rfl⟩ := h
    decide +kernel⟩
  exact ⟨by decide +kernel, by decide +kernel, by decide +kernel, by decide +kernel⟩

/-- Non-vacuity of `C62_entry_partial` and `C62_key_partial`. -/
example : pyBlock false Example.tensor [.entry (Example.tensor.keys.names.zip [0, 2])] [] = some (.ok 1) :=
  C62_key_partial Example.tensor Example.tensor_valid (by decide +kernel) false 1 [0, 2] (by decide +kernel)
    (by unfold NotParameterNames; decide +kernel)

namespace Example

/-- The keys of this tensor map are `self = 0` and `self = 1`. -/
def selfTensor : TensorMap NdArray := ⟨Labels.mk' ["self"] [[0], [1]], [gradBlock, gradBlock]⟩
theorem selfTensor_valid : TensorValid selfTensor := TensorMap.valid_of_rebuilds (by decide +kernel)

end Example

/-- **C62** is false for keys: `tensor.block(tensor.keys[1])` raises a `TypeError` if the name of the keys is `self`. The block can only
be accessed with its position, or with labels. -/
theorem C62_counterexample_key : ¬ C62_key_statement := by
  intro h
  have h1 := h Example.selfTensor Example.selfTensor_valid (by decide +kernel) false 1 [1] (by decide +kernel)
  have h2 := ((C62_own_names Example.selfTensor false).2 (Example.selfTensor.keys.names.zip [1])
    (by unfold NotParameterNames; decide +kernel)).1
  rw [h1] at h2
  cases h2

/-- Non-vacuity of `C62_labels_partial`. -/
example : ∃ v, PyLabels.new ["l"] (matrix 1 [[2]]) none = .ok v ∧ Obtained PlainNames TakesEntries v ∧
    v.entries = some [[2]] ∧ pyBlock false Example.tensor [.labels v] [] = some (.ok 1) := by
  have h : PyLabels.new ["l"] (matrix 1 [[2]]) none = .ok (PyLabels.ofMemory ["l"] [2] 1 none) := by decide +kernel
  exact ⟨_, h, .new (names := ["l"]) (by unfold PlainNames; decide +kernel) (by simp [ValuesArg.Complete, matrix]) h,
    by decide +kernel, by decide +kernel⟩

/-- Non-vacuity of `C62_int_partial`. -/
example : pyBlock false Example.tensor [.int 1] [] = some (.ok 1) ∧
    pyBlock false Example.tensor [.int (-1)] [] = some (.error .equistoreError) :=
  ⟨((C62_int_partial Example.tensor (by decide +kernel) false 1 (by decide)).1 1).2 ⟨rfl, by decide +kernel⟩,
    (C62_int_partial Example.tensor (by decide +kernel) false (-1) (by decide)).2 (by decide)⟩

/-- Non-vacuity of `C62_no_parameters`. -/
example : pyBlocks true Example.tensor [] [] = some (.ok [0, 1, 2]) :=
  C62_no_parameters Example.tensor Example.tensor_valid (by decide +kernel) (by decide +kernel) true

/-! ### C63 -/

/-- **C63.** Iterating over a tensor map gives each key, with its names, and the block at the same position, in order; `len` is the
number of blocks. -/
theorem C63_iteration (t : TensorMap A) (ht : TensorValid t)
    (hs : t.blocks.length ≤ 18446744073709551616) :
    pyLen t = .ok t.blocks.length ∧
    ∃ items, pyIter t = .ok items ∧ items.length = t.blocks.length ∧
      ∀ i item, items[i]? = some item ↔ ∃ key, t.keys.index i = .ok key ∧ item = (t.keys.names.zip key, i) := by
  have hkn := keys_names_ne ht
  have hkw := ht.keys.wf hkn
  have hcount : t.keys.rows.length = t.blocks.length := by
    have := hkw.count_eq
    rw [ht.count, Res.ok.injEq] at this
    exact this.symm
  obtain ⟨v, hv, hvn, hve, hvc⟩ : ∃ v, pyKeys t = .ok v ∧ v.names = t.keys.names ∧ v.entries = some t.keys.rows ∧
      v.count = t.keys.rows.length := by
    obtain ⟨c, hc⟩ : ∃ c, t.keys.toC = .ok c := ⟨_, hkw.toC⟩
    have h := PyLabels.ofC_eq hkw hkn hc
    have hcan := PyLabels.canonical_ofMemory (names := t.keys.names) (rows := t.keys.rows)
      (if t.keys.rows = [] then none else some c) hkw.row_length
    refine ⟨_, ?_, PyLabels.names_ofMemory _ _ _ _, hcan.entries, hcan.count.symm⟩
    unfold pyKeys
    rw [hc]
    exact h
  constructor
  · unfold pyLen
    rw [hv, ← hcount, ← hvc]
    rfl
  · have hall : ∀ (rows : List (List LabelValue)) k, k + rows.length ≤ t.blocks.length →
        ((rows.zipIdx k).mapM fun (key, (i : Nat)) => do
          let block ← pyBlockById t i
          return (t.keys.names.zip key, block)) = .ok ((rows.zipIdx k).map fun (key, i) => (t.keys.names.zip key, i)) := by
      intro rows
      induction rows with
      | nil => intro _ _; rfl
      | cons r rows ih =>
        intro k hk
        simp only [List.length_cons] at hk
        rw [List.zipIdx_cons, List.mapM_cons]
        simp only
        rw [pyBlockById_eq (by omega) hs, ih (k + 1) (by omega)]
        rfl
    refine ⟨(t.keys.rows.zipIdx).map fun p => (t.keys.names.zip p.1, p.2), ?_, by simp [hcount], ?_⟩
    · unfold pyIter
      rw [hv]
      change (match v.entries with
        | none => Except.error PyExc.exception
        | some entries => entries.zipIdx.mapM fun (p : List LabelValue × Nat) => do
          let block ← pyBlockById t p.2
          return (v.names.zip p.1, block)) = _
      rw [hve, hvn]
      exact hall t.keys.rows 0 (by omega)
    · intro i item
      by_cases hi : i < t.keys.rows.length
      · rw [hkw.index_eq hi]
        simp [hi, eq_comm]
      · rw [hkw.index_panic hi]
        simp [Nat.le_of_not_lt hi]

/-- Non-vacuity of `C63_iteration`. -/
example : pyLen Example.tensor = .ok 3 ∧ pyIter Example.tensor =
    .ok [([("k", 0), ("l", 1)], 0), ([("k", 0), ("l", 2)], 1), ([("k", 3), ("l", 1)], 2)] :=
  ⟨(C63_iteration Example.tensor Example.tensor_valid (by decide +kernel)).1, by decide +kernel⟩

end Equistore
