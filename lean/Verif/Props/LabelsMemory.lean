import Verif.Lemmas.LabelsMemory

/-!
# C113: labels do not change after they have been created
-/

namespace Equistore
namespace LabelsMemory
open Spec

/-- **C113**, labels in the library: whatever a Python program does with arrays and labels, the labels which
are in the library stay the same, with entries which are different from each other. -/
theorem C113_library (s : State) (g : Groups) (h : Reached s g) (k : Nat) (l : Labels) (hl : s.library[k]? = some l) :
    (l.names ≠ [] → l.names.Nodup ∧ ∃ entries, l.iter = .ok entries ∧ entries.Nodup) ∧
    ∀ s' g', Later (fun _ _ => True) s g s' g' → s'.library[k]? = some l := by
  refine ⟨fun hn => ?_, fun s' g' hr => hr.library h.ok hl⟩
  have hw := (h.ok.library _ (List.mem_of_getElem? hl)).wf hn
  exact ⟨hw.names_ok.2, _, hw.iter_eq, hw.nodup⟩

theorem see_eq {s s' : State} {o : LabelsObject} (h : s'.memory o.place = s.memory o.place) : s'.see o = s.see o := by
  unfold State.see
  rw [h]

/-- Labels whose memory is the same show the same. -/
theorem Later.see {allowed : Groups → Statement → Prop} {s s' : State} {g g' : Groups} (h : Later allowed s g s' g') (hs : s.Ok)
    {o : LabelsObject} (hp : s.has o.place)
    (hw : ∀ s₁ g₁ c s₂ r n, Later allowed s g s₁ g₁ → allowed g₁ c → s₁.run c = some (s₂, r) → o.place = .numpy n →
      ¬ ((∃ a i j x array, c = .writeArray a i j x ∧ s₁.arrays[a]? = some array ∧ array.place = .numpy n) ∨
       (∃ l name i x o', c = .writeLabels l name i x ∧ s₁.labels[l]? = some o' ∧ o'.place = .numpy n))) :
    s'.has o.place ∧ s'.see o = s.see o := by
  induction h with
  | refl => exact ⟨hp, rfl⟩
  | @step s₁ s₂ g₁ c r h ha hr ih =>
    obtain ⟨h1, h2⟩ := ih
    rcases run_cases (h.ok hs) hr with hadd | ⟨n, position, x, rfl, hc⟩
    · obtain ⟨h3, h4⟩ := hadd.memory h1
      exact ⟨h3, (see_eq h4).trans h2⟩
    · refine ⟨(write_sizes _ h1).1, Eq.trans ?_ h2⟩
      apply see_eq
      rw [memory_write, if_neg]
      intro he
      refine hw _ _ _ _ _ n h ha hr he ?_
      rcases hc with ⟨a, i, j, array, e1, e2, e3⟩ | ⟨l, name, i, o', e1, e2, e3⟩
      · exact .inl ⟨a, i, j, x, array, e1, e2, e3⟩
      · exact .inr ⟨l, name, i, x, o', e1, e2, e3⟩

/-- **C113**, full statement: labels always keep their names and entries. It is not true, see `C113_counterexample`. -/
def C113_full_statement : Prop :=
  ∀ s g, Reached s g → ∀ l names entries, s.shows l names entries →
    ∀ s' g', Later (fun _ _ => True) s g s' g' → s'.shows l names entries

/-- **C113.** Labels keep their names and entries as long as the program assigns to nothing in the same group: the array they were created from
(if it is a contiguous array of `int32`), its views, and views of the labels. What is missing from the full
statement: such assignments. -/
theorem C113_unchanged_partial (s : State) (g : Groups) (h : Reached s g) (l : Nat) (names : List String)
    (entries : List (List LabelValue)) (hl : s.shows l names entries) (n : Nat) (hn : g.labels[l]? = some n) (s' : State) (g' : Groups)
    (hr : Later (fun g c => ¬ g.assigned c n) s g s' g') : s'.shows l names entries := by
  obtain ⟨o, ho, h1, h2⟩ := hl
  refine ⟨o, hr.labels h.ok ho, ?_⟩
  have := (hr.see h.ok (h.ok.labels _ (List.mem_of_getElem? ho)).has ?_).2
  · rw [this]
    exact ⟨h1, h2⟩
  · intro s₁ g₁ c s₂ r m hr₁ ha _ hp hc
    obtain ⟨owner, hown⟩ := hr₁.owner h.ok h.owner
    have e := hr₁.groups hn
    rw [hown.labels l o m (hr₁.labels h.ok ho) hp] at e
    rcases hc with ⟨a, i, j, x, array, rfl, ha1, ha2⟩ | ⟨l', name, i, x, o', rfl, ha1, ha2⟩
    · apply ha
      change g₁.arrays[a]? = some n
      rw [hown.arrays a array m ha1 ha2, e]
    · apply ha
      change g₁.labels[l']? = some n
      rw [hown.labels l' o' m ha1 ha2, e]

/-- **C113**, labels which are read-only (`labels.flags.writeable` is `False`) keep their names and entries whatever the program
does. Labels made from them with slices and names are also read-only, and so are the arrays given
by `asarray`. -/
theorem C113_read_only (s : State) (g : Groups) (h : Reached s g) (l : Nat) (o : LabelsObject) (ho : s.labels[l]? = some o)
    (hw : o.writeable = false) :
    (∀ s' g', Later (fun _ _ => True) s g s' g' → ∀ names entries, s.shows l names entries → s'.shows l names entries) ∧
    (∀ i s', s.run (.index l i) = some (s', none) → (∀ positions, i ≠ .positions positions) →
      ∃ o', s'.labels = s.labels ++ [o'] ∧ o'.writeable = false) ∧
    (∀ s', s.run (.asarray l) = some (s', none) → ∃ a, s'.arrays = s.arrays ++ [a] ∧ a.writeable = false) := by
  have hok := h.ok.labels _ (List.mem_of_getElem? ho)
  refine ⟨fun s' g' hr names entries hs => ?_, fun i s' hr hi => ?_, fun s' hr => ?_⟩
  · obtain ⟨o', ho', h1, h2⟩ := hs
    rw [ho] at ho'
    cases ho'
    refine ⟨o, hr.labels h.ok ho, ?_⟩
    have := (hr.see h.ok hok.has ?_).2
    · rw [this]
      exact ⟨h1, h2⟩
    · intro _ _ _ _ _ n _ _ _ hp
      obtain ⟨k, hk⟩ := hok.flag.2 hw
      rw [hk] at hp
      cases hp
  · simp only [State.run, ho] at hr
    split at hr
    · cases hr
    · cases hr
      exact ⟨_, rfl, hw⟩
  · simp only [State.run, ho] at hr
    split at hr
    · cases hr
    · cases hr
      exact ⟨_, rfl, hw⟩

/-- **C113**, assigning to something which is read-only raises an exception, and nothing changes. -/
theorem C113_read_only_assignment (s : State) :
    (∀ l o name i x, s.labels[l]? = some o → o.writeable = false → ∃ e, s.run (.writeLabels l name i x) = some (s, some e)) ∧
    (∀ a array i j x, s.arrays[a]? = some array → array.writeable = false → ∃ e, s.run (.writeArray a i j x) = some (s, some e)) := by
  refine ⟨fun l o name i x ho hw => ?_, fun a array i j x ha hw => ?_⟩
  · simp only [State.run, ho, hw]
    split
    · exact ⟨_, rfl⟩
    · split
      · exact ⟨_, rfl⟩
      · exact ⟨_, rfl⟩
  · simp only [State.run, ha, hw]
    split
    · exact ⟨_, rfl⟩
    · exact ⟨_, rfl⟩

/-- **C113**, taking labels from the library: these are new labels with the same names and entries as in the library. They are
read-only unless there are no entries, and keep their names and entries whatever the program does. -/
theorem C113_taken (s : State) (g : Groups) (h : Reached s g) (k : Nat) (l : Labels) (hl : s.library[k]? = some l)
    (hn : l.names ≠ []) : ∃ s' o entries, s.run (.take k) = some (s', none) ∧ s'.labels = s.labels ++ [o] ∧ l.iter = .ok entries ∧
      (o.writeable = false ∨ entries = []) ∧
      ∀ s'' g'', Later (fun _ _ => True) s' (g.record s (.take k)) s'' g'' → s''.shows s.labels.length l.names entries := by
  have hb := h.ok.library _ (List.mem_of_getElem? hl)
  have hw := hb.wf hn
  obtain ⟨c, hc⟩ : ∃ c, l.toC = .ok c := ⟨_, Labels.Holds.toC hw⟩
  obtain ⟨-, hcount, hv⟩ := take_view hb hc
  have hcan : (PyLabels.ofMemory l.names l.rows.flatten l.rows.length (if l.rows = [] then none else some c)).Canonical l.rows :=
    PyLabels.canonical_ofMemory _ hw.row_length
  have hnames : (PyLabels.ofMemory l.names l.rows.flatten l.rows.length (if l.rows = [] then none else some c)).names = l.names :=
    PyLabels.names_ofMemory ..
  have hstep : ∀ s', s.run (.take k) = some (s', none) → Reached s' (g.record s (.take k)) := by
    intro s' hr
    have := Later.step h (c := .take k) trivial hr
    exact this
  by_cases h0 : c.count = 0
  · have hrun : s.run (.take k) = some (s.withCopy (PyLabels.ofMemory l.names l.rows.flatten l.rows.length
        (if l.rows = [] then none else some c)), none) := by
      simp [State.run, hl, hc, hv, h0]
    have hrows : l.rows = [] := List.length_eq_zero_iff.1 (hcount.symm.trans h0)
    refine ⟨_, _, l.rows, hrun, rfl, hw.iter_eq, .inr hrows, fun s'' g'' hr => ?_⟩
    refine ⟨_, hr.labels (hstep _ hrun).ok (by simp [State.withCopy]; rfl), ?_⟩
    exact ⟨hnames, by rw [hrows]; rfl⟩
  · have hrun : s.run (.take k) = some ({ s with labels := s.labels ++ [⟨.library k, PyLabels.ofMemory l.names l.rows.flatten
        l.rows.length (if l.rows = [] then none else some c), false⟩] }, none) := by
      simp [State.run, hl, hc, hv, h0]
    refine ⟨_, _, l.rows, hrun, rfl, hw.iter_eq, .inl rfl, fun s'' g'' hr => ?_⟩
    refine (C113_read_only _ _ (hstep _ hrun) s.labels.length _ (by simp; rfl) rfl).1 s'' g'' hr _ _ ⟨_, by simp; rfl, ?_⟩
    have hsee : State.see { s with labels := s.labels ++ [⟨.library k, PyLabels.ofMemory l.names l.rows.flatten
        l.rows.length (if l.rows = [] then none else some c), false⟩] } ⟨.library k, PyLabels.ofMemory l.names l.rows.flatten
        l.rows.length (if l.rows = [] then none else some c), false⟩ = PyLabels.ofMemory l.names l.rows.flatten
        l.rows.length (if l.rows = [] then none else some c) := by
      have hm := congrArg (List.map Int32.ofInt) (memory_library hl)
      rw [toInt_ofInt, hw.values_eq] at hm
      unfold State.see
      exact congrArg (fun m => { PyLabels.ofMemory l.names l.rows.flatten l.rows.length
        (if l.rows = [] then none else some c) with memory := m }) hm
    rw [hsee]
    exact ⟨hnames, hcan.entries⟩

/-! ### Creating labels -/

theorem Ok.read {s : State} {o : LabelsObject} (h : o.Ok s) {i j : Nat} (hi : i < o.view.count) (hj : j < o.view.itemsize) :
    0 ≤ (o.view.start + i * o.view.stride + j : Int) ∧
    (o.view.start + i * o.view.stride + j : Int).toNat < (s.memory o.place).length ∧
    (s.see o).read i j = some (Int32.ofInt ((s.memory o.place).getD (o.view.start + i * o.view.stride + j : Int).toNat 0)) := by
  obtain ⟨h1, h2⟩ := h.within.2 i hi j hj
  rw [Int.mul_one] at h1 h2
  have hlt : (o.view.start + i * o.view.stride + j : Int).toNat < (s.memory o.place).length := by omega
  refine ⟨h1, hlt, ?_⟩
  unfold PyLabels.read State.see
  simp only
  rw [if_pos h1]
  simp [hlt]

theorem Ok.entries {s : State} {o : LabelsObject} (h : o.Ok s) : (s.see o).entries =
    some ((List.range o.view.count).map fun i : Nat => o.view.fields.map fun f =>
      Int32.ofInt ((s.memory o.place).getD (o.view.start + i * o.view.stride + f.2 : Int).toNat 0)) := by
  unfold PyLabels.entries
  refine mapM_option_eq fun i hi => ?_
  refine mapM_option_eq fun f hf => ?_
  exact (Ok.read h (by simpa [State.see] using hi) (h.fields f hf)).2.2

theorem mapM_congr_option {α β : Type} {f g : α → Option β} {l : List α} (h : ∀ a ∈ l, f a = g a) : l.mapM f = l.mapM g := by
  induction l with
  | nil => rfl
  | cons a l ih =>
    rw [List.mapM_cons, List.mapM_cons, h a List.mem_cons_self, ih fun b hb => h b (List.mem_cons_of_mem _ hb)]

theorem elements_getElem? {s : State} {a : IntArray} {i j : Nat} (hi : i < a.rows) (hj : j < a.columns) :
    (s.elements a)[i * a.columns + j]? = some ((s.memory a.place).getD (a.position i j).toNat 0) := by
  have hrow : ∀ r ∈ (List.range a.rows).map fun i : Nat => (List.range a.columns).map fun j : Nat =>
      (s.memory a.place).getD (a.position i j).toNat 0, r.length = a.columns := by
    intro r hr
    obtain ⟨i, -, rfl⟩ := List.mem_map.1 hr
    simp
  have := flatten_getElem? hrow (i := i) (by simpa using hi) hj []
  rw [List.append_nil, ← List.flatMap_def] at this
  unfold State.elements
  rw [this]
  simp

/-- **C113**, new labels show the elements of the array at this time, whether they use its memory or a copy, and the
entries are different from each other. -/
theorem C113_created (s : State) (g : Groups) (h : Reached s g) (names : List String) (a : Nat) (array : IntArray)
    (ha : s.arrays[a]? = some array) (s' : State) (hr : s.run (.newLabels names a) = some (s', none)) :
    ∃ rows, s'.shows s.labels.length (fieldNames names) rows ∧ rows.length = array.rows ∧ (∀ r ∈ rows, r.length = array.columns) ∧
      rows.flatten = (s.elements array).map Int32.ofInt ∧ (names ≠ [] → rows.Nodup) := by
  have hs' := run_ok h.ok hr
  simp only [State.run, ha] at hr
  split at hr
  · cases hr
  · next v hv =>
    have hcomplete : ValuesArg.Complete (.array true [array.rows, array.columns] (s.elements array)) := by
      simp [ValuesArg.Complete, elements_length]
    obtain ⟨elements, h1, rows, hcan, h2, h3, h4, -, -, h5⟩ := PyLabels.new_eq_ok hcomplete hv
    simp only [ValuesArg.array.injEq, List.cons.injEq, and_true, true_and] at h1
    obtain ⟨⟨hcount, hcols⟩, rfl⟩ := h1
    obtain ⟨names', hlen, hnd, rfl⟩ := new_ofMemory hv
    refine ⟨rows, ?_, hcan.count.symm, fun r hr => (h3 r hr).trans hcols.symm, h2, h5 rfl⟩
    split at hr
    · next hsame =>
      simp only [Bool.and_eq_true] at hsame
      cases hr
      have hok := hs'.labels _ (List.mem_append_right _ (List.mem_singleton.2 rfl))
      refine ⟨LabelsObject.mk array.place { PyLabels.ofMemory names' ((s.elements array).map Int32.ofInt) array.rows none with
        start := array.start } array.writeable, by simp, h4, ?_⟩
      rw [← hcan.entries]
      unfold PyLabels.entries
      refine mapM_congr_option fun i hi => mapM_congr_option fun f hf => ?_
      have hi : i < array.rows := List.mem_range.1 hi
      have hj := (ofMemory_fields (memory := (s.elements array).map Int32.ofInt) (count := array.rows) (c := none) hnd).1 f hf
      refine (Ok.read hok hi hj).2.2.trans ?_
      rw [PyLabels.read_packed rfl rfl]
      have hj' : f.2 < array.columns := hlen ▸ hj
      have e : ((array.start : Int) + i * (names'.length : Int) + f.2 : Int) = array.position i f.2 := by
        rw [position_contiguous hsame.2 hi hj', hlen]
      change some (Int32.ofInt ((s.memory array.place).getD ((array.start : Int) + i * (names'.length : Int) + f.2 : Int).toNat 0)) =
        ((s.elements array).map Int32.ofInt)[i * names'.length + f.2]?
      rw [e, hlen, List.getElem?_map, elements_getElem? hi hj', Option.map_some]
    · cases hr
      refine ⟨_, by simp [State.withCopy]; rfl, ?_⟩
      rw [see_withCopy]
      exact ⟨h4, hcan.entries⟩

/-- **C113**, labels from indexing show what indexing gives at this time, see `C112_slice`, `C112_positions` and `C112_names`. -/
theorem C113_indexed (s : State) (g : Groups) (h : Reached s g) (l : Nat) (o : LabelsObject) (ho : s.labels[l]? = some o) (i : LabelsIndex) :
    (∀ e, (s.see o).getItem i = .error e → s.run (.index l i) = some (s, some e)) ∧
    ∀ v, (s.see o).getItem i = .ok v → ∃ s' entries, s.run (.index l i) = some (s', none) ∧ v.entries = some entries ∧
      s'.shows s.labels.length v.names entries := by
  have hok := h.ok.labels _ (List.mem_of_getElem? ho)
  refine ⟨fun e he => by simp [State.run, ho, he], fun v hv => ?_⟩
  obtain ⟨h1, h2, h3, -, -, h6⟩ := getItem_ok hok hv
  obtain ⟨full, hs⟩ := shows_of_within h1 h2 h3
  have hview : (∀ p, i ≠ .positions p) → s.see { o with view := v } = v := by
    intro hne
    have e : s.see { o with view := v } = { v with memory := (s.see o).memory } := rfl
    rw [e, ← h6 hne]
  cases i with
  | positions indices =>
    refine ⟨s.withCopy v, _, by simp [State.run, ho, hv], hs.entries, ⟨_, by simp [State.withCopy]; rfl, ?_⟩⟩
    rw [see_withCopy]
    exact ⟨rfl, hs.entries⟩
  | slice start stop step =>
    refine ⟨{ s with labels := s.labels ++ [{ o with view := v }] }, _, by simp [State.run, ho, hv], hs.entries,
      ⟨{ o with view := v }, by simp, ?_⟩⟩
    have e := hview (by simp)
    exact ⟨congrArg PyLabels.names e, (congrArg PyLabels.entries e).trans hs.entries⟩
  | names names =>
    refine ⟨{ s with labels := s.labels ++ [{ o with view := v }] }, _, by simp [State.run, ho, hv], hs.entries,
      ⟨{ o with view := v }, by simp, ?_⟩⟩
    have e := hview (by simp)
    exact ⟨congrArg PyLabels.names e, (congrArg PyLabels.entries e).trans hs.entries⟩

/-! ### Assigning to labels -/

/-- Different values of the entries are at different positions in memory. -/
theorem Ok.position_injective {s : State} {o : LabelsObject} (h : o.Ok s) {i j i' j' : Nat} (hi : i < o.view.count) (hj : j < o.view.itemsize)
    (hi' : i' < o.view.count) (hj' : j' < o.view.itemsize)
    (he : (o.view.start + i * o.view.stride + j : Int).toNat = (o.view.start + i' * o.view.stride + j' : Int).toNat) : i = i' ∧ j = j' := by
  have h1 := (Ok.read h hi hj).1
  have h2 := (Ok.read h hi' hj').1
  have he : (i : Int) * o.view.stride + j = i' * o.view.stride + j' := by omega
  by_cases hii : i = i'
  · subst hii
    exact ⟨rfl, by omega⟩
  · exfalso
    rcases h.stride with hs | hs
    · omega
    · have := stride_mul hs (step := (i : Int) - i') (by omega)
      rw [Int.mul_comm, Int.sub_mul] at this
      omega

/-- **C113**, what assigning to labels changes: `labels[name][i] = x` raises an exception if the labels are read-only, and if this name or
entry does not exist, and nothing changes then. Otherwise this value is
the only one in these labels which is different afterward. -/
theorem C113_assignment (s : State) (g : Groups) (h : Reached s g) (l : Nat) (o : LabelsObject) (ho : s.labels[l]? = some o)
    (names : List String) (entries : List (List LabelValue)) (hs : s.shows l names entries) (name : String) (i : Nat) (x : LabelValue) :
    ((o.writeable = false ∨ name ∉ names ∨ entries.length ≤ i) → ∃ e, s.run (.writeLabels l name i x) = some (s, some e)) ∧
    (o.writeable = true → name ∈ names → i < entries.length → ∃ s' : State, ∃ entries' : List (List LabelValue),
      s.run (.writeLabels l name i x) = some (s', none) ∧
      s'.shows l names entries' ∧ entries'.length = entries.length ∧
      ∀ i' column : Nat, (entries'[i']?.bind fun entry => entry[column]?) =
        if i' = i ∧ names[column]? = some name then some x else entries[i']?.bind fun entry => entry[column]?) := by
  have hok := h.ok.labels _ (List.mem_of_getElem? ho)
  obtain ⟨o', ho', h1, h2⟩ := hs
  rw [ho] at ho'
  cases ho'
  have hnames : names = o.view.fields.map Prod.fst := h1.symm
  rw [Ok.entries hok] at h2
  cases h2
  simp only [List.length_map, List.length_range]
  constructor
  · intro hbad
    simp only [State.run, ho]
    split
    · exact ⟨_, rfl⟩
    · next offset hoff =>
      have hm := PyLabels.lookup_field hoff
      split
      · exact ⟨_, rfl⟩
      · next hi =>
        split
        · exact ⟨_, rfl⟩
        · next hw =>
          exfalso
          rcases hbad with hbad | hbad | hbad
          · simp [hbad] at hw
          · exact hbad (by rw [hnames]; exact List.mem_map_of_mem (f := Prod.fst) hm)
          · simp at hi
            omega
  · intro hw hname hi
    rw [hnames] at hname
    obtain ⟨offset, hoff⟩ := PyLabels.lookup_isSome hname
    have hm := PyLabels.lookup_field hoff
    have hlt := hok.fields _ hm
    obtain ⟨n, hn⟩ := place_of_writeable hok.flag hw
    have hrun : s.run (.writeLabels l name i x) =
        some (s.write (.numpy n) (o.view.start + i * o.view.stride + offset : Int).toNat x, none) := by
      simp [State.run, ho, hoff, hi, hw, hn]
    have hok' : o.Ok (s.write (.numpy n) (o.view.start + i * o.view.stride + offset : Int).toNat x) := hok.keep write_sizes
    refine ⟨_, _, hrun, ⟨o, ho, h1, Ok.entries hok'⟩, by simp, fun i' column => ?_⟩
    by_cases hi' : i' < o.view.count
    · simp only [List.getElem?_map, List.getElem?_range hi', Option.map_some, Option.bind_some, hnames]
      cases hf : o.view.fields[column]? with
      | none => simp
      | some f =>
        have hfm := List.mem_of_getElem? hf
        have hfl := hok.fields f hfm
        simp only [Option.map_some, Option.some.injEq]
        have hiff : ((o.view.start + i * o.view.stride + offset : Int).toNat = (o.view.start + i' * o.view.stride + f.2 : Int).toNat) ↔
            i' = i ∧ f.1 = name := by
          constructor
          · intro he
            obtain ⟨e1, e2⟩ := Ok.position_injective hok hi hlt hi' hfl he
            refine ⟨e1.symm, ?_⟩
            have := List.inj_on_of_nodup_map hok.offsets hm hfm e2
            rw [← this]
          · rintro ⟨rfl, rfl⟩
            have : (f.1, offset) = f := List.inj_on_of_nodup_map hok.names hm hfm rfl
            rw [← this]
        have hin : (o.view.start + i * o.view.stride + offset : Int).toNat < (s.memory o.place).length := (Ok.read hok hi hlt).2.1
        rw [memory_write, if_pos hn]
        simp only [List.getD_eq_getElem?_getD, List.getElem?_set, hiff]
        split
        · simp
        · rfl
    · have : ¬ i' = i := by omega
      simp [hi', this]

/-- **C113**, giving labels to the library: it gets a copy of the entries as they are at this time, if the labels are contiguous. What is missing: labels which are
not contiguous, see `C60_counterexample`. -/
theorem C113_given_partial (s : State) (g : Groups) (h : Reached s g) (l : Nat) (o : LabelsObject) (ho : s.labels[l]? = some o)
    (hc : Contiguous (s.see o)) (names : List String) (entries : List (List LabelValue)) (hs : s.shows l names entries) (hn : names ≠ [])
    (hz : ∀ n ∈ names, '\x00' ∉ n.toList) :
    ((∀ n ∈ names, Identifier n) → entries.Nodup → ∃ s' new, s.run (.give l) = some (s', none) ∧ s'.library = s.library ++ [new] ∧
      new.names = names ∧ new.iter = .ok entries) ∧
    (¬ ((∀ n ∈ names, Identifier n) ∧ entries.Nodup) → s.run (.give l) = some (s, some .equistoreError)) := by
  have hok := h.ok.labels _ (List.mem_of_getElem? ho)
  obtain ⟨full, hf⟩ := hok.shows
  obtain ⟨o', ho', rfl, h2⟩ := hs
  rw [ho] at ho'
  cases ho'
  obtain ⟨⟨hr, hsee⟩, entries', he, -, hiff⟩ := hf.sees hc hn hz
  rw [h2] at he
  cases he
  constructor
  · intro hid hnd
    obtain ⟨new, hnew⟩ := hiff.2 ⟨hid, hnd⟩
    obtain ⟨e1, entries', e2, e3⟩ := hsee new hnew
    rw [h2] at e2
    cases e2
    exact ⟨{ s with library := s.library ++ [new] }, new, by simp [State.run, ho, hr, hnew], rfl, e1, e3⟩
  · intro hbad
    simp only [State.run, ho, hr]
    cases hx : Labels.ofC (s.see o).toC with
    | ok new => exact absurd (hiff.1 ⟨new, hx⟩) hbad
    | err e => simp
    | panic e => simp

/-! ### Examples -/

/-- Run statements, and give the exceptions too. -/
def State.runAll (s : State) (g : Groups) : List Statement → Option (State × Groups × List (Option PyExc))
  | [] => some (s, g, [])
  | c :: rest => do
    let (s', r) ← s.run c
    let (s'', g'', rs) ← s'.runAll (if r.isNone then g.record s c else g) rest
    return (s'', g'', r :: rs)

theorem Later.cons {allowed : Groups → Statement → Prop} {s s' s'' : State} {g g'' : Groups} {c : Statement} {r : Option PyExc}
    (ha : allowed g c) (hr : s.run c = some (s', r)) (h : Later allowed s' (if r.isNone then g.record s c else g) s'' g'') :
    Later allowed s g s'' g'' := by
  induction h with
  | refl => exact .step .refl ha hr
  | step _ ha' hr' ih => exact .step ih ha' hr'

theorem Later.trans {allowed : Groups → Statement → Prop} {s s' s'' : State} {g g' g'' : Groups} (h : Later allowed s g s' g')
    (h' : Later allowed s' g' s'' g'') : Later allowed s g s'' g'' := by
  induction h' with
  | refl => exact h
  | step _ ha hr ih => exact .step ih ha hr

theorem runAll_later {s s' : State} {g g' : Groups} {cs : List Statement} {rs : List (Option PyExc)}
    (h : s.runAll g cs = some (s', g', rs)) : Later (fun _ _ => True) s g s' g' := by
  induction cs generalizing s g rs with
  | nil =>
    cases h
    exact .refl
  | cons c cs ih =>
    simp only [State.runAll, Option.bind_eq_bind, Option.bind_eq_some_iff] at h
    obtain ⟨⟨s₁, r⟩, h1, ⟨s₂, g₂, rs'⟩, h2, h3⟩ := h
    cases h3
    exact .cons trivial h1 (ih h2)

namespace Example

/-- Two arrays and labels with the memory of the first one, given to the library and taken from it. -/
def program : List Statement :=
  [.newArray true 3 2 [1, 2, 3, 4, 5, 6], .newArray false 2 1 [1, 2], .newLabels ["a", "b"] 0, .newLabels ["c"] 1,
   .give 0, .take 0, .index 2 (.slice none none (some (-2)))]

/-- Names, entries and the flag `writeable` of labels. -/
structure Seen where
  names : List String
  entries : Option (List (List LabelValue))
  writeable : Bool
  deriving DecidableEq

/-- What a program sees of all its labels. -/
def seen (s : State) : List Seen :=
  s.labels.map fun o => ⟨(s.see o).names, (s.see o).entries, o.writeable⟩

def reached : State × Groups := ((State.empty.runAll Groups.empty program).map fun x => (x.1, x.2.1)).getD (State.empty, Groups.empty)

theorem reached_ok : Reached reached.1 reached.2 := by
  have h : ∃ x, State.empty.runAll Groups.empty program = some x := Option.isSome_iff_exists.1 (by decide +kernel)
  obtain ⟨⟨s, g, rs⟩, h⟩ := h
  unfold reached
  rw [h]
  exact runAll_later h

/-- The labels of the program. -/
example : seen reached.1 = [⟨["a", "b"], some [[1, 2], [3, 4], [5, 6]], true⟩, ⟨["c"], some [[1], [2]], true⟩,
    ⟨["a", "b"], some [[1, 2], [3, 4], [5, 6]], false⟩, ⟨["a", "b"], some [[5, 6], [1, 2]], false⟩] ∧
    reached.2.labels = [0, 2, 3, 3] ∧ reached.2.arrays = [0, 1] := by decide +kernel

theorem shows_of {s : State} {l : Nat} {names : List String} {entries : List (List LabelValue)}
    (h : ((s.labels[l]?).map fun o => ((s.see o).names, (s.see o).entries)) = some (names, some entries)) : s.shows l names entries := by
  cases ho : s.labels[l]? with
  | none => simp [ho] at h
  | some o =>
    simp only [ho, Option.map_some, Option.some.injEq, Prod.mk.injEq] at h
    exact ⟨o, ho, h.1, h.2⟩

/-- Non-vacuity of `C113_library`, `C113_taken`, `C113_read_only` and `C113_read_only_assignment`: assigning to the array and the labels it was created from
changes these labels. It does not change the ones in the library, nor the
views into them, where assigning raises an exception. -/
example : ((reached.1.runAll reached.2 [.writeArray 0 1 0 7, .writeLabels 0 "b" 2 8, .writeLabels 2 "a" 0 9, .asarray 2, .writeArray 2 0 0 9]).map
    fun x => (seen x.1, x.2.2, x.1.library == reached.1.library)) =
    some ([⟨["a", "b"], some [[1, 2], [7, 4], [5, 8]], true⟩, ⟨["c"], some [[1], [2]], true⟩,
      ⟨["a", "b"], some [[1, 2], [3, 4], [5, 6]], false⟩, ⟨["a", "b"], some [[5, 6], [1, 2]], false⟩],
      [none, none, some .valueError, none, some .valueError], true) := by decide +kernel

/-- Non-vacuity of `C113_unchanged_partial`: the array with 64-bit integers was copied, and assigning to it is in another group than the
labels. -/
example : reached.1.shows 1 ["c"] [[1], [2]] ∧ reached.2.labels[1]? = some 2 ∧ ¬ reached.2.assigned (.writeArray 1 0 0 7) 2 ∧
    ((reached.1.run (.writeArray 1 0 0 7)).map fun x => (seen x.1)[1]?) = some (some ⟨["c"], some [[1], [2]], true⟩) ∧
    ((reached.1.run (.writeArray 1 0 0 7)).map fun x => x.1.buffers) = some [[1, 2, 3, 4, 5, 6], [7, 2], [1, 2]] :=
  ⟨shows_of (by decide +kernel), by decide +kernel, by unfold Groups.assigned; decide +kernel, by decide +kernel, by decide +kernel⟩

/-- Non-vacuity of `C113_assignment`: the slice `labels[::-1]` of writeable labels, where the second entry is in the middle. -/
example : ((reached.1.runAll reached.2 [.index 0 (.slice none none (some (-1))), .writeLabels 4 "b" 0 8, .writeLabels 4 "c" 0 8,
      .writeLabels 4 "b" 3 8]).map fun x => ((seen x.1)[4]?, (seen x.1)[0]?, x.2.2)) =
    some (some ⟨["a", "b"], some [[5, 8], [3, 4], [1, 2]], true⟩, some ⟨["a", "b"], some [[1, 2], [3, 4], [5, 8]], true⟩,
      [none, none, some .valueError, some .indexError]) := by decide +kernel

/-- Non-vacuity of `C113_created`: labels from the transposed array are a copy, and labels from its first row are not. -/
example : ((reached.1.runAll reached.2 [.viewArray 0 0 2 3 1 2, .newLabels ["x", "y", "z"] 2, .viewArray 0 2 2 2 2 1, .newLabels ["x", "y"] 3,
      .writeArray 0 1 1 9]).map fun x => ((seen x.1).drop 4, x.2.2, x.2.1.labels.drop 4)) =
    some ([⟨["x", "y", "z"], some [[1, 3, 5], [2, 4, 6]], true⟩, ⟨["x", "y"], some [[3, 9], [5, 6]], true⟩],
      [none, none, none, none, none], [4, 0]) := by decide +kernel

/-- Non-vacuity of `C113_given_partial`: after an assignment, the library gets the new entries, and raises an error if they are not different from each other. -/
example : ((reached.1.runAll reached.2 [.writeLabels 0 "a" 0 7, .give 0, .writeLabels 0 "a" 1 7, .writeLabels 0 "b" 1 2, .give 0]).map
      fun x => (x.1.library.map fun l => (l.names, l.values), x.2.2)) =
    some ([(["a", "b"], [1, 2, 3, 4, 5, 6]), (["a", "b"], [7, 2, 3, 4, 5, 6])], [none, none, none, none, some .equistoreError]) := by
  decide +kernel

end Example

open Example in
/-- **C113** does not hold: assigning to the array of `int32` the labels were created from changes the labels, and assigning to the labels
themselves is also possible. -/
theorem C113_counterexample : ¬ C113_full_statement := by
  intro h
  have hrun : ∃ x, reached.1.runAll reached.2 [.writeArray 0 1 0 7] = some x := Option.isSome_iff_exists.1 (by decide +kernel)
  obtain ⟨⟨s', g', rs⟩, hrun⟩ := hrun
  have := h _ _ reached_ok 0 ["a", "b"] [[1, 2], [3, 4], [5, 6]] (shows_of (by decide +kernel)) s' g' (runAll_later hrun)
  obtain ⟨o, ho, -, he⟩ := this
  have hx : ((reached.1.runAll reached.2 [.writeArray 0 1 0 7]).bind fun x => (x.1.labels[0]?).bind fun o => (x.1.see o).entries) =
      some [[1, 2], [7, 4], [5, 6]] := by decide +kernel
  rw [hrun] at hx
  simp only [Option.bind_some, ho, he] at hx
  revert hx
  decide +kernel

open Example in
/-- **C113**, consequence: the entries of labels can become the same after the labels were created, although this is rejected when creating labels
with `Labels(names, values)`. -/
theorem C113_counterexample_repeated : ∃ s g l names entries, Reached s g ∧ s.shows l names entries ∧ ¬ entries.Nodup := by
  have hrun : ∃ x, reached.1.runAll reached.2 [.writeArray 1 0 0 7, .writeLabels 1 "c" 0 2] = some x :=
    Option.isSome_iff_exists.1 (by decide +kernel)
  obtain ⟨⟨s', g', rs⟩, hrun⟩ := hrun
  have hx : ((reached.1.runAll reached.2 [.writeArray 1 0 0 7, .writeLabels 1 "c" 0 2]).bind fun x =>
      (x.1.labels[1]?).map fun o => ((x.1.see o).names, (x.1.see o).entries)) = some (["c"], some [[2], [2]]) := by decide +kernel
  rw [hrun] at hx
  exact ⟨s', g', 1, ["c"], [[2], [2]], Later.trans reached_ok (runAll_later hrun), shows_of hx, by decide⟩

end LabelsMemory
end Equistore
