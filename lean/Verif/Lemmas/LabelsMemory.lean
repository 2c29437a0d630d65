import Verif.Props.PyIndexing
import Verif.Spec.LabelsMemory

/-!
# Memory of labels in Python
-/

namespace Equistore
open Spec

theorem Labels.ofC_fromBuilder {c : CLabels} {l : Labels} (h : Labels.ofC c = .ok l) : l.FromBuilder := by
  unfold Labels.ofC at h
  simp only [Res.bind_eq_ok] at h
  obtain ⟨_, -, _, -, names, -, b, hb, h⟩ := h
  unfold Labels.FromBuilder Labels.build
  simp only [Res.bind_eq_ok]
  split at h
  · exact ⟨names, [], b, hb, b, rfl, h⟩
  · obtain ⟨b', hb', hl⟩ := Res.bind_eq_ok.1 h
    exact ⟨names, _, b, hb, b', hb', hl⟩

namespace LabelsMemory

/-- Everything which can be read with a view is inside of memory. -/
def Within (size start rows columns : Nat) (rowStride columnStride : Int) : Prop :=
  (0 < columns → start ≤ size) ∧ ∀ i < rows, ∀ j < columns, 0 ≤ start + i * rowStride + j * columnStride ∧
    start + i * rowStride + j * columnStride < (size : Int)

def State.has (s : State) : Place → Prop
  | .numpy n => n < s.buffers.length
  | .library k => k < s.library.length

structure IntArray.Ok (s : State) (a : IntArray) : Prop where
  within : Within (s.memory a.place).length a.start a.rows a.columns a.rowStride a.columnStride
  has : s.has a.place
  flag : (∃ k, a.place = .library k) ↔ a.writeable = false

structure LabelsObject.Ok (s : State) (o : LabelsObject) : Prop where
  within : Within (s.memory o.place).length o.view.start o.view.count o.view.itemsize o.view.stride 1
  fields : ∀ f ∈ o.view.fields, f.2 < o.view.itemsize
  names : o.view.names.Nodup
  offsets : (o.view.fields.map Prod.snd).Nodup
  stride : o.view.count ≤ 1 ∨ (o.view.itemsize : Int) ≤ o.view.stride ∨ o.view.stride ≤ -(o.view.itemsize : Int)
  has : s.has o.place
  flag : (∃ k, o.place = .library k) ↔ o.writeable = false

structure State.Ok (s : State) : Prop where
  arrays : ∀ a ∈ s.arrays, a.Ok s
  labels : ∀ o ∈ s.labels, o.Ok s
  library : ∀ l ∈ s.library, l.FromBuilder

theorem State.empty_ok : State.empty.Ok := ⟨by simp [State.empty], by simp [State.empty], by simp [State.empty]⟩

/-- The same places exist, with the same size. -/
def SameSizes (s s' : State) : Prop := ∀ p, s.has p → s'.has p ∧ (s'.memory p).length = (s.memory p).length

theorem IntArray.Ok.keep {s s' : State} {a : IntArray} (h : a.Ok s) (hs : SameSizes s s') : a.Ok s' := by
  obtain ⟨h1, h2⟩ := hs _ h.has
  exact ⟨by rw [h2]; exact h.within, h1, h.flag⟩

theorem LabelsObject.Ok.keep {s s' : State} {o : LabelsObject} (h : o.Ok s) (hs : SameSizes s s') : o.Ok s' := by
  obtain ⟨h1, h2⟩ := hs _ h.has
  exact ⟨by rw [h2]; exact h.within, h.fields, h.names, h.offsets, h.stride, h1, h.flag⟩

/-- Objects and memory are added, and everything which was there is the same. -/
structure Adds (s s' : State) : Prop where
  buffers : ∃ b, s'.buffers = s.buffers ++ b
  library : ∃ l, s'.library = s.library ++ l ∧ ∀ x ∈ l, x.FromBuilder
  arrays : ∃ a, s'.arrays = s.arrays ++ a ∧ ∀ x ∈ a, x.Ok s'
  labels : ∃ o, s'.labels = s.labels ++ o ∧ ∀ x ∈ o, x.Ok s'

theorem Adds.memory {s s' : State} (h : Adds s s') {p : Place} (hp : s.has p) : s'.has p ∧ s'.memory p = s.memory p := by
  obtain ⟨b, hb⟩ := h.buffers
  obtain ⟨l, hl, -⟩ := h.library
  cases p with
  | numpy n =>
    have hp : n < s.buffers.length := hp
    refine ⟨?_, ?_⟩
    · change n < s'.buffers.length
      rw [hb, List.length_append]
      omega
    · simp only [State.memory, hb, List.getD_eq_getElem?_getD, List.getElem?_append_left hp]
  | library k =>
    have hp : k < s.library.length := hp
    refine ⟨?_, ?_⟩
    · change k < s'.library.length
      rw [hl, List.length_append]
      omega
    · simp only [State.memory, hl, List.getElem?_append_left hp]

theorem Adds.ok {s s' : State} (h : Adds s s') (hs : s.Ok) : s'.Ok := by
  have hsz : SameSizes s s' := fun p hp => ⟨(h.memory hp).1, by rw [(h.memory hp).2]⟩
  obtain ⟨l, hl, hl'⟩ := h.library
  obtain ⟨a, ha, ha'⟩ := h.arrays
  obtain ⟨o, ho, ho'⟩ := h.labels
  refine ⟨fun x hx => ?_, fun x hx => ?_, fun x hx => ?_⟩
  · rw [ha] at hx
    rcases List.mem_append.1 hx with hx | hx
    · exact (hs.arrays x hx).keep hsz
    · exact ha' x hx
  · rw [ho] at hx
    rcases List.mem_append.1 hx with hx | hx
    · exact (hs.labels x hx).keep hsz
    · exact ho' x hx
  · rw [hl] at hx
    rcases List.mem_append.1 hx with hx | hx
    · exact hs.library x hx
    · exact hl' x hx

theorem Adds.refl (s : State) : Adds s s :=
  ⟨⟨[], by simp⟩, ⟨[], by simp⟩, ⟨[], by simp⟩, ⟨[], by simp⟩⟩

theorem memory_write {s : State} {n position : Nat} {x : LabelValue} {p : Place} :
    (s.write (.numpy n) position x).memory p =
      if p = .numpy n then (s.memory p).set position x.toInt else s.memory p := by
  cases p with
  | library k => simp [State.write, State.memory]
  | numpy m =>
    simp only [State.write, State.memory, List.getD_eq_getElem?_getD, List.getElem?_set, Place.numpy.injEq]
    by_cases h : n = m
    · subst h
      simp only [if_true]
      by_cases hl : n < s.buffers.length
      · simp [hl]
      · simp [hl]
    · rw [if_neg h, if_neg (fun e => h e.symm)]

theorem write_sizes {s : State} {n position : Nat} {x : LabelValue} : SameSizes s (s.write (.numpy n) position x) := by
  intro p hp
  refine ⟨?_, ?_⟩
  · cases p with
    | numpy m =>
      change m < (s.buffers.set n _).length
      rw [List.length_set]
      exact hp
    | library k => exact hp
  · rw [memory_write]
    split <;> simp

theorem write_ok {s : State} {n position : Nat} {x : LabelValue} (hs : s.Ok) : (s.write (.numpy n) position x).Ok :=
  ⟨fun a ha => (hs.arrays a ha).keep write_sizes, fun o ho => (hs.labels o ho).keep write_sizes, hs.library⟩

/-! ### Views -/

theorem shows_of_within {v : PyLabels} (hw : Within v.memory.length v.start v.count v.itemsize v.stride 1)
    (hf : ∀ f ∈ v.fields, f.2 < v.itemsize) (hn : v.names.Nodup) : ∃ full, v.Shows full := by
  refine ⟨(List.range v.count).map fun i => (List.range v.itemsize).map fun j => (v.read i j).getD 0,
    by simp, ?_, hf, hn, hw.1, ?_⟩
  · intro r hr
    obtain ⟨i, -, rfl⟩ := List.mem_map.1 hr
    simp
  · intro i hi j hj
    have hi : i < v.count := by simpa using hi
    obtain ⟨h1, h2⟩ := hw.2 i hi j hj
    rw [Int.mul_one] at h1 h2
    have : v.read i j = some (v.memory[(v.start + i * v.stride + j : Int).toNat]'(by omega)) := by
      unfold PyLabels.read
      simp only
      rw [if_pos h1, List.getElem?_eq_getElem]
    simp [hj, this]

theorem within_of_shows {v : PyLabels} {full : List (List LabelValue)} (h : v.Shows full) :
    Within v.memory.length v.start v.count v.itemsize v.stride 1 := by
  refine ⟨h.start, fun i hi j hj => ?_⟩
  rw [h.count] at hi
  have hr := h.read i hi j hj
  rw [List.getElem?_eq_getElem (by rw [h.row _ (List.getElem_mem hi)]; exact hj)] at hr
  unfold PyLabels.read at hr
  simp only at hr
  split at hr
  · next hp =>
    obtain ⟨hlt, -⟩ := List.getElem?_eq_some_iff.1 hr
    rw [Int.mul_one]
    exact ⟨hp, by omega⟩
  · cases hr

theorem see_memory_length {s : State} {o : LabelsObject} : (s.see o).memory.length = (s.memory o.place).length := by
  simp [State.see]

theorem LabelsObject.Ok.shows {s : State} {o : LabelsObject} (h : o.Ok s) : ∃ full, (s.see o).Shows full :=
  shows_of_within (by rw [see_memory_length]; exact h.within) h.fields h.names

theorem toInt_ofInt (l : List LabelValue) : (l.map Int32.toInt).map Int32.ofInt = l := by
  rw [List.map_map]
  conv => rhs; rw [← List.map_id l]
  exact List.map_congr_left fun x _ => Int32.ofInt_toInt x

/-- The result of `Labels(names, array)` is a view into a whole array. -/
theorem new_ofMemory {names : List String} {rows columns : Nat} {elements : List Int} {c : Option CLabels} {v : PyLabels}
    (h : PyLabels.new names (.array true [rows, columns] elements) c = .ok v) :
    ∃ names', names'.length = columns ∧ names'.Nodup ∧ v = PyLabels.ofMemory names' (elements.map Int32.ofInt) rows c := by
  unfold PyLabels.new at h
  simp only [Bool.not_true, Bool.false_eq_true, if_false] at h
  split at h
  · cases h
  · next h1 =>
    split at h
    · next h0 =>
      cases h
      exact ⟨[], by simp [h0], by simp, rfl⟩
    · split at h
      · cases h
      · next hd =>
        split at h
        · cases h
        · cases h
          refine ⟨fieldNames names, ?_, by simpa using hd, rfl⟩
          rw [fieldNames_length]
          omega

theorem ofMemory_fields {names : List String} {memory : List LabelValue} {count : Nat} {c : Option CLabels} (hn : names.Nodup) :
    (∀ f ∈ (PyLabels.ofMemory names memory count c).fields, f.2 < names.length) ∧
    (PyLabels.ofMemory names memory count c).names.Nodup ∧
    ((PyLabels.ofMemory names memory count c).fields.map Prod.snd).Nodup := by
  refine ⟨fun f hf => ?_, by rw [PyLabels.names_ofMemory]; exact hn, ?_⟩
  · have := List.mem_map_of_mem (f := Prod.snd) hf
    simp only [PyLabels.ofMemory] at this
    rw [zipIdx_map_snd] at this
    simpa using this
  · simp only [PyLabels.ofMemory]
    rw [zipIdx_map_snd]
    exact List.nodup_range

theorem within_packed {size rows columns : Nat} (h : rows * columns ≤ size) : Within size 0 rows columns columns 1 := by
  refine ⟨fun _ => by omega, fun i hi j hj => ?_⟩
  have : (i + 1) * columns ≤ rows * columns := Nat.mul_le_mul_right _ hi
  rw [Nat.add_mul, Nat.one_mul] at this
  have e : ((0 : Nat) + (i : Int) * columns + j * 1 : Int) = ((i * columns + j : Nat) : Int) := by
    push_cast
    omega
  rw [e]
  omega

theorem position_contiguous {a : IntArray} (hc : a.contiguous = true) {i j : Nat} (hi : i < a.rows) (hj : j < a.columns) :
    a.position i j = a.start + i * a.columns + j := by
  unfold IntArray.contiguous at hc
  simp only [Bool.or_eq_true, Bool.and_eq_true, beq_iff_eq, decide_eq_true_eq] at hc
  have e : (i : Int) * a.rowStride + j * a.columnStride = i * a.columns + j := by
    rcases hc with hc | ⟨h1, h2⟩
    · rcases Nat.mul_eq_zero.1 hc with hc | hc <;> omega
    · have e1 : (j : Int) * a.columnStride = j := by
        rcases h1 with h1 | h1
        · have : j = 0 := by omega
          subst this
          simp
        · rw [h1, Int.mul_one]
      have e2 : (i : Int) * a.rowStride = i * a.columns := by
        rcases h2 with h2 | h2
        · have : i = 0 := by omega
          subst this
          simp
        · rw [h2]
      rw [e1, e2]
  unfold IntArray.position
  omega

theorem within_contiguous {a : IntArray} {size : Nat} (h : Within size a.start a.rows a.columns a.rowStride a.columnStride)
    (hc : a.contiguous = true) : Within size a.start a.rows a.columns a.columns 1 := by
  refine ⟨h.1, fun i hi j hj => ?_⟩
  have h1 := h.2 i hi j hj
  have h2 := position_contiguous hc hi hj
  unfold IntArray.position at h2
  omega

theorem elements_length {s : State} {a : IntArray} : (s.elements a).length = a.rows * a.columns := by
  unfold State.elements
  rw [List.length_flatMap]
  simp

/-- Labels with their own memory. -/
theorem withCopy_adds {s : State} {v : PyLabels} (hw : Within v.memory.length v.start v.count v.itemsize v.stride 1)
    (hf : ∀ f ∈ v.fields, f.2 < v.itemsize) (hn : v.names.Nodup) (ho : (v.fields.map Prod.snd).Nodup)
    (hs : v.count ≤ 1 ∨ (v.itemsize : Int) ≤ v.stride ∨ v.stride ≤ -(v.itemsize : Int)) : Adds s (s.withCopy v) := by
  refine ⟨⟨_, rfl⟩, ⟨[], by simp [State.withCopy], by simp⟩, ⟨[], by simp [State.withCopy], by simp⟩, ⟨_, rfl, ?_⟩⟩
  intro o h
  rw [List.mem_singleton] at h
  subst h
  refine ⟨?_, hf, hn, ho, hs, ?_, ⟨(fun ⟨_, h⟩ => by cases h), (fun h => by cases h)⟩⟩
  · simp only [State.withCopy, State.memory, List.getD_eq_getElem?_getD]
    simpa using hw
  · change s.buffers.length < (s.buffers ++ _).length
    simp

theorem see_withCopy {s : State} {v : PyLabels} :
    (s.withCopy v).see { place := .numpy s.buffers.length, view := v, writeable := true } = v := by
  have := toInt_ofInt v.memory
  rw [List.map_map] at this
  simp [State.see, State.withCopy, State.memory, this]

theorem adds_array {s : State} {b : List (List Int)} {a : IntArray} (h : a.Ok { s with buffers := s.buffers ++ b, arrays := s.arrays ++ [a] }) :
    Adds s { s with buffers := s.buffers ++ b, arrays := s.arrays ++ [a] } :=
  ⟨⟨b, rfl⟩, ⟨[], by simp, by simp⟩, ⟨[a], rfl, by simpa using h⟩, ⟨[], by simp, by simp⟩⟩

theorem adds_labels {s : State} {o : LabelsObject} (h : o.Ok s) : Adds s { s with labels := s.labels ++ [o] } :=
  ⟨⟨[], by simp⟩, ⟨[], by simp, by simp⟩, ⟨[], by simp, by simp⟩, ⟨[o], rfl, by
    simp only [List.mem_singleton, forall_eq]
    exact h.keep fun p hp => ⟨hp, rfl⟩⟩⟩

/-- Offsets of selected names. -/
theorem offsets_select {fields out : List (String × Nat)} (ho : (fields.map Prod.snd).Nodup) (hsub : ∀ f ∈ out, f ∈ fields)
    (hn : (out.map Prod.fst).Nodup) : (out.map Prod.snd).Nodup := by
  have hinj : ∀ f ∈ fields, ∀ g ∈ fields, f.2 = g.2 → f = g := fun f hf g hg h => List.inj_on_of_nodup_map ho hf hg h
  refine List.Nodup.map_on ?_ (List.Nodup.of_map _ hn)
  intro f hf g hg h
  exact hinj f (hsub f hf) g (hsub g hg) h

theorem stride_mul {size : Nat} {stride step : Int} (h : (size : Int) ≤ stride ∨ stride ≤ -(size : Int)) (h0 : step ≠ 0) :
    (size : Int) ≤ stride * step ∨ stride * step ≤ -(size : Int) := by
  have h1 : size ≤ stride.natAbs := by omega
  have h2 : 1 ≤ step.natAbs := by omega
  have h3 : size ≤ (stride * step).natAbs := by
    rw [Int.natAbs_mul]
    exact Nat.le_trans h1 (Nat.le_mul_of_pos_right _ h2)
  omega

/-- Labels from indexing, if they are valid as a view into the same memory or their own. -/
theorem getItem_ok {s : State} {o : LabelsObject} (h : o.Ok s) {i : LabelsIndex} {v : PyLabels} (hv : (s.see o).getItem i = .ok v) :
    Within v.memory.length v.start v.count v.itemsize v.stride 1 ∧ (∀ f ∈ v.fields, f.2 < v.itemsize) ∧ v.names.Nodup ∧
    (v.fields.map Prod.snd).Nodup ∧ (v.count ≤ 1 ∨ (v.itemsize : Int) ≤ v.stride ∨ v.stride ≤ -(v.itemsize : Int)) ∧
    ((∀ l, i ≠ .positions l) → v.memory = (s.see o).memory) := by
  obtain ⟨full, hs⟩ := h.shows
  cases i with
  | slice start stop step =>
    obtain ⟨-, pos, -, hpos, h3, h4, h5⟩ := hs.slice hv
    unfold PyLabels.getItem at hv
    cases hi : sliceIndices (s.see o).count start stop step with
    | none =>
      simp only [hi] at hv
      cases hv
    | some q =>
      obtain ⟨first, st, count⟩ := q
      simp only [hi] at hv
      obtain ⟨-, hst, hin, -⟩ := PyLabels.sliceIndices_takes hi
      refine ⟨within_of_shows h3, h3.fields, h3.names, by rw [h4]; exact h.offsets, ?_, fun _ => by cases hv; rfl⟩
      cases hv
      by_cases hc : count ≤ 1
      · exact .inl hc
      right
      have h1 := hin 0 (by omega)
      have h2 := hin 1 (by omega)
      have hcount : ¬ (s.see o).count ≤ 1 := by
        intro hle
        simp only [Int.natCast_zero, Int.zero_mul, Int.natCast_one, Int.one_mul, Int.add_zero] at h1 h2
        omega
      rcases h.stride with h6 | h6
      · exact absurd h6 hcount
      · exact stride_mul h6 hst
  | positions indices =>
    obtain ⟨_, -, -, -, h3, h4, h5, h6⟩ := hs.positions hv
    refine ⟨within_of_shows h3, h3.fields, h3.names, by rw [h4]; exact h.offsets, .inr (.inl (by rw [h6]; exact Int.le_refl _)),
      fun hne => absurd rfl (hne indices)⟩
  | names names =>
    obtain ⟨h1, h3, h4, -, h5⟩ := hs.select hv
    simp only [PyLabels.getItem] at hv
    split at hv
    · cases hv
    · split at hv
      · cases hv
      · cases hv
        exact ⟨within_of_shows h3, h3.fields, h3.names, offsets_select h.offsets h4 h3.names, h.stride, fun _ => rfl⟩

/-- Labels the library gives. -/
theorem take_view {l : Labels} (hl : l.FromBuilder) {c : CLabels} (hc : l.toC = .ok c) :
    l.WF ∧ c.count = l.rows.length ∧
    PyLabels.ofC c = .ok (PyLabels.ofMemory l.names l.rows.flatten l.rows.length (if l.rows = [] then none else some c)) := by
  have hn : l.names ≠ [] := by
    unfold Labels.toC at hc
    simp only [Res.bind_eq_ok] at hc
    obtain ⟨n, h, -⟩ := hc
    exact Labels.count_ok_ne h
  have hw := hl.wf hn
  refine ⟨hw, ?_, PyLabels.ofC_eq hw hn hc⟩
  have := Labels.Holds.toC hw
  rw [hc] at this
  cases this
  rfl

theorem memory_library {s : State} {k : Nat} {l : Labels} (h : s.library[k]? = some l) :
    s.memory (.library k) = l.values.map Int32.toInt := by
  simp [State.memory, h]

theorem place_of_writeable {p : Place} {w : Bool} (h : (∃ k, p = .library k) ↔ w = false) (hw : w = true) : ∃ n, p = .numpy n := by
  cases p with
  | numpy n => exact ⟨n, rfl⟩
  | library k =>
    rw [h.1 ⟨k, rfl⟩] at hw
    cases hw

/-- What statements do: add objects, or assign to one of them. -/
theorem run_cases {s s' : State} {c : Statement} {r : Option PyExc} (hs : s.Ok) (h : s.run c = some (s', r)) :
    Adds s s' ∨ ∃ n position x, s' = s.write (.numpy n) position x ∧
      ((∃ a i j array, c = .writeArray a i j x ∧ s.arrays[a]? = some array ∧ array.place = .numpy n) ∨
       (∃ l name i o, c = .writeLabels l name i x ∧ s.labels[l]? = some o ∧ o.place = .numpy n)) := by
  have hfail : ∀ {e}, some (s, some e) = some (s', r) → Adds s s' := by
    intro e he
    cases he
    exact Adds.refl s
  cases c with
  | newArray int32 rows columns elements =>
    left
    simp only [State.run] at h
    split at h
    · exact hfail h
    · next hl =>
      split at h
      · exact hfail h
      · cases h
        refine adds_array ⟨?_, ?_, ⟨(fun ⟨_, h⟩ => by cases h), (fun h => by cases h)⟩⟩
        · simp only [State.memory, List.getD_eq_getElem?_getD]
          refine within_packed ?_
          simp
          omega
        · change s.buffers.length < (s.buffers ++ _).length
          simp
  | viewArray a start rows columns rowStride columnStride =>
    left
    simp only [State.run] at h
    split at h
    · exact hfail h
    · next array ha =>
      split at h
      · next hin =>
        cases h
        have ha := hs.arrays _ (List.mem_of_getElem? ha)
        simp only [Bool.and_eq_true, decide_eq_true_eq, List.all_eq_true, List.mem_range, IntArray.position] at hin
        have hok : IntArray.Ok s { array with start, rows, columns, rowStride, columnStride } :=
          ⟨⟨fun _ => hin.1, fun i hi j hj => ⟨of_decide_eq_true (hin.2 i hi j hj).1, of_decide_eq_true (hin.2 i hi j hj).2⟩⟩, ha.has, ha.flag⟩
        exact ⟨⟨[], by simp⟩, ⟨[], by simp, by simp⟩, ⟨_, rfl, by
          simp only [List.mem_singleton, forall_eq]
          exact hok.keep fun p hp => ⟨hp, rfl⟩⟩, ⟨[], by simp, by simp⟩⟩
      · exact hfail h
  | copyArray a =>
    left
    simp only [State.run] at h
    split at h
    · exact hfail h
    · next array ha =>
      cases h
      refine adds_array ⟨?_, ?_, ⟨(fun ⟨_, h⟩ => by cases h), (fun h => by cases h)⟩⟩
      · simp only [State.memory, List.getD_eq_getElem?_getD]
        refine within_packed ?_
        simp [elements_length]
      · change s.buffers.length < (s.buffers ++ _).length
        simp
  | newLabels names a =>
    left
    simp only [State.run] at h
    split at h
    · exact hfail h
    · next array ha =>
      split at h
      · exact hfail h
      · next v hv =>
        obtain ⟨names', hlen, hnd, rfl⟩ := new_ofMemory hv
        obtain ⟨h1, h2, h3⟩ := ofMemory_fields (memory := (s.elements array).map Int32.ofInt) (count := array.rows) (c := none) hnd
        split at h
        · next hsame =>
          cases h
          simp only [Bool.and_eq_true] at hsame
          have ha := hs.arrays _ (List.mem_of_getElem? ha)
          refine adds_labels ⟨?_, h1, h2, h3, .inr (.inl (Int.le_refl _)), ha.has, ha.flag⟩
          have := within_contiguous ha.within hsame.2
          rw [← hlen] at this
          exact this
        · cases h
          refine withCopy_adds ?_ h1 h2 h3 (.inr (.inl (Int.le_refl _)))
          refine within_packed ?_
          simp [PyLabels.ofMemory, elements_length, hlen]
  | index l i =>
    left
    simp only [State.run] at h
    split at h
    · exact hfail h
    · next o ho =>
      have ho := hs.labels _ (List.mem_of_getElem? ho)
      split at h
      · exact hfail h
      · next v hv =>
        obtain ⟨h1, h2, h3, h4, h5, h6⟩ := getItem_ok ho hv
        split at h
        · cases h
          exact withCopy_adds h1 h2 h3 h4 h5
        · next hne =>
          cases h
          refine adds_labels ⟨?_, h2, h3, h4, h5, ho.has, ho.flag⟩
          rw [h6 hne, see_memory_length] at h1
          exact h1
  | asarray l =>
    left
    simp only [State.run] at h
    split at h
    · exact hfail h
    · next o ho =>
      have ho := hs.labels _ (List.mem_of_getElem? ho)
      split at h
      · exact hfail h
      · cases h
        have hok : IntArray.Ok s ⟨o.place, true, o.view.start, o.view.count, o.view.itemsize, o.view.stride, 1, o.writeable⟩ :=
          ⟨ho.within, ho.has, ho.flag⟩
        exact ⟨⟨[], by simp⟩, ⟨[], by simp, by simp⟩, ⟨_, rfl, by
          simp only [List.mem_singleton, forall_eq]
          exact hok.keep fun p hp => ⟨hp, rfl⟩⟩, ⟨[], by simp, by simp⟩⟩
  | writeArray a i j x =>
    simp only [State.run] at h
    split at h
    · exact .inl (hfail h)
    · next array ha =>
      split at h
      · exact .inl (hfail h)
      · split at h
        · exact .inl (hfail h)
        · next hw =>
          cases h
          obtain ⟨n, hn⟩ := place_of_writeable (hs.arrays _ (List.mem_of_getElem? ha)).flag (by simpa using hw)
          exact .inr ⟨n, _, x, by rw [hn], .inl ⟨a, i, j, array, rfl, ha, hn⟩⟩
  | writeLabels l name i x =>
    simp only [State.run] at h
    split at h
    · exact .inl (hfail h)
    · next o ho =>
      split at h
      · exact .inl (hfail h)
      · split at h
        · exact .inl (hfail h)
        · split at h
          · exact .inl (hfail h)
          · next hw =>
            cases h
            obtain ⟨n, hn⟩ := place_of_writeable (hs.labels _ (List.mem_of_getElem? ho)).flag (by simpa using hw)
            exact .inr ⟨n, _, x, by rw [hn], .inr ⟨l, name, i, o, rfl, ho, hn⟩⟩
  | give l =>
    left
    simp only [State.run] at h
    split at h
    · exact hfail h
    · split at h
      · cases h
      · split at h
        · next l hl =>
          cases h
          exact ⟨⟨[], by simp⟩, ⟨_, rfl, by simpa using Labels.ofC_fromBuilder hl⟩, ⟨[], by simp, by simp⟩, ⟨[], by simp, by simp⟩⟩
        · exact hfail h
  | take k =>
    left
    simp only [State.run] at h
    split at h
    · exact hfail h
    · next l hl =>
      split at h
      · next c hc =>
        obtain ⟨hw, hcount, hv⟩ := take_view (hs.library _ (List.mem_of_getElem? hl)) hc
        rw [hv] at h
        simp only at h
        obtain ⟨h1, h2, h3⟩ := ofMemory_fields (memory := l.rows.flatten) (count := l.rows.length)
          (c := if l.rows = [] then none else some c) hw.names_ok.2
        have hpacked : l.rows.length * l.names.length ≤ l.rows.flatten.length := by
          rw [flatten_length_const hw.row_length]
          exact Nat.le_refl _
        split at h
        · cases h
          refine adds_labels ⟨?_, h1, h2, h3, .inr (.inl (Int.le_refl _)), ?_, ⟨fun _ => rfl, fun _ => ⟨_, rfl⟩⟩⟩
          · rw [memory_library hl, List.length_map, hw.values_eq]
            exact within_packed hpacked
          · exact (List.getElem?_eq_some_iff.1 hl).1
        · cases h
          exact withCopy_adds (within_packed hpacked) h1 h2 h3 (.inr (.inl (Int.le_refl _)))
      · exact hfail h

theorem run_ok {s s' : State} {c : Statement} {r : Option PyExc} (hs : s.Ok) (h : s.run c = some (s', r)) : s'.Ok := by
  rcases run_cases hs h with h | ⟨n, position, x, rfl, -⟩
  · exact h.ok hs
  · exact write_ok hs

theorem Later.ok {allowed : Groups → Statement → Prop} {s s' : State} {g g' : Groups} (h : Later allowed s g s' g') (hs : s.Ok) : s'.Ok := by
  induction h with
  | refl => exact hs
  | step _ _ hr ih => exact run_ok ih hr

theorem Reached.ok {s : State} {g : Groups} (h : Reached s g) : s.Ok := Later.ok h State.empty_ok

/-- Objects stay, and memory of the library never changes. -/
theorem run_keeps {s s' : State} {c : Statement} {r : Option PyExc} (hs : s.Ok) (h : s.run c = some (s', r)) :
    (∃ l, s'.library = s.library ++ l) ∧ (∃ a, s'.arrays = s.arrays ++ a) ∧ (∃ o, s'.labels = s.labels ++ o) := by
  rcases run_cases hs h with h | ⟨n, position, x, rfl, -⟩
  · obtain ⟨l, hl, -⟩ := h.library
    obtain ⟨a, ha, -⟩ := h.arrays
    obtain ⟨o, ho, -⟩ := h.labels
    exact ⟨⟨l, hl⟩, ⟨a, ha⟩, ⟨o, ho⟩⟩
  · exact ⟨⟨[], by simp [State.write]⟩, ⟨[], by simp [State.write]⟩, ⟨[], by simp [State.write]⟩⟩

theorem getElem?_append_some {α : Type} {l l' : List α} {i : Nat} {x : α} (h : l[i]? = some x) : (l ++ l')[i]? = some x := by
  obtain ⟨hi, -⟩ := List.getElem?_eq_some_iff.1 h
  rw [List.getElem?_append_left hi, h]

theorem Later.library {allowed : Groups → Statement → Prop} {s s' : State} {g g' : Groups} (h : Later allowed s g s' g') (hs : s.Ok)
    {k : Nat} {l : Labels} (hl : s.library[k]? = some l) : s'.library[k]? = some l := by
  induction h with
  | refl => exact hl
  | step h _ hr ih =>
    obtain ⟨⟨_, e⟩, -⟩ := run_keeps (h.ok hs) hr
    rw [e]
    exact getElem?_append_some ih

theorem Later.labels {allowed : Groups → Statement → Prop} {s s' : State} {g g' : Groups} (h : Later allowed s g s' g') (hs : s.Ok)
    {l : Nat} {o : LabelsObject} (hl : s.labels[l]? = some o) : s'.labels[l]? = some o := by
  induction h with
  | refl => exact hl
  | step h _ hr ih =>
    obtain ⟨-, -, ⟨_, e⟩⟩ := run_keeps (h.ok hs) hr
    rw [e]
    exact getElem?_append_some ih

/-! ### Groups -/

/-- Each memory of numpy belongs to a group. -/
structure Owner (s : State) (g : Groups) (owner : Nat → Nat) : Prop where
  arrays_length : g.arrays.length = s.arrays.length
  labels_length : g.labels.length = s.labels.length
  arrays : ∀ (i : Nat) (a : IntArray) (n : Nat), s.arrays[i]? = some a → a.place = .numpy n → g.arrays[i]? = some (owner n)
  labels : ∀ (i : Nat) (o : LabelsObject) (n : Nat), s.labels[i]? = some o → o.place = .numpy n → g.labels[i]? = some (owner n)

theorem Owner.congr {s s' : State} {g : Groups} {owner : Nat → Nat} (h : Owner s g owner) (ha : s'.arrays = s.arrays)
    (hl : s'.labels = s.labels) : Owner s' g owner :=
  ⟨by rw [ha]; exact h.arrays_length, by rw [hl]; exact h.labels_length, by rw [ha]; exact h.arrays, by rw [hl]; exact h.labels⟩

theorem getElem?_snoc {α : Type} {l : List α} {x y : α} {i : Nat} (h : (l ++ [x])[i]? = some y) :
    l[i]? = some y ∨ (i = l.length ∧ y = x) := by
  rw [List.getElem?_append] at h
  split at h
  · exact .inl h
  · rw [List.getElem?_singleton] at h
    split at h
    · cases h
      exact .inr ⟨by omega, rfl⟩
    · cases h

theorem Owner.array {s s' : State} {g : Groups} {owner : Nat → Nat} (h : Owner s g owner) {a : IntArray} {n next : Nat}
    (ha : s'.arrays = s.arrays ++ [a]) (hl : s'.labels = s.labels) (hn : ∀ m, a.place = .numpy m → owner m = n) :
    Owner s' { g with arrays := g.arrays ++ [n], next } owner := by
  refine ⟨by simp [ha, h.arrays_length], by simp [hl, h.labels_length], ?_, by rw [hl]; exact h.labels⟩
  intro i b m hi hb
  rw [ha] at hi
  rcases getElem?_snoc hi with hi | ⟨rfl, rfl⟩
  · exact getElem?_append_some (h.arrays i b m hi hb)
  · rw [← h.arrays_length, hn m hb]
    simp

theorem Owner.label {s s' : State} {g : Groups} {owner : Nat → Nat} (h : Owner s g owner) {o : LabelsObject} {n next : Nat}
    (ha : s'.arrays = s.arrays) (hl : s'.labels = s.labels ++ [o]) (hn : ∀ m, o.place = .numpy m → owner m = n) :
    Owner s' { g with labels := g.labels ++ [n], next } owner := by
  refine ⟨by simp [ha, h.arrays_length], by simp [hl, h.labels_length], by rw [ha]; exact h.arrays, ?_⟩
  intro i b m hi hb
  rw [hl] at hi
  rcases getElem?_snoc hi with hi | ⟨rfl, rfl⟩
  · exact getElem?_append_some (h.labels i b m hi hb)
  · rw [← h.labels_length, hn m hb]
    simp

/-- New memory belongs to a new group. -/
def withOwner (owner : Nat → Nat) (n group : Nat) : Nat → Nat := fun m => if m = n then group else owner m

theorem Owner.fresh {s : State} {g : Groups} {owner : Nat → Nat} (h : Owner s g owner) (hs : s.Ok) (group : Nat) :
    Owner s g (withOwner owner s.buffers.length group) := by
  have key : ∀ {p : Place} {n : Nat}, s.has p → p = .numpy n → withOwner owner s.buffers.length group n = owner n := by
    rintro p n hp rfl
    have hp : n < s.buffers.length := hp
    exact if_neg (by omega)
  refine ⟨h.arrays_length, h.labels_length, fun i a n hi hp => ?_, fun i o n hi hp => ?_⟩
  · rw [key (hs.arrays _ (List.mem_of_getElem? hi)).has hp]
    exact h.arrays i a n hi hp
  · rw [key (hs.labels _ (List.mem_of_getElem? hi)).has hp]
    exact h.labels i o n hi hp

theorem Owner.withCopy {s : State} {g : Groups} {owner : Nat → Nat} (h : Owner s g owner) (hs : s.Ok) {v : PyLabels} {next : Nat} :
    Owner (s.withCopy v) { g with labels := g.labels ++ [g.next], next } (withOwner owner s.buffers.length g.next) := by
  refine (h.fresh hs g.next).label rfl rfl fun m hm => ?_
  cases hm
  exact if_pos rfl

theorem run_owner {s s' : State} {g : Groups} {owner : Nat → Nat} {c : Statement} {r : Option PyExc} (hs : s.Ok) (ho : Owner s g owner)
    (h : s.run c = some (s', r)) : ∃ owner', Owner s' (if r.isNone then g.record s c else g) owner' := by
  have hfail : ∀ {e}, some (s, some e) = some (s', r) → ∃ owner', Owner s' (if r.isNone then g.record s c else g) owner' := by
    intro e he
    cases he
    exact ⟨owner, ho⟩
  cases c with
  | newArray int32 rows columns elements =>
    simp only [State.run] at h
    split at h
    · exact hfail h
    · split at h
      · exact hfail h
      · cases h
        refine ⟨withOwner owner s.buffers.length g.next, (ho.fresh hs g.next).array rfl rfl fun m hm => ?_⟩
        cases hm
        exact if_pos rfl
  | viewArray a start rows columns rowStride columnStride =>
    simp only [State.run] at h
    split at h
    · exact hfail h
    · next array ha =>
      split at h
      · cases h
        refine ⟨owner, ho.array rfl rfl fun m hm => ?_⟩
        simp [List.getD_eq_getElem?_getD, ho.arrays _ _ _ ha hm]
      · exact hfail h
  | copyArray a =>
    simp only [State.run] at h
    split at h
    · exact hfail h
    · cases h
      refine ⟨withOwner owner s.buffers.length g.next, (ho.fresh hs g.next).array rfl rfl fun m hm => ?_⟩
      cases hm
      exact if_pos rfl
  | newLabels names a =>
    simp only [State.run] at h
    split at h
    · exact hfail h
    · next array ha =>
      split at h
      · exact hfail h
      · split at h
        · next hsame =>
          cases h
          simp only [Option.isNone_none, if_true, Groups.record, ha, Option.any_some, hsame]
          refine ⟨owner, ho.label rfl rfl fun m hm => ?_⟩
          simp [List.getD_eq_getElem?_getD, ho.arrays _ _ _ ha hm]
        · next hsame =>
          cases h
          simp only [Option.isNone_none, if_true, Groups.record, ha, Option.any_some, hsame]
          exact ⟨_, ho.withCopy hs⟩
  | index l i =>
    simp only [State.run] at h
    split at h
    · exact hfail h
    · next o hl =>
      split at h
      · exact hfail h
      · next v hv =>
        cases i with
        | positions indices =>
          cases h
          exact ⟨_, ho.withCopy hs⟩
        | slice start stop step =>
          cases h
          refine ⟨owner, ho.label rfl rfl fun m hm => ?_⟩
          simp [List.getD_eq_getElem?_getD, ho.labels _ _ _ hl hm]
        | names names =>
          cases h
          refine ⟨owner, ho.label rfl rfl fun m hm => ?_⟩
          simp [List.getD_eq_getElem?_getD, ho.labels _ _ _ hl hm]
  | asarray l =>
    simp only [State.run] at h
    split at h
    · exact hfail h
    · next o hl =>
      split at h
      · exact hfail h
      · cases h
        refine ⟨owner, ho.array rfl rfl fun m hm => ?_⟩
        simp [List.getD_eq_getElem?_getD, ho.labels _ _ _ hl hm]
  | writeArray a i j x =>
    have : (if r.isNone then g.record s (.writeArray a i j x) else g) = g := by split <;> rfl
    rw [this]
    rcases run_cases hs h with hadd | ⟨n, position, x, rfl, -⟩
    · simp only [State.run] at h
      repeat' split at h
      all_goals cases h
      all_goals refine ⟨owner, ho.congr ?_ ?_⟩
      all_goals first | rfl | (unfold State.write; split <;> first | rfl | (split <;> rfl))
    · exact ⟨owner, ho.congr rfl rfl⟩
  | writeLabels l name i x =>
    have : (if r.isNone then g.record s (.writeLabels l name i x) else g) = g := by split <;> rfl
    rw [this]
    rcases run_cases hs h with hadd | ⟨n, position, x, rfl, -⟩
    · simp only [State.run] at h
      repeat' split at h
      all_goals cases h
      all_goals refine ⟨owner, ho.congr ?_ ?_⟩
      all_goals first | rfl | (unfold State.write; split <;> first | rfl | (split <;> rfl))
    · exact ⟨owner, ho.congr rfl rfl⟩
  | give l =>
    have : (if r.isNone then g.record s (.give l) else g) = g := by split <;> rfl
    rw [this]
    simp only [State.run] at h
    repeat' split at h
    all_goals cases h
    all_goals exact ⟨owner, ho.congr rfl rfl⟩
  | take k =>
    simp only [State.run] at h
    split at h
    · exact hfail h
    · split at h
      · split at h
        · exact hfail h
        · split at h
          · cases h
            exact ⟨owner, ho.label rfl rfl fun m hm => by cases hm⟩
          · cases h
            exact ⟨_, ho.withCopy hs⟩
      · exact hfail h

theorem Later.owner {allowed : Groups → Statement → Prop} {s s' : State} {g g' : Groups} (h : Later allowed s g s' g') (hs : s.Ok)
    (ho : ∃ owner, Owner s g owner) : ∃ owner, Owner s' g' owner := by
  induction h with
  | refl => exact ho
  | step h _ hr ih =>
    obtain ⟨owner, ho⟩ := ih
    exact run_owner (h.ok hs) ho hr

theorem Reached.owner {s : State} {g : Groups} (h : Reached s g) : ∃ owner, Owner s g owner :=
  Later.owner h State.empty_ok ⟨id, rfl, rfl, by simp [State.empty], by simp [State.empty]⟩

theorem record_labels {s : State} {g : Groups} {c : Statement} : ∃ l, (g.record s c).labels = g.labels ++ l := by
  cases c with
  | index l i => cases i <;> exact ⟨_, rfl⟩
  | newLabels names a =>
    simp only [Groups.record]
    split <;> exact ⟨_, rfl⟩
  | take => exact ⟨_, rfl⟩
  | _ => exact ⟨[], by simp [Groups.record]⟩

theorem Later.groups {allowed : Groups → Statement → Prop} {s s' : State} {g g' : Groups} (h : Later allowed s g s' g') {l n : Nat}
    (hl : g.labels[l]? = some n) : g'.labels[l]? = some n := by
  induction h with
  | refl => exact hl
  | @step s' s'' g' c r h _ hr ih =>
    split
    · obtain ⟨x, hx⟩ := record_labels (s := s') (g := g') (c := c)
      rw [hx]
      exact getElem?_append_some ih
    · exact ih

end LabelsMemory
end Equistore
