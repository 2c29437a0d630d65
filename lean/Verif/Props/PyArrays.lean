import Verif.Props.PyViews
import Verif.Props.DataLifetimes
import Verif.Props.Archive
import Verif.Spec.PyArrays

/-!
# C77: arrays taken from blocks in Python can be used as long as they exist
-/

namespace Equistore
open Spec Heap

variable {B : Type} [Inhabited B] [ArrayCallbacks B]

namespace Python

/-- The block of this object exists and contains this array. -/
def GivesArray (s : PyState B) (l : PyLedger) (a : Nat) (source : Nat × Bytes) : Prop :=
  source.1 ∉ l.stale ∧ ∃ o place blk part, s.blocks source.1 = some o ∧ Place.of o.ptr = some place ∧
    place.block s.heap = some blk ∧ selectBasic blk source.2 = .ok part ∧ part.data.ptr = a

/-- Statements do not write into arrays of the library. -/
theorem issues_writes {s : PyState B} {pc : PyCall B} {reply : PyReply} {c : Call B} {r : Reply}
    (hi : Issues s pc reply c r) (a : Nat) : ¬Writes a c := by
  intro hw
  cases hi with
  | harmless hh => cases c <;> first | (cases hh; done) | (cases hw; done)
  | _ => cases hw

/-- The block of an object is still there after a statement, with the same arrays, and their content is the same. -/
theorem run_keepsData {rules : PyRule → Prop} (h1 : rules .moved) (h2 : rules .stale) {s s' : PyState B}
    {l : PyLedger} {p : Platform} (hi : PyInv (rules .accepted) s l) {pc : PyCall B}
    (hc : PyCall.Careful rules s l pc) {reply : PyReply} (hrun : pc.run p s = some (s', reply)) {b : Nat} {o : PyBlock}
    (hb : s.blocks b = some o) {place : Place} (hp : Place.of o.ptr = some place) (hdel : pc ≠ .deleteBlock b)
    (hexp : arrayExpires s l b pc reply = false) {blk : TensorBlock CArray} (hblk : place.block s.heap = some blk) :
    (∃ o', s'.blocks b = some o' ∧ o'.ptr = o.ptr) ∧
    ∃ blk', place.block s'.heap = some blk' ∧ KeepsParts SameData blk blk' ∧
      ∀ name part, selectBasic blk name = .ok part →
        s'.heap.arrays part.data.ptr = s.heap.arrays part.data.ptr := by
  have hpath := run_path h1 h2 hi hc hrun
  obtain ⟨lc, _, _, hobj, _⟩ := hi
  refine ⟨run_block hrun (fun i hi => (hobj.fresh i hi).1) hb hdel ?_, ?_⟩
  · rintro keys i rfl
    have h3 : (s.lists.getD i []).contains b = false := hexp
    simpa using h3
  · generalize s'.heap = h' at hpath ⊢
    induction hpath with
    | now => exact ⟨blk, hblk, keepsData_refl blk, fun _ _ _ => rfl⟩
    | step _ hr ha hcall hissue ih =>
      obtain ⟨blk₁, h3, h4, h5⟩ := ih
      obtain ⟨h6, h7⟩ := issues_after hobj hissue hb hp hdel hexp
      obtain ⟨⟨blk₂, h8, h9⟩, h10⟩ := data_step hr ha hcall h3 h6
      refine ⟨blk₂, h8, h4.trans SameData.trans h9, fun name part hs => ?_⟩
      obtain ⟨part₁, hs₁, hd⟩ := h4.select hs
      have hd : part₁.data = part.data := hd
      rw [← h5 name part hs, ← hd]
      refine h10 _ (List.mem_map.2 ⟨_, selectBasic_arrays hs₁, rfl⟩) ?_
      rintro (hw | hm)
      · exact issues_writes hissue _ hw
      · cases h7 hm

theorem GivesArray.step {rules : PyRule → Prop} (h1 : rules .moved) (h2 : rules .stale) {s s' : PyState B}
    {l : PyLedger} {p : Platform} (hi : PyInv (rules .accepted) s l) {pc : PyCall B}
    (hc : PyCall.Careful rules s l pc) {reply : PyReply} (hrun : pc.run p s = some (s', reply)) {a : Nat}
    {source : Nat × Bytes} (hdel : pc ≠ .deleteBlock source.1) (hexp : arrayExpires s l source.1 pc reply = false)
    (hg : GivesArray s l a source) :
    GivesArray s' (l.record s pc reply) a source ∧ s'.heap.arrays a = s.heap.arrays a := by
  obtain ⟨hs, o, place, blk, part, h3, h4, h5, h6, rfl⟩ := hg
  obtain ⟨⟨o', h7, h8⟩, blk', h9, h10, h11⟩ := run_keepsData h1 h2 hi hc hrun h3 h4 hdel hexp h5
  obtain ⟨part', h12, h13⟩ := h10.select h6
  have h13 : part'.data = part.data := h13
  exact ⟨⟨record_stale hexp hs, o', place, blk', part', h7, by rw [h8]; exact h4, h9, h12, by rw [h13]⟩,
    h11 _ _ h6⟩

theorem GivesArray.alive {all : Prop} {s : PyState B} {l : PyLedger} (hi : PyInv all s l) {a : Nat}
    {source : Nat × Bytes} (hg : GivesArray s l a source) : (s.heap.arrays a).isSome := by
  obtain ⟨lc, hr, _⟩ := hi
  obtain ⟨hs, o, place, blk, part, h3, h4, h5, h6, rfl⟩ := hg
  obtain ⟨owner, hinv⟩ := inv_run hr
  refine (hinv.heap.owned.alive _).2 ?_
  rw [hinv.heap.place_alive h5 part.data.ptr (List.mem_map.2 ⟨_, selectBasic_arrays h6, rfl⟩)]
  rfl

/-- What `eqs_block_data` gives for an object. -/
theorem data_call {all : Prop} {s : PyState B} {l : PyLedger} (hi : PyInv all s l) (p : Platform) {b : Nat}
    (hb : b ∉ l.stale) {o : PyBlock} (ho : s.blocks b = some o) (name : Bytes) :
    (∃ reply, s.call p (.blockData o.ptr name { ptr := 0, destroy := false }) = some (s, reply)) ∧
    ((o.ptr = .null ∧ eqsBlockData o.ptr name { ptr := 0, destroy := false } s.heap = some (s.heap, nullBlock)) ∨
      ∃ place blk, Place.of o.ptr = some place ∧ place.block s.heap = some blk ∧
        eqsBlockData o.ptr name { ptr := 0, destroy := false } s.heap =
          some (s.heap, (selectBasic blk name).map fun part => { ptr := part.data.ptr, destroy := false })) := by
  obtain ⟨lc, hr, _, hobj, halive⟩ := hi
  have hu := hobj.usable ho hb
  refine ⟨?_, ?_⟩
  · obtain ⟨reply, h1, _⟩ := call_read hr p (c := .blockData o.ptr name { ptr := 0, destroy := false }) ⟨hu, rfl⟩
      (halive.block_free hobj ho) (fun _ _ => data_read rfl)
    exact ⟨reply, h1⟩
  · cases hq : Place.of o.ptr with
    | none =>
      have hn : o.ptr = .null := by
        cases h : o.ptr <;> rw [h] at hq <;> first | rfl | cases hq
      exact .inl ⟨hn, by rw [hn]; rfl⟩
    | some place =>
      obtain ⟨blk, _, h2⟩ := block_of_place hr hu hq
      exact .inr ⟨place, blk, rfl, h2, eqsBlockData_of_place hr hu hq h2 name rfl⟩

/-- Another content for this array. -/
def writeArray (s : PyState B) (a : Nat) (content : B) : PyState B :=
  { s with heap := { s.heap with arrays := setAt s.heap.arrays a (some content) } }

theorem GivesArray.write {s : PyState B} {l : PyLedger} {a a' : Nat} {content : B} {source : Nat × Bytes}
    (hg : GivesArray s l a source) : GivesArray (writeArray s a' content) l a source := by
  obtain ⟨hs, o, place, blk, part, h3, h4, h5, h6, h7⟩ := hg
  exact ⟨hs, o, place, blk, part, h3, h4, by cases place <;> exact h5, h6, h7⟩

/-- The program can write into arrays of the library. -/
theorem PyInv.write {all : Prop} {s : PyState B} {l : PyLedger} (hi : PyInv all s l) (p : Platform) {a : Nat}
    {source : Nat × Bytes} (hg : GivesArray s l a source) {content : B} (ha : s.heap.arrays a = some content)
    (change : B → B) : PyInv all (writeArray s a (change content)) l := by
  obtain ⟨lc, hr, harr, hobj, halive⟩ := hi
  obtain ⟨hs, o, place, blk, part, h3, h4, h5, h6, rfl⟩ := hg
  have hu := hobj.usable h3 hs
  have h7 := eqsBlockData_of_place hr hu h4 h5 source.2 (old := { ptr := 0, destroy := false }) rfl
  rw [h6] at h7
  have h8 : (Call.blockData o.ptr source.2 { ptr := 0, destroy := false } : Call B).run p s.heap =
      some (s.heap, .array (.ok { ptr := part.data.ptr, destroy := false })) := by
    simp only [Call.run, h7, Option.map_some]
    rfl
  have hr₁ := Run.step p hr (c := .blockData o.ptr source.2 { ptr := 0, destroy := false }) ⟨hu, rfl⟩ h8
  have h9 : (Call.arrayWrite (.view o.ptr part.data.ptr) change : Call B).run p s.heap =
      some ({ s.heap with arrays := setAt s.heap.arrays part.data.ptr (some (change content)) }, .other) := by
    simp only [Call.run, ha]
  have hr₂ := Run.step p hr₁ (c := .arrayWrite (.view o.ptr part.data.ptr) change) List.mem_cons_self h9
  obtain ⟨h10, h11, h12, h13, h14, h15, h16, h17, h18⟩ := hobj
  obtain ⟨h19, h20, h21, h22, h23⟩ := halive
  exact ⟨_, hr₂, harr, ⟨h10, h11, h12, h13, h14, h15, h16, h17, h18⟩, ⟨h19, h20, h21, h22, h23⟩⟩

/-- What holds between statements. -/
structure ArrayInv (all : Prop) (s : ArrayState B) (l : ArrayLedger) : Prop where
  py : PyInv all s.py l.py
  length : l.sources.length = s.arrays.length
  arrays : ∀ v view, s.arrays[v]? = some (some view) → ∃ source, l.sources[v]? = some source ∧
    view.parent = source.1 ∧ (v ∉ l.expired → GivesArray s.py l.py view.array source)

theorem array_isParent {s : ArrayState B} {v : Nat} {view : PyArray} (h : s.arrays[v]? = some (some view)) :
    s.isParent view.parent = true := by
  simp only [ArrayState.isParent, List.any_eq_true]
  exact ⟨some view, List.mem_of_getElem? h, by simp⟩

theorem ArrayInv.take {all : Prop} {s : ArrayState B} {l : ArrayLedger} (hi : ArrayInv all s l) {b : Nat} {name : Bytes}
    {r : Res CArray} (hg : ∀ a, r = .ok a → GivesArray s.py l.py a.ptr (b, name)) :
    ArrayInv all (s.fromC b r).1 (l.record s (.data b name) (s.fromC b r).2) := by
  cases r with
  | err e => exact hi
  | panic m => exact hi
  | ok a =>
    by_cases hk : s.py.keepers a.ptr = []
    · simp only [ArrayState.fromC, if_pos hk, ArrayLedger.record]
      refine ⟨hi.py, by simp [hi.length], fun v view h => ?_⟩
      rw [List.getElem?_append] at h ⊢
      rw [hi.length]
      split at h
      · rename_i hlt
        rw [if_pos hlt]
        exact hi.arrays v view h
      · rename_i hlt
        rw [if_neg hlt]
        have h5 : v - s.arrays.length = 0 := by
          by_contra hne
          rw [List.getElem?_eq_none (by simp; omega)] at h
          cases h
        rw [h5] at h ⊢
        simp only [List.getElem?_cons_zero, Option.some.injEq] at h
        subst h
        exact ⟨(b, name), rfl, rfl, fun _ => hg a rfl⟩
    · simp only [ArrayState.fromC, if_neg hk, ArrayLedger.record]
      exact hi

/-- A statement which does not delete its block leaves an array which should still be used as it is. -/
theorem ArrayInv.statement {rules : PyRule → Prop} (h1 : rules .moved) (h2 : rules .stale) {s : ArrayState B}
    {l : ArrayLedger} (hi : ArrayInv (rules .accepted) s l) {p : Platform} {pc : PyCall B}
    (hc : PyCall.Careful rules s.py l.py pc) (hk : ¬s.keepsAlive pc = true) {py : PyState B} {reply : PyReply}
    (hrun : pc.run p s.py = some (py, reply)) {v : Nat} {view : PyArray} (hv : s.arrays[v]? = some (some view))
    (hexp : v ∉ (l.record s (.statement pc) (.statement reply)).expired) :
    ∃ source, l.sources[v]? = some source ∧ GivesArray py (l.py.record s.py pc reply) view.array source ∧
      py.heap.arrays view.array = s.py.heap.arrays view.array := by
  obtain ⟨source, h5, h6, h7⟩ := hi.arrays v view hv
  refine ⟨source, h5, ?_⟩
  simp only [ArrayLedger.record, List.mem_append, List.mem_filter, List.mem_range, not_or, not_and] at hexp
  have h8 : arrayExpires s.py l.py source.1 pc reply = false := by
    have h9 := hexp.1 (List.getElem?_eq_some_iff.1 h5).1
    rw [h5] at h9
    simpa using h9
  refine GivesArray.step h1 h2 hi.py hc hrun ?_ h8 (h7 hexp.2)
  rintro rfl
  have hpar := array_isParent hv
  rw [h6] at hpar
  exact hk hpar

/-- Keeping a block alive changes nothing. -/
theorem record_kept {s : ArrayState B} {l : ArrayLedger} {pc : PyCall B} (hk : s.keepsAlive pc = true) :
    l.record s (.statement pc) (.statement .done) = l := by
  cases pc with
  | deleteBlock b =>
    have hany : (fun v : Nat => l.sources[v]?.any fun source => arrayExpires s.py l.py source.1 (.deleteBlock b) .done) =
        fun _ => false := by
      funext v
      cases l.sources[v]? with
      | none => rfl
      | some source => rfl
    simp only [ArrayLedger.record, hany]
    simp [PyLedger.record]
  | _ => cases hk

/-- All statements keep everything in order, and are defined. -/
theorem array_good {rules : PyRule → Prop} (h1 : rules .moved) (h2 : rules .stale) (h3 : rules .gradients)
    (h4 : rules .lists) {s : ArrayState B} {l : ArrayLedger} (hi : ArrayInv (rules .accepted) s l) (p : Platform)
    {c : ArrayCall B} (hc : ArrayCall.Careful rules s l c) :
    ∃ s' reply, c.run p s = some (s', reply) ∧ ArrayInv (rules .accepted) s' (l.record s c reply) := by
  cases c with
  | statement pc =>
    by_cases hk : s.keepsAlive pc = true
    · exact ⟨s, .statement .done, by simp [ArrayCall.run, hk], by rw [record_kept hk]; exact hi⟩
    · obtain ⟨py, reply, hrun, hpy⟩ := py_good p h1 h2 h3 h4 hi.py hc
      refine ⟨{ s with py }, .statement reply, by simp [ArrayCall.run, hk, hrun], hpy, hi.length, fun v view hv => ?_⟩
      obtain ⟨source, h5, h6, h7⟩ := hi.arrays v view hv
      refine ⟨source, h5, h6, fun hexp => ?_⟩
      obtain ⟨source', h8, h9, _⟩ := hi.statement h1 h2 hc hk hrun hv hexp
      rw [h5] at h8; cases h8
      exact h9
  | data b name =>
    cases ho : s.py.blocks b with
    | none => exact ⟨s, .raised, by simp [ArrayCall.run, ho], hi⟩
    | some o =>
      obtain ⟨⟨reply, h5⟩, h6⟩ := data_call hi.py p (hc h2) ho name
      have h7 : ∃ r, eqsBlockData o.ptr name { ptr := 0, destroy := false } s.py.heap = some (s.py.heap, r) ∧
          (r = nullBlock ∨ ∃ place blk, Place.of o.ptr = some place ∧ place.block s.py.heap = some blk ∧
            r = (selectBasic blk name).map fun part => { ptr := part.data.ptr, destroy := false }) := by
        rcases h6 with ⟨_, h6⟩ | ⟨place, blk, h7, h8, h6⟩
        · exact ⟨_, h6, .inl rfl⟩
        · exact ⟨_, h6, .inr ⟨place, blk, h7, h8, rfl⟩⟩
      obtain ⟨r, h7, h8⟩ := h7
      refine ⟨(s.fromC b r).1, (s.fromC b r).2, by simp [ArrayCall.run, ho, h5, h7], hi.take ?_⟩
      intro a ha
      rcases h8 with rfl | ⟨place, blk, h9, h10, rfl⟩
      · cases ha
      · cases hs : selectBasic blk name with
        | err e => rw [hs] at ha; cases ha
        | panic m => rw [hs] at ha; cases ha
        | ok part =>
          rw [hs] at ha
          cases ha
          exact ⟨hc h2, o, place, blk, part, ho, h9, h10, hs, rfl⟩
  | write v change =>
    cases hv : s.arrays[v]? with
    | none => exact ⟨s, .raised, by simp [ArrayCall.run, hv], hi⟩
    | some x =>
      cases x with
      | none => exact ⟨s, .raised, by simp [ArrayCall.run, hv], hi⟩
      | some view =>
        obtain ⟨source, h5, h6, h7⟩ := hi.arrays v view hv
        have hg := h7 hc
        obtain ⟨content, hcontent⟩ := Option.isSome_iff_exists.1 (hg.alive hi.py)
        refine ⟨{ s with py := writeArray s.py view.array (change content) }, .done,
          by simp [ArrayCall.run, hv, hcontent, writeArray], hi.py.write p hg hcontent change, hi.length, ?_⟩
        intro w view' hw
        obtain ⟨source', h8, h9, h10⟩ := hi.arrays w view' hw
        exact ⟨source', h8, h9, fun hexp => (h10 hexp).write⟩
  | drop v =>
    refine ⟨_, _, rfl, hi.py, ?_, fun w view hw => ?_⟩
    · show l.sources.length = (s.arrays.set v none).length
      rw [List.length_set]; exact hi.length
    · have hw : (s.arrays.set v none)[w]? = some (some view) := hw
      rw [List.getElem?_set] at hw
      split at hw
      · split at hw <;> cases hw
      · exact hi.arrays w view hw

theorem array_inv {rules : PyRule → Prop} (h1 : rules .moved) (h2 : rules .stale) (h3 : rules .gradients)
    (h4 : rules .lists) {s : ArrayState B} {l : ArrayLedger} (hr : ArrayRun rules s l) :
    ArrayInv (rules .accepted) s l := by
  induction hr with
  | start => exact ⟨py_start, rfl, fun v view h => by cases h⟩
  | step p _ hc hrun ih =>
    obtain ⟨s', reply, h5, h6⟩ := array_good h1 h2 h3 h4 ih p hc
    rw [hrun] at h5
    cases h5
    exact h6

end Python

/-! ### The property -/

/-- **C77**, the whole statement: the memory of numpy arrays which were taken from blocks is there as long as these
arrays exist. -/
def C77_full_statement : Prop :=
  ∀ (B : Type) [Inhabited B] [ArrayCallbacks B] (s : ArrayState B) (l : ArrayLedger), ArrayRun (fun _ => True) s l →
    ∀ (v : Nat) (view : PyArray), s.arrays[v]? = some (some view) → (s.memory v).isSome

/-- **C77.** The memory of a numpy array is there as long as this array exists, also if the last other reference to the
block is dropped, if in the meantime the block was not given to `TensorMap()`, and the tensor map it comes from was not
changed (`arrayExpires`). It is still the array with the values or with the gradient of the block it was taken from: this
block exists, and `eqs_block_data` returns this array.

Missing from the full statement: arrays taken before blocks were given to `TensorMap()` or tensor maps were changed,
for which it is not true. -/
theorem C77_arrays_partial {rules : PyRule → Prop} (h1 : rules .moved) (h2 : rules .stale) (h3 : rules .gradients)
    (h4 : rules .lists) (s : ArrayState B) (l : ArrayLedger) (hr : ArrayRun rules s l) (v : Nat) (view : PyArray)
    (hv : s.arrays[v]? = some (some view)) (hexp : v ∉ l.expired) :
    (s.memory v).isSome ∧ ∃ b name o, l.sources[v]? = some (b, name) ∧ s.py.blocks b = some o ∧
      eqsBlockData o.ptr name { ptr := 0, destroy := false } s.py.heap =
        some (s.py.heap, .ok { ptr := view.array, destroy := false }) := by
  have hi := Python.array_inv h1 h2 h3 h4 hr
  obtain ⟨⟨b, name⟩, h5, h6, h7⟩ := hi.arrays v view hv
  have hg := h7 hexp
  refine ⟨by simp only [ArrayState.memory, hv]; exact hg.alive hi.py, b, name, ?_⟩
  obtain ⟨hs, o, place, blk, part, h8, h9, h10, h11, h12⟩ := hg
  refine ⟨o, h5, h8, ?_⟩
  obtain ⟨lc, hrun, _, hobj, _⟩ := hi.py
  rw [eqsBlockData_of_place hrun (hobj.usable h8 hs) h9 h10 name rfl, h11]
  simp only [Res.map, h12]

/-- **C77.** Statements which do not write to arrays do not change what a numpy array contains: as long as it should be
used, it is exactly what it was before. -/
theorem C77_content {rules : PyRule → Prop} (h1 : rules .moved) (h2 : rules .stale) (h3 : rules .gradients)
    (h4 : rules .lists) (s : ArrayState B) (l : ArrayLedger) (hr : ArrayRun rules s l) (p : Platform) (c : ArrayCall B)
    (hc : ArrayCall.Careful rules s l c) (hw : ∀ v change, c ≠ .write v change) (s' : ArrayState B) (reply : ArrayReply)
    (hrun : c.run p s = some (s', reply)) (v : Nat) (view : PyArray) (hv : s'.arrays[v]? = some (some view))
    (hlt : v < s.arrays.length) (hexp : v ∉ (l.record s c reply).expired) : s'.memory v = s.memory v := by
  have hi := Python.array_inv h1 h2 h3 h4 hr
  cases c with
  | statement pc =>
    simp only [ArrayCall.run] at hrun
    split at hrun
    · cases hrun; rfl
    · rename_i hk
      obtain ⟨⟨py, r⟩, h5, h6⟩ := Option.map_eq_some_iff.1 hrun
      cases h6
      have hv : s.arrays[v]? = some (some view) := hv
      obtain ⟨_, _, _, h7⟩ := hi.statement h1 h2 hc hk h5 hv hexp
      simp only [ArrayState.memory, hv]
      exact h7
  | data b name =>
    cases ho : s.py.blocks b with
    | none => simp [ArrayCall.run, ho] at hrun; obtain ⟨rfl, _⟩ := hrun; rfl
    | some o =>
      obtain ⟨⟨r, h5⟩, h6⟩ := Python.data_call hi.py p (hc h2) ho name
      simp only [ArrayCall.run, ho, h5, Option.bind_eq_bind, Option.bind_some] at hrun
      obtain ⟨⟨_, r'⟩, _, h7⟩ := Option.bind_eq_some_iff.1 hrun
      simp only [pure, Option.some.injEq] at h7
      cases r' with
      | err e => cases h7; rfl
      | panic m => cases h7; rfl
      | ok a =>
        by_cases hk : s.py.keepers a.ptr = []
        · simp only [ArrayState.fromC, if_pos hk] at h7
          cases h7
          simp only [ArrayState.memory, List.getElem?_append_left hlt]
        · simp only [ArrayState.fromC, if_neg hk] at h7
          cases h7
          rfl
  | write w change => exact absurd rfl (hw w change)
  | drop w =>
    cases hrun
    have hv : (s.arrays.set w none)[v]? = some (some view) := hv
    rw [List.getElem?_set] at hv
    split at hv
    · split at hv <;> cases hv
    · rename_i hne
      simp only [ArrayState.memory, List.getElem?_set, if_neg hne]

/-- **C77.** Writing to a numpy array changes all the numpy arrays with the same memory, and no other. Nothing
else changes. -/
theorem C77_write {rules : PyRule → Prop} (h1 : rules .moved) (h2 : rules .stale) (h3 : rules .gradients)
    (h4 : rules .lists) (s : ArrayState B) (l : ArrayLedger) (hr : ArrayRun rules s l) (p : Platform) (v : Nat)
    (view : PyArray) (hv : s.arrays[v]? = some (some view)) (hexp : v ∉ l.expired) (change : B → B) :
    ∃ s', (ArrayCall.write v change).run p s = some (s', .done) ∧ s'.arrays = s.arrays ∧
      (∀ w, s.Shared v w → s'.memory w = (s.memory w).map change) ∧
      (∀ w, ¬s.Shared v w → s'.memory w = s.memory w) ∧
      s'.py.blocks = s.py.blocks ∧ s'.py.tensors = s.py.tensors ∧ s'.py.heap.blocks = s.py.heap.blocks ∧
      s'.py.heap.tensors = s.py.heap.tensors ∧ ∀ a, a ≠ view.array → s'.py.heap.arrays a = s.py.heap.arrays a := by
  have hi := Python.array_inv h1 h2 h3 h4 hr
  obtain ⟨source, h5, h6, h7⟩ := hi.arrays v view hv
  obtain ⟨content, hcontent⟩ := Option.isSome_iff_exists.1 ((h7 hexp).alive hi.py)
  refine ⟨{ s with py := Python.writeArray s.py view.array (change content) },
    by simp [ArrayCall.run, hv, hcontent, Python.writeArray], rfl, ?_, ?_, rfl, rfl, rfl, rfl, ?_⟩
  · rintro w ⟨x, y, hx, hy, hxy⟩
    rw [hv] at hx; cases hx
    simp [ArrayState.memory, hy, Python.writeArray, ← hxy, hcontent, setAt]
  · intro w hw
    cases hy : s.arrays[w]? with
    | none => simp [ArrayState.memory, hy]
    | some x =>
      cases x with
      | none => simp [ArrayState.memory, hy]
      | some y =>
        have hne : y.array ≠ view.array := fun h => hw ⟨view, y, hv, hy, h.symm⟩
        simp [ArrayState.memory, hy, Python.writeArray, setAt, hne]
  · intro a ha
    simp [Python.writeArray, setAt, ha]

/-- **C77.** Programs which take arrays, write to them and follow the rules have no undefined behaviour in the library,
and do not write to memory which does not exist. -/
theorem C77_safe {rules : PyRule → Prop} (h1 : rules .moved) (h2 : rules .stale) (h3 : rules .gradients)
    (h4 : rules .lists) (s : ArrayState B) (l : ArrayLedger) (hr : ArrayRun rules s l) (c : ArrayCall B)
    (hc : ArrayCall.Careful rules s l c) (p : Platform) : ∃ s' reply, c.run p s = some (s', reply) := by
  obtain ⟨s', reply, h, _⟩ := Python.array_good h1 h2 h3 h4 (Python.array_inv h1 h2 h3 h4 hr) p hc
  exact ⟨s', reply, h⟩

/-! ### Programs -/

namespace Spec

/-- A decidable version of `ArrayCall.Careful`. -/
def ArrayCall.check (rules : PyRule → Bool) (s : ArrayState B) (l : ArrayLedger) : ArrayCall B → Bool
  | .statement c => PyCall.check rules s.py l.py c
  | .data b _ => !rules .stale || !l.py.stale.contains b
  | .write v _ => !l.expired.contains v
  | .drop _ => true

/-- Run a program which follows some rules. -/
def arrayExecute (rules : PyRule → Bool) (p : Platform) :
    List (ArrayCall B) → ArrayState B × ArrayLedger → Option (ArrayState B × ArrayLedger)
  | [], s => some s
  | c :: cs, s =>
    if ArrayCall.check rules s.1 s.2 c then
      match c.run p s.1 with
      | none => none
      | some (s', reply) => arrayExecute rules p cs (s', s.2.record s.1 c reply)
    else
      none

/-- The objects have different identities. -/
theorem ArrayRun.fresh {rules : PyRule → Prop} {s : ArrayState B} {l : ArrayLedger} (hr : ArrayRun rules s l) :
    ∀ i, s.py.next ≤ i → s.py.blocks i = none ∧ s.py.tensors i = none := by
  induction hr with
  | start => exact fun _ _ => ⟨rfl, rfl⟩
  | @step s s' l c reply p _ hc hrun ih =>
    cases c with
    | statement pc =>
      simp only [ArrayCall.run] at hrun
      split at hrun
      · cases hrun; exact ih
      · obtain ⟨⟨py, r⟩, h1, h2⟩ := Option.map_eq_some_iff.1 hrun
        cases h2
        exact (Python.run_grows h1).1.fresh ih
    | data b name =>
      simp only [ArrayCall.run] at hrun
      split at hrun
      · cases hrun; exact ih
      · obtain ⟨⟨py, r⟩, h1, h2⟩ := Option.bind_eq_some_iff.1 hrun
        obtain ⟨⟨_, r'⟩, _, h3⟩ := Option.bind_eq_some_iff.1 h2
        simp only [pure, Option.some.injEq] at h3
        have h4 : s'.py = py := by
          cases r' with
          | err e => cases h3; rfl
          | panic m => cases h3; rfl
          | ok a =>
            simp only [ArrayState.fromC] at h3
            split at h3 <;> cases h3 <;> rfl
        obtain ⟨h5, h6, h7⟩ := Python.call_blocks h1
        rw [h4, h5, h6, h7]; exact ih
    | write v change =>
      simp only [ArrayCall.run] at hrun
      split at hrun
      · split at hrun <;> cases hrun
        exact ih
      · cases hrun; exact ih
    | drop v => cases hrun; exact ih

theorem arrayExecute_run {rules : PyRule → Bool} {p : Platform} {cs : List (ArrayCall B)}
    {s s' : ArrayState B × ArrayLedger} (hs : ArrayRun (fun r => rules r = true) s.1 s.2)
    (h : arrayExecute rules p cs s = some s') : ArrayRun (fun r => rules r = true) s'.1 s'.2 := by
  induction cs generalizing s with
  | nil => cases h; exact hs
  | cons c cs ih =>
    simp only [arrayExecute] at h
    split at h
    · rename_i hc
      split at h
      · cases h
      · rename_i s₁ reply hrun
        refine ih (s := (s₁, s.2.record s.1 c reply)) (.step p hs ?_ hrun) h
        cases c with
        | statement pc => exact PyCall.check_sound (ArrayRun.fresh hs) hc
        | data b name =>
          intro hr
          simpa [ArrayCall.check, hr] using hc
        | write v change => simpa [ArrayCall.check, ArrayCall.Careful] using hc
        | drop v => exact trivial
    · cases h

theorem ArrayRun.mono {rules rules' : PyRule → Prop} (hrules : ∀ r, rules' r → rules r) {s : ArrayState B}
    {l : ArrayLedger} (hr : ArrayRun rules s l) : ArrayRun rules' s l := by
  induction hr with
  | start => exact .start
  | @step s s' l c reply p _ hc hrun ih =>
    refine .step p ih ?_ hrun
    cases c with
    | statement pc =>
      revert hc
      cases pc <;> try exact id
      case newTensor => exact fun hc => ⟨fun h => hc.1 (hrules _ h), fun h => hc.2 (hrules _ h)⟩
      case addGradient => exact fun hc => ⟨fun h => hc.1 (hrules _ h), fun h => hc.2 (hrules _ h)⟩
      all_goals exact fun hc h => hc (hrules _ h)
    | data b name => exact fun h => hc (hrules _ h)
    | write v change => exact hc
    | drop v => exact trivial

end Spec

namespace PyArrays.Example
open Ownership.Example Lifetimes.Example

/-- A platform which can read files. -/
def reader : Platform := ⟨⟨true⟩, .insertion, PyLiteral.fragment, .little⟩

/-- What can happen to a block after an array has been taken from it. -/
inductive Event where
  /-- the block is given to a tensor map, which is deleted -/
  | given
  /-- the block is given to `TensorMap()`, which raises an exception -/
  | rejected
  /-- the block is in a tensor map, whose keys are moved -/
  | keysToProperties
  | keysToSamples
  deriving DecidableEq

/-- `tensor = equistore.load(...)`, the object 0, and `block = tensor.block(0)`, the object 1. -/
def loaded : List (ArrayCall NdArray) :=
  [.statement (.load Equistore.Example.saved), .statement (.block 0 0)]

/-- The name `l`, to move it. -/
def l : CLabels := { labelsPtr := none, names := some [[108, 0]], values := some [], size := 1, count := 0 }

/-- Programs which take an array, and what happens then. -/
def program : Event → List (ArrayCall NdArray)
  | .given => loaded ++ [.statement (.copyBlock 1), .data 2 values, .statement (.newList [2]),
      .statement (.newTensor (labels [0]) 1), .statement (.deleteTensor 3)]
  | .rejected => loaded ++ [.statement (.copyBlock 1), .data 2 values, .statement (.newList [2]),
      .statement (.newTensor (labels [0, 1]) 1)]
  | .keysToProperties => loaded ++ [.data 1 values, .statement (.keysToProperties 0 l true id)]
  | .keysToSamples => loaded ++ [.data 1 [103, 0], .statement (.keysToSamples 0 l true id)]

/-- After the program, the array exists, but its memory does not. -/
theorem program_dangling (e : Event) :
    (arrayExecute (fun _ => true) reader (program e) (ArrayState.empty, ArrayLedger.empty)).map (fun s =>
      (s.1.arrays.map (·.isSome), (s.1.memory 0).isSome, s.2.expired)) = some ([true], false, [0]) := by
  cases e <;> decide +kernel

/-- `components_to_properties` changes the array from 2 x 2 x 3 to 2 x 6 elements, which the numpy
array does not know. In the code, this is in new memory, as `ndarray::ArrayBase::to_shape` is followed by `to_owned` in
`src/data.rs` lines 700-704. -/
example : (arrayExecute (fun _ => true) reader (loaded ++ [.data 1 values,
      .statement (.componentsToProperties 0 [some [99, 0]] id)]) (ArrayState.empty, ArrayLedger.empty)).map (fun s =>
    ((s.1.memory 0).map (·.shape), s.2.expired)) = some (some [2, 6], [0]) := by decide +kernel

end PyArrays.Example

open PyArrays.Example in
/-- **C77.** None of the conditions in `C77_arrays_partial` can be left out: for each of them there is a program which
follows all the rules, with a numpy array pointing to memory which does not exist any more. Writing to it is undefined
behaviour. -/
theorem C77_dangling (e : Event) : ∃ (s : ArrayState NdArray) (l : ArrayLedger) (view : PyArray),
    arrayExecute (fun _ => true) reader (program e) (ArrayState.empty, ArrayLedger.empty) = some (s, l) ∧
    ArrayRun (fun _ => True) s l ∧ s.arrays[0]? = some (some view) ∧ s.memory 0 = none ∧
    ∀ change p, (ArrayCall.write 0 change).run p s = none := by
  obtain ⟨⟨s, l⟩, hs, heq⟩ := Option.map_eq_some_iff.1 (program_dangling e)
  simp only [Prod.mk.injEq] at heq
  have hrun := (arrayExecute_run .start hs).mono (rules' := fun _ => True) fun _ _ => rfl
  obtain ⟨x, hx, h1⟩ := List.map_eq_singleton_iff.1 heq.1
  obtain ⟨view, rfl⟩ := Option.isSome_iff_exists.1 h1
  have hv : s.arrays[0]? = some (some view) := by rw [hx]; rfl
  have hm : s.memory 0 = none := by
    cases h : s.memory 0 with
    | none => rfl
    | some x => rw [h] at heq; cases heq.2.1
  refine ⟨s, l, view, hs, hrun, hv, hm, fun change p => ?_⟩
  simp only [ArrayState.memory, hv] at hm
  simp [ArrayCall.run, hv, hm]

/-- **C77** is false of the code. -/
theorem C77_counterexample : ¬C77_full_statement := by
  intro hfull
  obtain ⟨s, l, view, _, hr, hv, hm, _⟩ := C77_dangling .given
  have := hfull NdArray s l hr 0 view hv
  rw [hm] at this
  cases this

namespace PyArrays.Example
open Ownership.Example Lifetimes.Example

/-- A program which keeps using arrays: those of the values and of the gradient of a block in a tensor map, while the block
and the tensor map are only referred to by them; those of a copy, while another block is given to a tensor map. It writes
to all of them. -/
def keeps : List (ArrayCall NdArray) :=
  loaded ++ [.data 1 values, .data 1 [103, 0], .data 1 values, .statement (.deleteBlock 1), .statement (.deleteTensor 0),
    .statement (.block 0 1), .statement (.copyBlock 2), .data 3 values, .statement (.copyBlock 2),
    .statement (.newList [4]), .statement (.newTensor (labels [0]) 1), .statement (.deleteBlock 3),
    .write 0 (fun _ => ⟨[2, 2, 3], List.replicate 12 1⟩), .write 3 (fun _ => ⟨[2, 2, 3], List.replicate 12 2⟩)]

/-- The arrays 0 and 2 have the same memory. -/
example : (arrayExecute (fun _ => true) reader keeps (ArrayState.empty, ArrayLedger.empty)).map (fun s =>
    (s.1.arrays.map fun v => v.map (·.parent), s.2.expired,
      [0, 1, 2, 3].map fun v => (s.1.memory v).map fun x => x.elements.take 2)) =
    some ([some 1, some 1, some 1, some 3], [], [some [1, 1], some [0, 1], some [1, 1], some [2, 2]]) := by
  decide +kernel

/-- The hypotheses of `C77_arrays_partial` hold for all of these arrays. -/
example : ∃ (s : ArrayState NdArray) (l : ArrayLedger), ArrayRun (fun _ => True) s l ∧ l.expired = [] ∧
    s.arrays.length = 4 ∧ ∀ v, v < 4 → ∃ view, s.arrays[v]? = some (some view) := by
  have h : (arrayExecute (fun _ => true) reader keeps (ArrayState.empty, ArrayLedger.empty)).map (fun s =>
      (s.2.expired, s.1.arrays.length, s.1.arrays.all (·.isSome))) = some ([], 4, true) := by decide +kernel
  obtain ⟨⟨s, l⟩, hs, heq⟩ := Option.map_eq_some_iff.1 h
  simp only [Prod.mk.injEq] at heq
  refine ⟨s, l, (arrayExecute_run .start hs).mono fun _ _ => rfl, heq.1, heq.2.1, fun v hv => ?_⟩
  have hlt : v < s.arrays.length := by rw [heq.2.1]; exact hv
  have h1 := List.all_eq_true.1 heq.2.2 _ (List.getElem_mem hlt)
  obtain ⟨view, h2⟩ := Option.isSome_iff_exists.1 h1
  exact ⟨view, by rw [List.getElem?_eq_getElem hlt, h2]⟩

end PyArrays.Example

end Equistore
