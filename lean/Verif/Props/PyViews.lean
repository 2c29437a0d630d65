import Verif.Lemmas.PyViews

/-!
# C69: labels taken from blocks and tensor maps in Python can be used as long as they exist
-/

namespace Equistore
open Spec Heap

variable {B : Type} [Inhabited B] [ArrayCallbacks B]

namespace Python

/-- The parent of labels taken from there. -/
def parentOf : PySource → PyParent
  | .block b _ _ => .block b
  | .keys t => .tensor t

/-- Taking labels from there gives these labels. -/
def Gives (s : PyState B) (l : PyLedger) (labels : Labels) : PySource → Prop
  | .block b name axis => b ∉ l.stale ∧ ∃ o place blk L, s.blocks b = some o ∧ Place.of o.ptr = some place ∧
    place.block s.heap = some blk ∧ blockLabels blk name axis = .ok L ∧ L.labelsPtr = some labels ∧ L.count ≠ 0
  | .keys t => ∃ o n tm v L, s.tensors t = some o ∧ o.ptr = some n ∧ s.heap.tensors n = some (tm, v) ∧
    tm.keys.toC = .ok L ∧ L.labelsPtr = some labels ∧ L.count ≠ 0

/-- What holds between statements. -/
structure ViewInv (all : Prop) (s : ViewState B) (l : ViewLedger) : Prop where
  py : PyInv all s.py l.py
  length : l.sources.length = s.views.length
  views : ∀ v view, s.views[v]? = some (some view) → ∃ source, l.sources[v]? = some source ∧
    view.parent = parentOf source ∧ (v ∉ l.expired → Gives s.py l.py view.labels source)

theorem isParent_of {s : ViewState B} {v : Nat} {view : PyView} (h : s.views[v]? = some (some view)) :
    s.isParent view.parent = true := by
  simp only [ViewState.isParent, List.any_eq_true]
  exact ⟨some view, List.mem_of_getElem? h, by simp⟩

theorem record_stale {s : PyState B} {l : PyLedger} {pc : PyCall B} {reply : PyReply} {b axis : Nat} {name : Bytes}
    (hexp : (PySource.block b name axis).expires s l pc reply = false) (hb : b ∉ l.stale) :
    b ∉ (l.record s pc reply).stale := by
  have key : ∀ t, l.views.contains (b, t) = false → b ∉ (l.views.filter fun v => v.2 = t).map (·.1) ++ l.stale := by
    intro t ht hm
    rcases List.mem_append.1 hm with h1 | h1
    · obtain ⟨⟨x, y⟩, h2, rfl⟩ := List.mem_map.1 h1
      obtain ⟨h3, h4⟩ := List.mem_filter.1 h2
      have h4 : y = t := by simpa using h4
      subst h4
      simp [h3] at ht
    · exact hb h1
  cases pc with
  | keysToProperties t keysToMove sort parents =>
    cases reply with
    | done => exact key t hexp
    | _ => exact hb
  | keysToSamples t keysToMove sort parents =>
    cases reply with
    | done => exact key t hexp
    | _ => exact hb
  | newTensor keys i => cases reply <;> exact hb
  | block t index => cases reply <;> exact hb
  | _ => exact hb

theorem Gives.step {rules : PyRule → Prop} (h1 : rules .moved) (h2 : rules .stale) {s s' : PyState B} {l : PyLedger}
    {p : Platform} (hi : PyInv (rules .accepted) s l) {pc : PyCall B} (hc : PyCall.Careful rules s l pc)
    {reply : PyReply} (hrun : pc.run p s = some (s', reply)) {labels : Labels} {source : PySource}
    (hb : ∀ b, parentOf source = .block b → pc ≠ .deleteBlock b)
    (ht : ∀ t, parentOf source = .tensor t → pc ≠ .deleteTensor t)
    (hexp : source.expires s l pc reply = false) (hg : Gives s l labels source) :
    Gives s' (l.record s pc reply) labels source := by
  cases source with
  | block b name axis =>
    obtain ⟨hs, o, place, blk, L, h3, h4, h5, h6, h7, h8⟩ := hg
    obtain ⟨⟨o', h9, h10⟩, h11⟩ := run_keepsBlock h1 h2 hi hc hrun h3 h4 (hb b rfl) hexp
    obtain ⟨blk', h12, h13, h14⟩ := h11 blk h5
    refine ⟨record_stale hexp hs, o', place, blk', L, h9, by rw [h10]; exact h4, h12, ?_, h7, h8⟩
    obtain ⟨part, labels', h15, h16, h17, _⟩ := blockLabels_parts h6
    by_cases haxis : axis = 0
    · subst haxis
      obtain ⟨part', h18, h19⟩ := h13.select h15
      have h20 : axisLabels part' 0 = axisLabels part 0 := by
        show Res.ok part'.samples = .ok part.samples
        rw [show part'.samples = part.samples from h19]
      unfold blockLabels
      rw [h18, Res.ok_bind, h20, h16, Res.ok_bind, h17]
    · obtain ⟨part', h18, h19⟩ := (h14 haxis).select h15
      unfold blockLabels
      rw [h18, Res.ok_bind, h19.axis, h16, Res.ok_bind, h17]
  | keys t =>
    obtain ⟨o, n, tm, v, L, h3, h4, h5, h6, h7, h8⟩ := hg
    obtain ⟨h9, h10⟩ := run_keepsKeys h1 h2 hi hc hrun h3 h4 (ht t rfl) hexp
    obtain ⟨tm', h11, h12⟩ := h10 tm v h5
    exact ⟨o, n, tm', v, L, h9, h4, h11, by rw [h12]; exact h6, h7, h8⟩

/-- What `eqs_block_labels` gives for an object. -/
theorem labels_call {all : Prop} {s : PyState B} {l : PyLedger} (hi : PyInv all s l) (p : Platform) {b : Nat}
    (hb : b ∉ l.stale) {o : PyBlock} (ho : s.blocks b = some o) (name : Bytes) (axis : Nat) :
    (∃ reply, s.call p (.blockLabels o.ptr name axis) = some (s, reply)) ∧
    ((o.ptr = .null ∧ eqsBlockLabels o.ptr name axis s.heap = some (s.heap, nullBlock)) ∨
      ∃ place blk, Place.of o.ptr = some place ∧ place.block s.heap = some blk ∧
        eqsBlockLabels o.ptr name axis s.heap = some (s.heap, blockLabels blk name axis)) := by
  obtain ⟨lc, hr, _, hobj, halive⟩ := hi
  have hu := hobj.usable ho hb
  refine ⟨?_, ?_⟩
  · obtain ⟨reply, h1, _⟩ := call_read hr p (c := .blockLabels o.ptr name axis) hu
      (halive.block_free hobj ho) (fun _ _ => labels_read)
    exact ⟨reply, h1⟩
  · cases hq : Place.of o.ptr with
    | none =>
      have hn : o.ptr = .null := by
        cases h : o.ptr <;> rw [h] at hq <;> first | rfl | cases hq
      exact .inl ⟨hn, by rw [hn]; rfl⟩
    | some place =>
      obtain ⟨blk, _, h2⟩ := block_of_place hr hu hq
      exact .inr ⟨place, blk, rfl, h2, eqsBlockLabels_of_place hr hu hq h2 name axis⟩

/-- What `eqs_tensormap_keys` gives for an object. -/
theorem keys_call {all : Prop} {s : PyState B} {l : PyLedger} (hi : PyInv all s l) (p : Platform) {t : Nat}
    {o : PyTensor} (ho : s.tensors t = some o) :
    (∃ reply, s.call p (.tensormapKeys o.ptr) = some (s, reply)) ∧
    ∃ n tm v, o.ptr = some n ∧ s.heap.tensors n = some (tm, v) ∧
      eqsTensormapKeys o.ptr s.heap = some (s.heap, tm.keys.toC) := by
  obtain ⟨lc, hr, _, hobj, halive⟩ := hi
  obtain ⟨reply, h1, _⟩ := call_read hr p (c := .tensormapKeys o.ptr) (usableTensor hobj ho)
      (halive.tensor_free ho) (fun _ _ => keys_read)
  obtain ⟨n, hn, hq⟩ := hobj.tensor t o ho
  obtain ⟨tm, v, htm⟩ := (mem_tensors hr).1 hn
  exact ⟨⟨reply, h1⟩, n, tm, v, hq, htm, by rw [hq]; simp only [eqsTensormapKeys, htm]⟩

/-- What `_from_eqs_labels_t` gives. -/
theorem fromC_cases (s : ViewState B) (parent : PyParent) (r : Res CLabels) :
    (∃ L labels, r = .ok L ∧ L.count ≠ 0 ∧ L.labelsPtr = some labels ∧
      s.fromC parent r = ({ s with views := s.views ++ [some { parent, labels }] }, .view s.views.length)) ∨
    (s.fromC parent r).1 = s ∧ ((s.fromC parent r).2 = .done ∨ (s.fromC parent r).2 = .raised) := by
  cases r with
  | err e => exact .inr ⟨rfl, .inr rfl⟩
  | panic m => exact .inr ⟨rfl, .inr rfl⟩
  | ok L =>
    cases hc : L.count with
    | zero => simp [ViewState.fromC, hc]
    | succ n =>
      cases hl : L.labelsPtr with
      | none => simp [ViewState.fromC, hc, hl]
      | some labels => exact .inl ⟨L, labels, rfl, by omega, hl, by simp [ViewState.fromC, hc, hl]⟩

theorem ViewInv.take {all : Prop} {s : ViewState B} {l : ViewLedger} (hi : ViewInv all s l) {source : PySource}
    {r : Res CLabels} (hg : ∀ L labels, r = .ok L → L.count ≠ 0 → L.labelsPtr = some labels →
      Gives s.py l.py labels source) {c : ViewCall B}
    (hv : ∀ v, l.record s c (.view v) = { l with sources := l.sources ++ [source] })
    (hd : l.record s c .done = l) (hr : l.record s c .raised = l) :
    ViewInv all (s.fromC (parentOf source) r).1 (l.record s c (s.fromC (parentOf source) r).2) := by
  rcases fromC_cases s (parentOf source) r with ⟨L, labels, h1, h2, h3, h4⟩ | ⟨h1, h2 | h2⟩
  · rw [h4]
    simp only [hv]
    refine ⟨hi.py, by simp [hi.length], fun v view h => ?_⟩
    rw [List.getElem?_append] at h ⊢
    rw [hi.length]
    split at h
    · rename_i hlt
      rw [if_pos hlt]
      exact hi.views v view h
    · rename_i hlt
      rw [if_neg hlt]
      have h5 : v - s.views.length = 0 := by
        by_contra hne
        rw [List.getElem?_eq_none (by simp; omega)] at h
        cases h
      rw [h5] at h ⊢
      simp only [List.getElem?_cons_zero, Option.some.injEq] at h
      subst h
      exact ⟨source, rfl, rfl, fun _ => hg L labels h1 h2 h3⟩
  · rw [h1, h2, hd]; exact hi
  · rw [h1, h2, hr]; exact hi

/-- All statements keep everything in order, and are defined. -/
theorem view_good {rules : PyRule → Prop} (h1 : rules .moved) (h2 : rules .stale) (h3 : rules .gradients)
    (h4 : rules .lists) {s : ViewState B} {l : ViewLedger} (hi : ViewInv (rules .accepted) s l) (p : Platform)
    {c : ViewCall B} (hc : ViewCall.Careful rules s l c) :
    ∃ s' reply, c.run p s = some (s', reply) ∧ ViewInv (rules .accepted) s' (l.record s c reply) := by
  cases c with
  | statement pc =>
    by_cases hk : s.keepsAlive pc = true
    · refine ⟨s, .statement .done, by simp [ViewCall.run, hk], ?_⟩
      have hrec : l.py.record s.py pc .done = l.py := by
        cases pc <;> first | rfl | (cases hk; done)
      have hexp : ∀ source : PySource, source.expires s.py l.py pc .done = false := by
        intro source
        cases pc <;> first | (cases hk; done) | (cases source <;> rfl)
      have heq : l.record s (.statement pc) (.statement .done) = l := by
        simp only [ViewLedger.record, hrec]
        have hany : (fun v : Nat => l.sources[v]?.any fun source => source.expires s.py l.py pc .done) = fun _ => false := by
          funext v
          cases l.sources[v]? with
          | none => rfl
          | some source => exact hexp source
        rw [hany]
        simp
      rw [heq]; exact hi
    · obtain ⟨py, reply, hrun, hpy⟩ := py_good p h1 h2 h3 h4 hi.py hc
      refine ⟨{ s with py }, .statement reply, by simp [ViewCall.run, hk, hrun], hpy, hi.length, fun v view hv => ?_⟩
      obtain ⟨source, h5, h6, h7⟩ := hi.views v view hv
      refine ⟨source, h5, h6, fun hexp => ?_⟩
      simp only [ViewLedger.record, List.mem_append, List.mem_filter, List.mem_range, not_or, not_and] at hexp
      have h8 : source.expires s.py l.py pc reply = false := by
        have h9 := hexp.1 (List.getElem?_eq_some_iff.1 h5).1
        rw [h5] at h9
        simpa using h9
      have hpar := isParent_of hv
      rw [h6] at hpar
      refine Gives.step h1 h2 hi.py hc hrun ?_ ?_ h8 (h7 hexp.2)
      · rintro b hb rfl
        rw [hb] at hpar
        exact hk hpar
      · rintro t ht rfl
        rw [ht] at hpar
        exact hk hpar
  | labels b name axis =>
    cases ho : s.py.blocks b with
    | none => exact ⟨s, .raised, by simp [ViewCall.run, ho], hi⟩
    | some o =>
      obtain ⟨⟨reply, h5⟩, h6⟩ := labels_call hi.py p (hc h2) ho name axis
      have h7 : ∃ r, eqsBlockLabels o.ptr name axis s.py.heap = some (s.py.heap, r) ∧
          (r = nullBlock ∨ ∃ place blk, Place.of o.ptr = some place ∧ place.block s.py.heap = some blk ∧
            r = blockLabels blk name axis) := by
        rcases h6 with ⟨_, h6⟩ | ⟨place, blk, h7, h8, h6⟩
        · exact ⟨_, h6, .inl rfl⟩
        · exact ⟨_, h6, .inr ⟨place, blk, h7, h8, rfl⟩⟩
      obtain ⟨r, h7, h8⟩ := h7
      refine ⟨(s.fromC (.block b) r).1, (s.fromC (.block b) r).2, by simp [ViewCall.run, ho, h5, h7], ?_⟩
      refine hi.take (source := .block b name axis) ?_ (fun _ => rfl) rfl rfl
      intro L labels hL hcount hptr
      rcases h8 with rfl | ⟨place, blk, h9, h10, rfl⟩
      · cases hL
      · exact ⟨hc h2, o, place, blk, L, ho, h9, h10, hL, hptr, hcount⟩
  | keys t =>
    cases ho : s.py.tensors t with
    | none => exact ⟨s, .raised, by simp [ViewCall.run, ho], hi⟩
    | some o =>
      obtain ⟨⟨reply, h5⟩, n, tm, v, h6, h7, h8⟩ := keys_call hi.py p ho
      refine ⟨(s.fromC (.tensor t) tm.keys.toC).1, (s.fromC (.tensor t) tm.keys.toC).2,
        by simp [ViewCall.run, ho, h5, h8], ?_⟩
      refine hi.take (source := .keys t) ?_ (fun _ => rfl) rfl rfl
      exact fun L labels hL hcount hptr => ⟨o, n, tm, v, L, ho, h6, h7, hL, hptr, hcount⟩
  | drop v =>
    refine ⟨_, _, rfl, hi.py, ?_, fun w view hw => ?_⟩
    · show l.sources.length = (s.views.set v none).length
      rw [List.length_set]; exact hi.length
    · have hw : (s.views.set v none)[w]? = some (some view) := hw
      rw [List.getElem?_set] at hw
      split at hw
      · split at hw <;> cases hw
      · exact hi.views w view hw

theorem view_inv {rules : PyRule → Prop} (h1 : rules .moved) (h2 : rules .stale) (h3 : rules .gradients)
    (h4 : rules .lists) {s : ViewState B} {l : ViewLedger} (hr : ViewRun rules s l) :
    ViewInv (rules .accepted) s l := by
  induction hr with
  | start => exact ⟨py_start, rfl, fun v view h => by cases h⟩
  | step p _ hc hrun ih =>
    obtain ⟨s', reply, h5, h6⟩ := view_good h1 h2 h3 h4 ih p hc
    rw [hrun] at h5
    cases h5
    exact h6

end Python

/-! ### The property -/

/-- **C69**, the whole statement: the memory of labels which were taken from blocks and tensor maps is there as long
as these labels exist. -/
def C69_full_statement : Prop :=
  ∀ (B : Type) [Inhabited B] [ArrayCallbacks B] (s : ViewState B) (l : ViewLedger), ViewRun (fun _ => True) s l →
    ∀ (v : Nat) (view : PyView), s.views[v]? = some (some view) → InMemory s.py.heap view.labels

/-- **C69.** The memory of labels is there as long as these labels exist, also if the last other reference to the
block or tensor map is dropped, if in the meantime the block was not given to `TensorMap()`, and the tensor map they come from
was not changed (`PySource.expires`). Taking the labels again in the same way gives the same labels.

Missing from the full statement: labels taken before blocks were given to `TensorMap()` or tensor maps were changed,
for which it is not true. -/
theorem C69_views_partial {rules : PyRule → Prop} (h1 : rules .moved) (h2 : rules .stale) (h3 : rules .gradients)
    (h4 : rules .lists) (s : ViewState B) (l : ViewLedger) (hr : ViewRun rules s l) (v : Nat) (view : PyView)
    (hv : s.views[v]? = some (some view)) (hexp : v ∉ l.expired) (p : Platform) :
    InMemory s.py.heap view.labels ∧ ∃ source, l.sources[v]? = some source ∧ ∃ s',
      (source.call : ViewCall B).run p s = some (s', .view s.views.length) ∧ s'.py = s.py ∧
      s'.views = s.views ++ [some view] := by
  have hi := Python.view_inv h1 h2 h3 h4 hr
  obtain ⟨source, h5, h6, h7⟩ := hi.views v view hv
  have hg := h7 hexp
  cases source with
  | block b name axis =>
    obtain ⟨hs, o, place, blk, L, h8, h9, h10, h11, h12, h13⟩ := hg
    refine ⟨inMemory_of_blockLabels h10 h11 h12, _, h5, ?_⟩
    obtain ⟨⟨reply, h14⟩, h15⟩ := Python.labels_call hi.py p hs h8 name axis
    have h16 : eqsBlockLabels o.ptr name axis s.py.heap = some (s.py.heap, .ok L) := by
      rcases h15 with ⟨h15, _⟩ | ⟨place', blk', h16, h17, h18⟩
      · rw [h15] at h9; cases h9
      · rw [h9] at h16; cases h16
        rw [h10] at h17; cases h17
        rw [h18, h11]
    refine ⟨{ s with views := s.views ++ [some view] }, ?_, rfl, rfl⟩
    have hview : ({ parent := .block b, labels := view.labels } : PyView) = view := by
      cases view; simp only [PyView.mk.injEq, and_true]; exact h6.symm
    cases hc : L.count with
    | zero => exact absurd hc h13
    | succ n => simp [PySource.call, ViewCall.run, h8, h14, h16, ViewState.fromC, hc, h12, hview]
  | keys t =>
    obtain ⟨o, n, tm, w, L, h8, h9, h10, h11, h12, h13⟩ := hg
    have hkeys : view.labels = tm.keys := by
      have := toC_labelsPtr h11
      rw [h12] at this
      exact Option.some.inj this
    refine ⟨.inr ⟨n, tm, w, h10, .inl hkeys⟩, _, h5, ?_⟩
    obtain ⟨⟨reply, h14⟩, n', tm', w', h15, h16, h17⟩ := Python.keys_call hi.py p h8
    rw [h9] at h15; cases h15
    rw [h10] at h16; cases h16
    rw [h11] at h17
    refine ⟨{ s with views := s.views ++ [some view] }, ?_, rfl, rfl⟩
    have hview : ({ parent := .tensor t, labels := view.labels } : PyView) = view := by
      cases view; simp only [PyView.mk.injEq, and_true]; exact h6.symm
    cases hc : L.count with
    | zero => exact absurd hc h13
    | succ n => simp [PySource.call, ViewCall.run, h8, h14, h17, ViewState.fromC, hc, h12, hview]

/-- **C69.** Programs which take labels and follow the rules have no undefined behaviour in the library. -/
theorem C69_safe {rules : PyRule → Prop} (h1 : rules .moved) (h2 : rules .stale) (h3 : rules .gradients)
    (h4 : rules .lists) (s : ViewState B) (l : ViewLedger) (hr : ViewRun rules s l) (c : ViewCall B)
    (hc : ViewCall.Careful rules s l c) (p : Platform) : ∃ s' reply, c.run p s = some (s', reply) := by
  obtain ⟨s', reply, h, _⟩ := Python.view_good h1 h2 h3 h4 (Python.view_inv h1 h2 h3 h4 hr) p hc
  exact ⟨s', reply, h⟩

/-! ### Programs -/

namespace Spec

/-- A decidable version of `ViewCall.Careful`. -/
def ViewCall.check (rules : PyRule → Bool) (s : ViewState B) (l : ViewLedger) : ViewCall B → Bool
  | .statement c => PyCall.check rules s.py l.py c
  | .labels b _ _ => !rules .stale || !l.py.stale.contains b
  | _ => true

/-- Run a program which follows some rules. -/
def viewExecute (rules : PyRule → Bool) (p : Platform) :
    List (ViewCall B) → ViewState B × ViewLedger → Option (ViewState B × ViewLedger)
  | [], s => some s
  | c :: cs, s =>
    if ViewCall.check rules s.1 s.2 c then
      match c.run p s.1 with
      | none => none
      | some (s', reply) => viewExecute rules p cs (s', s.2.record s.1 c reply)
    else
      none

/-- The objects of a program with labels are those of a program without. -/
theorem ViewRun.py {rules : PyRule → Prop} {s : ViewState B} {l : ViewLedger} (hr : ViewRun rules s l) :
    ∀ i, s.py.next ≤ i → s.py.blocks i = none ∧ s.py.tensors i = none := by
  induction hr with
  | start => exact fun _ _ => ⟨rfl, rfl⟩
  | @step s s' l c reply p _ hc hrun ih =>
    have hcall : ∀ (c : Call B) (py : PyState B) (r : Reply), s.py.call p c = some (py, r) →
        ∀ i, py.next ≤ i → py.blocks i = none ∧ py.tensors i = none := by
      intro c py r h
      obtain ⟨h1, h2, h3⟩ := Python.call_blocks h
      rw [h1, h2, h3]; exact ih
    have hfrom : ∀ (py : PyState B) parent r, (({ s with py }.fromC parent r).1).py = py := by
      intro py parent r
      rcases Python.fromC_cases { s with py } parent r with ⟨_, _, _, _, _, h⟩ | ⟨h, _⟩ <;> rw [h]
    cases c with
    | statement pc =>
      simp only [ViewCall.run] at hrun
      split at hrun
      · cases hrun; exact ih
      · obtain ⟨⟨py, r⟩, h1, h2⟩ := Option.map_eq_some_iff.1 hrun
        cases h2
        exact (Python.run_grows h1).1.fresh ih
    | labels b name axis =>
      simp only [ViewCall.run] at hrun
      split at hrun
      · cases hrun; exact ih
      · obtain ⟨⟨py, r⟩, h1, h2⟩ := Option.bind_eq_some_iff.1 hrun
        obtain ⟨⟨_, r'⟩, _, h3⟩ := Option.bind_eq_some_iff.1 h2
        simp only [pure, Option.some.injEq] at h3
        have h4 := congrArg (fun x : ViewState B × ViewReply => x.1.py) h3
        simp only [hfrom] at h4
        rw [← h4]; exact hcall _ _ _ h1
    | keys t =>
      simp only [ViewCall.run] at hrun
      split at hrun
      · cases hrun; exact ih
      · obtain ⟨⟨py, r⟩, h1, h2⟩ := Option.bind_eq_some_iff.1 hrun
        obtain ⟨⟨_, r'⟩, _, h3⟩ := Option.bind_eq_some_iff.1 h2
        simp only [pure, Option.some.injEq] at h3
        have h4 := congrArg (fun x : ViewState B × ViewReply => x.1.py) h3
        simp only [hfrom] at h4
        rw [← h4]; exact hcall _ _ _ h1
    | drop v => cases hrun; exact ih

theorem viewExecute_run {rules : PyRule → Bool} {p : Platform} {cs : List (ViewCall B)} {s s' : ViewState B × ViewLedger}
    (hs : ViewRun (fun r => rules r = true) s.1 s.2) (h : viewExecute rules p cs s = some s') :
    ViewRun (fun r => rules r = true) s'.1 s'.2 := by
  induction cs generalizing s with
  | nil => cases h; exact hs
  | cons c cs ih =>
    simp only [viewExecute] at h
    split at h
    · rename_i hc
      split at h
      · cases h
      · rename_i s₁ reply hrun
        refine ih (s := (s₁, s.2.record s.1 c reply)) (.step p hs ?_ hrun) h
        cases c with
        | statement pc => exact PyCall.check_sound (ViewRun.py hs) hc
        | labels b name axis =>
          intro hr
          simpa [ViewCall.check, hr] using hc
        | keys t => exact trivial
        | drop v => exact trivial
    · cases h

theorem ViewRun.mono {rules rules' : PyRule → Prop} (hrules : ∀ r, rules' r → rules r) {s : ViewState B} {l : ViewLedger}
    (hr : ViewRun rules s l) : ViewRun rules' s l := by
  induction hr with
  | start => exact .start
  | @step s s' l c reply p _ hc hrun ih =>
    refine .step p ih ?_ hrun
    cases c with
    | statement pc =>
      revert hc
      cases pc <;> try exact id
      case newTensor => exact fun hc => ⟨fun h => hc.1 (hrules _ h), fun h => hc.2 (hrules _ h)⟩
      case addGradient => exact fun hc => ⟨fun h => hc.1 (hrules _ h), fun h => hc.2 (hrules _ h)⟩
      all_goals exact fun hc h => hc (hrules _ h)
    | labels b name axis => exact fun h => hc (hrules _ h)
    | keys t => exact trivial
    | drop v => exact trivial

/-- Everything a program which follows the rules can do has a memory which the C API can have. -/
theorem ViewRun.heap {rules : PyRule → Prop} (h1 : rules .moved) (h2 : rules .stale) (h3 : rules .gradients)
    (h4 : rules .lists) {s : ViewState B} {l : ViewLedger} (hr : ViewRun rules s l) : ∃ lc, Run s.py.heap lc :=
  let ⟨lc, h, _⟩ := (Python.view_inv h1 h2 h3 h4 hr).py
  ⟨lc, h⟩

end Spec

namespace PyViews.Example
open Ownership.Example Lifetimes.Example

/-- What can happen to a block or tensor map after labels have been taken from it. -/
inductive Event where
  /-- the block is given to a tensor map, which is deleted -/
  | given
  /-- the block is given to `TensorMap()`, which raises an exception -/
  | rejected
  /-- the block is in a tensor map, whose keys are moved -/
  | keysToProperties
  | keysToSamples
  /-- these are the keys of a tensor map, and they are moved -/
  | keysMoved
  /-- the block is in a tensor map, whose components are moved -/
  | components
  deriving DecidableEq

/-- `block = TensorBlock(...)` with one component, which is the object 0. -/
def newBlock : ViewCall NdArray :=
  .statement (.newBlock (NdArray.build [1, 2, 1] fun _ => default) (labels [7]) [component] (properties [3]))

/-- `tensor = TensorMap(keys, [block])`, which is the object 1. -/
def newTensor (keys : CLabels := labels [0]) : List (ViewCall NdArray) :=
  [.statement (.newList [0]), .statement (.newTensor keys 0)]

/-- Programs which take labels, the view 0, and what happens then. -/
def program : Event → List (ViewCall NdArray)
  | .given => [newBlock, .labels 0 values 0] ++ newTensor ++ [.statement (.deleteTensor 1)]
  | .rejected => [newBlock, .labels 0 values 0, .statement (.newList [0]), .statement (.newTensor (labels [0, 1]) 0)]
  | .keysToProperties => [newBlock] ++ newTensor ++ [.statement (.block 1 0), .labels 2 values 2,
      .statement (.keysToProperties 1 (labels []) true id)]
  | .keysToSamples => [newBlock] ++ newTensor (properties [0]) ++ [.statement (.block 1 0), .labels 2 values 0,
      .statement (.keysToSamples 1 (properties []) true id)]
  | .keysMoved => [newBlock] ++ newTensor (properties [0]) ++ [.keys 1,
      .statement (.keysToSamples 1 (properties []) true id)]
  | .components => [newBlock] ++ newTensor ++ [.statement (.block 1 0), .labels 2 values 1,
      .statement (.componentsToProperties 1 [some [99, 0]] id)]

/-- After the program, the view exists, but its memory does not. -/
theorem program_dangling (e : Event) :
    (viewExecute (fun _ => true) platform (program e) (ViewState.empty, ViewLedger.empty)).map (fun s =>
      ((s.1.views.map fun v => v.map fun view => inMemory s.1.py.heap view.labels), s.2.expired)) =
      some ([some false], [0]) := by
  cases e <;> decide +kernel

end PyViews.Example

open PyViews.Example Ownership.Example in
/-- **C69.** None of the conditions in `C69_views_partial` can be left out: for each of them there is a program which
follows all the rules, with labels pointing to memory which does not exist any more. -/
theorem C69_dangling (e : Event) : ∃ (s : ViewState NdArray) (l : ViewLedger) (view : PyView),
    viewExecute (fun _ => true) platform (program e) (ViewState.empty, ViewLedger.empty) = some (s, l) ∧
    ViewRun (fun _ => True) s l ∧ s.views[0]? = some (some view) ∧ ¬InMemory s.py.heap view.labels := by
  obtain ⟨⟨s, l⟩, hs, heq⟩ := Option.map_eq_some_iff.1 (program_dangling e)
  simp only [Prod.mk.injEq] at heq
  have hrun := (viewExecute_run .start hs).mono (rules' := fun _ => True) fun _ _ => rfl
  obtain ⟨lc, hlc⟩ := ViewRun.heap trivial trivial trivial trivial hrun
  obtain ⟨x, hx, h1⟩ := List.map_eq_singleton_iff.1 heq.1
  obtain ⟨view, rfl, h2⟩ := Option.map_eq_some_iff.1 h1
  refine ⟨s, l, view, hs, hrun, by rw [hx]; rfl, fun hm => ?_⟩
  rw [inMemory_complete hlc hm] at h2
  cases h2

/-- **C69** is false of the code. -/
theorem C69_counterexample : ¬C69_full_statement := by
  intro hfull
  obtain ⟨s, l, view, _, hr, hv, hm⟩ := C69_dangling .given
  exact hm (hfull NdArray s l hr 0 view hv)

namespace PyViews.Example
open Ownership.Example Lifetimes.Example

/-- A program which keeps using labels: those of a block and of a gradient, while the block is only referred to by the
labels; those of a block in a tensor map and the keys, while the tensor map is only referred to by them; samples after
`components_to_properties`. -/
def keeps : List (ViewCall NdArray) :=
  [newBlock, .statement (.addGradient 0 [103, 0] (NdArray.build [1, 2, 1] fun _ => default) (gradientSamples [0]) [component]),
   .labels 0 [103, 0] 0, .labels 0 values 2, .statement (.deleteBlock 0), .statement (.copyBlock 0),
   .statement (.newList [1]), .statement (.newTensor (labels [0]) 0), .statement (.block 2 0), .keys 2, .labels 3 values 0,
   .statement (.deleteBlock 3), .statement (.deleteTensor 2), .statement (.componentsToProperties 2 [some [99, 0]] id)]

example : (viewExecute (fun _ => true) platform keeps (ViewState.empty, ViewLedger.empty)).map (fun s =>
    ((s.1.views.map fun v => v.map fun view => (view.parent, inMemory s.1.py.heap view.labels)), s.2.expired)) =
    some ([some (.block 0, true), some (.block 0, true), some (.tensor 2, true), some (.block 3, true)], []) := by
  decide +kernel

/-- The hypotheses of `C69_views_partial` hold for all of these labels. -/
example : ∃ (s : ViewState NdArray) (l : ViewLedger), ViewRun (fun _ => True) s l ∧ l.expired = [] ∧ s.views.length = 4 ∧
    ∀ v, v < 4 → ∃ view, s.views[v]? = some (some view) := by
  have h : (viewExecute (fun _ => true) platform keeps (ViewState.empty, ViewLedger.empty)).map (fun s =>
      (s.2.expired, s.1.views.length, s.1.views.all (·.isSome))) = some ([], 4, true) := by decide +kernel
  obtain ⟨⟨s, l⟩, hs, heq⟩ := Option.map_eq_some_iff.1 h
  simp only [Prod.mk.injEq] at heq
  refine ⟨s, l, (viewExecute_run .start hs).mono fun _ _ => rfl, heq.1, heq.2.1, fun v hv => ?_⟩
  have hlt : v < s.views.length := by rw [heq.2.1]; exact hv
  have h1 := List.all_eq_true.1 heq.2.2 _ (List.getElem_mem hlt)
  obtain ⟨view, h2⟩ := Option.isSome_iff_exists.1 h1
  exact ⟨view, by rw [List.getElem?_eq_getElem hlt, h2]⟩

end PyViews.Example

end Equistore
