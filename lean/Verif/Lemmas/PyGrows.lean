import Verif.Lemmas.PyMoves

/-! What statements do to the objects of Python programs, without any rules. -/

namespace Equistore
namespace Python
open Spec Heap
variable {B : Type}

/-- New objects have new identities, and the pointers of the objects stay the same or become `NULL`. -/
structure Grows (s s' : PyState B) : Prop where
  next : s.next ≤ s'.next
  block : ∀ b o', s'.blocks b = some o' → (s.next ≤ b ∧ b < s'.next) ∨
    ∃ o, s.blocks b = some o ∧ (o'.ptr = o.ptr ∨ o'.ptr = .null)
  tensor : ∀ t o', s'.tensors t = some o' → (s.next ≤ t ∧ t < s'.next) ∨ ∃ o, s.tensors t = some o

theorem Grows.refl (s : PyState B) : Grows s s :=
  ⟨Nat.le_refl _, fun _ o h => .inr ⟨o, h, .inl rfl⟩, fun _ o h => .inr ⟨o, h⟩⟩

/-- Only other things have changed. -/
theorem Grows.same {s s' : PyState B} (hn : s'.next = s.next) (hb : s'.blocks = s.blocks)
    (ht : s'.tensors = s.tensors) : Grows s s' :=
  ⟨Nat.le_of_eq hn.symm, fun _ o h => .inr ⟨o, by rw [← hb]; exact h, .inl rfl⟩,
    fun _ o h => .inr ⟨o, by rw [← ht]; exact h⟩⟩

theorem Grows.trans {s s₁ s' : PyState B} (h1 : Grows s s₁) (h2 : Grows s₁ s') : Grows s s' := by
  have hn := h1.next
  have hn' := h2.next
  refine ⟨by omega, ?_, ?_⟩
  · intro b o' hb
    rcases h2.block b o' hb with h3 | ⟨o, h3, h4⟩
    · exact .inl ⟨by omega, h3.2⟩
    · rcases h1.block b o h3 with h5 | ⟨o₀, h5, h6⟩
      · exact .inl ⟨h5.1, by omega⟩
      · refine .inr ⟨o₀, h5, ?_⟩
        rcases h4 with h4 | h4
        · rw [h4]; exact h6
        · exact .inr h4
  · intro t o' ht
    rcases h2.tensor t o' ht with h3 | ⟨o, h3⟩
    · exact .inl ⟨by omega, h3.2⟩
    · rcases h1.tensor t o h3 with h5 | ⟨o₀, h5⟩
      · exact .inl ⟨h5.1, by omega⟩
      · exact .inr ⟨o₀, h5⟩

theorem Grows.after {s s₁ s' : PyState B} (h2 : Grows s₁ s') (h1 : Grows s s₁) : Grows s s' := h1.trans h2

theorem Grows.putBlock {s s₁ s' : PyState B} (hg : Grows s s₁) (hn : s'.next = s₁.next + 1)
    (hb : ∀ b, b ≠ s₁.next → s'.blocks b = s₁.blocks b) (ht : s'.tensors = s₁.tensors) : Grows s s' := by
  refine hg.trans ⟨by omega, ?_, fun _ o h => .inr ⟨o, by rw [← ht]; exact h⟩⟩
  intro b o' h
  by_cases h1 : b = s₁.next
  · exact .inl ⟨by omega, by omega⟩
  · exact .inr ⟨o', by rw [← hb b h1]; exact h, .inl rfl⟩

theorem Grows.putTensor {s s₁ s' : PyState B} (hg : Grows s s₁) (hn : s'.next = s₁.next + 1)
    (hb : s'.blocks = s₁.blocks) (ht : ∀ t, t ≠ s₁.next → s'.tensors t = s₁.tensors t) : Grows s s' := by
  refine hg.trans ⟨by omega, fun _ o h => .inr ⟨o, by rw [← hb]; exact h, .inl rfl⟩, ?_⟩
  intro t o' h
  by_cases h1 : t = s₁.next
  · exact .inl ⟨by omega, by omega⟩
  · exact .inr ⟨o', by rw [← ht t h1]; exact h⟩

theorem Grows.claim (L : List Nat) (s : PyState B) : Grows s (s.claim L).1 := by
  obtain ⟨h1, h2, _⟩ := claim_spec L s
  generalize s.claim L = c at h1 h2
  rw [h1]
  refine ⟨Nat.le_refl _, ?_, fun _ o h => .inr ⟨o, h⟩⟩
  intro b o' h
  right
  rcases h2 b with h3 | ⟨o, _, h3, _, h4⟩
  · exact ⟨o', by rw [← h3]; exact h, .inl rfl⟩
  · refine ⟨o, h3, .inr ?_⟩
    have h : c.1.blocks b = some o' := h
    rw [h4] at h; cases h; rfl

variable [Inhabited B] [ArrayCallbacks B]

theorem call_only {p : Platform} {c : Call B} {s s' : PyState B} {r : Reply} (h : s.call p c = some (s', r)) :
    s' = { s with heap := s'.heap } ∧ c.run p s.heap = some (s'.heap, r) := by
  unfold PyState.call at h
  split at h
  · cases h
  · split at h
    · cases h
    · rename_i heq
      cases h
      exact ⟨rfl, heq⟩

theorem call_grows {p : Platform} {c : Call B} {s s' : PyState B} {r : Reply} (h : s.call p c = some (s', r)) :
    Grows s s' := by
  rw [(call_only h).1]
  exact .same rfl rfl rfl

theorem call_gc {p : Platform} {c : Call B} {s s' : PyState B} {r : Reply} (h : s.call p c = some (s', r)) :
    s'.gcEnabled = s.gcEnabled := by
  rw [(call_only h).1]

theorem readBlock_same {p : Platform} {b : Nat} {c : BlockPtr → Call B} {s s' : PyState B} {reply : PyReply}
    (h : PyCall.readBlock p b c s = some (s', reply)) : Grows s s' ∧ s'.gcEnabled = s.gcEnabled := by
  unfold PyCall.readBlock at h
  split at h
  · cases h; exact ⟨.refl _, rfl⟩
  · obtain ⟨⟨s₁, r⟩, h1, h2⟩ := Option.bind_eq_some_iff.1 h
    have : s' = s₁ := by
      simp only at h2
      split at h2 <;> cases h2 <;> rfl
    subst this
    exact ⟨call_grows h1, call_gc h1⟩

theorem readTensor_same {p : Platform} {t : Nat} {c : Option Nat → Call B} {s s' : PyState B} {reply : PyReply}
    (h : PyCall.readTensor p t c s = some (s', reply)) : Grows s s' ∧ s'.gcEnabled = s.gcEnabled := by
  unfold PyCall.readTensor at h
  split at h
  · cases h; exact ⟨.refl _, rfl⟩
  · obtain ⟨⟨s₁, r⟩, h1, h2⟩ := Option.bind_eq_some_iff.1 h
    cases h2
    exact ⟨call_grows h1, call_gc h1⟩

theorem modify_same {p : Platform} {parents : Nat → Nat} {t : Nat} {c : Option Nat → Call B} {s s' : PyState B}
    {reply : PyReply} (h : s.modify p parents t c = some (s', reply)) : Grows s s' ∧ s'.gcEnabled = s.gcEnabled := by
  unfold PyState.modify at h
  split at h
  · cases h; exact ⟨.refl _, rfl⟩
  · obtain ⟨⟨s₁, r⟩, h1, h2⟩ := Option.bind_eq_some_iff.1 h
    simp only at h2
    split at h2 <;> cases h2
    all_goals exact ⟨(call_grows h1).trans (.same rfl rfl rfl), (call_gc h1 :)⟩

/-- What is true of all statements. -/
theorem run_grows {p : Platform} {s s' : PyState B} {c : PyCall B} {reply : PyReply}
    (h : c.run p s = some (s', reply)) :
    Grows s s' ∧ (s'.gcEnabled = s.gcEnabled ∨ ∃ b, c = .copyBlock b ∧ reply = .raised ∧ (s.blocks b).isSome ∧ s'.gcEnabled = false) := by
  cases c with
  | newBlock values samples components properties =>
    simp only [PyCall.run, call_arrayNew, Option.bind_eq_bind, Option.bind_some] at h
    obtain ⟨⟨s₁, r⟩, h1, h2⟩ := Option.bind_eq_some_iff.1 h
    have h3 : Grows s s₁ := (call_grows h1).after (.same rfl rfl rfl)
    have h4 : s₁.gcEnabled = s.gcEnabled := (call_gc h1 :)
    simp only at h2
    split at h2 <;> cases h2
    · exact ⟨h3.putBlock rfl (fun b hb => setAt_ne _ _ hb) rfl, .inl h4⟩
    · exact ⟨h3, .inl h4⟩
  | copyBlock b =>
    simp only [PyCall.run] at h
    split at h
    · cases h; exact ⟨.refl _, .inl rfl⟩
    · rename_i o ho
      obtain ⟨⟨s₁, r⟩, h1, h2⟩ := Option.bind_eq_some_iff.1 h
      simp only at h2
      split at h2 <;> cases h2
      · exact ⟨(call_grows h1).putBlock rfl (fun b hb => setAt_ne _ _ hb) rfl, .inl rfl⟩
      · exact ⟨(call_grows h1).trans (.same rfl rfl rfl), .inr ⟨b, rfl, rfl, by rw [ho]; rfl, rfl⟩⟩
  | deleteBlock b =>
    simp only [PyCall.run] at h
    split at h
    · cases h; exact ⟨.refl _, .inl rfl⟩
    · split at h
      · cases h; exact ⟨.refl _, .inl rfl⟩
      · have hdel : Grows s { s with blocks := setAt s.blocks b none } := by
          refine ⟨Nat.le_refl _, ?_, fun _ o h => .inr ⟨o, h⟩⟩
          intro b' o' hb'
          rcases setAt_some hb' with ⟨_, h1⟩ | ⟨_, h1⟩
          · cases h1
          · exact .inr ⟨o', h1, .inl rfl⟩
        split at h
        · obtain ⟨⟨s₁, r⟩, h1, h2⟩ := Option.bind_eq_some_iff.1 h
          cases h2
          exact ⟨hdel.trans (call_grows h1), .inl (call_gc h1 :)⟩
        · cases h
          exact ⟨hdel, .inl rfl⟩
  | labels b name axis => simp only [PyCall.run] at h; exact (readBlock_same h).imp_right .inl
  | data b name => simp only [PyCall.run] at h; exact (readBlock_same h).imp_right .inl
  | gradientsList b => simp only [PyCall.run] at h; exact (readBlock_same h).imp_right .inl
  | addGradient b parameter data samples components =>
    simp only [PyCall.run] at h
    split at h
    · cases h; exact ⟨.refl _, .inl rfl⟩
    · rename_i o ho
      simp only [call_arrayNew, Option.bind_eq_bind, Option.bind_some] at h
      obtain ⟨⟨s₁, r⟩, h1, h2⟩ := Option.bind_eq_some_iff.1 h
      have hset : ∀ s' : PyState B, s'.next = s.next → s'.tensors = s.tensors →
          (∃ arrays, s'.blocks = setAt s.blocks b (some { o with arrays })) → Grows s s' := by
        rintro s' hn ht ⟨arrays, hbs⟩
        refine ⟨Nat.le_of_eq hn.symm, ?_, fun _ o h => .inr ⟨o, by rw [← ht]; exact h⟩⟩
        intro b' o' hb'
        rw [hbs] at hb'
        rcases setAt_some hb' with ⟨h5, h6⟩ | ⟨_, h6⟩
        · cases h6
          exact .inr ⟨o, by rw [h5]; exact ho, .inl rfl⟩
        · exact .inr ⟨o', h6, .inl rfl⟩
      have h5 : Grows s s₁ := (call_grows h1).after (hset _ rfl rfl ⟨_, rfl⟩)
      have h6 : s₁.gcEnabled = s.gcEnabled := (call_gc h1 :)
      simp only at h2
      split at h2 <;> cases h2
      all_goals exact ⟨h5, .inl h6⟩
  | newList blocks => cases h; exact ⟨.same rfl rfl rfl, .inl rfl⟩
  | setList i blocks => cases h; exact ⟨.same rfl rfl rfl, .inl rfl⟩
  | newTensor keys i =>
    simp only [PyCall.run] at h
    split at h
    · cases h; exact ⟨.refl _, .inl rfl⟩
    · rename_i L _
      have hgc : (s.claim L).1.gcEnabled = s.gcEnabled := by rw [(claim_spec L s).1]
      split at h
      · obtain ⟨⟨s₁, r⟩, h1, h2⟩ := Option.bind_eq_some_iff.1 h
        have h5 := (Grows.claim L s).trans (call_grows h1)
        have h6 := (call_gc h1).trans hgc
        simp only at h2
        split at h2 <;> cases h2
        · exact ⟨h5.putTensor rfl rfl (fun b hb => setAt_ne _ _ hb), .inl h6⟩
        · exact ⟨h5, .inl h6⟩
      · cases h
        exact ⟨.claim L s, .inl hgc⟩
  | deleteTensor t =>
    simp only [PyCall.run] at h
    split at h
    · cases h; exact ⟨.refl _, .inl rfl⟩
    · split at h
      · cases h; exact ⟨.refl _, .inl rfl⟩
      · obtain ⟨⟨s₁, r⟩, h1, h2⟩ := Option.bind_eq_some_iff.1 h
        cases h2
        have hdel : Grows s { s with tensors := setAt s.tensors t none } := by
          refine ⟨Nat.le_refl _, fun _ o h => .inr ⟨o, h, .inl rfl⟩, ?_⟩
          intro t' o' ht'
          rcases setAt_some ht' with ⟨_, h1⟩ | ⟨_, h1⟩
          · cases h1
          · exact .inr ⟨o', h1⟩
        exact ⟨hdel.trans (call_grows h1), .inl (call_gc h1 :)⟩
  | keys t => simp only [PyCall.run] at h; exact (readTensor_same h).imp_right .inl
  | block t index =>
    simp only [PyCall.run] at h
    split at h
    · cases h; exact ⟨.refl _, .inl rfl⟩
    · obtain ⟨⟨s₁, r⟩, h1, h2⟩ := Option.bind_eq_some_iff.1 h
      simp only at h2
      split at h2 <;> cases h2
      · exact ⟨(call_grows h1).putBlock rfl (fun b hb => setAt_ne _ _ hb) rfl, .inl (call_gc h1 :)⟩
      · exact ⟨call_grows h1, .inl (call_gc h1)⟩
  | blocksMatching t selection => simp only [PyCall.run] at h; exact (readTensor_same h).imp_right .inl
  | keysToProperties t keysToMove sort parents => simp only [PyCall.run] at h; exact (modify_same h).imp_right .inl
  | keysToSamples t keysToMove sort parents => simp only [PyCall.run] at h; exact (modify_same h).imp_right .inl
  | componentsToProperties t names parents => simp only [PyCall.run] at h; exact (modify_same h).imp_right .inl
  | load archive =>
    obtain ⟨⟨s₁, r⟩, h1, h2⟩ := Option.bind_eq_some_iff.1 h
    simp only at h2
    split at h2 <;> cases h2
    · exact ⟨(call_grows h1).putTensor rfl rfl (fun b hb => setAt_ne _ _ hb), .inl (call_gc h1 :)⟩
    · exact ⟨call_grows h1, .inl (call_gc h1)⟩
  | save t => simp only [PyCall.run] at h; exact (readTensor_same h).imp_right .inl
  | collect choice => cases h; exact ⟨.same rfl rfl rfl, .inl rfl⟩

/-! ### Objects which do not exist yet, and blocks which were given to a tensor map -/

theorem Grows.fresh {s s' : PyState B} (hg : Grows s s')
    (hf : ∀ i, s.next ≤ i → s.blocks i = none ∧ s.tensors i = none) :
    ∀ i, s'.next ≤ i → s'.blocks i = none ∧ s'.tensors i = none := by
  have hn := hg.next
  intro i hi
  constructor
  · rw [Option.eq_none_iff_forall_ne_some]
    intro o ho
    rcases hg.block i o ho with h1 | ⟨o', h1, _⟩
    · omega
    · rw [(hf i (by omega)).1] at h1; cases h1
  · rw [Option.eq_none_iff_forall_ne_some]
    intro o ho
    rcases hg.tensor i o ho with h1 | ⟨o', h1⟩
    · omega
    · rw [(hf i (by omega)).2] at h1; cases h1

theorem py_fresh {rules : PyRule → Prop} {s : PyState B} {l : PyLedger} (hr : PyRun rules s l) :
    ∀ i, s.next ≤ i → s.blocks i = none ∧ s.tensors i = none := by
  induction hr with
  | start => exact fun _ _ => ⟨rfl, rfl⟩
  | step p _ _ hrun ih => exact (run_grows hrun).1.fresh ih

theorem record_given {s : PyState B} {l : PyLedger} {c : PyCall B} {reply : PyReply} :
    (l.record s c reply).given = l.given ∨ ∃ keys i t, c = .newTensor keys i ∧ reply = .tensor t ∧
      (l.record s c reply).given = s.lists.getD i [] ++ l.given := by
  cases c <;> cases reply <;> try exact .inl rfl
  rename_i keys i t
  exact .inr ⟨keys, i, t, rfl, rfl, rfl⟩

theorem newTensor_given {p : Platform} {s s' : PyState B} {keys : CLabels} {i t : Nat}
    (h : (PyCall.newTensor keys i : PyCall B).run p s = some (s', .tensor t)) :
    ∀ b ∈ s.lists.getD i [], ∃ o, s'.blocks b = some o ∧ o.ptr = .null := by
  simp only [PyCall.run] at h
  split at h
  · cases h
  · rename_i L hL
    have hgetD : s.lists.getD i [] = L := by rw [List.getD_eq_getElem?_getD, hL]; rfl
    rw [hgetD]
    split at h
    · rename_i hc
      obtain ⟨⟨s₁, r⟩, h1, h2⟩ := Option.bind_eq_some_iff.1 h
      simp only at h2
      split at h2 <;> cases h2
      intro b hb
      obtain ⟨o, _, _, h5⟩ := (claim_spec L s).2.2.1 hc b hb
      refine ⟨{ o with ptr := .null }, ?_, rfl⟩
      rw [← h5]
      show s₁.blocks b = _
      rw [(call_only h1).1]
    · cases h

theorem py_given {rules : PyRule → Prop} {s : PyState B} {l : PyLedger} (hr : PyRun rules s l) :
    ∀ b ∈ l.given, b < s.next ∧ ∀ o, s.blocks b = some o → o.ptr = .null := by
  induction hr with
  | start => intro b hb; cases hb
  | @step s s' l c reply p hr hc hrun ih =>
    have hg := (run_grows hrun).1
    have hn := hg.next
    have old : ∀ b ∈ l.given, b < s'.next ∧ ∀ o, s'.blocks b = some o → o.ptr = .null := by
      intro b hb
      obtain ⟨h1, h2⟩ := ih b hb
      refine ⟨by omega, fun o ho => ?_⟩
      rcases hg.block b o ho with h3 | ⟨o', h3, h4⟩
      · omega
      · rcases h4 with h4 | h4
        · rw [h4]; exact h2 o' h3
        · exact h4
    rcases record_given (s := s) (l := l) (c := c) (reply := reply) with h1 | ⟨keys, i, t, rfl, rfl, h1⟩
    · rw [h1]; exact old
    · rw [h1]
      intro b hb
      rcases List.mem_append.1 hb with hb | hb
      · obtain ⟨o, h2, h3⟩ := newTensor_given hrun b hb
        refine ⟨?_, fun o' h4 => ?_⟩
        · by_contra hlt
          rw [(hg.fresh (py_fresh hr) b (by omega)).1] at h2
          cases h2
        · rw [h2] at h4; cases h4; exact h3
      · exact old b hb

end Python
end Equistore
