import Verif.Props.Lifetimes
import Verif.Props.Python
import Verif.Spec.PyViews

/-! Statements of Python programs keep the labels of blocks and tensor maps. -/

namespace Equistore
namespace Python
open Spec Heap
variable {B : Type}

/-- The block is still there, with the same labels. -/
def Kept (place : Place) (h h' : Heap B) : Prop :=
  ∀ blk, place.block h = some blk → ∃ blk', place.block h' = some blk' ∧ KeepsParts SameLabels blk blk'

theorem Kept.refl (place : Place) (h : Heap B) : Kept place h h := fun blk hb => ⟨blk, hb, keepsParts_refl blk⟩

theorem Kept.trans {place : Place} {h h₁ h' : Heap B} (h1 : Kept place h h₁) (h2 : Kept place h₁ h') :
    Kept place h h' := by
  intro blk hb
  obtain ⟨b₁, h3, h4⟩ := h1 blk hb
  obtain ⟨b₂, h5, h6⟩ := h2 b₁ h3
  exact ⟨b₂, h5, h4.trans SameLabels.trans h6⟩

/-- The block of an object is still there, with the same labels on an axis. -/
structure KeepsBlock (axis b : Nat) (o : PyBlock) (place : Place) (s s' : PyState B) : Prop where
  object : ∃ o', s'.blocks b = some o' ∧ o'.ptr = o.ptr
  block : ∀ blk, place.block s.heap = some blk → ∃ blk', place.block s'.heap = some blk' ∧
    KeepsParts SameSamples blk blk' ∧ (axis ≠ 0 → KeepsParts SameLabels blk blk')

theorem Kept.keeps {axis b : Nat} {o : PyBlock} {place : Place} {s s' : PyState B} (hk : Kept place s.heap s'.heap)
    (ho : ∃ o', s'.blocks b = some o' ∧ o'.ptr = o.ptr) : KeepsBlock axis b o place s s' :=
  ⟨ho, fun blk hb => let ⟨blk', h1, h2⟩ := hk blk hb; ⟨blk', h1, KeepsParts.samples h2, fun _ => h2⟩⟩

variable [Inhabited B] [ArrayCallbacks B] {s s' : PyState B} {l : PyLedger} {all : Prop} {p : Platform}

theorem call_blocks {c : Call B} {r : Reply} (h : s.call p c = some (s', r)) :
    s'.blocks = s.blocks ∧ s'.tensors = s.tensors ∧ s'.next = s.next := by
  rw [(call_only h).1]; exact ⟨rfl, rfl, rfl⟩

/-- The place of the block of an object. -/
theorem place_of_object {next : Nat} {bs : Nat → Option PyBlock} {ts : Nat → Option PyTensor}
    {lists : List (List Nat)} {lc : Ledger} (hobj : Objects all next bs ts lists l lc) {b : Nat} {o : PyBlock}
    (hb : bs b = some o) {place : Place} (hp : Place.of o.ptr = some place) :
    (∃ n, place = .alone n ∧ o.ptr = .owned n) ∨
    (∃ t T n i, place = .inside n i ∧ o.parent = some t ∧ ts t = some T ∧ T.ptr = some n ∧ (b, t) ∈ l.views) := by
  cases hq : o.ptr with
  | null => rw [hq] at hp; cases hp
  | owned n => rw [hq] at hp; cases hp; exact .inl ⟨n, rfl, rfl⟩
  | inside n v i =>
    rw [hq] at hp
    cases hp
    right
    cases hown : o.owning with
    | true =>
      rcases (hobj.owning b o hb hown).2 with h1 | ⟨m, _, h1⟩ <;> rw [hq] at h1 <;> cases h1
    | false =>
      obtain ⟨t, T, m, h1, h2, h3, h4, h5, _⟩ := hobj.viewing b o hb hown
      rw [hq] at h4
      have h4 : n = m := by simpa [insideOf] using h4
      subst h4
      exact ⟨t, T, n, i, rfl, h1, h2, h3, h5⟩

/-! ### The calls made by a statement -/

/-- Calls which do not change or release existing blocks and tensor maps, apart from new gradients. -/
def Harmless : Call B → Prop
  | .arrayDestroy _ | .arrayWrite _ _ | .blockFree _ | .tensormap _ _ | .tensormapFree _ | .keysToProperties _ _ _
  | .keysToSamples _ _ _ | .componentsToProperties _ _ => False
  | _ => True

/-- The calls a statement makes. -/
inductive Issues (s : PyState B) : PyCall B → PyReply → Call B → Reply → Prop
  | harmless {pc : PyCall B} {reply : PyReply} {c : Call B} {r : Reply} : Harmless c → Issues s pc reply c r
  | deleteBlock {b : Nat} {o : PyBlock} {reply : PyReply} {r : Reply} : s.blocks b = some o →
    Issues s (.deleteBlock b) reply (.blockFree o.ptr) r
  | newTensor {keys : CLabels} {i : Nat} {L : List Nat} {reply : PyReply} {r : Reply} : s.lists.getD i [] = L →
    (∀ b ∈ L, ∃ o, s.blocks b = some o) →
    Issues s (.newTensor keys i) reply (.tensormap keys (L.map fun b => ((s.blocks b).map (·.ptr)).getD .null)) r
  | deleteTensor {t : Nat} {o : PyTensor} {reply : PyReply} {r : Reply} : s.tensors t = some o → s.isParent t = false →
    Issues s (.deleteTensor t) reply (.tensormapFree o.ptr) r
  | keysToProperties {t : Nat} {o : PyTensor} {keysToMove : CLabels} {sort : Bool} {parents : Nat → Nat}
    {reply : PyReply} {r : Res Unit} : s.tensors t = some o → (r = .ok () → reply = .done) →
    Issues s (.keysToProperties t keysToMove sort parents) reply (.keysToProperties o.ptr keysToMove sort) (.done r)
  | keysToSamples {t : Nat} {o : PyTensor} {keysToMove : CLabels} {sort : Bool} {parents : Nat → Nat}
    {reply : PyReply} {r : Res Unit} : s.tensors t = some o → (r = .ok () → reply = .done) →
    Issues s (.keysToSamples t keysToMove sort parents) reply (.keysToSamples o.ptr keysToMove sort) (.done r)
  | componentsToProperties {t : Nat} {o : PyTensor} {names : List (Option Bytes)} {parents : Nat → Nat}
    {reply : PyReply} {r : Reply} : s.tensors t = some o →
    Issues s (.componentsToProperties t names parents) reply (.componentsToProperties o.ptr names) r

/-- The heap changes by calls of a statement. -/
inductive Path (p : Platform) (s : PyState B) (pc : PyCall B) (reply : PyReply) : Heap B → Prop
  | now : Path p s pc reply s.heap
  | step {h h' : Heap B} {lc : Ledger} {c : Call B} {r : Reply} : Path p s pc reply h → Run h lc → c.Allowed lc →
    c.run p h = some (h', r) → Issues s pc reply c r → Path p s pc reply h'

theorem Path.call {pc : PyCall B} {reply : PyReply} {s₁ s₂ : PyState B} {lc : Ledger} {c : Call B} {r : Reply}
    (hp : Path p s pc reply s₁.heap) (hr : Run s₁.heap lc) (ha : c.Allowed lc) (h : s₁.call p c = some (s₂, r))
    (hi : Issues s pc reply c r) : Path p s pc reply s₂.heap :=
  .step hp hr ha (call_only h).2 hi

theorem path_readBlock {b : Nat} {c : BlockPtr → Call B} {pc : PyCall B} {reply : PyReply} (hi : PyInv all s l)
    (hb : b ∉ l.stale) (hallowed : ∀ lc q, Ledger.Usable lc q → (c q).Allowed lc) (hh : ∀ q, Harmless (c q))
    (h : PyCall.readBlock p b c s = some (s', reply)) : Path p s pc reply s'.heap := by
  obtain ⟨lc, hr, _, hobj, _⟩ := hi
  unfold PyCall.readBlock at h
  split at h
  · cases h; exact .now
  · rename_i o ho
    obtain ⟨⟨s₁, r⟩, h1, h2⟩ := Option.bind_eq_some_iff.1 h
    have : s' = s₁ := by
      simp only at h2
      split at h2 <;> cases h2 <;> rfl
    subst this
    exact .call .now hr (hallowed lc _ (hobj.usable ho hb)) h1 (.harmless (hh _))

theorem usableTensor {next : Nat} {bs : Nat → Option PyBlock} {ts : Nat → Option PyTensor} {lists : List (List Nat)}
    {lc : Ledger} (hobj : Objects all next bs ts lists l lc) {t : Nat} {o : PyTensor} (ht : ts t = some o) :
    lc.UsableTensor o.ptr := by
  obtain ⟨n, hn, hq⟩ := hobj.tensor t o ht
  intro m hm
  rw [hq] at hm; cases hm; exact hn

theorem path_readTensor {t : Nat} {c : Option Nat → Call B} {pc : PyCall B} {reply : PyReply} (hi : PyInv all s l)
    (hallowed : ∀ lc q, Ledger.UsableTensor lc q → (c q).Allowed lc) (hh : ∀ q, Harmless (c q))
    (h : PyCall.readTensor p t c s = some (s', reply)) : Path p s pc reply s'.heap := by
  obtain ⟨lc, hr, _, hobj, _⟩ := hi
  unfold PyCall.readTensor at h
  split at h
  · cases h; exact .now
  · rename_i o ho
    obtain ⟨⟨s₁, r⟩, h1, h2⟩ := Option.bind_eq_some_iff.1 h
    cases h2
    exact .call .now hr (hallowed lc _ (usableTensor hobj ho)) h1 (.harmless (hh _))

theorem path_modify {t : Nat} {c : Option Nat → Call B} {parents : Nat → Nat} {pc : PyCall B} {reply : PyReply}
    (hi : PyInv all s l) (hallowed : ∀ lc q, Ledger.UsableTensor lc q → (c q).Allowed lc)
    (hh : ∀ o r, s.tensors t = some o → (r = .done (.ok ()) → reply = .done) → (∃ r', r = Reply.done r') →
      Issues s pc reply (c o.ptr) r)
    (hdone : ∀ q h h' r, (c q).run p h = some (h', r) → ∃ r', r = Reply.done r')
    (h : s.modify p parents t c = some (s', reply)) : Path p s pc reply s'.heap := by
  obtain ⟨lc, hr, _, hobj, _⟩ := hi
  unfold PyState.modify at h
  split at h
  · cases h; exact .now
  · rename_i o ho
    obtain ⟨⟨s₁, r⟩, h1, h2⟩ := Option.bind_eq_some_iff.1 h
    have h3 : Path p s pc reply s₁.heap := by
      refine .call .now hr (hallowed lc _ (usableTensor hobj ho)) h1 (hh o r ho ?_ (hdone _ _ _ _ (call_only h1).2))
      rintro rfl
      cases h2
      rfl
    have h4 : s'.heap = s₁.heap := by
      simp only at h2
      split at h2 <;> cases h2 <;> rfl
    rw [h4]; exact h3

/-- The heap after a statement. -/
theorem run_path {rules : PyRule → Prop} (h1 : rules .moved) (h2 : rules .stale) (hi : PyInv (rules .accepted) s l)
    {pc : PyCall B} (hc : PyCall.Careful rules s l pc) {reply : PyReply} (hrun : pc.run p s = some (s', reply)) :
    Path p s pc reply s'.heap := by
  have hi' := hi
  obtain ⟨lc, hr, _, hobj, _⟩ := hi'
  cases pc with
  | newBlock values samples components properties =>
    simp only [PyCall.run, call_arrayNew, Option.bind_eq_bind, Option.bind_some] at hrun
    obtain ⟨⟨s₁, r⟩, h3, h4⟩ := Option.bind_eq_some_iff.1 hrun
    have h5 : Path p s (.newBlock values samples components properties) reply s₁.heap := by
      refine .call (.step .now hr (c := .arrayNew values) trivial rfl (.harmless trivial)) (run_arrayNew p hr values)
        ?_ h3 (.harmless trivial)
      exact ⟨rfl, List.mem_cons_self⟩
    have h6 : s'.heap = s₁.heap := by
      simp only at h4
      split at h4 <;> cases h4 <;> rfl
    rw [h6]; exact h5
  | copyBlock b =>
    simp only [PyCall.run] at hrun
    split at hrun
    · cases hrun; exact .now
    · rename_i o ho
      obtain ⟨⟨s₁, r⟩, h3, h4⟩ := Option.bind_eq_some_iff.1 hrun
      have h6 : s'.heap = s₁.heap := by
        simp only at h4
        split at h4 <;> cases h4 <;> rfl
      rw [h6]
      exact .call (c := .blockCopy o.ptr) .now hr (hobj.usable ho (hc h2)) h3 (.harmless trivial)
  | deleteBlock b =>
    simp only [PyCall.run] at hrun
    split at hrun
    · cases hrun; exact .now
    · rename_i o ho
      split at hrun
      · cases hrun; exact .now
      · split at hrun
        · rename_i hown
          obtain ⟨⟨s₁, r⟩, h3, h4⟩ := Option.bind_eq_some_iff.1 hrun
          cases h4
          exact .call (c := .blockFree o.ptr) (s₁ := { s with blocks := setAt s.blocks b none }) .now hr (hobj.owning b o ho hown).2 h3
            (.deleteBlock ho)
        · cases hrun; exact .now
  | labels b name axis => exact path_readBlock (c := (.blockLabels · name axis)) hi (hc h2) (fun _ _ h => h) (fun _ => trivial) hrun
  | data b name =>
    exact path_readBlock (c := (.blockData · name { ptr := 0, destroy := false })) hi (hc h2) (fun _ _ h => ⟨h, rfl⟩) (fun _ => trivial) hrun
  | gradientsList b => exact path_readBlock (c := .blockGradientsList) hi (hc h2) (fun _ _ h => h) (fun _ => trivial) hrun
  | addGradient b parameter content samples components =>
    simp only [PyCall.run] at hrun
    split at hrun
    · cases hrun; exact .now
    · rename_i o ho
      simp only [call_arrayNew, Option.bind_eq_bind, Option.bind_some] at hrun
      obtain ⟨⟨s₁, r⟩, h3, h4⟩ := Option.bind_eq_some_iff.1 hrun
      have h5 : Path p s (.addGradient b parameter content samples components) reply s₁.heap := by
        refine .call (.step .now hr (c := .arrayNew content) trivial rfl (.harmless trivial)) (run_arrayNew p hr content)
          ?_ h3 (.harmless trivial)
        exact ⟨hobj.usable ho (hc.1 h2), rfl, List.mem_cons_self⟩
      have h6 : s'.heap = s₁.heap := by
        simp only at h4
        split at h4 <;> cases h4 <;> rfl
      rw [h6]; exact h5
  | newList blocks => cases hrun; exact .now
  | setList i blocks => cases hrun; exact .now
  | newTensor keys i =>
    simp only [PyCall.run] at hrun
    split at hrun
    · cases hrun; exact .now
    · rename_i L hL
      have hgetD : s.lists.getD i [] = L := by rw [List.getD_eq_getElem?_getD, hL]; rfl
      obtain ⟨hc1, hc2, hc3, hc4⟩ := claim_spec L s
      generalize hcl : s.claim L = cl at hc1 hc2 hc3 hc4 hrun
      obtain ⟨s₁, ok⟩ := cl
      simp only at hc1 hc2 hc3 hc4 hrun
      have hheap : s₁.heap = s.heap := by rw [hc1]
      cases ok with
      | false => cases hrun; rw [hheap]; exact .now
      | true =>
        simp only [if_true] at hrun
        obtain ⟨⟨s₂, r⟩, h3, h4⟩ := Option.bind_eq_some_iff.1 hrun
        have h6 : s'.heap = s₂.heap := by
          simp only at h4
          split at h4 <;> cases h4 <;> rfl
        rw [h6]
        refine .call (s₁ := s₁) (lc := lc) (by rw [hheap]; exact .now) (by rw [hheap]; exact hr) ?_ h3
          (.newTensor hgetD fun b hb => ?_)
        · intro q hq
          obtain ⟨b, hb, rfl⟩ := List.mem_map.1 hq
          obtain ⟨o, h5, h6, _⟩ := hc3 rfl b hb
          rw [h5]
          rcases (hobj.owning b o h5 h6).2 with h7 | h7
          · exact absurd h7 (hobj.moved b o h5 (hc.1 h1 b (by rw [hgetD]; exact hb)))
          · exact h7
        · obtain ⟨o, h5, _⟩ := hc3 rfl b hb
          exact ⟨o, h5⟩
  | deleteTensor t =>
    simp only [PyCall.run] at hrun
    split at hrun
    · cases hrun; exact .now
    · rename_i o ho
      split at hrun
      · cases hrun; exact .now
      · rename_i hin
        obtain ⟨⟨s₁, r⟩, h3, h4⟩ := Option.bind_eq_some_iff.1 hrun
        cases h4
        exact .call (c := .tensormapFree o.ptr) (s₁ := { s with tensors := setAt s.tensors t none }) .now hr (usableTensor hobj ho) h3
          (.deleteTensor ho (by simpa using hin))
  | keys t => exact path_readTensor (c := .tensormapKeys) hi (fun _ _ h => h) (fun _ => trivial) hrun
  | block t index =>
    simp only [PyCall.run] at hrun
    split at hrun
    · cases hrun; exact .now
    · rename_i o ho
      obtain ⟨⟨s₁, r⟩, h3, h4⟩ := Option.bind_eq_some_iff.1 hrun
      have h6 : s'.heap = s₁.heap := by
        simp only at h4
        split at h4 <;> cases h4 <;> rfl
      rw [h6]
      exact .call (c := .tensormapBlockById o.ptr index) .now hr (usableTensor hobj ho) h3 (.harmless trivial)
  | blocksMatching t selection =>
    exact path_readTensor (c := (.tensormapBlocksMatching · selection)) hi (fun _ _ h => h) (fun _ => trivial) hrun
  | keysToProperties t keysToMove sort parents =>
    refine path_modify (c := (.keysToProperties · keysToMove sort)) hi (fun _ _ h => h) ?_ ?_ hrun
    · rintro o _ ho h3 ⟨r, rfl⟩
      exact .keysToProperties ho fun h => h3 (by rw [h])
    · intro q h h' r hr
      simp only [Call.run, Option.map_eq_some_iff] at hr
      obtain ⟨x, _, hx⟩ := hr
      cases hx; exact ⟨_, rfl⟩
  | keysToSamples t keysToMove sort parents =>
    refine path_modify (c := (.keysToSamples · keysToMove sort)) hi (fun _ _ h => h) ?_ ?_ hrun
    · rintro o _ ho h3 ⟨r, rfl⟩
      exact .keysToSamples ho fun h => h3 (by rw [h])
    · intro q h h' r hr
      simp only [Call.run, Option.map_eq_some_iff] at hr
      obtain ⟨x, _, hx⟩ := hr
      cases hx; exact ⟨_, rfl⟩
  | componentsToProperties t names parents =>
    refine path_modify (c := (.componentsToProperties · names)) hi (fun _ _ h => h) ?_ ?_ hrun
    · rintro o _ ho _ ⟨r, rfl⟩
      exact .componentsToProperties ho
    · intro q h h' r hr
      simp only [Call.run, Option.map_eq_some_iff] at hr
      obtain ⟨x, _, hx⟩ := hr
      cases hx; exact ⟨_, rfl⟩
  | load archive =>
    simp only [PyCall.run] at hrun
    obtain ⟨⟨s₁, r⟩, h3, h4⟩ := Option.bind_eq_some_iff.1 hrun
    have h6 : s'.heap = s₁.heap := by
      simp only at h4
      split at h4 <;> cases h4 <;> rfl
    rw [h6]
    exact .call (c := .load archive) .now hr trivial h3 (.harmless trivial)
  | save t => exact path_readTensor (c := .save) hi (fun _ _ h => h) (fun _ => trivial) hrun
  | collect choice => cases hrun; exact .now

/-! ### The objects after a statement -/

/-- An object keeps its pointer, unless it is deleted or given to `TensorMap()`. -/
theorem run_block {pc : PyCall B} {reply : PyReply} (hrun : pc.run p s = some (s', reply))
    (hfresh : ∀ i, s.next ≤ i → s.blocks i = none) {b : Nat} {o : PyBlock}
    (hb : s.blocks b = some o) (hdel : pc ≠ .deleteBlock b)
    (hnew : ∀ keys i, pc = .newTensor keys i → b ∉ s.lists.getD i []) :
    ∃ o', s'.blocks b = some o' ∧ o'.ptr = o.ptr := by
  have hlt : b ≠ s.next := by
    rintro rfl
    rw [hfresh _ (Nat.le_refl _)] at hb; cases hb
  have hsame : ∀ s'' : PyState B, s''.blocks = s.blocks → ∃ o', s''.blocks b = some o' ∧ o'.ptr = o.ptr :=
    fun s'' h => ⟨o, by rw [h]; exact hb, rfl⟩
  have hput : ∀ (s'' : PyState B) (x : PyBlock), s''.blocks = s.blocks → s''.next = s.next →
      ∃ o', (s''.putBlock x).1.blocks b = some o' ∧ o'.ptr = o.ptr := by
    intro s'' x h1 h2
    refine ⟨o, ?_, rfl⟩
    show setAt s''.blocks s''.next (some x) b = _
    rw [setAt_ne _ _ (by rw [h2]; exact hlt), h1, hb]
  have hread : ∀ b' (c : BlockPtr → Call B), PyCall.readBlock p b' c s = some (s', reply) → s'.blocks = s.blocks := by
    intro b' c h
    unfold PyCall.readBlock at h
    split at h
    · cases h; rfl
    · obtain ⟨⟨s₁, r⟩, h1, h2⟩ := Option.bind_eq_some_iff.1 h
      have : s' = s₁ := by
        simp only at h2
        split at h2 <;> cases h2 <;> rfl
      subst this
      exact (call_blocks h1).1
  have hreadT : ∀ t (c : Option Nat → Call B), PyCall.readTensor p t c s = some (s', reply) → s'.blocks = s.blocks := by
    intro t c h
    unfold PyCall.readTensor at h
    split at h
    · cases h; rfl
    · obtain ⟨⟨s₁, r⟩, h1, h2⟩ := Option.bind_eq_some_iff.1 h
      cases h2
      exact (call_blocks h1).1
  have hmodify : ∀ t (c : Option Nat → Call B) parents, s.modify p parents t c = some (s', reply) →
      s'.blocks = s.blocks := by
    intro t c parents h
    unfold PyState.modify at h
    split at h
    · cases h; rfl
    · obtain ⟨⟨s₁, r⟩, h1, h2⟩ := Option.bind_eq_some_iff.1 h
      simp only at h2
      split at h2 <;> cases h2 <;> exact (call_blocks h1).1
  cases pc with
  | newBlock values samples components properties =>
    simp only [PyCall.run, call_arrayNew, Option.bind_eq_bind, Option.bind_some] at hrun
    obtain ⟨⟨s₁, r⟩, h3, h4⟩ := Option.bind_eq_some_iff.1 hrun
    obtain ⟨h5, _, h6⟩ := call_blocks h3
    simp only at h4
    split at h4 <;> cases h4
    · exact hput s₁ _ h5 h6
    · exact hsame _ h5
  | copyBlock b' =>
    simp only [PyCall.run] at hrun
    split at hrun
    · cases hrun; exact hsame _ rfl
    · obtain ⟨⟨s₁, r⟩, h3, h4⟩ := Option.bind_eq_some_iff.1 hrun
      obtain ⟨h5, _, h6⟩ := call_blocks h3
      simp only at h4
      split at h4 <;> cases h4
      · exact hput _ _ h5 h6
      · exact hsame _ h5
  | deleteBlock b' =>
    have hne : b ≠ b' := fun h => hdel (by rw [h])
    simp only [PyCall.run] at hrun
    split at hrun
    · cases hrun; exact hsame _ rfl
    · split at hrun
      · cases hrun; exact hsame _ rfl
      · split at hrun
        · obtain ⟨⟨s₁, r⟩, h3, h4⟩ := Option.bind_eq_some_iff.1 hrun
          cases h4
          refine ⟨o, ?_, rfl⟩
          rw [(call_blocks h3).1]
          exact (setAt_ne _ _ hne).trans hb
        · cases hrun
          exact ⟨o, (setAt_ne _ _ hne).trans hb, rfl⟩
  | labels b' name axis =>
    simp only [PyCall.run] at hrun
    exact hsame _ (hread _ _ hrun)
  | data b' name =>
    simp only [PyCall.run] at hrun
    exact hsame _ (hread _ _ hrun)
  | gradientsList b' =>
    simp only [PyCall.run] at hrun
    exact hsame _ (hread _ _ hrun)
  | addGradient b' parameter content samples components =>
    simp only [PyCall.run] at hrun
    split at hrun
    · cases hrun; exact hsame _ rfl
    · rename_i o' ho'
      simp only [call_arrayNew, Option.bind_eq_bind, Option.bind_some] at hrun
      obtain ⟨⟨s₁, r⟩, h3, h4⟩ := Option.bind_eq_some_iff.1 hrun
      obtain ⟨h5, _, _⟩ := call_blocks h3
      have h6 : s'.blocks = s₁.blocks := by
        simp only at h4
        split at h4 <;> cases h4 <;> rfl
      rw [h6, h5]
      by_cases hbb : b = b'
      · subst hbb
        rw [hb] at ho'; cases ho'
        exact ⟨_, setAt_self _ _ _, rfl⟩
      · exact ⟨o, (setAt_ne _ _ hbb).trans hb, rfl⟩
  | newList blocks => cases hrun; exact hsame _ rfl
  | setList i blocks => cases hrun; exact hsame _ rfl
  | newTensor keys i =>
    have hnot := hnew keys i rfl
    simp only [PyCall.run] at hrun
    split at hrun
    · cases hrun; exact hsame _ rfl
    · rename_i L hL
      have hgetD : s.lists.getD i [] = L := by rw [List.getD_eq_getElem?_getD, hL]; rfl
      rw [hgetD] at hnot
      obtain ⟨hc1, hc2, _, _⟩ := claim_spec L s
      generalize hcl : s.claim L = cl at hc1 hc2 hrun
      obtain ⟨s₁, ok⟩ := cl
      simp only at hc1 hc2 hrun
      have h5 : s₁.blocks b = some o := by
        rcases hc2 b with h6 | ⟨_, h6, _⟩
        · rw [h6, hb]
        · exact absurd h6 hnot
      cases ok with
      | false => cases hrun; exact ⟨o, h5, rfl⟩
      | true =>
        simp only [if_true] at hrun
        obtain ⟨⟨s₂, r⟩, h3, h4⟩ := Option.bind_eq_some_iff.1 hrun
        have h6 : s'.blocks = s₂.blocks := by
          simp only at h4
          split at h4 <;> cases h4 <;> rfl
        rw [h6, (call_blocks h3).1]
        exact ⟨o, h5, rfl⟩
  | deleteTensor t =>
    simp only [PyCall.run] at hrun
    split at hrun
    · cases hrun; exact hsame _ rfl
    · split at hrun
      · cases hrun; exact hsame _ rfl
      · obtain ⟨⟨s₁, r⟩, h3, h4⟩ := Option.bind_eq_some_iff.1 hrun
        cases h4
        exact hsame _ (call_blocks h3).1
  | keys t =>
    simp only [PyCall.run] at hrun
    exact hsame _ (hreadT _ _ hrun)
  | block t index =>
    simp only [PyCall.run] at hrun
    split at hrun
    · cases hrun; exact hsame _ rfl
    · obtain ⟨⟨s₁, r⟩, h3, h4⟩ := Option.bind_eq_some_iff.1 hrun
      obtain ⟨h5, _, h6⟩ := call_blocks h3
      simp only at h4
      split at h4 <;> cases h4
      · exact hput s₁ _ h5 h6
      · exact hsame _ h5
  | blocksMatching t selection =>
    simp only [PyCall.run] at hrun
    exact hsame _ (hreadT _ _ hrun)
  | keysToProperties t keysToMove sort parents =>
    simp only [PyCall.run] at hrun
    exact hsame _ (hmodify _ _ _ hrun)
  | keysToSamples t keysToMove sort parents =>
    simp only [PyCall.run] at hrun
    exact hsame _ (hmodify _ _ _ hrun)
  | componentsToProperties t names parents =>
    simp only [PyCall.run] at hrun
    exact hsame _ (hmodify _ _ _ hrun)
  | load archive =>
    simp only [PyCall.run] at hrun
    obtain ⟨⟨s₁, r⟩, h3, h4⟩ := Option.bind_eq_some_iff.1 hrun
    simp only at h4
    split at h4 <;> cases h4 <;> exact hsame _ (call_blocks h3).1
  | save t =>
    simp only [PyCall.run] at hrun
    exact hsame _ (hreadT _ _ hrun)
  | collect choice => cases hrun; exact hsame _ rfl

/-- Tensor maps keep their pointer, unless they are deleted. -/
theorem run_tensor {pc : PyCall B} {reply : PyReply} (hrun : pc.run p s = some (s', reply))
    (hfresh : ∀ i, s.next ≤ i → s.tensors i = none) {t : Nat} {o : PyTensor}
    (ht : s.tensors t = some o) (hdel : pc ≠ .deleteTensor t) : s'.tensors t = some o := by
  have hlt : t ≠ s.next := by
    rintro rfl
    rw [hfresh _ (Nat.le_refl _)] at ht; cases ht
  have hsame : ∀ s'' : PyState B, s''.tensors = s.tensors → s''.tensors t = some o := fun s'' h => by rw [h]; exact ht
  have hput : ∀ (s'' : PyState B) (x : PyTensor), s''.tensors = s.tensors → s''.next = s.next →
      (s''.putTensor x).1.tensors t = some o := by
    intro s'' x h1 h2
    show setAt s''.tensors s''.next (some x) t = _
    rw [setAt_ne _ _ (by rw [h2]; exact hlt), h1, ht]
  have hread : ∀ b' (c : BlockPtr → Call B), PyCall.readBlock p b' c s = some (s', reply) → s'.tensors = s.tensors := by
    intro b' c h
    unfold PyCall.readBlock at h
    split at h
    · cases h; rfl
    · obtain ⟨⟨s₁, r⟩, h1, h2⟩ := Option.bind_eq_some_iff.1 h
      have : s' = s₁ := by
        simp only at h2
        split at h2 <;> cases h2 <;> rfl
      subst this
      exact (call_blocks h1).2.1
  have hreadT : ∀ t (c : Option Nat → Call B), PyCall.readTensor p t c s = some (s', reply) →
      s'.tensors = s.tensors := by
    intro t c h
    unfold PyCall.readTensor at h
    split at h
    · cases h; rfl
    · obtain ⟨⟨s₁, r⟩, h1, h2⟩ := Option.bind_eq_some_iff.1 h
      cases h2
      exact (call_blocks h1).2.1
  have hmodify : ∀ t (c : Option Nat → Call B) parents, s.modify p parents t c = some (s', reply) →
      s'.tensors = s.tensors := by
    intro t c parents h
    unfold PyState.modify at h
    split at h
    · cases h; rfl
    · obtain ⟨⟨s₁, r⟩, h1, h2⟩ := Option.bind_eq_some_iff.1 h
      simp only at h2
      split at h2 <;> cases h2 <;> exact (call_blocks h1).2.1
  cases pc with
  | newBlock values samples components properties =>
    simp only [PyCall.run, call_arrayNew, Option.bind_eq_bind, Option.bind_some] at hrun
    obtain ⟨⟨s₁, r⟩, h3, h4⟩ := Option.bind_eq_some_iff.1 hrun
    simp only at h4
    split at h4 <;> cases h4 <;> exact hsame _ (call_blocks h3).2.1
  | copyBlock b' =>
    simp only [PyCall.run] at hrun
    split at hrun
    · cases hrun; exact ht
    · obtain ⟨⟨s₁, r⟩, h3, h4⟩ := Option.bind_eq_some_iff.1 hrun
      simp only at h4
      split at h4 <;> cases h4 <;> exact hsame _ (call_blocks h3).2.1
  | deleteBlock b' =>
    simp only [PyCall.run] at hrun
    split at hrun
    · cases hrun; exact ht
    · split at hrun
      · cases hrun; exact ht
      · split at hrun
        · obtain ⟨⟨s₁, r⟩, h3, h4⟩ := Option.bind_eq_some_iff.1 hrun
          cases h4
          exact hsame _ (call_blocks h3).2.1
        · cases hrun; exact ht
  | labels b' name axis =>
    simp only [PyCall.run] at hrun
    exact hsame _ (hread _ _ hrun)
  | data b' name =>
    simp only [PyCall.run] at hrun
    exact hsame _ (hread _ _ hrun)
  | gradientsList b' =>
    simp only [PyCall.run] at hrun
    exact hsame _ (hread _ _ hrun)
  | addGradient b' parameter content samples components =>
    simp only [PyCall.run] at hrun
    split at hrun
    · cases hrun; exact ht
    · simp only [call_arrayNew, Option.bind_eq_bind, Option.bind_some] at hrun
      obtain ⟨⟨s₁, r⟩, h3, h4⟩ := Option.bind_eq_some_iff.1 hrun
      simp only at h4
      split at h4 <;> cases h4 <;> exact hsame _ (call_blocks h3).2.1
  | newList blocks => cases hrun; exact ht
  | setList i blocks => cases hrun; exact ht
  | newTensor keys i =>
    simp only [PyCall.run] at hrun
    split at hrun
    · cases hrun; exact ht
    · rename_i L hL
      obtain ⟨hc1, _⟩ := claim_spec L s
      generalize hcl : s.claim L = cl at hc1 hrun
      obtain ⟨s₁, ok⟩ := cl
      simp only at hc1 hrun
      have h5 : s₁.tensors = s.tensors := by rw [hc1]
      have h6 : s₁.next = s.next := by rw [hc1]
      cases ok with
      | false => cases hrun; exact hsame _ h5
      | true =>
        simp only [if_true] at hrun
        obtain ⟨⟨s₂, r⟩, h3, h4⟩ := Option.bind_eq_some_iff.1 hrun
        obtain ⟨_, h7, h8⟩ := call_blocks h3
        simp only at h4
        split at h4 <;> cases h4
        · exact hput _ _ (h7.trans h5) (h8.trans h6)
        · exact hsame _ (h7.trans h5)
  | deleteTensor t' =>
    have hne : t ≠ t' := fun h => hdel (by rw [h])
    simp only [PyCall.run] at hrun
    split at hrun
    · cases hrun; exact ht
    · split at hrun
      · cases hrun; exact ht
      · obtain ⟨⟨s₁, r⟩, h3, h4⟩ := Option.bind_eq_some_iff.1 hrun
        cases h4
        rw [(call_blocks h3).2.1]
        exact (setAt_ne _ _ hne).trans ht
  | keys t' =>
    simp only [PyCall.run] at hrun
    exact hsame _ (hreadT _ _ hrun)
  | block t' index =>
    simp only [PyCall.run] at hrun
    split at hrun
    · cases hrun; exact ht
    · obtain ⟨⟨s₁, r⟩, h3, h4⟩ := Option.bind_eq_some_iff.1 hrun
      simp only at h4
      split at h4 <;> cases h4 <;> exact hsame _ (call_blocks h3).2.1
  | blocksMatching t' selection =>
    simp only [PyCall.run] at hrun
    exact hsame _ (hreadT _ _ hrun)
  | keysToProperties t' keysToMove sort parents =>
    simp only [PyCall.run] at hrun
    exact hsame _ (hmodify _ _ _ hrun)
  | keysToSamples t' keysToMove sort parents =>
    simp only [PyCall.run] at hrun
    exact hsame _ (hmodify _ _ _ hrun)
  | componentsToProperties t' names parents =>
    simp only [PyCall.run] at hrun
    exact hsame _ (hmodify _ _ _ hrun)
  | load archive =>
    simp only [PyCall.run] at hrun
    obtain ⟨⟨s₁, r⟩, h3, h4⟩ := Option.bind_eq_some_iff.1 hrun
    obtain ⟨_, h7, h8⟩ := call_blocks h3
    simp only at h4
    split at h4 <;> cases h4
    · exact hput { s₁ with lists := s₁.lists ++ [[]] } _ h7 h8
    · exact hsame _ h7
  | save t' =>
    simp only [PyCall.run] at hrun
    exact hsame _ (hreadT _ _ hrun)
  | collect choice => cases hrun; exact ht

/-! ### Labels after a statement -/

theorem harmless_after {c : Call B} (hh : Harmless c) (r : Reply) (place : Place) :
    place.after c r = some place ∧ ¬MovesComponents place c := by
  cases c <;> first | (cases hh; done) | (refine ⟨?_, ?_⟩ <;> cases place <;> first | rfl | exact id)

/-- The calls made by a statement leave the block of an object where it is. -/
theorem issues_after {lc : Ledger} (hobj : Objects all s.next s.blocks s.tensors s.lists l lc) {pc : PyCall B}
    {reply : PyReply} {c : Call B} {r : Reply} (hi : Issues s pc reply c r) {b axis : Nat} {name : Bytes} {o : PyBlock}
    (hb : s.blocks b = some o) {place : Place} (hp : Place.of o.ptr = some place) (hdel : pc ≠ .deleteBlock b)
    (hexp : (PySource.block b name axis).expires s l pc reply = false) :
    place.after c r = some place ∧ (MovesComponents place c → axis = 0) := by
  have hplace := place_of_object hobj hb hp
  cases hi with
  | harmless hh => exact ⟨(harmless_after hh r place).1, fun h => absurd h (harmless_after hh r place).2⟩
  | @deleteBlock b' o' _ _ ho' =>
    refine ⟨?_, fun h => by cases place <;> cases h⟩
    rcases hplace with ⟨n, rfl, hq⟩ | ⟨t, T, n, i, rfl, _⟩
    · cases hq' : o'.ptr with
      | null => rfl
      | inside m v i => rfl
      | owned m =>
        have hne : m ≠ n := by
          rintro rfl
          exact hdel (by rw [hobj.once b o b' o' m hb ho' hq hq'])
        simp [Place.after, hne]
    · cases o'.ptr <;> rfl
  | @newTensor keys i L _ _ hL hsome =>
    refine ⟨?_, fun h => by cases place <;> cases h⟩
    rcases hplace with ⟨n, rfl, hq⟩ | ⟨t, T, n, i, rfl, _⟩
    · have hnot : BlockPtr.owned n ∉ L.map fun b => ((s.blocks b).map (·.ptr)).getD .null := by
        intro hm
        obtain ⟨b', hb', heq⟩ := List.mem_map.1 hm
        obtain ⟨o', ho'⟩ := hsome b' hb'
        rw [ho'] at heq
        have := hobj.once b o b' o' n hb ho' hq heq
        subst this
        have h1 : (s.lists.getD i []).contains b = false := hexp
        rw [hL] at h1
        simp only [List.contains_eq_mem, decide_eq_false_iff_not] at h1
        exact h1 hb'
      cases r with
      | newTensor res pointers =>
        have h2 : (BlockPtr.owned n, BlockPtr.null) ∉
            (L.map fun b => ((s.blocks b).map (·.ptr)).getD .null).zip pointers :=
          fun h => hnot (List.of_mem_zip h).1
        cases res with
        | ok t => simp only [Place.after, if_neg hnot]
        | err e => simp only [Place.after, if_neg h2]
        | panic m => simp only [Place.after, if_neg h2]
      | _ => rfl
    · rfl
  | @deleteTensor t' o' _ _ ho' hpar =>
    refine ⟨?_, fun h => by cases place <;> cases h⟩
    rcases hplace with ⟨n, rfl, hq⟩ | ⟨t, T, n, i, rfl, hpt, hT, hTn, _⟩
    · rfl
    · cases hq' : o'.ptr with
      | none => rfl
      | some m =>
        have hne : m ≠ n := by
          rintro rfl
          have := hobj.tensorOnce t T t' o' m hT ho' hTn hq'
          subst this
          exact isParent_false (fun i hi => (hobj.fresh i hi).1) hpar b o hb hpt
        simp [Place.after, hne]
  | @keysToProperties t' o' _ _ _ _ r ho' hr =>
    refine ⟨?_, fun h => by cases place <;> cases h⟩
    rcases hplace with ⟨n, rfl, hq⟩ | ⟨t, T, n, i, rfl, hpt, hT, hTn, hview⟩
    · rfl
    · cases r with
      | ok u =>
        cases hq' : o'.ptr with
        | none => rfl
        | some m =>
          have hne : m ≠ n := by
            rintro rfl
            have := hobj.tensorOnce t T t' o' m hT ho' hTn hq'
            subst this
            rw [hr rfl] at hexp
            simp [PySource.expires, hview] at hexp
          simp [Place.after, hne]
      | _ => cases o'.ptr <;> rfl
  | @keysToSamples t' o' _ _ _ _ r ho' hr =>
    refine ⟨?_, fun h => by cases place <;> cases h⟩
    rcases hplace with ⟨n, rfl, hq⟩ | ⟨t, T, n, i, rfl, hpt, hT, hTn, hview⟩
    · rfl
    · cases r with
      | ok u =>
        cases hq' : o'.ptr with
        | none => rfl
        | some m =>
          have hne : m ≠ n := by
            rintro rfl
            have := hobj.tensorOnce t T t' o' m hT ho' hTn hq'
            subst this
            rw [hr rfl] at hexp
            simp [PySource.expires, hview] at hexp
          simp [Place.after, hne]
      | _ => cases o'.ptr <;> rfl
  | @componentsToProperties t' o' _ _ _ _ ho' =>
    refine ⟨by cases place <;> rfl, ?_⟩
    rcases hplace with ⟨n, rfl, hq⟩ | ⟨t, T, n, i, rfl, hpt, hT, hTn, hview⟩
    · exact fun h => by cases h
    · intro h
      have hq' : o'.ptr = some n := h
      have := hobj.tensorOnce t T t' o' n hT ho' hTn hq'
      subst this
      have h1 : (l.views.contains (b, t) && axis != 0) = false := hexp
      have h2 : l.views.contains (b, t) = true := by simpa using hview
      rw [h2] at h1
      simpa using h1

/-- The block of an object is still there after a statement, with the same labels on an axis. -/
theorem run_keepsBlock {rules : PyRule → Prop} (h1 : rules .moved) (h2 : rules .stale)
    (hi : PyInv (rules .accepted) s l) {pc : PyCall B} (hc : PyCall.Careful rules s l pc) {reply : PyReply}
    (hrun : pc.run p s = some (s', reply)) {b axis : Nat} {name : Bytes} {o : PyBlock} (hb : s.blocks b = some o)
    {place : Place} (hp : Place.of o.ptr = some place) (hdel : pc ≠ .deleteBlock b)
    (hexp : (PySource.block b name axis).expires s l pc reply = false) : KeepsBlock axis b o place s s' := by
  have hpath := run_path h1 h2 hi hc hrun
  obtain ⟨lc, _, _, hobj, _⟩ := hi
  refine ⟨run_block hrun (fun i hi => (hobj.fresh i hi).1) hb hdel ?_, fun blk hblk => ?_⟩
  · rintro keys i rfl
    have h3 : (s.lists.getD i []).contains b = false := hexp
    simpa using h3
  · generalize s'.heap = h' at hpath ⊢
    induction hpath with
    | now => exact ⟨blk, hblk, KeepsParts.samples (keepsParts_refl blk), fun _ => keepsParts_refl blk⟩
    | step _ hr ha hcall hissue ih =>
      obtain ⟨blk₁, h3, h4, h5⟩ := ih
      obtain ⟨h6, h7⟩ := issues_after hobj hissue hb hp hdel hexp
      obtain ⟨blk₂, h8, h9, h10⟩ := place_step hr ha hcall h3 h6
      refine ⟨blk₂, h8, h4.trans (R' := SameSamples) (R'' := SameSamples) (fun _ _ _ x y => Eq.trans y x) h9,
        fun haxis => (h5 haxis).trans SameLabels.trans (h10 fun h => haxis (h7 h))⟩

theorem issues_keys {lc : Ledger} (hobj : Objects all s.next s.blocks s.tensors s.lists l lc) {pc : PyCall B}
    {reply : PyReply} {c : Call B} {r : Reply} (hi : Issues s pc reply c r) {t n : Nat} {o : PyTensor}
    (ht : s.tensors t = some o) (hn : o.ptr = some n) (hdel : pc ≠ .deleteTensor t)
    (hexp : (PySource.keys t).expires s l pc reply = false) : LeavesKeys n c r := by
  have hne : ∀ t' o' m, s.tensors t' = some o' → o'.ptr = some m → t' ≠ t → m ≠ n := by
    rintro t' o' m h1 h2 h3 rfl
    exact h3 (hobj.tensorOnce t' o' t o m h1 ht h2 hn)
  cases hi with
  | harmless hh => cases c <;> first | (cases hh; done) | trivial
  | deleteBlock => trivial
  | newTensor => trivial
  | @deleteTensor t' o' _ _ ho' _ =>
    cases hq : o'.ptr with
    | none => trivial
    | some m => exact hne t' o' m ho' hq fun h => hdel (by rw [h])
  | @keysToProperties t' o' _ _ _ _ r ho' hr =>
    cases hq : o'.ptr with
    | none => cases r <;> trivial
    | some m =>
      cases r with
      | ok u =>
        refine hne t' o' m ho' hq fun h => ?_
        rw [hr rfl, h] at hexp
        simp [PySource.expires] at hexp
      | _ => trivial
  | @keysToSamples t' o' _ _ _ _ r ho' hr =>
    cases hq : o'.ptr with
    | none => cases r <;> trivial
    | some m =>
      cases r with
      | ok u =>
        refine hne t' o' m ho' hq fun h => ?_
        rw [hr rfl, h] at hexp
        simp [PySource.expires] at hexp
      | _ => trivial
  | componentsToProperties => trivial

/-- The keys of a tensor map are the same after a statement. -/
theorem run_keepsKeys {rules : PyRule → Prop} (h1 : rules .moved) (h2 : rules .stale)
    (hi : PyInv (rules .accepted) s l) {pc : PyCall B} (hc : PyCall.Careful rules s l pc) {reply : PyReply}
    (hrun : pc.run p s = some (s', reply)) {t n : Nat} {o : PyTensor} (ht : s.tensors t = some o)
    (hn : o.ptr = some n) (hdel : pc ≠ .deleteTensor t) (hexp : (PySource.keys t).expires s l pc reply = false) :
    s'.tensors t = some o ∧ ∀ tm v, s.heap.tensors n = some (tm, v) →
      ∃ tm', s'.heap.tensors n = some (tm', v) ∧ tm'.keys = tm.keys := by
  have hpath := run_path h1 h2 hi hc hrun
  obtain ⟨lc, _, _, hobj, _⟩ := hi
  refine ⟨run_tensor hrun (fun i hi => (hobj.fresh i hi).2) ht hdel, fun tm v htm => ?_⟩
  generalize s'.heap = h' at hpath ⊢
  induction hpath with
  | now => exact ⟨tm, htm, rfl⟩
  | step _ hr ha hcall hissue ih =>
    obtain ⟨tm₁, h3, h4⟩ := ih
    obtain ⟨tm₂, h5, h6, _⟩ := keys_step hr ha hcall h3 (issues_keys hobj hissue ht hn hdel hexp)
    exact ⟨tm₂, h5, h6.trans h4⟩

end Python
end Equistore
