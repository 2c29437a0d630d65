import Verif.Spec.DataLifetimes
import Verif.Lemmas.LifetimesCalls

/-! Calls of the C API and the arrays of blocks. -/

namespace Equistore
open Spec

/-- The same array. -/
def SameData {A : Type} (part part' : BasicBlock A) : Prop := part'.data = part.data

theorem keepsData_refl {A : Type} (b : TensorBlock A) : KeepsParts SameData b b :=
  ⟨rfl, fun _ part hp => ⟨part, hp, rfl⟩⟩

theorem SameData.trans {A : Type} (a b c : BasicBlock A) (h1 : SameData a b) (h2 : SameData b c) : SameData a c :=
  Eq.trans h2 h1

section
variable {A : Type} [ArrayLike A]

theorem addGradient_data (b : TensorBlock A) (parameter : String) (data : A) (samples : Labels)
    (components : List Labels) :
    KeepsParts SameData b (TensorBlock.addGradient parameter data samples components b).1 := by
  have key : ∀ l, KeepsParts SameData b { b with
      gradients := b.gradients ++ [(parameter, b.gradientBlock data samples components)], gradientParameters := l } := by
    intro l
    refine ⟨rfl, fun name part hp => ⟨part, ?_, rfl⟩⟩
    rw [List.lookup_append, hp]
    rfl
  rw [addGradient_eq]
  cases h : TensorBlock.checkGradient b parameter data samples components with
  | ok u =>
    simp only
    split
    · exact key _
    · exact key _
  | err e => exact keepsData_refl b
  | panic m => exact keepsData_refl b

theorem addGradientOfC_data (name : Option Bytes) (array : A) (samples : CLabels) (components : List CLabels)
    (b : TensorBlock A) : KeepsParts SameData b (addGradientOfC name array samples components b).1 := by
  have hlift : ∀ {α : Type} (r : Res α) (f : α → Act (TensorBlock A) Unit),
      (∀ a, KeepsParts SameData b (f a b).1) → KeepsParts SameData b ((Act.lift r >>= f) b).1 := by
    intro α r f hf
    rw [Act.lift_bind]
    cases r with
    | ok a => exact hf a
    | err e => exact keepsData_refl b
    | panic m => exact keepsData_refl b
  refine hlift _ _ fun _ => hlift _ _ fun _ => hlift _ _ fun _ => hlift _ _ fun _ => ?_
  exact addGradient_data b _ _ _ _

end

namespace Heap
variable {B : Type}

/-! ### Handles -/

/-- The handle inside of a Rust function. -/
def HasHandle (part : BasicBlock (Live B)) (part' : BasicBlock CArray) : Prop :=
  ∀ c, part.data.handle = some c → part'.data = c

theorem settle_handle {h : Heap B} {a : Live B} {c : CArray} (hc : a.handle = some c) : (settle h a).2 = c := by
  unfold settle
  rw [hc]

theorem mapAccum_gradients (s : Heap B) (l : List (String × BasicBlock (Live B))) (name : String)
    (part : BasicBlock (Live B)) (hp : l.lookup name = some part) :
    ∃ part', (mapAccum (fun s g => let r := settle s g.2.data; (r.1, (g.1, g.2.withData r.2))) s l).2.lookup name =
      some part' ∧ HasHandle part part' := by
  induction l generalizing s with
  | nil => cases hp
  | cons g l ih =>
    obtain ⟨n, g⟩ := g
    simp only [mapAccum, List.lookup_cons] at hp ⊢
    cases hn : name == n with
    | true =>
      rw [hn] at hp
      simp only [Option.some.injEq] at hp
      subst hp
      exact ⟨_, rfl, fun c hc => settle_handle hc⟩
    | false =>
      rw [hn] at hp
      exact ih _ hp

theorem mapAccumData_handles (s : Heap B) (b : TensorBlock (Live B)) :
    KeepsParts HasHandle b (b.mapAccumData settle s).2 :=
  ⟨fun _ hc => settle_handle hc, fun name part hp => mapAccum_gradients _ _ name part hp⟩

theorem commitBlock_handles {h h' : Heap B} {before : List CArray} {b : TensorBlock (Live B)} {b' : TensorBlock CArray}
    (hc : h.commitBlock before b = some (h', b')) : KeepsParts HasHandle b b' := by
  unfold commitBlock at hc
  simp only at hc
  split at hc
  · cases hc
  · cases hc
    exact mapAccumData_handles _ _

theorem mapAccum_forall₂ {σ α β : Type} {R : α → β → Prop} {f : σ → α → σ × β} (hf : ∀ s a, R a (f s a).2) (s : σ)
    (l : List α) : List.Forall₂ R l (mapAccum f s l).2 := by
  induction l generalizing s with
  | nil => exact .nil
  | cons a l ih => exact .cons (hf s a) (ih _)

theorem commitTensor_handles {h h' : Heap B} {before : List CArray} {t : TensorMap (Live B)} {t' : TensorMap CArray}
    (hc : h.commitTensor before t = some (h', t')) : List.Forall₂ (KeepsParts HasHandle) t.blocks t'.blocks := by
  unfold commitTensor at hc
  simp only at hc
  split at hc
  · cases hc
  · cases hc
    exact mapAccum_forall₂ (fun s b => mapAccumData_handles s b) _ _

/-- A part with the handle of another one. -/
def OfHandle (part : BasicBlock CArray) (part' : BasicBlock (Live B)) : Prop := part'.data.handle = some part.data

/-- The same handle. -/
def SameHandle (part part' : BasicBlock (Live B)) : Prop := part'.data.handle = part.data.handle

theorem sameData_of (a : BasicBlock CArray) (b : BasicBlock (Live B)) (c : BasicBlock CArray) (h1 : OfHandle a b)
    (h2 : HasHandle b c) : SameData a c := h2 _ h1

variable [Inhabited B]

theorem keepsHandles_thawed (h : Heap B) (b : TensorBlock CArray) : KeepsParts OfHandle b (b.mapData (thawed h)) := by
  refine ⟨rfl, fun name part hp => ⟨part.withData (thawed h part.data), ?_, rfl⟩⟩
  unfold TensorBlock.mapData
  simp only
  rw [lookup_map (fun g : BasicBlock CArray => g.withData (thawed h g.data)), hp]
  rfl

/-! ### Contents -/

variable [ArrayCallbacks B] {h h' : Heap B} {l : Ledger} {owner : Nat → Option Owner}

/-- Committing arrays which have not been changed. -/
theorem Committed.unchanged {before cs cs₀ : List CArray} {ls : List (Live B)} (hc : Committed h h' before ls cs)
    (halive : ∀ a ∈ ids cs₀, (h.arrays a).isSome) (hls : ∀ c ∈ cs₀, thawed h c ∈ ls) :
    ∀ a ∈ ids cs₀, h'.arrays a = h.arrays a := by
  intro a ha
  obtain ⟨c, hm, rfl⟩ := List.mem_map.1 ha
  obtain ⟨i, hi, heq⟩ := List.getElem_of_mem (hls c hm)
  have hi' : i < cs.length := by rw [← hc.content.length_eq]; exact hi
  obtain ⟨h1, h2⟩ := hc.content.get hi hi'
  simp only [List.get_eq_getElem] at h1 h2
  rw [heq] at h1 h2
  rw [h2 c rfl] at h1
  obtain ⟨x, hx⟩ := Option.isSome_iff_exists.1 (halive _ ha)
  rw [h1, hx]
  simp [thawed, hx]

/-- All the arrays of a block exist. -/
theorem HeapInv.place_alive (hi : HeapInv h owner) {place : Place} {b : TensorBlock CArray}
    (hb : place.block h = some b) : ∀ a ∈ ids b.arrays, owner a = some (placeOwner place) := by
  intro a ha
  have hp : placeOwner place ≠ .program := by cases place <;> simp [placeOwner]
  rw [← hi.mem _ hp]
  obtain ⟨c, hc, rfl⟩ := List.mem_map.1 ha
  refine List.mem_map.2 ⟨c, List.mem_flatMap.2 ⟨b, ?_, hc⟩, rfl⟩
  cases place with
  | alone n =>
    have hb : h.blocks n = some b := hb
    simp [placeOwner, blocksOf, object, hb, Object.blocks]
  | inside t i =>
    simp only [Place.block, Option.bind_eq_some_iff] at hb
    obtain ⟨⟨T, v⟩, hT, hb⟩ := hb
    simpa [placeOwner, blocksOf, object, hT, Object.blocks] using List.mem_of_getElem? hb

/-- `eqs_block_add_gradient` keeps the arrays of all blocks. -/
theorem addGradient_placeData (hi : Inv h l owner) {p : Platform} {q : BlockPtr} {name : Option Bytes} {data : CArray} {samples : CLabels}
    {components : List CLabels} {reply : Reply} (ha : (Call.blockAddGradient q name data samples components : Call B).Allowed l)
    (hr : (Call.blockAddGradient q name data samples components : Call B).run p h = some (h', reply))
    {place : Place} {b : TensorBlock CArray} (hb : place.block h = some b) :
    (∃ b', place.block h' = some b' ∧ KeepsParts SameData b b') ∧ ∀ a ∈ ids b.arrays, h'.arrays a = h.arrays a := by
  obtain ⟨hu, hd⟩ := ha
  obtain ⟨hop, hdheld⟩ := hi.owns hd
  have hne : ∀ a ∈ ids b.arrays, a ≠ data.ptr := by
    rintro a ha rfl
    have h1 := hi.heap.place_alive hb _ ha
    rw [hop] at h1
    cases place <;> cases h1
  have hsome : ∀ a ∈ ids b.arrays, (h.arrays a).isSome := fun a ha =>
    (hi.heap.owned.alive a).2 (by rw [hi.heap.place_alive hb a ha]; rfl)
  simp only [Call.run, Option.map_eq_some_iff, eqsBlockAddGradient] at hr
  obtain ⟨⟨h₁, r⟩, hr, heq⟩ := hr
  cases heq
  by_cases hq : q = .null
  · rw [if_pos hq, Option.map_eq_some_iff] at hr
    obtain ⟨h₂, hdr, heq⟩ := hr
    cases heq
    refine ⟨⟨b, by rw [place_same (dropArrays_same hdr), hb], keepsData_refl b⟩, fun a ha => ?_⟩
    rw [dropArrays_single] at hdr
    unfold dropArray at hdr
    split at hdr
    · split at hdr <;> cases hdr
      simp [setAt, hne a ha]
    · cases hdr; rfl
  rw [if_neg hq] at hr
  obtain ⟨b₀, hb₀⟩ := hi.usable hu hq
  simp only [hb₀] at hr
  obtain ⟨x, hx⟩ := Option.isSome_iff_exists.1 ((hi.heap.owned.alive data.ptr).2 (by rw [hop]; rfl))
  have hlive : h.live data = some ⟨some data, x⟩ := by simp [live, hx]
  have hthaw : h.thawBlock b₀ = some (b₀.mapData (thawed h)) := hi.heap.thawBlock (HeapInv.mem_blocksOf hb₀)
  simp only [hlive, hthaw] at hr
  have hkeep := addGradientOfC_data name ⟨some data, x⟩ samples components (b₀.mapData (thawed h))
  have harrays := addGradientOfC_arrays name ⟨some data, x⟩ samples components (b₀.mapData (thawed h))
  generalize addGradientOfC name ⟨some data, x⟩ samples components (b₀.mapData (thawed h)) = result at hr hkeep harrays
  have hbown := hi.heap.owner_block hb₀
  have htp : target q ≠ .program := by
    cases q with
    | null => exact absurd rfl hq
    | owned => simp [target]
    | inside => simp [target]
  have hheld : Held owner (b₀.arrays ++ [data]) := (hi.heap.block_held hb₀).append hdheld (by
    intro a ha
    rw [ids_cons, ids_nil, List.mem_singleton]
    rintro rfl
    have := hbown _ ha
    rw [hop, Option.some.injEq] at this
    exact htp this.symm)
  obtain ⟨cs, hcs, hcsub, hcsnd⟩ : ∃ cs, result.1.arrays.map (·.handle) = cs.map some ∧
      (∀ c ∈ cs, c ∈ b₀.arrays ++ [data]) ∧ (ids cs).Nodup := by
    rw [TensorBlock.arrays_mapData] at harrays
    rcases harrays with h1 | h1
    · exact ⟨b₀.arrays, by rw [h1, thawed_handles], fun c hc => List.mem_append_left _ hc,
        (hi.heap.block_held hb₀).nodup⟩
    · exact ⟨b₀.arrays ++ [data], by rw [h1, List.map_append, thawed_handles]; simp, fun c hc => hc, hheld.nodup⟩
  have hmem : ∀ c ∈ b₀.arrays, thawed h c ∈ result.1.arrays := by
    intro c hc
    rw [TensorBlock.arrays_mapData] at harrays
    rcases harrays with h1 | h1 <;> rw [h1]
    · exact List.mem_map_of_mem hc
    · exact List.mem_append_left _ (List.mem_map_of_mem hc)
  obtain ⟨h₂, b₂, hcb, hcom, _, _⟩ := commitBlock_spec hi.heap.owned hheld (b := result.1)
    (by rw [kept_handles hcs]; exact hcsnd) (fun a ha c hc => hcsub c (handle_mem hcs a ha c hc)) .program
  simp only [hcb] at hr
  cases hr
  have hk : KeepsParts SameData b₀ b₂ := by
    have h1 : KeepsParts OfHandle b₀ result.1 := (keepsHandles_thawed h b₀).trans (R'' := OfHandle)
      (fun _ _ _ x y => (congrArg Live.handle y).trans x) hkeep
    exact h1.trans sameData_of (commitBlock_handles hcb)
  have hsame : ∀ a ∈ ids b.arrays, h₂.arrays a = h.arrays a := by
    intro a ha
    by_cases hab : a ∈ ids b₀.arrays
    · refine hcom.unchanged (cs₀ := b₀.arrays) (fun a ha => ?_) hmem a hab
      exact (hi.heap.owned.alive a).2 (by rw [hbown a ha]; rfl)
    · refine hcom.frame a ?_ (hi.heap.owned.lt (by rw [hi.heap.place_alive hb a ha]; rfl))
      rw [ids_append, List.mem_append, ids_cons, ids_nil, List.mem_singleton]
      rintro (h1 | h1)
      · exact hab h1
      · exact hne a ha h1
  refine ⟨?_, fun a ha => by rw [setBlock_fields.1]; exact hsame a ha⟩
  have hplace : place.block h₂ = some b := by
    rw [place_same (commitBlock_from hcb).1, hb]
  have hT := hcom.tensors
  cases q with
  | null => exact absurd rfl hq
  | owned m =>
    cases place with
    | inside t i => exact ⟨b, hplace, keepsData_refl b⟩
    | alone n =>
      by_cases hn : n = m
      · subst hn
        have h1 : h.blocks n = some b₀ := hb₀
        have h2 : h.blocks n = some b := hb
        rw [h1] at h2
        cases h2
        exact ⟨b₂, by simp [Place.block, setBlock, setAt], hk⟩
      · exact ⟨b, by simpa [Place.block, setBlock, setAt, hn] using hplace, keepsData_refl b⟩
  | inside t v j =>
    obtain ⟨T, hT', hj⟩ := block_inside.1 hb₀
    rw [← hT] at hT'
    cases place with
    | alone n =>
      refine ⟨b, ?_, keepsData_refl b⟩
      simp only [setBlock, hT']
      exact hplace
    | inside u i =>
      by_cases hu : u = t
      · subst hu
        simp only [Place.block, hT', Option.bind_some] at hplace
        have hset : Place.block (h₂.setBlock b₂ (.inside u v j)) (.inside u i) = (T.blocks.set j b₂)[i]? := by
          simp [Place.block, setBlock, hT', setAt]
        rw [hset]
        by_cases hij : i = j
        · subst hij
          rw [hj] at hplace
          cases hplace
          exact ⟨b₂, List.getElem?_set_self (List.getElem?_eq_some_iff.1 hj).1, hk⟩
        · exact ⟨b, by rw [List.getElem?_set_ne (Ne.symm hij), hplace], keepsData_refl b⟩
      · refine ⟨b, ?_, keepsData_refl b⟩
        simp only [setBlock, hT', Place.block, setAt, if_neg hu]
        exact hplace

/-- Functions changing a tensor map, which keep the arrays. -/
theorem modify_data {n : Nat} {replaces : Bool} {action : Act (TensorMap (Live B)) Unit} {r : Res Unit}
    (hr : modifyTensor (some n) replaces action h = some (h', r))
    (haction : ∀ t v, h.tensors n = some (t, v) →
      List.Forall₂ (KeepsParts SameHandle)
        (t.mapData (thawed h)).blocks (action (t.mapData (thawed h))).1.blocks)
    {i : Nat} {b : TensorBlock CArray} (hb : (Place.inside n i).block h = some b) :
    ∃ b', (Place.inside n i).block h' = some b' ∧ KeepsParts SameData b b' := by
  simp only [modifyTensor] at hr
  cases ht : h.tensors n with
  | none => rw [ht] at hr; cases hr
  | some x =>
    obtain ⟨t, v⟩ := x
    simp only [ht] at hr
    cases hth : h.thawTensor t with
    | none => rw [hth] at hr; cases hr
    | some live =>
      simp only [hth] at hr
      have hlive := thawTensor_eq hth
      subst hlive
      have hact := haction t v ht
      cases hct : h.commitTensor t.arrays (action (t.mapData (thawed h))).1 with
      | none => rw [hct] at hr; cases hr
      | some x =>
        obtain ⟨h₁, t₁⟩ := x
        simp only [hct] at hr
        have hh := commitTensor_handles hct
        have h2 : ∃ v', h'.tensors n = some (t₁, v') := by
          split at hr <;> cases hr
          · exact ⟨_, by simp [setTensor, setAt]; rfl⟩
          · exact ⟨v, by simp [setTensor, setAt]⟩
        obtain ⟨v', h2⟩ := h2
        simp only [Place.block, ht, h2, Option.bind_some] at hb ⊢
        obtain ⟨hlt, rfl⟩ := List.getElem?_eq_some_iff.1 hb
        have hlt₁ : i < (t.mapData (thawed h)).blocks.length := by simpa [TensorMap.mapData] using hlt
        have hlt₂ : i < (action (t.mapData (thawed h))).1.blocks.length := by rw [← hact.length_eq]; exact hlt₁
        have hlt₃ : i < t₁.blocks.length := by rw [← hh.length_eq]; exact hlt₂
        refine ⟨t₁.blocks[i], List.getElem?_eq_getElem hlt₃, ?_⟩
        have h3 : KeepsParts OfHandle t.blocks[i] (t.mapData (thawed h)).blocks[i] := by
          have : (t.mapData (thawed h)).blocks[i] = t.blocks[i].mapData (thawed h) := by simp [TensorMap.mapData]
          rw [this]
          exact keepsHandles_thawed h _
        have h4 := h3.trans (R' := SameHandle) (R'' := OfHandle) (fun _ _ _ x y => Eq.trans y x) (hact.get hlt₁ hlt₂)
        exact h4.trans sameData_of (hh.get hlt₂ hlt₃)

/-- Functions changing a tensor map, when they fail without changing it. -/
theorem modify_contents (hi : Inv h l owner) {n : Nat} {replaces : Bool} {action : Act (TensorMap (Live B)) Unit} {r : Res Unit}
    (hr : modifyTensor (some n) replaces action h = some (h', r)) {t : TensorMap CArray} {v : Nat}
    (ht : h.tensors n = some (t, v)) (haction : (action (t.mapData (thawed h))).1 = t.mapData (thawed h)) :
    ∀ a ∈ ids t.arrays, h'.arrays a = h.arrays a := by
  have hthaw : h.thawTensor t = some (t.mapData (thawed h)) := hi.heap.thawTensor ht
  have hheld : Held owner t.arrays := by rw [← held_tensor ht]; exact hi.heap.isHeld (.tensor n)
  have hh : (t.mapData (thawed h)).arrays.map (·.handle) = t.arrays.map some := by
    rw [TensorMap.arrays_mapData, thawed_handles]
  obtain ⟨h₁, t₁, hct, hc, _, _⟩ := commitTensor_spec hi.heap.owned hheld
    (by rw [kept_handles hh]; exact hheld.nodup) (handle_mem hh) .program
  simp only [modifyTensor, ht, hthaw, haction, hct] at hr
  have hunch := hc.unchanged (cs₀ := t.arrays) (fun a ha => (hi.heap.owned.alive a).2 (hheld.owned a ha))
    (fun c hm => by rw [TensorMap.arrays_mapData]; exact List.mem_map_of_mem hm)
  split at hr <;> cases hr <;> exact hunch

theorem unchanged_of_failed {n : Nat} {action : Act (TensorMap (Live B)) Unit} (hx : NewOrUnchanged action) {r : Res Unit}
    (hr : modifyTensor (some n) true action h = some (h', r)) (hn : r ≠ .ok ()) {t : TensorMap CArray} {v : Nat}
    (ht : h.tensors n = some (t, v)) : (action (t.mapData (thawed h))).1 = t.mapData (thawed h) := by
  obtain ⟨t₁, v₁, t', v', h1, h2, h3, h4, h5⟩ := modify_place hr
  rw [ht] at h1
  cases h1
  rcases hx (t.mapData (thawed h)) with ⟨h6, _⟩ | ⟨_, h6⟩
  · exact absurd (h4.trans h6) hn
  · exact h6

/-- One call: the block still has the same arrays, and their content is the same unless the call is meant to change
it. -/
theorem data_step (hr : Run h l) {p : Platform} {c : Call B} {reply : Reply} (ha : c.Allowed l)
    (hrun : c.run p h = some (h', reply)) {place place' : Place} {b : TensorBlock CArray}
    (hb : place.block h = some b) (hafter : place.after c reply = some place') :
    (∃ b', place'.block h' = some b' ∧ KeepsParts SameData b b') ∧
      ∀ a ∈ ids b.arrays, ¬ChangesData a place c → h'.arrays a = h.arrays a := by
  obtain ⟨owner, hi⟩ := inv_run hr
  have hinside : ∀ n i, place = .inside n i → ∀ a ∈ ids b.arrays, ∀ t v, h.tensors n = some (t, v) → a ∈ ids t.arrays := by
    rintro n i rfl a ha t v ht
    have h1 := hi.heap.place_alive hb a ha
    rw [← held_tensor ht]
    exact (hi.heap.mem _ (by simp) a).2 h1
  by_cases hc : c.changes (placeThing place)
  · cases c with
    | arrayDestroy a => cases place <;> cases hc
    | arrayWrite access change =>
      have hp : place' = place := by cases place <;> cases hafter <;> rfl
      subst hp
      cases access <;>
      · simp only [Call.run] at hrun
        split at hrun <;> cases hrun
        refine ⟨⟨b, by rw [← hb]; cases place' <;> rfl, keepsData_refl b⟩, fun a ha hn => ?_⟩
        have hne : a ≠ _ := fun heq => hn (.inl (show _ = a from heq.symm))
        simp only [setAt, if_neg hne]
    | block data samples components properties => cases place <;> cases hc
    | blockFree q =>
      rcases ha with rfl | ⟨n, hn, rfl⟩
      · cases hc
      · cases place with
        | inside t i => cases hc
        | alone m =>
          cases hc
          simp [Place.after] at hafter
    | blockAddGradient q name data samples components =>
      have hp : place' = place := by cases place <;> cases hafter <;> rfl
      subst hp
      obtain ⟨h1, h2⟩ := addGradient_placeData hi ha hrun hb
      exact ⟨h1, fun a ha _ => h2 a ha⟩
    | tensormap keys blocks =>
      obtain ⟨q, hq, hx⟩ := hc
      obtain ⟨n, _, rfl⟩ := ha q hq
      cases place with
      | inside t i => cases hx
      | alone m =>
        cases hx
        refine ⟨⟨b, tensormap_place hr ha hrun hb hq hafter, keepsData_refl b⟩, fun a hab _ => ?_⟩
        simp only [Call.run, Option.map_eq_some_iff] at hrun
        obtain ⟨⟨h₁, after, r⟩, hrun, heq⟩ := hrun
        cases heq
        obtain ⟨ns, rfl, hns⟩ := owned_of_allowed ha
        by_cases hbad : ¬(ns.map BlockPtr.owned).Nodup ∨ ∀ k, Labels.ofC keys ≠ .ok k
        · obtain ⟨r', h1, _, _⟩ := C48_rejected p.hash keys (ns.map .owned) h hbad
          rw [hrun] at h1
          cases h1
          rfl
        · have hnd : (ns.map BlockPtr.owned).Nodup := Classical.not_not.1 fun hx => hbad (.inl hx)
          obtain ⟨k, hk⟩ : ∃ k, Labels.ofC keys = .ok k := by
            cases hk : Labels.ofC keys with
            | ok k => exact ⟨k, rfl⟩
            | err e => exact absurd (.inr (by simp [hk])) hbad
            | panic m => exact absurd (.inr (by simp [hk])) hbad
          obtain ⟨h₂, r', bs, h1, h2, _, _, _, h3, _⟩ :=
            C48_taken h l hr p.hash keys k hk ns (List.Nodup.of_map _ hnd) hns
          rw [hrun] at h1
          cases h1
          have hnull : ((BlockPtr.owned n, BlockPtr.null) : BlockPtr × BlockPtr) ∈
              (ns.map BlockPtr.owned).zip (ns.map fun _ => BlockPtr.null) := by
            obtain ⟨i, hi', hni⟩ := List.getElem_of_mem hq
            rw [List.mem_iff_getElem]
            refine ⟨i, by simpa using hi', ?_⟩
            rw [List.getElem_zip, hni]
            simp
          cases r with
          | err e => simp only [Place.after, if_pos hnull] at hafter; cases hafter
          | panic m => simp only [Place.after, if_pos hnull] at hafter; cases hafter
          | ok t =>
            obtain ⟨_, _, _, _, h4⟩ := h3 t rfl
            refine h4 a ?_
            obtain ⟨c, hcm, rfl⟩ := List.mem_map.1 hab
            refine List.mem_map.2 ⟨c, List.mem_flatMap.2 ⟨b, ?_, hcm⟩, rfl⟩
            obtain ⟨m, hm, heq⟩ := List.mem_map.1 hq
            cases heq
            obtain ⟨i, hlt, rfl⟩ := List.getElem_of_mem hm
            have hlt' : i < bs.length := by rw [← h2.length_eq]; exact hlt
            have h5 : h.blocks ns[i] = some bs[i] := h2.get hlt hlt'
            have h6 : h.blocks ns[i] = some b := hb
            rw [h6] at h5
            cases h5
            exact List.getElem_mem hlt'
    | tensormapFree tensor =>
      obtain ⟨n, rfl, hx⟩ := hc
      cases place with
      | alone m => cases hx
      | inside t i =>
        cases hx
        simp [Place.after] at hafter
    | keysToProperties tensor keysToMove sort =>
      obtain ⟨n, rfl, hx⟩ := hc
      cases place with
      | alone m => cases hx
      | inside t i =>
        cases hx
        simp only [Call.run, Option.map_eq_some_iff] at hrun
        obtain ⟨⟨h₁, r⟩, hrun, heq⟩ := hrun
        cases heq
        have hn : r ≠ .ok () := by
          rintro rfl
          simp [Place.after] at hafter
        have hp : place' = .inside n i := by
          cases r with
          | ok u => exact absurd rfl hn
          | err e => cases hafter; rfl
          | panic m => cases hafter; rfl
        subst hp
        obtain ⟨T, v, hT⟩ := hi.tensor (ha n rfl)
        have hunch := unchanged_of_failed
          (NewOrUnchanged.lift_bind _ fun keys => keysToProperties_new _ _ keys _) hrun hn hT
        refine ⟨modify_data hrun (fun T' v' hT' => ?_) hb, fun a ha' _ => modify_contents hi hrun hT hunch a
          (hinside n i rfl a ha' T v hT)⟩
        rw [hT] at hT'
        cases hT'
        rw [hunch]
        exact List.forall₂_same.2 fun b _ => ⟨rfl, fun _ part hp => ⟨part, hp, rfl⟩⟩
    | keysToSamples tensor keysToMove sort =>
      obtain ⟨n, rfl, hx⟩ := hc
      cases place with
      | alone m => cases hx
      | inside t i =>
        cases hx
        simp only [Call.run, Option.map_eq_some_iff] at hrun
        obtain ⟨⟨h₁, r⟩, hrun, heq⟩ := hrun
        cases heq
        have hn : r ≠ .ok () := by
          rintro rfl
          simp [Place.after] at hafter
        have hp : place' = .inside n i := by
          cases r with
          | ok u => exact absurd rfl hn
          | err e => cases hafter; rfl
          | panic m => cases hafter; rfl
        subst hp
        obtain ⟨T, v, hT⟩ := hi.tensor (ha n rfl)
        have hunch := unchanged_of_failed
          (NewOrUnchanged.lift_bind _ fun keys => keysToSamples_new _ _ keys _) hrun hn hT
        refine ⟨modify_data hrun (fun T' v' hT' => ?_) hb, fun a ha' _ => modify_contents hi hrun hT hunch a
          (hinside n i rfl a ha' T v hT)⟩
        rw [hT] at hT'
        cases hT'
        rw [hunch]
        exact List.forall₂_same.2 fun b _ => ⟨rfl, fun _ part hp => ⟨part, hp, rfl⟩⟩
    | componentsToProperties tensor names =>
      obtain ⟨n, rfl, hx⟩ := hc
      cases place with
      | alone m => cases hx
      | inside t i =>
        cases hx
        refine ⟨?_, fun a _ hn => absurd (.inr rfl) hn⟩
        simp only [Call.run, Option.map_eq_some_iff] at hrun
        obtain ⟨⟨h₁, r⟩, hrun, heq⟩ := hrun
        cases heq
        have hp : place' = .inside n i := by cases hafter; rfl
        subst hp
        refine modify_data hrun (fun T v hT => ?_) hb
        have hnamed : ∀ b ∈ (T.mapData (thawed h)).blocks, b.Named := by
          intro b hb
          obtain ⟨b', hb', rfl⟩ := List.mem_map.1 hb
          refine TensorBlock.Named.of_skeleton (hi.heap.named (.tensor n) b' ?_) (TensorBlock.skeleton_mapData _ _)
          simpa [blocksOf, object, hT, Object.blocks] using hb'
        have hrefl : List.Forall₂ (KeepsParts SameHandle) (T.mapData (thawed h)).blocks (T.mapData (thawed h)).blocks :=
          List.forall₂_same.2 fun b _ => ⟨rfl, fun _ part hp => ⟨part, hp, rfl⟩⟩
        rw [Act.lift_bind]
        cases hv : names.mapM variableName with
        | ok vars =>
          exact (componentsToProperties_part (f := fun part : BasicBlock (Live B) => part.data.handle)
            (fun vars x => BasicBlock.componentsToProperties_handle vars x) p.hash vars _ hnamed).2
        | err e => exact hrefl
        | panic m => exact hrefl
    | arrayNew _ => cases hc
    | blockCopy _ => cases hc
    | blockLabels _ _ _ => cases hc
    | blockData _ _ _ => cases hc
    | blockGradientsList _ => cases hc
    | tensormapKeys _ => cases hc
    | tensormapBlockById _ _ => cases hc
    | tensormapBlocksMatching _ _ => cases hc
    | load _ => cases hc
    | save _ => cases hc
  · obtain ⟨h₂, reply', h1, _, hf⟩ := good p hi ha
    rw [hrun] at h1
    cases h1
    obtain ⟨ho, harr⟩ := hf.object (placeOwner place) (placeThing place) (by cases place <;> rfl) (place_isSome hb) hc
    have hp := place_unchanged hc hafter
    subst hp
    exact ⟨⟨b, by rw [place_object ho, hb], keepsData_refl b⟩,
      fun a ha _ => harr a (hi.heap.place_alive hb a ha)⟩

end Heap
end Equistore
