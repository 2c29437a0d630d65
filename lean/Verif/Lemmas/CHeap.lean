import Verif.Model.CHeap
import Verif.Lemmas.Res
import Verif.Lemmas.Act
import Mathlib.Data.List.Forall2
import Mathlib.Data.List.Nodup

/-! Lemmas on the heap behind the C API: settling and dropping arrays. -/

namespace Equistore

/-! ### Traversals -/

section
variable {σ α β : Type}

@[simp] theorem mapAccum_nil (f : σ → α → σ × β) (s : σ) : mapAccum f s [] = (s, []) := rfl

theorem mapAccum_cons (f : σ → α → σ × β) (s : σ) (a : α) (l : List α) :
    mapAccum f s (a :: l) =
      ((mapAccum f (f s a).1 l).1, (f s a).2 :: (mapAccum f (f s a).1 l).2) := rfl

theorem mapAccum_append (f : σ → α → σ × β) (s : σ) (l l' : List α) :
    mapAccum f s (l ++ l') =
      ((mapAccum f (mapAccum f s l).1 l').1, (mapAccum f s l).2 ++ (mapAccum f (mapAccum f s l).1 l').2) := by
  induction l generalizing s with
  | nil => rfl
  | cons a l ih => simp only [List.cons_append, mapAccum_cons, ih]

theorem mapAccum_forall₂ {f : σ → α → σ × β} {R : α → β → Prop} (h : ∀ s a, R a (f s a).2) (s : σ) (l : List α) :
    List.Forall₂ R l (mapAccum f s l).2 := by
  induction l generalizing s with
  | nil => exact .nil
  | cons a l ih => exact .cons (h s a) (ih _)

end

section
variable {A A' σ : Type}

theorem TensorBlock.mapAccumData_eq (f : σ → A → σ × A') (s : σ) (b : TensorBlock A) :
    (b.mapAccumData f s).1 = (mapAccum f s b.arrays).1 ∧
    (b.mapAccumData f s).2.arrays = (mapAccum f s b.arrays).2 := by
  obtain ⟨values, gradients, _⟩ := b
  simp only [mapAccumData, arrays, mapAccum_cons, BasicBlock.withData, List.cons.injEq, true_and]
  generalize (f s values.data).1 = s'
  induction gradients generalizing s' with
  | nil => exact ⟨rfl, rfl⟩
  | cons g l ih =>
    simp only [mapAccum_cons, List.map_cons, List.cons.injEq, true_and]
    exact ih _

theorem TensorMap.mapAccumData_eq (f : σ → A → σ × A') (s : σ) (t : TensorMap A) :
    (t.mapAccumData f s).1 = (mapAccum f s t.arrays).1 ∧
    (t.mapAccumData f s).2.arrays = (mapAccum f s t.arrays).2 := by
  obtain ⟨keys, blocks⟩ := t
  simp only [mapAccumData, arrays]
  induction blocks generalizing s with
  | nil => exact ⟨rfl, rfl⟩
  | cons b l ih =>
    obtain ⟨h1, h2⟩ := TensorBlock.mapAccumData_eq f s b
    simp only [mapAccum_cons, List.flatMap_cons, mapAccum_append, h2, ← h1]
    have := ih (b.mapAccumData f s).1
    exact ⟨this.1, by rw [this.2]⟩

theorem TensorBlock.arrays_mapData (f : A → A') (b : TensorBlock A) : (b.mapData f).arrays = b.arrays.map f := by
  simp [mapData, arrays, BasicBlock.withData]

theorem TensorMap.arrays_mapData (f : A → A') (t : TensorMap A) : (t.mapData f).arrays = t.arrays.map f := by
  simp [mapData, arrays, List.flatMap_map, List.map_flatMap, TensorBlock.arrays_mapData]

/-- The labels of a block and the names of its gradients. -/
def TensorBlock.skeleton (b : TensorBlock A) : TensorBlock Unit := b.mapData fun _ => ()

/-- The keys and labels of all blocks of a tensor map. -/
def TensorMap.skeleton (t : TensorMap A) : TensorMap Unit := t.mapData fun _ => ()

theorem TensorBlock.mapData_mapData {A'' : Type} (f : A → A') (g : A' → A'') (b : TensorBlock A) :
    (b.mapData f).mapData g = b.mapData (g ∘ f) := by
  simp [mapData, BasicBlock.withData]

theorem TensorMap.mapData_mapData {A'' : Type} (f : A → A') (g : A' → A'') (t : TensorMap A) :
    (t.mapData f).mapData g = t.mapData (g ∘ f) := by
  simp [mapData, TensorBlock.mapData_mapData]

theorem TensorBlock.skeleton_mapData (f : A → A') (b : TensorBlock A) : (b.mapData f).skeleton = b.skeleton :=
  TensorBlock.mapData_mapData _ _ b

theorem TensorMap.skeleton_mapData (f : A → A') (t : TensorMap A) : (t.mapData f).skeleton = t.skeleton :=
  TensorMap.mapData_mapData _ _ t

theorem TensorBlock.skeleton_mapAccumData (f : σ → A → σ × A') (s : σ) (b : TensorBlock A) :
    (b.mapAccumData f s).2.skeleton = b.skeleton := by
  obtain ⟨values, gradients, ps⟩ := b
  simp only [mapAccumData, skeleton, mapData, BasicBlock.withData, TensorBlock.mk.injEq, true_and, and_true]
  generalize (f s values.data).1 = s'
  induction gradients generalizing s' with
  | nil => rfl
  | cons g l ih => simp only [mapAccum_cons, List.map_cons, ih]

theorem TensorMap.skeleton_mapAccumData (f : σ → A → σ × A') (s : σ) (t : TensorMap A) :
    (t.mapAccumData f s).2.skeleton = t.skeleton := by
  obtain ⟨keys, blocks⟩ := t
  simp only [mapAccumData, skeleton, mapData, TensorMap.mk.injEq, true_and]
  induction blocks generalizing s with
  | nil => rfl
  | cons b l ih =>
    simp only [mapAccum_cons, List.map_cons, ih]
    congr 1
    exact TensorBlock.skeleton_mapAccumData f s b

/-- A block is determined by its labels and its arrays. -/
theorem TensorBlock.ext_skeleton {b b' : TensorBlock A} (hs : b.skeleton = b'.skeleton) (ha : b.arrays = b'.arrays) :
    b = b' := by
  obtain ⟨⟨d, s, c, p⟩, gradients, ps⟩ := b
  obtain ⟨⟨d', s', c', p'⟩, gradients', ps'⟩ := b'
  simp only [skeleton, mapData, BasicBlock.withData, TensorBlock.mk.injEq, BasicBlock.mk.injEq, true_and] at hs
  simp only [arrays, List.cons.injEq] at ha
  obtain ⟨⟨rfl, rfl, rfl⟩, hg, rfl⟩ := hs
  obtain ⟨rfl, ha⟩ := ha
  simp only [TensorBlock.mk.injEq, true_and, and_true]
  induction gradients generalizing gradients' with
  | nil => cases gradients' with
    | nil => rfl
    | cons => simp at hg
  | cons g l ih =>
    cases gradients' with
    | nil => simp at hg
    | cons g' l' =>
      simp only [List.map_cons, List.cons.injEq, Prod.mk.injEq, BasicBlock.mk.injEq, true_and] at hg ha
      obtain ⟨n, d, s, c, p⟩ := g
      obtain ⟨n', d', s', c', p'⟩ := g'
      obtain ⟨⟨rfl, rfl, rfl, rfl⟩, hg⟩ := hg
      obtain ⟨rfl, ha⟩ := ha
      rw [ih _ hg ha]

/-- A tensor map is determined by its labels and its arrays. -/
theorem TensorMap.ext_skeleton {t t' : TensorMap A} (hs : t.skeleton = t'.skeleton) (ha : t.arrays = t'.arrays) :
    t = t' := by
  obtain ⟨keys, blocks⟩ := t
  obtain ⟨keys', blocks'⟩ := t'
  simp only [skeleton, mapData, TensorMap.mk.injEq] at hs
  obtain ⟨rfl, hs⟩ := hs
  simp only [arrays] at ha
  congr 1
  induction blocks generalizing blocks' with
  | nil => cases blocks' with
    | nil => rfl
    | cons => simp at hs
  | cons b l ih =>
    cases blocks' with
    | nil => simp at hs
    | cons b' l' =>
      simp only [List.map_cons, List.cons.injEq] at hs
      simp only [List.flatMap_cons] at ha
      have hl : b.arrays.length = b'.arrays.length := by
        have h1 := congrArg (fun x : TensorBlock Unit => x.arrays.length) hs.1
        simpa [TensorBlock.arrays_mapData] using h1
      obtain ⟨h1, h2⟩ := List.append_inj ha hl
      rw [TensorBlock.ext_skeleton hs.1 h1, ih _ hs.2 h2]

end

/-! ### Settling and dropping arrays -/

namespace Heap
variable {B : Type}

/-- The arrays which existed before. -/
def kept (ls : List (Live B)) : List Nat := ls.filterMap fun a => a.handle.map (·.ptr)

/-- The addresses of arrays. -/
def ids (cs : List CArray) : List Nat := cs.map (·.ptr)

@[simp] theorem ids_nil : ids [] = [] := rfl
@[simp] theorem ids_cons (c : CArray) (l : List CArray) : ids (c :: l) = c.ptr :: ids l := rfl
@[simp] theorem ids_append (l l' : List CArray) : ids (l ++ l') = ids l ++ ids l' := List.map_append

theorem kept_cons_some {c : CArray} {x : B} (l : List (Live B)) : kept (⟨some c, x⟩ :: l) = c.ptr :: kept l := rfl
theorem kept_cons_none {x : B} (l : List (Live B)) : kept (⟨none, x⟩ :: l) = kept l := rfl

/-- The effect of writing arrays back. -/
structure Settled (h h' : Heap B) (ls : List (Live B)) (cs : List CArray) : Prop where
  blocks : h'.blocks = h.blocks
  tensors : h'.tensors = h.tensors
  destroyed : h'.destroyed = h.destroyed
  next : h.next ≤ h'.next
  nodup : (ids cs).Nodup
  mem : ∀ a, a ∈ ids cs ↔ a ∈ kept ls ∨ (h.next ≤ a ∧ a < h'.next)
  created : ∀ a, a ∈ h'.created ↔ a ∈ h.created ∨ (h.next ≤ a ∧ a < h'.next)
  createdNodup : h.created.Nodup → (∀ a ∈ h.created, a < h.next) → h'.created.Nodup
  frame : ∀ a, a ∉ ids cs → h'.arrays a = h.arrays a
  content : List.Forall₂ (fun (l : Live B) c => h'.arrays c.ptr = some l.content ∧
    (∀ c', l.handle = some c' → c = c') ∧ (l.handle = none → c.destroy = true)) ls cs

theorem settled (h : Heap B) (ls : List (Live B)) (hk : (kept ls).Nodup) (hlt : ∀ a ∈ kept ls, a < h.next) :
    Settled h (mapAccum settle h ls).1 ls (mapAccum settle h ls).2 := by
  induction ls generalizing h with
  | nil =>
    exact ⟨rfl, rfl, rfl, Nat.le_refl _, List.nodup_nil, fun a => by simp [kept], fun a => by simp; omega,
      fun hn _ => hn, fun _ _ => rfl, .nil⟩
  | cons a ls ih =>
    obtain ⟨handle, x⟩ := a
    simp only [mapAccum_cons]
    cases handle with
    | some c =>
      rw [kept_cons_some, List.nodup_cons] at hk
      rw [kept_cons_some] at hlt
      have hs : settle h ⟨some c, x⟩ = ({ h with arrays := setAt h.arrays c.ptr (some x) }, c) := rfl
      rw [hs]
      have := ih { h with arrays := setAt h.arrays c.ptr (some x) } hk.2
        (fun a ha => hlt a (List.mem_cons_of_mem _ ha))
      have hnot : c.ptr ∉ ids (mapAccum settle { h with arrays := setAt h.arrays c.ptr (some x) } ls).2 := by
        rw [this.mem]
        have := hlt c.ptr List.mem_cons_self
        rintro (h1 | h1)
        · exact hk.1 h1
        · have : h.next ≤ c.ptr := h1.1
          omega
      refine ⟨this.blocks, this.tensors, this.destroyed, this.next, ?_, ?_, this.created, this.createdNodup, ?_, ?_⟩
      · rw [ids_cons, List.nodup_cons]; exact ⟨hnot, this.nodup⟩
      · intro a
        rw [ids_cons, kept_cons_some, List.mem_cons, List.mem_cons, this.mem, or_assoc]
      · intro a ha
        rw [ids_cons, List.mem_cons, not_or] at ha
        rw [this.frame a ha.2]
        exact if_neg ha.1
      · refine .cons ⟨?_, fun c' hc => by cases hc; rfl, fun hn => by cases hn⟩ this.content
        rw [this.frame _ hnot]
        exact if_pos rfl
    | none =>
      rw [kept_cons_none] at hk hlt
      have hs : settle h ⟨none, x⟩ = h.createArray x := rfl
      rw [hs]
      have hnext : (h.createArray x).1.next = h.next + 1 := rfl
      have := ih (h.createArray x).1 hk (fun a ha => by have := hlt a ha; omega)
      have hn : h.next + 1 ≤ (mapAccum settle (h.createArray x).1 ls).1.next := this.next
      have hnot : h.next ∉ ids (mapAccum settle (h.createArray x).1 ls).2 := by
        rw [this.mem]
        rintro (h1 | h1)
        · have := hlt _ h1; omega
        · omega
      refine ⟨this.blocks, this.tensors, this.destroyed, by omega, ?_, ?_, ?_, ?_, ?_, ?_⟩
      · rw [ids_cons, List.nodup_cons]; exact ⟨hnot, this.nodup⟩
      · intro a
        rw [ids_cons, kept_cons_none, List.mem_cons, this.mem, hnext]
        have : (h.createArray x).2.ptr = h.next := rfl
        rw [this]
        constructor
        · rintro (rfl | h1 | h1)
          · exact .inr (by omega)
          · exact .inl h1
          · exact .inr (by omega)
        · rintro (h1 | h1)
          · exact .inr (.inl h1)
          · by_cases ha : a = h.next
            · exact .inl ha
            · exact .inr (.inr (by omega))
      · intro a
        rw [this.created, hnext]
        have : (h.createArray x).1.created = h.created ++ [h.next] := rfl
        rw [this, List.mem_append, List.mem_singleton]
        constructor
        · rintro ((h1 | h1) | h1)
          · exact .inl h1
          · exact .inr (by omega)
          · exact .inr (by omega)
        · rintro (h1 | h1)
          · exact .inl (.inl h1)
          · by_cases ha : a = h.next
            · exact .inl (.inr ha)
            · exact .inr (by omega)
      · intro h1 h2
        refine this.createdNodup ?_ ?_
        · refine List.Nodup.append h1 (List.nodup_singleton _) ?_
          intro a ha hb
          rw [List.mem_singleton] at hb
          subst hb
          exact Nat.lt_irrefl _ (h2 _ ha)
        · intro a ha
          have : (h.createArray x).1.created = h.created ++ [h.next] := rfl
          rw [this, List.mem_append, List.mem_singleton] at ha
          rw [hnext]
          rcases ha with ha | ha
          · have := h2 a ha; omega
          · omega
      · intro a ha
        rw [ids_cons, List.mem_cons, not_or] at ha
        rw [this.frame a ha.2]
        exact if_neg ha.1
      · refine .cons ⟨?_, (fun c' (hc : none = some c') => by cases hc), fun _ => rfl⟩ this.content
        show (mapAccum settle (h.createArray x).1 ls).1.arrays h.next = _
        rw [this.frame _ hnot]
        exact if_pos rfl

/-- The effect of dropping arrays. -/
structure Dropped (h h' : Heap B) (cs : List CArray) : Prop where
  blocks : h'.blocks = h.blocks
  tensors : h'.tensors = h.tensors
  created : h'.created = h.created
  next : h'.next = h.next
  destroyed : h'.destroyed = h.destroyed ++ ids cs
  gone : ∀ a ∈ ids cs, h'.arrays a = none
  frame : ∀ a, a ∉ ids cs → h'.arrays a = h.arrays a

theorem dropped (h : Heap B) (cs : List CArray) (hd : ∀ c ∈ cs, c.destroy = true) (hn : (ids cs).Nodup)
    (hl : ∀ a ∈ ids cs, (h.arrays a).isSome) : ∃ h', dropArrays cs h = some h' ∧ Dropped h h' cs := by
  induction cs generalizing h with
  | nil => exact ⟨h, rfl, rfl, rfl, rfl, rfl, by simp, by simp, fun _ _ => rfl⟩
  | cons c cs ih =>
    rw [ids_cons, List.nodup_cons] at hn
    obtain ⟨x, hx⟩ := Option.isSome_iff_exists.1 (hl c.ptr List.mem_cons_self)
    have hdrop : h.dropArray c =
        some { h with arrays := setAt h.arrays c.ptr none, destroyed := h.destroyed ++ [c.ptr] } := by
      simp [dropArray, hd c List.mem_cons_self, hx]
    obtain ⟨h', hh, hs⟩ := ih { h with arrays := setAt h.arrays c.ptr none, destroyed := h.destroyed ++ [c.ptr] }
      (fun c hc => hd c (List.mem_cons_of_mem _ hc)) hn.2 (by
        intro a ha
        have hne : a ≠ c.ptr := by rintro rfl; exact hn.1 ha
        show (setAt h.arrays c.ptr none a).isSome
        rw [setAt, if_neg hne]
        exact hl a (List.mem_cons_of_mem _ ha))
    refine ⟨h', by simp only [dropArrays, hdrop, hh], hs.blocks, hs.tensors, hs.created, hs.next, ?_, ?_, ?_⟩
    · rw [hs.destroyed]; simp
    · intro a ha
      rw [ids_cons, List.mem_cons] at ha
      by_cases hm : a ∈ ids cs
      · exact hs.gone a hm
      · rcases ha with rfl | ha
        · rw [hs.frame _ hm]; exact if_pos rfl
        · exact absurd ha hm
    · intro a ha
      rw [ids_cons, List.mem_cons, not_or] at ha
      rw [hs.frame a ha.2]
      exact if_neg ha.1

/-! ### Owners -/

/-- Who is responsible for an array. -/
inductive Owner where
  | program
  | block (n : Nat)
  | tensor (n : Nat)
  deriving DecidableEq

/-- The arrays which exist are those with an owner; the arrays which were created either exist or were
destroyed once. -/
structure Owned (h : Heap B) (owner : Nat → Option Owner) : Prop where
  alive : ∀ a, (h.arrays a).isSome ↔ (owner a).isSome
  created : ∀ a, a ∈ h.created ↔ (owner a).isSome ∨ a ∈ h.destroyed
  destroyed : ∀ a ∈ h.destroyed, owner a = none
  nodup : h.destroyed.Nodup
  createdNodup : h.created.Nodup
  fresh : ∀ a ∈ h.created, a < h.next

theorem Owned.lt {h : Heap B} {owner : Nat → Option Owner} (ho : Owned h owner) {a : Nat} (ha : (owner a).isSome) :
    a < h.next := ho.fresh a ((ho.created a).2 (.inl ha))

/-- Arrays which can be used and dropped. -/
structure Held (owner : Nat → Option Owner) (cs : List CArray) : Prop where
  destroy : ∀ c ∈ cs, c.destroy = true
  nodup : (ids cs).Nodup
  owned : ∀ a ∈ ids cs, (owner a).isSome

theorem Held.nil {owner : Nat → Option Owner} : Held owner [] := ⟨by simp, by simp, by simp⟩

/-- Owners after a Rust function had the arrays `before` and leaves the arrays `cs` to the owner `p`. -/
def reown (owner : Nat → Option Owner) (before cs : List CArray) (p : Owner) : Nat → Option Owner := fun a =>
  if a ∈ ids cs then some p else if a ∈ ids before then none else owner a

theorem mem_of_ptr {before cs : List CArray} (hb : ∀ c ∈ before, c.destroy = true) (hc : ∀ c ∈ cs, c.destroy = true)
    {c : CArray} (h : c ∈ before) (hp : c.ptr ∈ ids cs) : c ∈ cs := by
  obtain ⟨c', hc', heq⟩ := List.mem_map.1 hp
  have : c' = c := by
    obtain ⟨_, d⟩ := c
    obtain ⟨_, d'⟩ := c'
    have h1 := hb _ h
    have h2 := hc _ hc'
    simp only at h1 h2 heq
    subst h1 h2 heq
    rfl
  exact this ▸ hc'

/-- The effect of a Rust function on the arrays. -/
structure Committed (h h' : Heap B) (before : List CArray) (ls : List (Live B)) (cs : List CArray) : Prop where
  blocks : h'.blocks = h.blocks
  tensors : h'.tensors = h.tensors
  next : h.next ≤ h'.next
  destroy : ∀ c ∈ cs, c.destroy = true
  nodup : (ids cs).Nodup
  mem : ∀ a, a ∈ ids cs ↔ a ∈ kept ls ∨ (h.next ≤ a ∧ a < h'.next)
  destroyed : h'.destroyed = h.destroyed ++ ids (before.filter fun a => a ∉ cs)
  frame : ∀ a, a ∉ ids before → a < h.next → h'.arrays a = h.arrays a
  content : List.Forall₂ (fun (l : Live B) c => h'.arrays c.ptr = some l.content ∧
    ∀ c', l.handle = some c' → c = c') ls cs

theorem commit {h : Heap B} {owner : Nat → Option Owner} (ho : Owned h owner) {before : List CArray}
    (hb : Held owner before) {ls : List (Live B)} (hk : (kept ls).Nodup)
    (hm : ∀ a ∈ ls, ∀ c, a.handle = some c → c ∈ before) (p : Owner) :
    ∃ h', dropArrays (before.filter fun a => a ∉ (mapAccum settle h ls).2) (mapAccum settle h ls).1 = some h' ∧
      Committed h h' before ls (mapAccum settle h ls).2 ∧
      Owned h' (reown owner before (mapAccum settle h ls).2 p) := by
  have hkept : ∀ a ∈ kept ls, a ∈ ids before := by
    intro a ha
    obtain ⟨l, hl, hp⟩ := List.mem_filterMap.1 ha
    obtain ⟨c, hc, rfl⟩ := Option.map_eq_some_iff.1 hp
    exact List.mem_map.2 ⟨c, hm l hl c hc, rfl⟩
  have hlt : ∀ a ∈ ids before, a < h.next := fun a ha => ho.lt (hb.owned a ha)
  have hs := settled h ls hk (fun a ha => hlt a (hkept a ha))
  generalize (mapAccum settle h ls).1 = h₁ at hs ⊢
  generalize (mapAccum settle h ls).2 = cs at hs ⊢
  have hcd : ∀ c ∈ cs, c.destroy = true := by
    intro c hc
    obtain ⟨i, hi, rfl⟩ := List.getElem_of_mem hc
    have hlen := hs.content.length_eq
    have hget := hs.content.get (by omega) hi
    simp only [List.get_eq_getElem] at hget
    cases hh : (ls[i]'(by omega)).handle with
    | none => exact hget.2.2 hh
    | some c' =>
      rw [hget.2.1 c' hh]
      exact hb.destroy _ (hm _ (List.getElem_mem (by omega)) _ hh)
  have hdsub : ∀ a, a ∈ ids (before.filter fun c => c ∉ cs) ↔ a ∈ ids before ∧ a ∉ ids cs := by
    intro a
    constructor
    · intro ha
      obtain ⟨c, hc, rfl⟩ := List.mem_map.1 ha
      rw [List.mem_filter, decide_eq_true_eq] at hc
      exact ⟨List.mem_map.2 ⟨c, hc.1, rfl⟩, fun hp => hc.2 (mem_of_ptr hb.destroy hcd hc.1 hp)⟩
    · rintro ⟨ha, hn⟩
      obtain ⟨c, hc, rfl⟩ := List.mem_map.1 ha
      refine List.mem_map.2 ⟨c, ?_, rfl⟩
      rw [List.mem_filter, decide_eq_true_eq]
      exact ⟨hc, fun hp => hn (List.mem_map.2 ⟨c, hp, rfl⟩)⟩
  obtain ⟨h', hd, hdr⟩ := dropped h₁ (before.filter fun c => c ∉ cs)
    (fun c hc => hb.destroy c (List.mem_filter.1 hc).1)
    (hb.nodup.sublist (List.filter_sublist.map _))
    (fun a ha => by
      obtain ⟨h1, h2⟩ := (hdsub a).1 ha
      rw [hs.frame a h2]
      exact (ho.alive a).2 (hb.owned a h1))
  have halive : ∀ a ∈ ids cs, (h₁.arrays a).isSome := by
    intro a ha
    obtain ⟨c, hc, rfl⟩ := List.mem_map.1 ha
    obtain ⟨i, hi, rfl⟩ := List.getElem_of_mem hc
    have hlen := hs.content.length_eq
    have hget := hs.content.get (by omega) hi
    simp only [List.get_eq_getElem] at hget
    rw [hget.1]; rfl
  refine ⟨h', hd, ⟨?_, ?_, ?_, hcd, hs.nodup, ?_, ?_, ?_, ?_⟩, ?_⟩
  · rw [hdr.blocks, hs.blocks]
  · rw [hdr.tensors, hs.tensors]
  · rw [hdr.next]; exact hs.next
  · rw [hdr.next]; exact hs.mem
  · rw [hdr.destroyed, hs.destroyed]
  · intro a ha hlt'
    have hnc : a ∉ ids cs := by
      rw [hs.mem]
      rintro (h1 | h1)
      · exact ha (hkept a h1)
      · omega
    rw [hdr.frame a (fun h1 => ha ((hdsub a).1 h1).1), hs.frame a hnc]
  · rw [List.forall₂_iff_get]
    refine ⟨hs.content.length_eq, fun i h1 h2 => ?_⟩
    have := hs.content.get h1 h2
    refine ⟨?_, this.2.1⟩
    rw [hdr.frame, this.1]
    intro h3
    exact ((hdsub _).1 h3).2 (List.mem_map.2 ⟨_, List.getElem_mem h2, rfl⟩)
  · have hown : ∀ a, (h'.arrays a).isSome ↔ (reown owner before cs p a).isSome := by
      intro a
      unfold reown
      by_cases hc : a ∈ ids cs
      · rw [if_pos hc, hdr.frame a (fun h1 => ((hdsub a).1 h1).2 hc)]
        simp [halive a hc]
      · rw [if_neg hc]
        by_cases hb' : a ∈ ids before
        · rw [if_pos hb', hdr.gone a ((hdsub a).2 ⟨hb', hc⟩)]
          simp
        · rw [if_neg hb', hdr.frame a (fun h1 => hb' ((hdsub a).1 h1).1), hs.frame a hc]
          exact ho.alive a
    have hfresh : ∀ a, h.next ≤ a → owner a = none := by
      intro a ha
      cases hx : owner a with
      | none => rfl
      | some _ => have := ho.lt (a := a) (by rw [hx]; rfl); omega
    have hnd : ∀ a, h.next ≤ a → a ∉ h.destroyed := by
      intro a ha hx
      have := ho.fresh a ((ho.created a).2 (.inr hx))
      omega
    refine ⟨hown, ?_, ?_, ?_, ?_, ?_⟩
    · intro a
      rw [hdr.created, hs.created, ho.created, hdr.destroyed, hs.destroyed, List.mem_append, hdsub]
      unfold reown
      by_cases hc : a ∈ ids cs
      · rw [if_pos hc]
        simp only [Option.isSome_some, true_or, iff_true]
        rcases (hs.mem a).1 hc with h1 | h1
        · exact .inl (.inl (hb.owned a (hkept a h1)))
        · exact .inr h1
      · rw [if_neg hc]
        have hnf : ¬(h.next ≤ a ∧ a < h₁.next) := fun h1 => hc ((hs.mem a).2 (.inr h1))
        by_cases hb' : a ∈ ids before
        · rw [if_pos hb']
          simp [hb', hc, hb.owned a hb']
        · rw [if_neg hb']
          simp only [hnf, hb', or_false, false_and]
    · intro a ha
      rw [hdr.destroyed, hs.destroyed, List.mem_append] at ha
      unfold reown
      rcases ha with ha | ha
      · have hno := ho.destroyed a ha
        have hnb : a ∉ ids before := fun h1 => by have := hb.owned a h1; rw [hno] at this; cases this
        have hnc : a ∉ ids cs := by
          rw [hs.mem]
          rintro (h1 | h1)
          · exact hnb (hkept a h1)
          · exact hnd a h1.1 ha
        rw [if_neg hnc, if_neg hnb, hno]
      · obtain ⟨h1, h2⟩ := (hdsub a).1 ha
        rw [if_neg h2, if_pos h1]
    · rw [hdr.destroyed, hs.destroyed]
      refine List.Nodup.append ho.nodup (hb.nodup.sublist (List.filter_sublist.map _)) ?_
      intro a h1 h2
      have := hb.owned a ((hdsub a).1 h2).1
      rw [ho.destroyed a h1] at this
      cases this
    · rw [hdr.created]
      exact hs.createdNodup ho.createdNodup ho.fresh
    · intro a ha
      rw [hdr.created, hs.created] at ha
      rw [hdr.next]
      have := hs.next
      rcases ha with ha | ha
      · have := ho.fresh a ha; omega
      · omega

/-- Dropping arrays. -/
theorem drop_owned {h : Heap B} {owner : Nat → Option Owner} (ho : Owned h owner) {before : List CArray}
    (hb : Held owner before) (p : Owner) :
    ∃ h', dropArrays before h = some h' ∧ Committed h h' before [] [] ∧ Owned h' (reown owner before [] p) := by
  have := commit ho hb (ls := []) (by simp [kept]) (by simp) p
  have hf : before.filter (fun a => a ∉ (mapAccum settle h ([] : List (Live B))).2) = before := by
    rw [List.filter_eq_self]; simp
  rw [hf] at this
  exact this

end Heap

end Equistore
