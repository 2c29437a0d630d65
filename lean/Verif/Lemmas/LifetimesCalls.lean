import Verif.Lemmas.Lifetimes
import Verif.Props.Ownership

/-! Calls of the C API and the labels of blocks and tensor maps. -/

namespace Equistore
namespace Heap
open Spec

variable {B : Type}

theorem commitBlock_skeleton {h h' : Heap B} {before : List CArray} {b : TensorBlock (Live B)} {b' : TensorBlock CArray}
    (hc : h.commitBlock before b = some (h', b')) : b'.skeleton = b.skeleton := by
  unfold commitBlock at hc
  simp only at hc
  split at hc
  · cases hc
  · cases hc
    exact TensorBlock.skeleton_mapAccumData _ _ _

theorem commitTensor_skeleton {h h' : Heap B} {before : List CArray} {t : TensorMap (Live B)} {t' : TensorMap CArray}
    (hc : h.commitTensor before t = some (h', t')) : t'.skeleton = t.skeleton := by
  unfold commitTensor at hc
  simp only at hc
  split at hc
  · cases hc
  · cases hc
    exact TensorMap.skeleton_mapAccumData _ _ _

theorem place_same {h h' : Heap B} (hs : SameObjects h h') (place : Place) : place.block h' = place.block h := by
  cases place with
  | alone n => simp only [Place.block, hs.blocks]
  | inside t i => simp only [Place.block, hs.tensors]

variable [Inhabited B] [ArrayCallbacks B] {h h' : Heap B} {l : Ledger} {owner : Nat → Option Owner}

theorem thawBlock_eq {b : TensorBlock CArray} {b' : TensorBlock (Live B)} (ht : h.thawBlock b = some b') :
    b' = b.mapData (thawed h) := by
  unfold thawBlock at ht
  split at ht
  · cases ht; rfl
  · cases ht

/-- `eqs_block_add_gradient` keeps the labels of all blocks. -/
theorem addGradient_place {p : Platform} {q : BlockPtr} {name : Option Bytes} {data : CArray} {samples : CLabels}
    {components : List CLabels} {reply : Reply}
    (hr : (Call.blockAddGradient q name data samples components : Call B).run p h = some (h', reply))
    {place : Place} {b : TensorBlock CArray} (hb : place.block h = some b) :
    ∃ b', place.block h' = some b' ∧ KeepsParts SameLabels b b' := by
  simp only [Call.run, Option.map_eq_some_iff, eqsBlockAddGradient] at hr
  obtain ⟨⟨h₁, r⟩, hr, heq⟩ := hr
  cases heq
  by_cases hq : q = .null
  · rw [if_pos hq, Option.map_eq_some_iff] at hr
    obtain ⟨h₂, hd, heq⟩ := hr
    cases heq
    exact ⟨b, by rw [place_same (dropArrays_same hd), hb], keepsParts_refl b⟩
  rw [if_neg hq] at hr
  cases hb₀ : h.block q with
  | none => rw [hb₀] at hr; cases hr
  | some b₀ =>
    simp only [hb₀] at hr
    cases hl : h.live data with
    | none => rw [hl] at hr; cases hr
    | some array =>
      cases ht : h.thawBlock b₀ with
      | none => rw [hl, ht] at hr; cases hr
      | some tb =>
        simp only [hl, ht] at hr
        have hkeep := addGradientOfC_keeps name array samples components tb
        generalize addGradientOfC name array samples components tb = result at hr hkeep
        cases hcb : h.commitBlock (b₀.arrays ++ [data]) result.1 with
        | none => rw [hcb] at hr; cases hr
        | some x =>
          obtain ⟨h₂, b₂⟩ := x
          simp only [hcb] at hr
          cases hr
          obtain ⟨hsame, _⟩ := commitBlock_from hcb
          have hk : KeepsParts SameLabels b₀ b₂ := by
            have h1 : KeepsParts SameLabels b₀ tb := by rw [thawBlock_eq ht]; exact keepsParts_mapData _ _
            exact (h1.trans SameLabels.trans hkeep).trans SameLabels.trans
              (keepsParts_of_skeleton (commitBlock_skeleton hcb))
          have hb' : place.block h₂ = some b := by rw [place_same hsame, hb]
          have hdefault : ∃ b', place.block h₂ = some b' ∧ KeepsParts SameLabels b b' := ⟨b, hb', keepsParts_refl b⟩
          cases q with
          | null => exact absurd rfl hq
          | owned m =>
            cases place with
            | inside t i => exact hdefault
            | alone n =>
              by_cases hn : n = m
              · subst hn
                have h1 : h.blocks n = some b₀ := hb₀
                have h2 : h.blocks n = some b := hb
                rw [h1] at h2
                cases h2
                exact ⟨b₂, by simp [Place.block, setBlock, setAt], hk⟩
              · exact ⟨b, by simpa [Place.block, setBlock, setAt, hn] using hb', keepsParts_refl b⟩
          | inside t v j =>
            obtain ⟨T, hT, hj⟩ := block_inside.1 hb₀
            have hT' : h₂.tensors t = some (T, v) := by rw [hsame.tensors, hT]
            cases place with
            | alone n =>
              refine ⟨b, ?_, keepsParts_refl b⟩
              simp only [setBlock, hT']
              exact hb'
            | inside u i =>
              by_cases hu : u = t
              · subst hu
                simp only [Place.block, hT', Option.bind_some] at hb'
                have hset : Place.block (h₂.setBlock b₂ (.inside u v j)) (.inside u i) = (T.blocks.set j b₂)[i]? := by
                  simp [Place.block, setBlock, hT', setAt]
                rw [hset]
                by_cases hij : i = j
                · subst hij
                  rw [hj] at hb'
                  cases hb'
                  exact ⟨b₂, List.getElem?_set_self (List.getElem?_eq_some_iff.1 hj).1, hk⟩
                · exact ⟨b, by rw [List.getElem?_set_ne (Ne.symm hij), hb'], keepsParts_refl b⟩
              · refine ⟨b, ?_, keepsParts_refl b⟩
                simp only [setBlock, hT', Place.block, setAt, if_neg hu]
                exact hb'

/-- Functions changing a tensor map. -/
theorem modify_place {n : Nat} {replaces : Bool} {action : Act (TensorMap (Live B)) Unit} {r : Res Unit}
    (hr : modifyTensor (some n) replaces action h = some (h', r)) :
    ∃ t v t' v', h.tensors n = some (t, v) ∧ h'.tensors n = some (t', v') ∧
      t'.skeleton = (action (t.mapData (thawed h))).1.skeleton ∧ r = (action (t.mapData (thawed h))).2 ∧
      (¬(replaces = true ∧ r = .ok ()) → v' = v) := by
  simp only [modifyTensor] at hr
  cases ht : h.tensors n with
  | none => rw [ht] at hr; cases hr
  | some x =>
    obtain ⟨t, v⟩ := x
    simp only [ht] at hr
    cases hth : h.thawTensor t with
    | none => rw [hth] at hr; cases hr
    | some live =>
      simp only [hth] at hr
      have hlive := thawTensor_eq hth
      subst hlive
      cases hct : h.commitTensor t.arrays (action (t.mapData (thawed h))).1 with
      | none => rw [hct] at hr; cases hr
      | some x =>
        obtain ⟨h₁, t₁⟩ := x
        simp only [hct] at hr
        have hsk := commitTensor_skeleton hct
        split at hr <;> cases hr
        · rename_i hif
          exact ⟨t, v, t₁, _, rfl, by simp [setTensor, setAt]; rfl, hsk, rfl, fun hn => absurd hif hn⟩
        · exact ⟨t, v, t₁, v, rfl, by simp [setTensor, setAt], hsk, rfl, fun _ => rfl⟩

/-- The blocks of tensor maps with the same labels. -/
theorem place_skeleton {t t' : TensorMap CArray} {n v v' i : Nat} (ht : h.tensors n = some (t, v))
    (ht' : h'.tensors n = some (t', v')) (hs : t'.skeleton = t.skeleton) {b : TensorBlock CArray}
    (hb : (Place.inside n i).block h = some b) :
    ∃ b', (Place.inside n i).block h' = some b' ∧ KeepsParts SameLabels b b' := by
  simp only [Place.block, ht, Option.bind_some] at hb
  simp only [Place.block, ht', Option.bind_some]
  have hall := skeleton_forall₂ hs
  obtain ⟨hi, rfl⟩ := List.getElem?_eq_some_iff.1 hb
  have hi' : i < t'.blocks.length := by rw [← hall.length_eq]; exact hi
  exact ⟨t'.blocks[i], List.getElem?_eq_getElem hi', keepsParts_of_skeleton (hall.get hi hi')⟩

/-- Moving keys, when this fails: all the labels stay. -/
theorem modify_failed {n : Nat} {action : Act (TensorMap (Live B)) Unit} (hx : NewOrUnchanged action) {r : Res Unit}
    (hr : modifyTensor (some n) true action h = some (h', r)) (hn : r ≠ .ok ()) :
    ∃ t v t', h.tensors n = some (t, v) ∧ h'.tensors n = some (t', v) ∧ t'.skeleton = t.skeleton := by
  obtain ⟨t, v, t', v', h1, h2, h3, h4, h5⟩ := modify_place hr
  have h5 := h5 fun h => hn h.2
  subst h5
  refine ⟨t, _, t', h1, h2, ?_⟩
  rcases hx (t.mapData (thawed h)) with ⟨h5, _⟩ | ⟨_, h5⟩
  · exact absurd (h4.trans h5) hn
  · rw [h3, h5, TensorMap.skeleton_mapData]

theorem modify_components {n : Nat} {hash : HashOrder} {names : List (Option Bytes)} {r : Res Unit}
    (hnamed : ∀ t v, h.tensors n = some (t, v) → ∀ b ∈ t.blocks, b.Named)
    (hr : eqsComponentsToProperties hash (some n) names h = some (h', r)) :
    ∃ t v t', h.tensors n = some (t, v) ∧ h'.tensors n = some (t', v) ∧ t'.keys = t.keys ∧
      List.Forall₂ (KeepsParts SameSamples) t.blocks t'.blocks := by
  obtain ⟨t, v, t', v', h1, h2, h3, _, h5⟩ := modify_place hr
  have h5 := h5 (by simp)
  subst h5
  refine ⟨t, _, t', h1, h2, ?_⟩
  have hn : ∀ b ∈ (t.mapData (thawed h)).blocks, b.Named := by
    intro b hb
    obtain ⟨b', hb', rfl⟩ := List.mem_map.1 hb
    exact TensorBlock.Named.of_skeleton (hnamed t _ h1 b' hb') (TensorBlock.skeleton_mapData _ _)
  have key : ∀ s : TensorMap (Live B), s.keys = (t.mapData (thawed h)).keys →
      List.Forall₂ (KeepsParts SameSamples) (t.mapData (thawed h)).blocks s.blocks → t'.skeleton = s.skeleton →
      t'.keys = t.keys ∧ List.Forall₂ (KeepsParts SameSamples) t.blocks t'.blocks := by
    intro s hk hs hsk
    refine ⟨(congrArg TensorMap.keys hsk).trans hk, ?_⟩
    have h5 := skeleton_forall₂ hsk
    have h6 : List.Forall₂ (KeepsParts SameLabels) t.blocks (t.mapData (thawed h)).blocks := by
      show List.Forall₂ _ t.blocks (t.blocks.map _)
      rw [List.forall₂_map_right_iff, List.forall₂_same]
      exact fun b _ => keepsParts_mapData _ b
    rw [List.forall₂_iff_get] at hs h5 h6 ⊢
    refine ⟨h6.1.trans (hs.1.trans h5.1), fun i hi hi' => ?_⟩
    have h7 := h6.2 i hi (by rw [← h6.1]; exact hi)
    have h8 := hs.2 i (by rw [← h6.1]; exact hi) (by rw [h5.1]; exact hi')
    have h9 := keepsParts_of_skeleton (h5.2 i (by rw [h5.1]; exact hi') hi')
    exact (h7.trans (R'' := SameSamples) (fun _ _ _ x y => Eq.trans y x.samples) h8).trans (R'' := SameSamples)
      (fun _ _ _ x y => Eq.trans y.samples x) h9
  rw [Act.lift_bind] at h3
  have hrefl : List.Forall₂ (KeepsParts SameSamples) (t.mapData (thawed h)).blocks (t.mapData (thawed h)).blocks := by
    rw [List.forall₂_same]
    exact fun b _ => keepsParts_of_samples rfl rfl
  cases hv : names.mapM variableName with
  | ok vars =>
    rw [hv] at h3
    obtain ⟨h5, h6⟩ := componentsToProperties_samples hash vars _ hn
    exact key _ h5 h6 h3
  | err e => rw [hv] at h3; exact key _ rfl hrefl h3
  | panic m => rw [hv] at h3; exact key _ rfl hrefl h3

theorem KeepsParts.samples {A A' : Type} {b : TensorBlock A} {b' : TensorBlock A'} (hk : KeepsParts SameLabels b b') :
    KeepsParts SameSamples b b' :=
  ⟨hk.1.samples, fun name part hp => let ⟨part', h1, h2⟩ := hk.2 name part hp; ⟨part', h1, h2.samples⟩⟩

/-- What a block is a part of. -/
def placeOwner : Place → Owner
  | .alone n => .block n
  | .inside t _ => .tensor t

def placeThing : Place → Thing
  | .alone n => .block n
  | .inside t _ => .tensor t

theorem place_object {place : Place} (ho : h'.object (placeOwner place) = h.object (placeOwner place)) :
    place.block h' = place.block h := by
  cases place with
  | alone n => exact blocks_of_object ho
  | inside t i => simp only [Place.block, tensors_of_object ho]

theorem place_isSome {place : Place} {b : TensorBlock CArray} (hb : place.block h = some b) :
    (h.object (placeOwner place)).isSome := by
  cases place with
  | alone n =>
    have hb : h.blocks n = some b := hb
    exact object_block_isSome.2 (by rw [hb]; rfl)
  | inside t i =>
    refine object_tensor_isSome.2 ?_
    simp only [Place.block] at hb
    cases ht : h.tensors t with
    | none => rw [ht] at hb; cases hb
    | some x => rfl

/-- Calls which change something else leave a block where it is. -/
theorem place_unchanged {c : Call B} {reply : Reply} {place place' : Place} (hc : ¬c.changes (placeThing place))
    (hafter : place.after c reply = some place') : place' = place := by
  cases place with
  | alone n =>
    unfold Place.after at hafter
    simp only at hafter
    split at hafter
    · split at hafter
      · cases hafter
      · cases hafter; rfl
    · split at hafter
      · rename_i hm
        exact absurd ⟨_, hm, rfl⟩ hc
      · cases hafter; rfl
    · split at hafter
      · cases hafter
      · cases hafter; rfl
    · cases hafter; rfl
  | inside t i =>
    unfold Place.after at hafter
    simp only at hafter
    split at hafter
    · split at hafter
      · cases hafter
      · cases hafter; rfl
    · split at hafter
      · cases hafter
      · cases hafter; rfl
    · split at hafter
      · cases hafter
      · cases hafter; rfl
    · cases hafter; rfl

theorem owned_of_allowed {blocks : List BlockPtr} (ha : ∀ b ∈ blocks, ∃ n ∈ l.blocks, b = .owned n) :
    ∃ ns : List Nat, blocks = ns.map .owned ∧ ∀ n ∈ ns, n ∈ l.blocks := by
  induction blocks with
  | nil => exact ⟨[], rfl, by simp⟩
  | cons b blocks ih =>
    obtain ⟨n, hn, rfl⟩ := ha b List.mem_cons_self
    obtain ⟨ns, rfl, hns⟩ := ih fun b hb => ha b (List.mem_cons_of_mem _ hb)
    exact ⟨n :: ns, rfl, by simpa using ⟨hn, hns⟩⟩

/-- `eqs_tensormap`, for one of the blocks. -/
theorem tensormap_place (hr : Run h l) {p : Platform} {keys : CLabels} {blocks : List BlockPtr} {reply : Reply}
    (ha : (Call.tensormap keys blocks : Call B).Allowed l)
    (hrun : (Call.tensormap keys blocks : Call B).run p h = some (h', reply)) {n : Nat} {b : TensorBlock CArray}
    (hb : (Place.alone n).block h = some b) (hm : .owned n ∈ blocks) {place' : Place}
    (hafter : (Place.alone n).after (Call.tensormap keys blocks : Call B) reply = some place') :
    place'.block h' = some b := by
  simp only [Call.run, Option.map_eq_some_iff] at hrun
  obtain ⟨⟨h₁, after, r⟩, hrun, heq⟩ := hrun
  cases heq
  obtain ⟨ns, rfl, hns⟩ := owned_of_allowed ha
  have hrejected : (¬(ns.map BlockPtr.owned).Nodup ∨ ∀ k, Labels.ofC keys ≠ .ok k) → place'.block h₁ = some b := by
    intro hbad
    obtain ⟨r', h1, h2, _⟩ := C48_rejected p.hash keys (ns.map .owned) h hbad
    rw [hrun] at h1
    cases h1
    have hnull : ((BlockPtr.owned n, BlockPtr.null) : BlockPtr × BlockPtr) ∉
        (ns.map BlockPtr.owned).zip (ns.map BlockPtr.owned) := by
      intro hz
      have := List.of_mem_zip hz
      simp at this
    cases r with
    | ok t => exact absurd rfl (h2 t)
    | err e =>
      simp only [Place.after, if_neg hnull] at hafter
      cases hafter
      exact hb
    | panic m =>
      simp only [Place.after, if_neg hnull] at hafter
      cases hafter
      exact hb
  by_cases hnd : (ns.map BlockPtr.owned).Nodup
  · cases hk : Labels.ofC keys with
    | err e => exact hrejected (.inr (by simp [hk]))
    | panic m => exact hrejected (.inr (by simp [hk]))
    | ok k =>
      obtain ⟨h₂, r', bs, h1, h2, _, _, _, h3, _⟩ := C48_taken h l hr p.hash keys k hk ns (List.Nodup.of_map _ hnd) hns
      rw [hrun] at h1
      cases h1
      obtain ⟨i, hi, hni⟩ := List.getElem_of_mem hm
      have hnull : ((BlockPtr.owned n, BlockPtr.null) : BlockPtr × BlockPtr) ∈
          (ns.map BlockPtr.owned).zip (ns.map fun _ => BlockPtr.null) := by
        rw [List.mem_iff_getElem]
        refine ⟨i, by simpa using hi, ?_⟩
        rw [List.getElem_zip, hni]
        simp
      cases r with
      | ok t =>
        simp only [Place.after, if_pos hm] at hafter
        cases hafter
        obtain ⟨⟨v, hv⟩, _⟩ := h3 t rfl
        simp only [Place.block, hv, Option.bind_some]
        have hidx : (ns.map BlockPtr.owned).idxOf (.owned n) = i := by
          rw [← hni]; exact hnd.idxOf_getElem i hi
        rw [hidx]
        have hi₁ : i < ns.length := by simpa using hi
        have hi₂ : i < bs.length := by rw [← h2.length_eq]; exact hi₁
        have h4 : h.blocks ns[i] = some bs[i] := h2.get hi₁ hi₂
        have h5 : ns[i] = n := by
          rw [List.getElem_map] at hni
          cases hni
          rfl
        have h6 : h.blocks n = some b := hb
        rw [h5, h6] at h4
        rw [List.getElem?_eq_getElem hi₂, ← h4]
      | err e => simp only [Place.after, if_pos hnull] at hafter; cases hafter
      | panic m => simp only [Place.after, if_pos hnull] at hafter; cases hafter
  · exact hrejected (.inl hnd)

/-- One call. -/
theorem place_step (hr : Run h l) {p : Platform} {c : Call B} {reply : Reply} (ha : c.Allowed l)
    (hrun : c.run p h = some (h', reply)) {place place' : Place} {b : TensorBlock CArray}
    (hb : place.block h = some b) (hafter : place.after c reply = some place') :
    ∃ b', place'.block h' = some b' ∧ KeepsParts SameSamples b b' ∧
      (¬MovesComponents place c → KeepsParts SameLabels b b') := by
  have hall : (∃ b', place'.block h' = some b' ∧ KeepsParts SameLabels b b') →
      ∃ b', place'.block h' = some b' ∧ KeepsParts SameSamples b b' ∧
        (¬MovesComponents place c → KeepsParts SameLabels b b') :=
    fun ⟨b', h1, h2⟩ => ⟨b', h1, KeepsParts.samples h2, fun _ => h2⟩
  have hsame : place.block h' = some b → place' = place →
      ∃ b', place'.block h' = some b' ∧ KeepsParts SameLabels b b' :=
    fun h1 h2 => ⟨b, by rw [h2]; exact h1, keepsParts_refl b⟩
  obtain ⟨owner, hi⟩ := inv_run hr
  by_cases hc : c.changes (placeThing place)
  · cases c with
    | arrayDestroy a => cases place <;> cases hc
    | arrayWrite access change =>
      refine hall (hsame ?_ ?_)
      · have h1 : place.block h' = place.block h := by
          cases access <;>
          · simp only [Call.run] at hrun
            split at hrun <;> cases hrun
            cases place <;> rfl
        rw [h1, hb]
      · cases place <;> cases hafter <;> rfl
    | block data samples components properties => cases place <;> cases hc
    | blockFree q =>
      rcases ha with rfl | ⟨n, hn, rfl⟩
      · cases hc
      · cases place with
        | inside t i => cases hc
        | alone m =>
          cases hc
          simp [Place.after] at hafter
    | blockAddGradient q name data samples components =>
      have hp : place' = place := by cases place <;> cases hafter <;> rfl
      rw [hp]
      exact hp ▸ hall (hp ▸ addGradient_place hrun hb)
    | tensormap keys blocks =>
      obtain ⟨q, hq, hx⟩ := hc
      obtain ⟨n, _, rfl⟩ := ha q hq
      cases place with
      | inside t i => cases hx
      | alone m =>
        cases hx
        exact hall ⟨b, tensormap_place hr ha hrun hb hq hafter, keepsParts_refl b⟩
    | tensormapFree tensor =>
      obtain ⟨n, rfl, hx⟩ := hc
      cases place with
      | alone m => cases hx
      | inside t i =>
        cases hx
        simp [Place.after] at hafter
    | keysToProperties tensor keysToMove sort =>
      obtain ⟨n, rfl, hx⟩ := hc
      cases place with
      | alone m => cases hx
      | inside t i =>
        cases hx
        simp only [Call.run, Option.map_eq_some_iff] at hrun
        obtain ⟨⟨h₁, r⟩, hrun, heq⟩ := hrun
        cases heq
        have hn : r ≠ .ok () := by
          rintro rfl
          simp [Place.after] at hafter
        have hp : place' = .inside n i := by
          cases r with
          | ok u => exact absurd rfl hn
          | err e => cases hafter; rfl
          | panic m => cases hafter; rfl
        obtain ⟨T, v, T', h1, h2, h3⟩ := modify_failed
          (NewOrUnchanged.lift_bind _ fun keys => keysToProperties_new _ _ keys _) hrun hn
        exact hall (hp ▸ place_skeleton h1 h2 h3 hb)
    | keysToSamples tensor keysToMove sort =>
      obtain ⟨n, rfl, hx⟩ := hc
      cases place with
      | alone m => cases hx
      | inside t i =>
        cases hx
        simp only [Call.run, Option.map_eq_some_iff] at hrun
        obtain ⟨⟨h₁, r⟩, hrun, heq⟩ := hrun
        cases heq
        have hn : r ≠ .ok () := by
          rintro rfl
          simp [Place.after] at hafter
        have hp : place' = .inside n i := by
          cases r with
          | ok u => exact absurd rfl hn
          | err e => cases hafter; rfl
          | panic m => cases hafter; rfl
        obtain ⟨T, v, T', h1, h2, h3⟩ := modify_failed
          (NewOrUnchanged.lift_bind _ fun keys => keysToSamples_new _ _ keys _) hrun hn
        exact hall (hp ▸ place_skeleton h1 h2 h3 hb)
    | componentsToProperties tensor names =>
      obtain ⟨n, rfl, hx⟩ := hc
      cases place with
      | alone m => cases hx
      | inside t i =>
        cases hx
        simp only [Call.run, Option.map_eq_some_iff] at hrun
        obtain ⟨⟨h₁, r⟩, hrun, heq⟩ := hrun
        cases heq
        have hp : place' = .inside n i := by cases hafter; rfl
        obtain ⟨T, v, T', h1, h2, _, h3⟩ := modify_components (fun T v hT b hb => hi.heap.named (.tensor n) b (by
          simpa [blocksOf, object, hT, Object.blocks] using hb)) hrun
        subst hp
        simp only [Place.block, h1, Option.bind_some] at hb
        obtain ⟨hlt, rfl⟩ := List.getElem?_eq_some_iff.1 hb
        have hlt' : i < T'.blocks.length := by rw [← h3.length_eq]; exact hlt
        exact ⟨T'.blocks[i], by simp only [Place.block, h2, Option.bind_some]; exact List.getElem?_eq_getElem hlt',
          h3.get hlt hlt', fun hm => absurd rfl hm⟩
    | arrayNew _ => cases hc
    | blockCopy _ => cases hc
    | blockLabels _ _ _ => cases hc
    | blockData _ _ _ => cases hc
    | blockGradientsList _ => cases hc
    | tensormapKeys _ => cases hc
    | tensormapBlockById _ _ => cases hc
    | tensormapBlocksMatching _ _ => cases hc
    | load _ => cases hc
    | save _ => cases hc
  · obtain ⟨h₂, reply', h1, _, hf⟩ := good p hi ha
    rw [hrun] at h1
    cases h1
    have ho := (hf.object (placeOwner place) (placeThing place) (by cases place <;> rfl) (place_isSome hb) hc).1
    exact hall (hsame (by rw [place_object ho, hb]) (place_unchanged hc hafter))

/-- One call, and the keys of a tensor map. -/
theorem keys_step (hr : Run h l) {p : Platform} {c : Call B} {reply : Reply} (ha : c.Allowed l)
    (hrun : c.run p h = some (h', reply)) {n v : Nat} {t : TensorMap CArray} (ht : h.tensors n = some (t, v))
    (hc : LeavesKeys n c reply) :
    ∃ t', h'.tensors n = some (t', v) ∧ t'.keys = t.keys ∧ t'.blocks.length = t.blocks.length := by
  obtain ⟨owner, hi⟩ := inv_run hr
  by_cases hch : c.changes (.tensor n)
  · cases c with
    | arrayDestroy a => cases hch
    | arrayWrite access change =>
      cases access <;>
      · simp only [Call.run] at hrun
        split at hrun <;> cases hrun
        exact ⟨t, ht, rfl, rfl⟩
    | block data samples components properties => cases hch
    | blockFree q =>
      rcases ha with rfl | ⟨m, hn, rfl⟩
      · cases hch
      · cases hch
    | blockAddGradient q name data samples components =>
      obtain ⟨h₂, reply', h1, _, _⟩ := good p hi ha
      rw [hrun] at h1
      cases h1
      simp only [Call.run, Option.map_eq_some_iff, eqsBlockAddGradient] at hrun
      obtain ⟨⟨h₁, r⟩, hr, heq⟩ := hrun
      cases heq
      cases q with
      | null => rcases hch with hch | hch <;> cases hch
      | owned m => rcases hch with hch | hch <;> cases hch
      | inside u w j =>
        have hu : u = n := by rcases hch with hch | hch <;> cases hch; rfl
        subst hu
        rw [if_neg (by simp)] at hr
        split at hr
        · cases hr
        split at hr
        · split at hr
          · cases hr
          · rename_i hcb
            cases hr
            obtain ⟨hsame, _⟩ := commitBlock_from hcb
            exact ⟨{ t with blocks := t.blocks.set j _ }, by
              simp only [setBlock, hsame.tensors, ht, setAt, if_true]; rfl, rfl, by simp⟩
        · cases hr
    | tensormap keys blocks =>
      obtain ⟨q, hq, hx⟩ := hch
      obtain ⟨m, _, rfl⟩ := ha q hq
      cases hx
    | tensormapFree tensor =>
      obtain ⟨m, rfl, hx⟩ := hch
      cases hx
      exact absurd rfl hc
    | keysToProperties tensor keysToMove sort =>
      obtain ⟨m, rfl, hx⟩ := hch
      cases hx
      simp only [Call.run, Option.map_eq_some_iff] at hrun
      obtain ⟨⟨h₁, r⟩, hrun', heq⟩ := hrun
      cases heq
      have hn : r ≠ .ok () := by
        rintro rfl
        exact hc rfl
      obtain ⟨T, w, T', h1, h2, h3⟩ := modify_failed
        (NewOrUnchanged.lift_bind _ fun keys => keysToProperties_new _ _ keys _) hrun' hn
      rw [ht] at h1
      cases h1
      exact ⟨T', h2, by show T'.skeleton.keys = t.skeleton.keys; rw [h3], (skeleton_forall₂ h3).length_eq.symm⟩
    | keysToSamples tensor keysToMove sort =>
      obtain ⟨m, rfl, hx⟩ := hch
      cases hx
      simp only [Call.run, Option.map_eq_some_iff] at hrun
      obtain ⟨⟨h₁, r⟩, hrun', heq⟩ := hrun
      cases heq
      have hn : r ≠ .ok () := by
        rintro rfl
        exact hc rfl
      obtain ⟨T, w, T', h1, h2, h3⟩ := modify_failed
        (NewOrUnchanged.lift_bind _ fun keys => keysToSamples_new _ _ keys _) hrun' hn
      rw [ht] at h1
      cases h1
      exact ⟨T', h2, by show T'.skeleton.keys = t.skeleton.keys; rw [h3], (skeleton_forall₂ h3).length_eq.symm⟩
    | componentsToProperties tensor names =>
      obtain ⟨m, rfl, hx⟩ := hch
      cases hx
      simp only [Call.run, Option.map_eq_some_iff] at hrun
      obtain ⟨⟨h₁, r⟩, hrun', heq⟩ := hrun
      cases heq
      obtain ⟨T, w, T', h1, h2, h3, h4⟩ := modify_components (fun T v hT b hb => hi.heap.named (.tensor n) b (by
        simpa [blocksOf, object, hT, Object.blocks] using hb)) hrun'
      rw [ht] at h1
      cases h1
      exact ⟨T', h2, h3, h4.length_eq.symm⟩
    | arrayNew _ => cases hch
    | blockCopy _ => cases hch
    | blockLabels _ _ _ => cases hch
    | blockData _ _ _ => cases hch
    | blockGradientsList _ => cases hch
    | tensormapKeys _ => cases hch
    | tensormapBlockById _ _ => cases hch
    | tensormapBlocksMatching _ _ => cases hch
    | load _ => cases hch
    | save _ => cases hch
  · obtain ⟨h₂, reply', h1, _, hf⟩ := good p hi ha
    rw [hrun] at h1
    cases h1
    have ho := (hf.object (.tensor n) (.tensor n) rfl (object_tensor_isSome.2 (by rw [ht]; rfl)) hch).1
    exact ⟨t, by rw [tensors_of_object ho, ht], rfl, rfl⟩

end Heap
end Equistore
