import Verif.Lemmas.BroadcastOutcome

/-! Operations with arrays from Rust and numpy arrays end in the same way, with gradient components of different sizes. -/

namespace Equistore
open Spec Implements

/-! ### Arrays from Rust -/

theorem NdArray.moveOne_shape {output input out : NdArray} {m : SampleMapping} {s e : Nat}
    (h : NdArray.moveOne output input m s e = some out) : out.shape = output.shape := by
  unfold NdArray.moveOne at h
  split at h
  · split at h
    · split at h
      · cases h
      · next ho _ _ _ _ =>
        dsimp only at h
        split at h
        · rw [← Option.some.inj h]
          rfl
        · cases h
    · cases h
  · cases h

theorem NdArray.moveLoop_shape {input output : NdArray} {ms : List SampleMapping} {s e : Nat} :
    (NdArray.moveLoop input s e output ms).1.shape = output.shape := by
  induction ms generalizing output with
  | nil => rfl
  | cons m ms ih =>
    rw [NdArray.moveLoop]
    split
    · next h => exact ih.trans (NdArray.moveOne_shape h)
    · rfl

theorem moveMaps_rust {output input : RustArray} {ms : List SampleMapping} {s e : Nat} {shape : List Nat}
    (ho : output.array.shape = shape) : MoveMaps RustArray.array output input ms s e shape := by
  constructor
  · unfold moveSamples
    have h : ArrayLike.moveSamplesFrom output.array input.array ms s e =
      ((ArrayLike.moveSamplesFrom output input ms s e).1.array, (ArrayLike.moveSamplesFrom output input ms s e).2) := rfl
    rw [h]
    rcases ArrayLike.moveSamplesFrom output input ms s e with ⟨o, r | r | r⟩ <;> rfl
  · intro out h
    rw [moveSamples_eq_ok] at h
    have h1 : (NdArray.moveSamplesFrom output.array input.array ms s e).1 = out.array :=
      congrArg (fun x => x.1.array) h
    rw [← h1, ← ho]
    unfold NdArray.moveSamplesFrom
    split
    · exact NdArray.moveLoop_shape
    · rfl

theorem gradientMaps_rust (g : BasicBlock RustArray) (sizes : List Nat) : GradientMaps RustArray.array g sizes :=
  fun _ _ _ _ _ _ _ _ _ _ _ ho => moveMaps_rust ho

/-! ### Arrays from numpy -/

namespace NumpyArray

/-- The array with values repeated for other sizes of the components. -/
def stretched (n w : Nat) (src mid : List Nat) (a : NumpyArray) : NumpyArray :=
  build (n :: mid ++ [w]) fun idx =>
    a.array.get (idx.headD 0 :: broadcastPositions src idx.tail.dropLast ++ [idx.getLastD 0])

theorem stretched_stretches {n w : Nat} {src mid : List Nat} {a : NumpyArray} (hl : src.length = mid.length)
    (hs : a.array.shape = n :: src ++ [w]) : Stretches n w src mid a.array (stretched n w src mid a).array := by
  refine ⟨hl, hs, rfl, fun i k j hi hk hj => ?_⟩
  unfold stretched
  rw [build_eq, NdArray.get_build (NdArray.validIdx_mk hi hk hj)]
  have hlast : (i :: k ++ [j]).getLastD 0 = j := by
    rw [List.getLastD_eq_getLast?, List.getLast?_concat]; rfl
  rw [hlast]
  simp only [List.cons_append, List.headD_cons, List.tail_cons, List.dropLast_concat]

theorem build_congr {shape : List Nat} {f g : List Nat → Elt} (h : ∀ idx, ValidIdx shape idx → f idx = g idx) :
    build shape f = build shape g := by
  have := NdArray.build_congr h
  unfold build
  simp only [this]

theorem broadcastIdx_rows {src k : List Nat} {n w i j : Nat} (hl : src.length = k.length) (hi : i < n) (hj : j < w) :
    NdArray.broadcastIdx (n :: (src ++ [w])) (i :: (k ++ [j])) = i :: (broadcastPositions src k ++ [j]) := by
  have h := broadcastIdx_append (src := n :: src) (k := i :: k) (w := w) (j := j) (by simp [hl]) hj
  rw [List.cons_append, List.cons_append] at h
  rw [h]
  unfold broadcastPositions
  simp only [List.zipWith_cons_cons, List.cons_append, List.cons.injEq, and_true]
  split
  · omega
  · rfl

theorem moveSamplesFrom_stretch {output input input₂ : NumpyArray} {ms : List SampleMapping} {s e nIn nOut p : Nat}
    {src mid : List Nat} (hs : Stretches nIn (e - s) src mid input.array input₂.array)
    (ho : output.array.shape = nOut :: mid ++ [p]) (hse : s ≤ e) (hp : e ≤ p)
    (hm : ∀ m ∈ ms, m.input < nIn ∧ m.output < nOut) (hb : List.Forall₂ (fun s d => s = d ∨ s = 1) src mid) :
    moveSamplesFrom output input ms s e = moveSamplesFrom output input₂ ms s e := by
  have hall : (ms.all fun m => decide (m.input < nIn) && decide (m.output < nOut)) = true := by
    simpa using hm
  have e1 : min s p = s := by omega
  have e2 : max s (min e p) = e := by omega
  have e3 : dropOnes (ms.length :: (mid ++ [e - s])).length (ms.length :: (src ++ [e - s])) =
      ms.length :: (src ++ [e - s]) := by
    have : (ms.length :: (mid ++ [e - s])).length = (ms.length :: (src ++ [e - s])).length := by simp [hs.length]
    rw [this, dropOnes_self]
  have e4 : dropOnes (ms.length :: (mid ++ [e - s])).length (ms.length :: (mid ++ [e - s])) =
      ms.length :: (mid ++ [e - s]) := dropOnes_self _
  unfold moveSamplesFrom
  rw [ho, hs.shape, hs.shape₂]
  simp only [List.cons_append, List.getLast?_append, List.getLast?_singleton, Option.some_or,
    List.dropLast_concat, hall, if_true, e1, e2, e3, e4, (canBroadcast_cons_append hs.length).2 hb,
    NdArray.canBroadcast_self]
  refine Prod.ext (build_congr fun idx hi => ?_) rfl
  obtain ⟨i, k, j, rfl, hi', hk, hj⟩ := NdArray.validIdx_split (n := nOut) (mid := mid) hi
  have hlast : (i :: k ++ [j]).getLastD 0 = j := by
    rw [List.getLastD_eq_getLast?, List.getLast?_concat]; rfl
  rw [hlast]
  simp only [List.cons_append, List.headD_cons, List.tail_cons, List.dropLast_concat, Nat.sub_self, List.replicate_zero,
    List.nil_append]
  split
  · next l hl =>
    obtain ⟨m, h1, h2⟩ := lastIndex_some hl
    have hll : l < ms.length := (List.getElem?_eq_some_iff.1 h1).1
    split
    · next hc =>
      rw [broadcastIdx_rows (hs.length.trans hk.length_eq) hll (by omega),
        broadcastIdx_rows hk.length_eq hll (by omega)]
      simp only [List.headD_cons, List.tail_cons, h1, Option.map_some, Option.getD_some]
      have h3 : broadcastPositions mid k = k := by
        have := NdArray.broadcastIdx_self hk
        unfold NdArray.broadcastIdx at this
        rw [hk.length_eq, Nat.sub_self, List.drop_zero] at this
        exact this
      rw [h3]
      exact (hs.get _ _ _ (hm m (List.mem_of_getElem? h1)).1 hk (by omega)).symm
    · rfl
  · rfl

end NumpyArray

theorem moveMaps_numpy {output input : NumpyArray} {ms : List SampleMapping} {s e nIn nOut p : Nat} {src mid : List Nat}
    (ho : output.array.shape = nOut :: mid ++ [p]) (hi : input.array.shape = nIn :: src ++ [e - s])
    (hse : s ≤ e) (hp : e ≤ p) (hm : ∀ m ∈ ms, m.input < nIn ∧ m.output < nOut) (hnd : (ms.map (·.output)).Nodup)
    (hb : List.Forall₂ (fun s d => s = d ∨ s = 1) src mid) :
    MoveMaps NumpyArray.array output input ms s e (nOut :: mid ++ [p]) := by
  have hs := NumpyArray.stretched_stretches hb.length_eq hi
  obtain ⟨out, e1, e2, e3⟩ := implements_numpy.moveSamples_map (output := output) (mapping := ms) (start := s) (stop := e)
    ⟨hse, hp, ⟨nIn, hs.shape₂, hm⟩, hnd⟩ ho
  have h1 : moveSamples output input ms s e = .ok out := by
    rw [moveSamples_eq_ok] at e1 ⊢
    exact (NumpyArray.moveSamplesFrom_stretch hs ho hse hp hm hb).trans e1
  obtain ⟨out₂, f1, -⟩ := NdArray.moveLoop_accepts hb.length_eq hi hse hp hb hm ho
  have h2 : moveSamples output.array input.array ms s e = .ok out₂ := by
    rw [moveSamples_eq_ok]
    show NdArray.moveSamplesFrom output.array input.array ms s e = _
    unfold NdArray.moveSamplesFrom
    rw [if_pos (by rw [ho]; simp), f1]
  have h3 := (moveSamples_stretch hs ho h2).1
  rw [e2, Res.ok.injEq] at h3
  constructor
  · rw [h1, h2, ← h3]; rfl
  · intro out' h
    rw [h1, Res.ok.injEq] at h
    rw [← h, e3]

theorem gradientMaps_numpy {g : BasicBlock NumpyArray} (hg : BlockWF g) (hb : BasicValid g) {C : List Labels}
    (hC : ∀ c ∈ C, c.WF) (hbr : BroadcastsTo g.components C) :
    GradientMaps NumpyArray.array g (C.map fun c => c.rows.length) := by
  intro T outRows gm hm hT s e p he hp output ho
  refine moveMaps_numpy (nIn := g.samples.rows.length) (src := g.components.map fun c => c.rows.length) ho ?_ (by omega) hp
    ?_ ?_ ?_
  · rw [implements_numpy.view_shape hb, he, Nat.add_sub_cancel_left]
  · intro m hm'
    obtain ⟨_, r, r', h1, h2, _⟩ := hm.mem hm'
    exact ⟨(List.getElem?_eq_some_iff.1 h1).1, (List.getElem?_eq_some_iff.1 h2).1⟩
  · exact hm.nodup (Labels.Holds.nodup hg.samples) fun r _ s _ r' => hT r s r'
  · unfold BroadcastsTo at hbr
    rw [List.forall₂_map_left_iff, List.forall₂_map_right_iff]
    rw [List.forall₂_iff_get] at hbr ⊢
    refine ⟨hbr.1, fun n h6 h7 => ?_⟩
    have h8 := hbr.2 n h6 h7
    rwa [entriesOf_wf (hg.components _ (List.get_mem _ _)), entriesOf_wf (hC _ (List.get_mem _ _))] at h8

/-! ### Groups of blocks -/

theorem groupMaps_rust {debug : Bool} {listed : List LabelValue → Prop}
    {blocks : List (List LabelValue × TensorBlock RustArray)} : GroupMaps RustArray.array debug listed blocks :=
  fun _ _ _ _ _ _ _ _ _ _ _ => gradientMaps_rust _ _

theorem groupMaps_numpy {w : Nat} {debug : Bool} {listed : List LabelValue → Prop}
    {blocks : List (List LabelValue × TensorBlock NumpyArray)} (hg : GroupOk w blocks)
    (hbr : debug = true ∨
      ∀ first, blocks.head? = some first → ∀ kb ∈ blocks, listed kb.1 → GradientsBroadcast true kb.2 first.2) :
    GroupMaps NumpyArray.array debug listed blocks := by
  rcases hbr with hd | hbr
  · exact groupMaps_of_sizes implements_numpy hg (.inl hd)
  intro first hf q fg hfg kb hkb hl g hgq _
  have hgv := (hg.valid kb hkb).gradient_valid hgq
  exact gradientMaps_numpy hgv.wf hgv.basic
    ((hg.valid first (List.mem_of_mem_head? hf)).gradient_valid hfg).wf.components
    (hbr first hf kb hkb hl q g fg hgq hfg (.inr rfl))

variable {build : Build} {hash : HashOrder} {keysToMove : Labels} {sort : Bool}

theorem keysToSamples_map_numpy (hh : OrderByName hash) (hm : keysToMove.FromBuilder) {t : TensorMap NumpyArray}
    (ht : TensorValid t) (hbr : build.debug = true ∨
      ∀ first kb, FirstMergedWith t keysToMove.names first kb → GradientsBroadcast true kb.2 first.2) :
    (t.mapData NumpyArray.array).keysToSamples build hash keysToMove sort =
      ((t.keysToSamples build hash keysToMove sort).1.mapData NumpyArray.array,
        (t.keysToSamples build hash keysToMove sort).2) :=
  TensorMap.keysToSamples_map_of implements_numpy hh hm ht fun hw hs key' =>
    groupMaps_numpy (group_ok ht (Labels.Holds.names_ok hw).2 hs key') (hbr.imp_right fun hbr =>
      group_broadcast ht (listed := fun _ => True) (fun first kb hf _ => hbr first kb hf) key')

theorem keysToProperties_map_numpy (hh : OrderByName hash) (hm : keysToMove.FromBuilder) {t : TensorMap NumpyArray}
    (ht : TensorValid t) (hbr : build.debug = true ∨
      ∀ first kb, FirstMergedWith t keysToMove.names first kb → Requested t.keys.names keysToMove kb.1 →
        GradientsBroadcast true kb.2 first.2) :
    (t.mapData NumpyArray.array).keysToProperties build hash keysToMove sort =
      ((t.keysToProperties build hash keysToMove sort).1.mapData NumpyArray.array,
        (t.keysToProperties build hash keysToMove sort).2) :=
  TensorMap.keysToProperties_map_of implements_numpy hh hm ht fun hw hs key' =>
    groupMaps_numpy (group_ok ht (Labels.Holds.names_ok hw).2 hs key') (hbr.imp_right fun hbr =>
      group_broadcast ht (fun first kb hf hl => hbr first kb hf (by
        rw [listed_userKeys] at hl
        unfold Requested
        rw [entriesOf_wf hw]
        exact hl)) key')

theorem keysToSamples_map_rust (hh : OrderByName hash) (hm : keysToMove.FromBuilder) {t : TensorMap RustArray}
    (ht : TensorValid t) :
    (t.mapData RustArray.array).keysToSamples build hash keysToMove sort =
      ((t.keysToSamples build hash keysToMove sort).1.mapData RustArray.array,
        (t.keysToSamples build hash keysToMove sort).2) :=
  TensorMap.keysToSamples_map_of implements_rust hh hm ht fun _ _ _ => groupMaps_rust

theorem keysToProperties_map_rust (hh : OrderByName hash) (hm : keysToMove.FromBuilder) {t : TensorMap RustArray}
    (ht : TensorValid t) :
    (t.mapData RustArray.array).keysToProperties build hash keysToMove sort =
      ((t.keysToProperties build hash keysToMove sort).1.mapData RustArray.array,
        (t.keysToProperties build hash keysToMove sort).2) :=
  TensorMap.keysToProperties_map_of implements_rust hh hm ht fun _ _ _ => groupMaps_rust

end Equistore
