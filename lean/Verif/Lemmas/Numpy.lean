import Verif.Model.Numpy
import Verif.Lemmas.BackendArrays

/-! Numpy arrays do what the documentation of the callbacks asks for. -/

namespace Equistore
open Spec NdArray

namespace NumpyArray

theorem build_eq (shape : List Nat) (f : List Nat → Elt) : (build shape f).array = NdArray.build shape f := rfl

theorem lastIndex_some {i k : Nat} {samples : List SampleMapping} (h : lastIndex i samples = some k) :
    ∃ m, samples[k]? = some m ∧ m.output = i := by
  induction samples generalizing k with
  | nil => simp [lastIndex] at h
  | cons m samples ih =>
    rw [lastIndex] at h
    split at h
    · rename_i k' hk
      cases h
      obtain ⟨m', h1, h2⟩ := ih hk
      exact ⟨m', by simpa using h1, h2⟩
    · split at h
      · cases h
        exact ⟨m, rfl, by assumption⟩
      · cases h

theorem lastIndex_none {i : Nat} {samples : List SampleMapping} (h : lastIndex i samples = none) :
    ∀ m ∈ samples, m.output ≠ i := by
  induction samples with
  | nil => simp
  | cons m samples ih =>
    rw [lastIndex] at h
    split at h
    · cases h
    · rename_i hn
      split at h
      · cases h
      · intro m' hm'
        rcases List.mem_cons.1 hm' with rfl | hm'
        · assumption
        · exact ih hn m' hm'

theorem dropOnes_self (l : List Nat) : dropOnes l.length l = l := by
  unfold dropOnes
  split <;> simp

end NumpyArray

open NumpyArray in
theorem implements_numpy : Implements NumpyArray.array where
  origin := ⟨_, fun _ => rfl⟩
  elements a := a.complete
  shape a := rfl
  create a shape := ⟨_, rfl, by rw [build_eq]; rfl, fun idx hi => by rw [build_eq]; exact get_build hi _⟩
  reshape a shape hs := by
    refine ⟨⟨{ a.array with shape }, a.complete.trans hs⟩, ?_, rfl, rfl⟩
    change NumpyArray.reshape a shape = _
    unfold NumpyArray.reshape
    rw [dif_pos hs.symm]
  swapAxes a i j hs := by
    refine ⟨build (swapList a.array.shape i j) fun idx => a.array.get (swapList idx i j), ?_, rfl, ?_⟩
    · change NumpyArray.swapAxes a i j = _
      unfold NumpyArray.swapAxes
      rw [if_pos ⟨hs.1, hs.2⟩]
    · intro idx hi
      rw [build_eq, get_build hi]
  move output input samples start stop h := by
    obtain ⟨⟨nOut, nIn, between, p, h1, h2, h3, h4, h5⟩, hnd⟩ := h
    have hall : (samples.all fun m => decide (m.input < nIn) && decide (m.output < nOut)) = true := by
      simpa using h5
    have e1 : min start p = start := by omega
    have e2 : max start (min stop p) = stop := by omega
    have e3 : ∀ n : Nat, dropOnes (n :: (between ++ [stop - start])).length (n :: (between ++ [stop - start])) =
      n :: (between ++ [stop - start]) := fun n => dropOnes_self _
    have e : ∃ out, NumpyArray.moveSamplesFrom output input samples start stop = (out, .ok ()) ∧
        out.array = NdArray.build output.array.shape fun idx =>
            match lastIndex (idx.headD 0) samples with
            | some k =>
              if start ≤ idx.getLastD 0 ∧ idx.getLastD 0 < stop then
                input.array.get (((samples[(NdArray.broadcastIdx (samples.length :: (between ++ [stop - start]))
                  (k :: (idx.tail.dropLast ++ [idx.getLastD 0 - start]))).headD 0]?).map (·.input)).getD 0 ::
                  (NdArray.broadcastIdx (samples.length :: (between ++ [stop - start]))
                  (k :: (idx.tail.dropLast ++ [idx.getLastD 0 - start]))).tail)
              else output.array.get idx
            | none => output.array.get idx := by
      unfold NumpyArray.moveSamplesFrom
      rw [h1, h2]
      simp only [List.cons_append, List.getLast?_append, List.getLast?_singleton, Option.some_or,
        List.dropLast_concat, hall, if_true, e1, e2, e3, canBroadcast_self, Nat.sub_self, List.replicate_zero,
        List.nil_append]
      exact ⟨_, rfl, build_eq _ _⟩
    obtain ⟨out, e4, e5⟩ := e
    refine ⟨out, e4, by rw [e5]; rfl, ?_⟩
    intro i k j hidx
    obtain ⟨i', k', j', he, hi, hk, hj⟩ := validIdx_split (by rw [← h1]; exact hidx)
    obtain ⟨rfl, rfl, rfl⟩ : i = i' ∧ k = k' ∧ j = j' := by
      have h6 := List.append_inj' he rfl
      rw [List.cons.injEq] at h6
      exact ⟨h6.1.1, h6.1.2, by simpa using h6.2⟩
    have hlast : (i :: (k ++ [j])).getLastD 0 = j := by
      rw [← List.cons_append, List.getLastD_eq_getLast?, List.getLast?_concat]; rfl
    rw [e5, get_build hidx]
    simp only [List.cons_append, List.headD_cons, List.tail_cons, List.dropLast_concat, hlast]
    constructor
    · intro m hm hmo hj1 hj2
      cases hl : lastIndex i samples with
      | none => exact absurd hmo (lastIndex_none hl m hm)
      | some q =>
        obtain ⟨m', h6, h7⟩ := lastIndex_some hl
        have hmm : m' = m :=
          List.inj_on_of_nodup_map hnd (List.mem_of_getElem? h6) hm (h7.trans hmo.symm)
        subst hmm
        have hq : q < samples.length := (List.getElem?_eq_some_iff.1 h6).1
        simp only
        have hb : broadcastIdx (samples.length :: (between ++ [stop - start])) (q :: (k ++ [j - start])) =
            q :: (k ++ [j - start]) := broadcastIdx_self (validIdx_mk hq hk (by omega))
        rw [if_pos ⟨hj1, hj2⟩, hb]
        simp [h6]
    · intro hne
      cases hl : lastIndex i samples with
      | none => rfl
      | some q =>
        obtain ⟨m', h6, h7⟩ := lastIndex_some hl
        simp only
        rw [if_neg (hne m' (List.mem_of_getElem? h6) h7)]

end Equistore
