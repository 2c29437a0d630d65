import Verif.Model.Archive
import Verif.Lemmas.AllData
import Verif.Lemmas.BackendTensor

/-! What `save` reads. -/

namespace Equistore
open Spec

variable {A B : Type} [ArrayLike A] [ArrayLike B]

/-- The data of an array can be read. -/
def CanRead (a : A) : Prop := ∃ data, ArrayLike.data a = .ok data

theorem writeData_canRead {build : Build} {py : PyLiteral} {native : Endian} {a : A} {bytes : Bytes}
    (h : writeData build py native a = .ok bytes) : CanRead a := by
  unfold writeData at h
  simp only [Res.bind_eq_ok] at h
  obtain ⟨_, _, _, _, _, _, data, h1, _⟩ := h
  exact ⟨data, h1⟩

theorem saveGradients_canRead {build : Build} {py : PyLiteral} {native : Endian} {i : Nat}
    {gs : List (String × BasicBlock A)} {archive : Archive} (h : saveGradients build py native i gs = .ok archive) :
    ∀ g ∈ gs, CanRead g.2.data := by
  induction gs generalizing archive with
  | nil => simp
  | cons g gs ih =>
    obtain ⟨p, g⟩ := g
    simp only [saveGradients, Res.bind_eq_ok] at h
    obtain ⟨_, h1, _, _, _, _, _, h2, _⟩ := h
    intro x hx
    rcases List.mem_cons.1 hx with rfl | hx
    · exact writeData_canRead h1
    · exact ih h2 x hx

theorem saveBlocks_canRead {build : Build} {py : PyLiteral} {native : Endian} {hash : HashOrder}
    {bs : List (TensorBlock A)} {i : Nat} {archive : Archive} (h : saveBlocks build py native hash bs i = .ok archive) :
    ∀ b ∈ bs, b.AllData CanRead := by
  induction bs generalizing i archive with
  | nil => simp
  | cons b bs ih =>
    simp only [saveBlocks, Res.bind_eq_ok] at h
    obtain ⟨_, h1, _, _, _, _, _, _, _, h2, _, h3, _⟩ := h
    intro x hx
    rcases List.mem_cons.1 hx with rfl | hx
    · exact ⟨writeData_canRead h1, fun p hp => saveGradients_canRead h2 p ((hash.perm _).mem_iff.2 hp)⟩
    · exact ih h3 x hx

/-- `save` only succeeds if it can read all arrays. -/
theorem save_canRead {build : Build} {py : PyLiteral} {native : Endian} {hash : HashOrder} {t : TensorMap A}
    {archive : Archive} (h : save build py native hash t = .ok archive) : t.AllData CanRead := by
  simp only [save, Res.bind_eq_ok] at h
  obtain ⟨_, _, _, h1, _⟩ := h
  exact saveBlocks_canRead h1

/-! `save` does the same when the data read from all arrays is the same. -/

section
variable {f : A → B}

theorem writeData_same {build : Build} {py : PyLiteral} {native : Endian} {a : A}
    (hs : ArrayLike.shape (f a) = ArrayLike.shape a) (hd : ArrayLike.data (f a) = ArrayLike.data a) :
    writeData build py native (f a) = writeData build py native a := by
  unfold writeData
  rw [hs, hd]

theorem saveGradients_same (hs : ∀ a, ArrayLike.shape (f a) = ArrayLike.shape a) {build : Build} {py : PyLiteral}
    {native : Endian} {i : Nat} {gs : List (String × BasicBlock A)}
    (hd : ∀ g ∈ gs, ArrayLike.data (f g.2.data) = ArrayLike.data g.2.data) :
    saveGradients build py native i (gs.map fun g => (g.1, g.2.mapData f)) = saveGradients build py native i gs := by
  induction gs with
  | nil => rfl
  | cons g gs ih =>
    have h1 := writeData_same (build := build) (py := py) (native := native) (hs g.2.data) (hd g List.mem_cons_self)
    obtain ⟨p, g⟩ := g
    rw [List.map_cons, saveGradients, saveGradients, ih fun g hg => hd g (List.mem_cons_of_mem _ hg)]
    change (writeData build py native (f g.data) >>= _) = _
    rw [h1]
    rfl

theorem saveBlocks_same (hs : ∀ a, ArrayLike.shape (f a) = ArrayLike.shape a) {build : Build} {py : PyLiteral}
    {native : Endian} {hash : HashOrder} (hh : OrderByName hash) {bs : List (TensorBlock A)} {i : Nat}
    (hd : ∀ b ∈ bs, b.AllData fun a => ArrayLike.data (f a) = ArrayLike.data a) :
    saveBlocks build py native hash (bs.map (TensorBlock.mapData f)) i = saveBlocks build py native hash bs i := by
  induction bs generalizing i with
  | nil => rfl
  | cons b bs ih =>
    have h0 := hd b List.mem_cons_self
    have h1 := writeData_same (build := build) (py := py) (native := native) (hs b.values.data) h0.1
    rw [List.map_cons, saveBlocks, saveBlocks, ih fun b hb => hd b (List.mem_cons_of_mem _ hb),
      TensorBlock.mapData_gradients, hh,
      saveGradients_same hs fun g hg => h0.2 g ((hash.perm _).mem_iff.1 hg)]
    change (writeData build py native (f b.values.data) >>= _) = _
    rw [h1]
    rfl

theorem save_same (hs : ∀ a, ArrayLike.shape (f a) = ArrayLike.shape a) {build : Build} {py : PyLiteral}
    {native : Endian} {hash : HashOrder} (hh : OrderByName hash) {t : TensorMap A}
    (hd : t.AllData fun a => ArrayLike.data (f a) = ArrayLike.data a) :
    save build py native hash (t.mapData f) = save build py native hash t := by
  unfold save
  rw [TensorMap.mapData_blocks, saveBlocks_same hs hh hd]
  rfl

end
end Equistore
