import Verif.Lemmas.Blocks
import Verif.Lemmas.Tensor

/-! Checking that concrete blocks and tensor maps are valid, by running the public
API that creates them. Only used for examples. -/

namespace Equistore
open Spec

variable {A : Type} [ArrayLike A] [DecidableEq A]

/-- Labels are what the builder gives for their names and rows. -/
def Labels.rebuilds (l : Labels) : Bool := Labels.build l.names l.rows == .ok l

/-- Add gradients one after the other. -/
def replayGradients (b : TensorBlock A) : List (String × BasicBlock A) → Res (TensorBlock A)
  | [] => .ok b
  | (name, g) :: rest => do
    let b ← addGradientExpect b name g.data g.samples g.components
    replayGradients b rest

/-- Whether creating the values and adding the gradients gives back the block. -/
def TensorBlock.rebuilds (b : TensorBlock A) : Bool :=
  (b.values.samples :: b.values.components ++ [b.values.properties]).all Labels.rebuilds &&
  b.gradients.all (fun g => (g.2.samples :: g.2.components).all Labels.rebuilds) &&
  ((TensorBlock.new b.values.data b.values.samples b.values.components b.values.properties >>= fun n =>
    replayGradients n b.gradients) == .ok b)

theorem Labels.rebuilds_fromBuilder {l : Labels} (h : l.rebuilds = true) : l.FromBuilder :=
  ⟨l.names, l.rows, by simpa [Labels.rebuilds] using h⟩

omit [DecidableEq A] in
theorem addGradientExpect_eq_ok {b b' : TensorBlock A} {parameter : String} {data : A} {samples : Labels}
    {components : List Labels} :
    addGradientExpect b parameter data samples components = .ok b' ↔
      (GradientAcceptable b parameter data samples components ∧ '\x00' ∉ parameter.toList ∧
        b' = { b with
          gradients := b.gradients ++ [(parameter, b.gradientBlock data samples components)]
          gradientParameters := b.gradientParameters ++ [parameter] }) := by
  unfold addGradientExpect
  rw [addGradient_eq, ← checkGradient_iff (u := ())]
  cases TensorBlock.checkGradient b parameter data samples components with
  | err e => simp
  | panic m => simp
  | ok u =>
    by_cases h : '\x00' ∈ parameter.toList
    · simp [h]
    · simp [h, eq_comm]

omit [DecidableEq A] in
theorem replayGradients_valid {b b' : TensorBlock A} {l : List (String × BasicBlock A)}
    (hb : BlockValid b) (hl : ∀ g ∈ l, ∀ x ∈ g.2.samples :: g.2.components, x.FromBuilder)
    (h : replayGradients b l = .ok b') : BlockValid b' := by
  induction l generalizing b with
  | nil => simp [replayGradients] at h; subst h; exact hb
  | cons g l ih =>
    obtain ⟨name, g⟩ := g
    simp only [replayGradients, Res.bind_eq_ok] at h
    obtain ⟨b₁, h1, h2⟩ := h
    obtain ⟨h3, _, rfl⟩ := addGradientExpect_eq_ok.1 h1
    exact ih (hb.addGradient (hl (name, g) List.mem_cons_self) h3)
      (fun g hg => hl g (List.mem_cons_of_mem _ hg)) h2

theorem TensorBlock.valid_of_rebuilds {b : TensorBlock A} (h : b.rebuilds = true) : BlockValid b := by
  simp only [TensorBlock.rebuilds, Bool.and_eq_true, beq_iff_eq, List.all_eq_true] at h
  obtain ⟨⟨h1, h2⟩, h3⟩ := h
  rw [Res.bind_eq_ok] at h3
  obtain ⟨n, h3, h4⟩ := h3
  exact replayGradients_valid
    (BlockValid.new (fun l hl => Labels.rebuilds_fromBuilder (h1 l hl)) h3)
    (fun g hg x hx => Labels.rebuilds_fromBuilder (h2 g hg x hx)) h4

/-- Whether creating the tensor map from its keys and blocks works. -/
def TensorMap.rebuilds (t : TensorMap A) : Bool :=
  t.keys.rebuilds && t.blocks.all TensorBlock.rebuilds &&
  (TensorMap.new .insertion t.keys t.blocks == .ok t)

theorem TensorMap.valid_of_rebuilds {t : TensorMap A} (h : t.rebuilds = true) : TensorValid t := by
  simp only [TensorMap.rebuilds, Bool.and_eq_true, beq_iff_eq, List.all_eq_true] at h
  obtain ⟨⟨h1, h2⟩, h3⟩ := h
  have hb : ∀ b ∈ t.blocks, BlockValid b := fun b hb => TensorBlock.valid_of_rebuilds (h2 b hb)
  obtain ⟨h4, h5, h6⟩ := (TensorMap.new_eq_ok fun b hm => (hb b hm).names).1 h3
  exact ⟨Labels.rebuilds_fromBuilder h1, h4, hb, h5⟩

end Equistore
