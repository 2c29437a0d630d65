import Verif.Lemmas.Blocks

/-!
# Properties of blocks (C05, C06, C07, C08)
-/

namespace Equistore
open Spec

variable {A : Type} [ArrayLike A]

/-! ### Concrete objects used in examples and counterexamples -/

namespace Example

/-- Samples `s = 0, 2`. -/
def samples : Labels := Labels.mk' ["s"] [[0], [2]]
/-- Properties `p = 0, 1, 5`. -/
def properties : Labels := Labels.mk' ["p"] [[0], [1], [5]]
/-- A component `c = -1, 1`. -/
def component : Labels := Labels.mk' ["c"] [[-1], [1]]
/-- Gradient samples which refer to existing samples. -/
def gradientSamples : Labels := Labels.mk' ["sample", "g"] [[0, 7], [1, 3]]
/-- Gradient samples which refer to a sample that does not exist. -/
def badGradientSamples : Labels := Labels.mk' ["sample"] [[5]]
/-- Gradient component `d = 0`. -/
def direction : Labels := Labels.mk' ["d"] [[0]]

/-- A 2 x 2 x 3 array with elements 0 ... 11. -/
def data : NdArray := ⟨[2, 2, 3], (List.range 12).map (BitVec.ofNat 64)⟩
/-- A 2 x 1 x 2 x 3 array with elements 0 ... 11. -/
def gradientData : NdArray := ⟨[2, 1, 2, 3], (List.range 12).map (BitVec.ofNat 64)⟩

/-- A block without gradients. -/
def block : TensorBlock NdArray := ⟨⟨data, samples, [component], properties⟩, [], []⟩

theorem block_new : TensorBlock.new data samples [component] properties = .ok block := by
  decide +kernel

end Example

/-! ### C05 -/

/-- **C05.** For any array backend and any labels, a block is created exactly when
the shape has one dimension per label set with the number of entries of these
labels, components have a single name, and component names are different. The
block holds what was given, without gradients. -/
theorem C05_block_created_iff (data : A) (shape : List Nat) (samples : Labels)
    (components : List Labels) (properties : Labels)
    (hshape : ArrayLike.shape data = .ok shape) :
    (∃ b, TensorBlock.new data samples components properties = .ok b) ↔
      (List.Forall₂ (fun n labels => Labels.count labels = .ok n) shape
        (samples :: components ++ [properties]) ∧
      (∀ c ∈ components, c.names.length = 1) ∧ (components.map (·.names)).Nodup) := by
  simp only [TensorBlock.new_eq_ok, ComponentsOk, hshape, Res.ok.injEq]
  constructor
  · rintro ⟨b, ⟨_, rfl, h1⟩, h2, rfl⟩; exact ⟨h1, h2⟩
  · rintro ⟨h1, h2⟩; exact ⟨_, ⟨shape, rfl, h1⟩, h2, rfl⟩

/-- **C05**, content of the new block. -/
theorem C05_block_content (data : A) (samples : Labels)
    (components : List Labels) (properties : Labels) (b : TensorBlock A)
    (h : TensorBlock.new data samples components properties = .ok b) :
    b.values = ⟨data, samples, components, properties⟩ ∧ (∀ p, b.gradient p = none) ∧
      b.gradientParameters = [] := by
  obtain ⟨_, _, rfl⟩ := TensorBlock.new_eq_ok.1 h
  exact ⟨rfl, fun _ => rfl, rfl⟩

/-- **C05**, failures: with labels that have at least one name, creation never
panics, and any failure is an `InvalidParameter` error. -/
theorem C05_block_failure (data : A) (shape : List Nat) (samples : Labels)
    (components : List Labels) (properties : Labels)
    (hshape : ArrayLike.shape data = .ok shape)
    (hl : ∀ l ∈ samples :: components ++ [properties], l.FromBuilder ∧ l.names ≠ [])
    (hfail : ∀ b, TensorBlock.new data samples components properties ≠ .ok b) :
    ∃ msg, TensorBlock.new data samples components properties = .err (.invalidParameter msg) := by
  have hwf : ∀ l ∈ samples :: components ++ [properties], l.WF :=
    fun l h => (hl l h).1.wf (hl l h).2
  unfold TensorBlock.new BasicBlock.new at hfail ⊢
  rcases checkDataAndLabels_err (context := "data and labels don't match") (components := components)
    hshape (hwf samples (by simp)) (fun c hc => hwf c (by simp [hc])) (hwf properties (by simp)) with ⟨u, h⟩ | ⟨msg, h⟩
  · rw [h, Res.ok_bind] at hfail ⊢
    rcases checkComponentLabels_err (i := 0) (cs := components) with ⟨u, h'⟩ | ⟨msg, h'⟩
    · rw [h'] at hfail
      exact absurd rfl (hfail _)
    · rw [h']; exact ⟨msg, rfl⟩
  · rw [h]; exact ⟨msg, rfl⟩

/-- **C05**, a failing `shape` callback is reported as it is. -/
theorem C05_block_shape_callback (data : A) (samples : Labels)
    (components : List Labels) (properties : Labels) (e : Error)
    (hshape : ArrayLike.shape data = .err e) :
    TensorBlock.new data samples components properties = .err e := by
  simp [TensorBlock.new, BasicBlock.new, checkDataAndLabels, hshape]

/-- Non-vacuity: an accepted block, and blocks rejected for a wrong size along
each kind of axis, a repeated component name and a component with two names. -/
example : TensorBlock.new Example.data Example.samples [Example.component] Example.properties
      = .ok Example.block ∧
    (∀ b, TensorBlock.new Example.data Example.properties [Example.component] Example.properties ≠ .ok b) ∧
    (∀ b, TensorBlock.new Example.data Example.samples [Example.properties] Example.properties ≠ .ok b) ∧
    (∀ b, TensorBlock.new Example.data Example.samples [Example.component] Example.samples ≠ .ok b) ∧
    (∀ b, TensorBlock.new (A := NdArray) ⟨[2, 2, 2, 3], []⟩ Example.samples
      [Example.component, Example.component] Example.properties ≠ .ok b) ∧
    (∀ b, TensorBlock.new (A := NdArray) ⟨[2, 2, 3], []⟩ Example.samples
      [Example.gradientSamples] Example.properties ≠ .ok b) := by
  refine ⟨Example.block_new, ?_, ?_, ?_, ?_, ?_⟩ <;> intro b h <;>
    (rw [TensorBlock.new_eq_ok] at h; obtain ⟨⟨sh, h1, h2⟩, ⟨h3, h4⟩, _⟩ := h)
  · injection h1 with h1; subst h1; exact absurd h2 (by simp [ShapeMatches, Example.data]; decide +kernel)
  · injection h1 with h1; subst h1; exact absurd h2 (by simp [ShapeMatches, Example.data]; decide +kernel)
  · injection h1 with h1; subst h1; exact absurd h2 (by simp [ShapeMatches, Example.data]; decide +kernel)
  · exact absurd h4 (by decide +kernel)
  · exact absurd h3 (by decide +kernel)

/-! ### C06 -/

/-- **C06.** `add_gradient` succeeds exactly when the parameter is new, is not
"values" and has no NUL character, the origin is that of the values, the samples
start with "sample", the components end with those of the values, and the shape
matches the labels together with the properties of the values. -/
theorem C06_add_gradient_iff (b : TensorBlock A) (parameter : String) (data : A) (samples : Labels)
    (components : List Labels) :
    (TensorBlock.addGradient parameter data samples components b).2 = .ok () ↔
      (GradientAcceptable b parameter data samples components ∧ '\x00' ∉ parameter.toList) := by
  rw [addGradient_eq, ← checkGradient_iff (u := ())]
  cases TensorBlock.checkGradient b parameter data samples components with
  | err e => simp
  | panic m => simp
  | ok u =>
    by_cases h : '\x00' ∈ parameter.toList
    · simp [h]
    · simp [h]

/-- **C06**, effect of a success: the gradient is added with the properties of
the values, everything else stays. -/
theorem C06_add_gradient_effect (b b' : TensorBlock A) (parameter : String) (data : A)
    (samples : Labels) (components : List Labels)
    (h : TensorBlock.addGradient parameter data samples components b = (b', .ok ())) :
    b'.values = b.values ∧
    b'.gradient parameter = some ⟨data, samples, components, b.values.properties⟩ ∧
    (∀ p, p ≠ parameter → b'.gradient p = b.gradient p) ∧
    b'.gradientParameters = b.gradientParameters ++ [parameter] := by
  rw [addGradient_eq] at h
  cases hc : TensorBlock.checkGradient b parameter data samples components with
  | err e => rw [hc] at h; simp at h
  | panic m => rw [hc] at h; simp at h
  | ok u =>
    rw [hc] at h
    have hacc := checkGradient_iff.1 hc
    have hfresh : b.gradients.lookup parameter = none := hacc.fresh
    simp only at h
    split at h
    · simp at h
    · simp only [Prod.mk.injEq, and_true] at h
      subst h
      refine ⟨rfl, ?_, ?_, rfl⟩
      · simp [TensorBlock.gradient, List.lookup_append, hfresh, TensorBlock.gradientBlock]
      · intro p hp
        have : (p == parameter) = false := by simpa using hp
        simp [TensorBlock.gradient, List.lookup_append, List.lookup_cons, this]

/-- **C06**, failure: when an error is returned the block is unchanged. -/
theorem C06_add_gradient_failure (b : TensorBlock A) (parameter : String) (data : A)
    (samples : Labels) (components : List Labels) (e : Error)
    (h : (TensorBlock.addGradient parameter data samples components b).2 = .err e) :
    (TensorBlock.addGradient parameter data samples components b).1 = b := by
  rw [addGradient_eq] at h ⊢
  cases hc : TensorBlock.checkGradient b parameter data samples components with
  | err e => rfl
  | panic m => rfl
  | ok u =>
    rw [hc] at h
    simp only at h
    split at h <;> simp at h

/-- Non-vacuity of C06: an accepted gradient, and a rejected one. -/
example : (TensorBlock.addGradient "g" Example.gradientData Example.gradientSamples
      [Example.direction, Example.component] Example.block).2 = .ok () ∧
    (TensorBlock.addGradient "g" Example.gradientData Example.gradientSamples
      [Example.component, Example.direction] Example.block).2
      = .err (.invalidParameter "gradients and values components mismatch for values component 0 (the corresponding names are [c])") := by
  decide +kernel

/-- **C06**, limit of the claim: a name with a NUL character passes all the
checks, the call panics, and the block is left with a gradient which is not in
the list of gradients. (From C, names can not contain NUL.) -/
theorem C06_nul_in_parameter_corrupts_block :
    ∃ (b b' : TensorBlock NdArray) (m : String),
      BlockValid b ∧
      TensorBlock.addGradient "\x00" Example.gradientData Example.gradientSamples
        [Example.direction, Example.component] b = (b', .panic m) ∧
      (b'.gradient "\x00").isSome ∧ b'.gradientParameters = [] := by
  have hwf : ∀ l ∈ [Example.samples, Example.component, Example.properties], l.FromBuilder := by
    intro l hl
    simp only [List.mem_cons, List.not_mem_nil, or_false] at hl
    rcases hl with rfl | rfl | rfl
    · exact ⟨["s"], [[0], [2]], by decide +kernel⟩
    · exact ⟨["c"], [[-1], [1]], by decide +kernel⟩
    · exact ⟨["p"], [[0], [1], [5]], by decide +kernel⟩
  refine ⟨Example.block,
    (TensorBlock.addGradient "\x00" Example.gradientData Example.gradientSamples
      [Example.direction, Example.component] Example.block).1,
    "invalid C string", BlockValid.new (by simpa using hwf) Example.block_new,
    Prod.ext rfl (by decide +kernel), by decide +kernel, by decide +kernel⟩

/-! ### C07 -/

/-- The arguments of one call to `add_gradient`. -/
structure AddGradientCall (A : Type) where
  parameter : String
  data : A
  samples : Labels
  components : List Labels

/-- The block after a call, whatever its outcome. -/
def AddGradientCall.run (b : TensorBlock A) (c : AddGradientCall A) : TensorBlock A :=
  (TensorBlock.addGradient c.parameter c.data c.samples c.components b).1

/-- Whether a call succeeds. -/
def AddGradientCall.succeeds (b : TensorBlock A) (c : AddGradientCall A) : Prop :=
  (TensorBlock.addGradient c.parameter c.data c.samples c.components b).2 = .ok ()

/-- `Adds b calls names b'`: running `calls` from `b` gives `b'`, and `names` are
the parameters of the successful calls, in order. -/
inductive Adds : TensorBlock A → List (AddGradientCall A) → List String → TensorBlock A → Prop
  | nil (b) : Adds b [] [] b
  | success {b c calls names b'} : c.succeeds b → Adds (c.run b) calls names b' →
      Adds b (c :: calls) (c.parameter :: names) b'
  | failure {b c calls names b'} : ¬ c.succeeds b → Adds (c.run b) calls names b' →
      Adds b (c :: calls) names b'

theorem adds_valid {b b' : TensorBlock A} {calls : List (AddGradientCall A)} {names : List String}
    (hb : BlockValid b)
    (hl : ∀ c ∈ calls, '\x00' ∉ c.parameter.toList ∧ ∀ l ∈ c.samples :: c.components, l.FromBuilder)
    (h : Adds b calls names b') :
    BlockValid b' ∧ b'.gradientParameters = b.gradientParameters ++ names ∧ b'.values = b.values := by
  induction h with
  | nil b => exact ⟨hb, by simp, rfl⟩
  | @success b c calls names b' hs _ ih =>
    have hacc := (C06_add_gradient_iff b c.parameter c.data c.samples c.components).1 hs
    have hrun : c.run b = { b with
        gradients := b.gradients ++ [(c.parameter, b.gradientBlock c.data c.samples c.components)]
        gradientParameters := b.gradientParameters ++ [c.parameter] } := by
      unfold AddGradientCall.run
      rw [addGradient_eq, (checkGradient_iff (u := ())).2 hacc.1]
      simp [hacc.2]
    have hv : BlockValid (c.run b) := by
      rw [hrun]; exact hb.addGradient (hl c List.mem_cons_self).2 hacc.1
    obtain ⟨h1, h2, h3⟩ := ih hv (fun c hc => hl c (List.mem_cons_of_mem _ hc))
    refine ⟨h1, ?_, ?_⟩
    · rw [h2, hrun]; simp
    · rw [h3, hrun]
  | @failure b c calls names b' hs _ ih =>
    have hrun : c.run b = b := by
      have hnul := (hl c List.mem_cons_self).1
      unfold AddGradientCall.run AddGradientCall.succeeds at *
      rw [addGradient_eq] at hs ⊢
      cases hc : TensorBlock.checkGradient b c.parameter c.data c.samples c.components with
      | err e => rfl
      | panic m => rfl
      | ok u => rw [hc] at hs; simp [hnul] at hs
    rw [hrun] at ih
    exact ih hb (fun c hc => hl c (List.mem_cons_of_mem _ hc))

/-- **C07.** After creating a block and any sequence of `add_gradient` calls
(some may fail), the block is consistent: shapes match labels, gradients share
the properties and the trailing components of the values, and the list of
gradients is exactly the parameters of the successful calls, in order, each
once. -/
theorem C07_block_history (data : A) (samples : Labels) (components : List Labels)
    (properties : Labels) (b b' : TensorBlock A) (calls : List (AddGradientCall A))
    (names : List String)
    (hnew : TensorBlock.new data samples components properties = .ok b)
    (hlabels : ∀ l ∈ samples :: components ++ [properties], l.FromBuilder)
    (hcalls : ∀ c ∈ calls, '\x00' ∉ c.parameter.toList ∧
      ∀ l ∈ c.samples :: c.components, l.FromBuilder)
    (hrun : Adds b calls names b') :
    BlockValid b' ∧ b'.gradientParameters = names ∧ names.Nodup ∧
      (∀ p, (b'.gradient p).isSome ↔ p ∈ names) ∧
      b'.values = ⟨data, samples, components, properties⟩ := by
  have hb := BlockValid.new hlabels hnew
  obtain ⟨_, _, rfl⟩ := TensorBlock.new_eq_ok.1 hnew
  obtain ⟨h1, h2, h3⟩ := adds_valid hb hcalls hrun
  simp only [List.nil_append] at h2
  have h4 : b'.gradients.map Prod.fst = names := by rw [← h2, h1.list]
  refine ⟨h1, h2, by rw [← h4]; exact h1.names, ?_, h3⟩
  intro p
  rw [← h4, TensorBlock.gradient, Option.isSome_iff_ne_none, ne_eq, lookup_eq_none_iff_not_mem,
    not_not]

/-- Every list of calls can be run: `Adds` is total. -/
theorem adds_total (b : TensorBlock A) (calls : List (AddGradientCall A)) :
    ∃ names b', Adds b calls names b' := by
  induction calls generalizing b with
  | nil => exact ⟨[], b, .nil b⟩
  | cons c calls ih =>
    obtain ⟨names, b', h⟩ := ih (c.run b)
    by_cases hs : c.succeeds b
    · exact ⟨_, _, .success hs h⟩
    · exact ⟨_, _, .failure hs h⟩

/-- Non-vacuity of C07: a failing call between two successful ones. -/
example : ∃ b', Adds Example.block
    [⟨"g", Example.gradientData, Example.gradientSamples, [Example.direction, Example.component]⟩,
     ⟨"g", Example.gradientData, Example.gradientSamples, [Example.direction, Example.component]⟩,
     ⟨"f", Example.gradientData, Example.gradientSamples, [Example.direction, Example.component]⟩]
    ["g", "f"] b' ∧ b'.gradients.length = 2 := by
  refine ⟨_, .success (by unfold AddGradientCall.succeeds; decide +kernel)
    (.failure (by unfold AddGradientCall.succeeds; decide +kernel)
      (.success (by unfold AddGradientCall.succeeds; decide +kernel) (.nil _))), by decide +kernel⟩

/-! ### C08 -/

/-- The samples of a gradient refer to existing samples of the values: the first
value of each gradient sample is the index of a sample. -/
def Spec.GradientSamplesInRange (values gradient : BasicBlock A) : Prop :=
  ∀ i row, gradient.samples.index i = .ok row →
    ∃ (k : Nat) (s : List LabelValue), row.head? = some (Int32.ofNat k) ∧
      values.samples.index k = .ok s

/-- **C08** is false of the code: `add_gradient` accepts gradient samples which
refer to samples that do not exist. -/
theorem C08_gradient_samples_not_checked :
    ∃ (b b' : TensorBlock NdArray) (g : BasicBlock NdArray), BlockValid b ∧
      TensorBlock.addGradient "g" (⟨[1, 2, 3], List.replicate 6 0⟩ : NdArray)
        Example.badGradientSamples [Example.component] b = (b', .ok ()) ∧
      b'.gradient "g" = some g ∧ ¬ GradientSamplesInRange b'.values g := by
  have hwf : ∀ l ∈ [Example.samples, Example.component, Example.properties], l.FromBuilder := by
    intro l hl
    simp only [List.mem_cons, List.not_mem_nil, or_false] at hl
    rcases hl with rfl | rfl | rfl
    · exact ⟨["s"], [[0], [2]], by decide +kernel⟩
    · exact ⟨["c"], [[-1], [1]], by decide +kernel⟩
    · exact ⟨["p"], [[0], [1], [5]], by decide +kernel⟩
  refine ⟨Example.block,
    (TensorBlock.addGradient "g" (⟨[1, 2, 3], List.replicate 6 0⟩ : NdArray)
        Example.badGradientSamples [Example.component] Example.block).1,
    ⟨⟨[1, 2, 3], List.replicate 6 0⟩, Example.badGradientSamples, [Example.component],
      Example.properties⟩, BlockValid.new (by simpa using hwf) Example.block_new,
    Prod.ext rfl (by decide +kernel), by decide +kernel, ?_⟩
  intro h
  obtain ⟨k, s, h1, h2⟩ := h 0 [5] (by decide +kernel)
  have hh : Example.block.values.samples.Holds ["s"] [[0], [2]] :=
    (Labels.build_eq_ok (by decide)).1 (by decide +kernel)
  have hk : k < 2 := by
    by_contra hk
    have := hh.index_panic (i := k) (by simpa using hk)
    have h2' : Example.block.values.samples.index k = .ok s := h2
    rw [this] at h2'
    simp at h2'
  match k, hk with
  | 0, _ => exact absurd h1 (by decide)
  | 1, _ => exact absurd h1 (by decide)

/-- **C08**, the part that holds: `add_gradient` keeps the samples it was given
and never changes those of the values, so if every call of a history gives
samples in range, all gradients have samples in range afterwards. Missing: the
code does not check it. -/
theorem C08_gradient_samples_partial (data : A) (samples : Labels) (components : List Labels)
    (properties : Labels) (b b' : TensorBlock A) (calls : List (AddGradientCall A))
    (names : List String)
    (hnew : TensorBlock.new data samples components properties = .ok b)
    (hcalls : ∀ c ∈ calls, ∀ i row, c.samples.index i = .ok row →
      ∃ (k : Nat) (s : List LabelValue), row.head? = some (Int32.ofNat k) ∧ samples.index k = .ok s)
    (hrun : Adds b calls names b') :
    b'.values.samples = samples ∧
    ∀ name g, (name, g) ∈ b'.gradients → GradientSamplesInRange b'.values g := by
  obtain ⟨_, _, rfl⟩ := TensorBlock.new_eq_ok.1 hnew
  have key : ∀ (b b' : TensorBlock A) (calls : List (AddGradientCall A)) (names : List String),
      (∀ c ∈ calls, ∀ i row, c.samples.index i = .ok row →
        ∃ (k : Nat) (s : List LabelValue), row.head? = some (Int32.ofNat k) ∧ samples.index k = .ok s) →
      Adds b calls names b' → b.values.samples = samples →
      (∀ name g, (name, g) ∈ b.gradients → GradientSamplesInRange b.values g) →
      b'.values.samples = samples ∧
      ∀ name g, (name, g) ∈ b'.gradients → GradientSamplesInRange b'.values g := by
    intro b b' calls names hc h
    have hrun : ∀ (b : TensorBlock A) (c : AddGradientCall A),
        (∀ i row, c.samples.index i = .ok row →
          ∃ (k : Nat) (s : List LabelValue), row.head? = some (Int32.ofNat k) ∧ samples.index k = .ok s) →
        b.values.samples = samples →
        (∀ name g, (name, g) ∈ b.gradients → GradientSamplesInRange b.values g) →
        (c.run b).values.samples = samples ∧
        (∀ name g, (name, g) ∈ (c.run b).gradients → GradientSamplesInRange (c.run b).values g) := by
      intro b c hcs hb hg
      have hnew : ∀ name g, (name, g) ∈ b.gradients ++
          [(c.parameter, b.gradientBlock c.data c.samples c.components)] →
          GradientSamplesInRange b.values g := by
        intro name g hm
        simp only [List.mem_append, List.mem_singleton, Prod.mk.injEq] at hm
        rcases hm with hm | ⟨_, rfl⟩
        · exact hg name g hm
        · intro i row hi; rw [hb]; exact hcs i row hi
      unfold AddGradientCall.run
      rw [addGradient_eq]
      split
      · split
        · exact ⟨hb, hnew⟩
        · exact ⟨hb, hnew⟩
      · exact ⟨hb, hg⟩
      · exact ⟨hb, hg⟩
    induction h with
    | nil b => intro hb hg; exact ⟨hb, hg⟩
    | @success b c calls names b' _ _ ih =>
      intro hb hg
      obtain ⟨h1, h2⟩ := hrun b c (hc c List.mem_cons_self) hb hg
      exact ih (fun c h => hc c (List.mem_cons_of_mem _ h)) h1 h2
    | @failure b c calls names b' _ _ ih =>
      intro hb hg
      obtain ⟨h1, h2⟩ := hrun b c (hc c List.mem_cons_self) hb hg
      exact ih (fun c h => hc c (List.mem_cons_of_mem _ h)) h1 h2
  exact key _ b' calls names hcalls hrun rfl (by simp)

/-- Non-vacuity of `C08_gradient_samples_partial`: gradient samples in range. -/
example : ∀ i row, Example.gradientSamples.index i = .ok row →
    ∃ (k : Nat) (s : List LabelValue), row.head? = some (Int32.ofNat k) ∧
      Example.samples.index k = .ok s := by
  have hh : Example.gradientSamples.Holds ["sample", "g"] [[0, 7], [1, 3]] :=
    (Labels.build_eq_ok (by decide)).1 (by decide +kernel)
  intro i row hi
  by_cases h : i < 2
  · match i, h with
    | 0, _ => exact ⟨0, [0], by rw [hh.index_eq (by decide)] at hi; injection hi with hi; subst hi; rfl, by decide +kernel⟩
    | 1, _ => exact ⟨1, [2], by rw [hh.index_eq (by decide)] at hi; injection hi with hi; subst hi; rfl, by decide +kernel⟩
  · rw [hh.index_panic (by simpa using h)] at hi; simp at hi

end Equistore
