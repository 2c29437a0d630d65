import Verif.Lemmas.Damaged
import Verif.Lemmas.Streams
import Verif.Props.Loaded

/-! # Files with a damaged entry -/

namespace Equistore
open Spec

/-! ### C111 -/

/-- **C111**, full statement: when one entry of a file which can be loaded goes missing or can not be read any more, loading
fails in the way in which reading this entry fails. -/
def C111_full_statement : Prop :=
  ∀ (build : Build) (py : PyLiteral) (hash hash' hash1 hash1' : HashOrder) (archive archive' : Archive)
    (t : TensorMap NdArray) (part : Part) (s : Stored) (f : Failed), load build py hash hash' archive = .ok t →
    Part.stored t part = some s → SameExcept part.name archive archive' → Damaged build py archive' part.name s f →
    load build py hash1 hash1' archive' = f.outcome

variable {build : Build} {py : PyLiteral} {hash hash' : HashOrder} {archive archive' : Archive} {t : TensorMap NdArray}
  {part : Part} {s : Stored}

theorem says_hasEntry {name : String} (h : Says build py archive name s) : HasEntry archive name := by
  cases s <;> (obtain ⟨bytes, h, -⟩ := h; exact hasEntry_iff.2 ⟨bytes, h⟩)

theorem Spec.SameExcept.hasEntry {name other : String} (h : SameExcept name archive archive') (hne : other ≠ name) :
    HasEntry archive' other ↔ HasEntry archive other := by
  rw [hasEntry_iff, hasEntry_iff, h other hne]

theorem Spec.SameExcept.named {name : String} (h : SameExcept name archive archive') (hn : HasEntry archive name)
    (hs : ¬ HasEntry archive "blocks/0/gradients/data.npy") : ¬ HasEntry archive' "blocks/0/gradients/data.npy" := by
  rw [h.hasEntry (fun he => hs (by rw [he]; exact hn))]
  exact hs

/-- **C111**, partial: all entries except those from which `load` learns which gradients exist. What is missing: if the
data of a gradient of the first block goes missing, see `C111_forgotten`. -/
theorem C111_one_entry_partial (build : Build) (py : PyLiteral) (hash hash' hash1 hash1' : HashOrder)
    (archive archive' : Archive) (t : TensorMap NdArray) (part : Part) (s : Stored) (f : Failed)
    (h : load build py hash hash' archive = .ok t) (hp : Part.stored t part = some s)
    (he : SameExcept part.name archive archive') (hd : Damaged build py archive' part.name s f)
    (hg : ∀ parameter, part = .gradient 0 parameter .data → HasEntry archive' part.name) :
    load build py hash1 hash1' archive' = f.outcome := by
  obtain ⟨hv, hs⟩ := C110_entries build py hash hash' archive t h
  have hentry := says_hasEntry (hs.parts part s hp)
  have hn := he.named hentry hs.named
  obtain ⟨ps, hps⟩ := gradientParameters_isOk (build := build) (names := archive'.fileNames hash1) (mt fileNames_mem.1 hn)
  obtain ⟨t1, h1, h2⟩ := loadRest_of_says (hash' := hash1') hv hs.noNul hs.parts
    ((gradientParameters_mem hps).2 (fileNames_nodup hash1)) fun b hb q => by
      rw [(gradientParameters_mem hps).1 q, fileNames_mem, hs.gradients b hb q]
      by_cases hq : (Part.gradient 0 q .data).name = part.name
      · have := hg q (Part.name_injective hq).symm
        rw [hq]
        exact ⟨fun _ => this, fun _ => hentry⟩
      · exact (he.hasEntry hq).symm
  have hdam : OneDamaged build py archive archive' part f := by
    have := stored_isData hp
    cases s with
    | labels l => exact ⟨he, fun _ => hd, fun hx => by rw [hx] at this; cases this⟩
    | data a => exact ⟨he, fun hx => (by rw [hx] at this; cases this), fun _ => hd⟩
  have hor := hdam.loadRest hash1' ps
  rw [h1] at hor
  rw [load_eq_loadRest hps]
  rcases hor with hor | hor
  · rw [← load_eq_loadRest hps] at hor
    have := (C110_entries _ _ _ _ _ _ hor).2.parts part s
      (by rw [sameContent_stored (sameContent_same h2)]; exact hp)
    exact absurd this (damaged_not_says hd)
  · exact hor

/-- The tensor map without this gradient. -/
def forget (parameter : String) (t : TensorMap NdArray) : TensorMap NdArray :=
  { t with blocks := t.blocks.map fun b => { b with
      gradients := b.gradients.filter fun x => x.1 ≠ parameter
      gradientParameters := b.gradientParameters.filter (· ≠ parameter) } }

theorem lookup_forget {α : Type} (parameter p : String) (l : List (String × α)) :
    (l.filter fun x => x.1 ≠ parameter).lookup p = if p = parameter then none else l.lookup p := by
  induction l with
  | nil => simp
  | cons x l ih =>
    obtain ⟨k, v⟩ := x
    by_cases hk : k = parameter
    · rw [List.filter_cons_of_neg (by simp [hk]), ih]
      split
      · rfl
      · next hp => rw [List.lookup_cons, beq_false_of_ne (by rw [hk]; exact hp)]
    · rw [List.filter_cons_of_pos (by simp [hk]), List.lookup_cons, List.lookup_cons, ih]
      by_cases hp : p = k
      · subst hp
        simp [hk]
      · rw [beq_false_of_ne hp]

theorem forget_gradient (parameter p : String) (b : TensorBlock NdArray) :
    TensorBlock.gradient { b with
      gradients := b.gradients.filter fun x => x.1 ≠ parameter
      gradientParameters := b.gradientParameters.filter (· ≠ parameter) } p =
    if p = parameter then none else b.gradient p := lookup_forget parameter p b.gradients

theorem forget_without (parameter : String) (t : TensorMap NdArray) : WithoutGradient parameter t (forget parameter t) := by
  refine ⟨rfl, ?_⟩
  unfold forget
  simp only
  generalize t.blocks = l
  induction l with
  | nil => exact .nil
  | cons b l ih => exact .cons ⟨rfl, fun p => forget_gradient parameter p b⟩ ih

theorem forget_valid {t : TensorMap NdArray} (hv : TensorValid t) (parameter : String) : TensorValid (forget parameter t) := by
  have hsub : ∀ l : List (String × BasicBlock NdArray), (l.filter fun x => x.1 ≠ parameter).map Prod.fst =
      (l.map Prod.fst).filter (· ≠ parameter) := by
    intro l
    rw [List.filter_map]
    rfl
  refine ⟨hv.keys, by show t.keys.count = _; rw [hv.count]; simp [forget], fun b hb => ?_, fun a ha b hb => ?_⟩
  · obtain ⟨b, hb', rfl⟩ := List.mem_map.1 hb
    have h := hv.blocks b hb'
    refine ⟨h.values, fun name g hg => h.gradients name g (List.mem_filter.1 hg).1, ?_, ?_, ?_⟩
    · simp only
      rw [hsub]
      exact h.names.filter _
    · simp only
      rw [hsub]
      exact fun hx => h.reserved (List.mem_filter.1 hx).1
    · simp only
      rw [hsub, h.list]
  · obtain ⟨a, ha', rfl⟩ := List.mem_map.1 ha
    obtain ⟨b, hb', rfl⟩ := List.mem_map.1 hb
    have h := hv.consistent a ha' b hb'
    refine ⟨h.values, h.properties, fun p => ?_, fun p g g' hg hg' => ?_⟩
    · rw [forget_gradient, forget_gradient]
      split
      · rfl
      · exact h.parameters p
    · rw [forget_gradient] at hg hg'
      split at hg
      · cases hg
      · next hp =>
        rw [if_neg hp] at hg'
        exact h.gradients p g g' hg hg'

theorem forget_stored {t : TensorMap NdArray} {parameter : String} {part : Part} {s : Stored}
    (h : Part.stored (forget parameter t) part = some s) : Part.stored t part = some s ∧ part ≠ .gradient 0 parameter .data := by
  have hget : ∀ i : Nat, (forget parameter t).blocks[i]? = t.blocks[i]?.map fun b => { b with
      gradients := b.gradients.filter fun x => x.1 ≠ parameter
      gradientParameters := b.gradientParameters.filter (· ≠ parameter) } := fun i => List.getElem?_map
  cases part with
  | keys => exact ⟨h, by simp⟩
  | values i w =>
    refine ⟨?_, by simp⟩
    simp only [Part.stored, hget, Option.bind_eq_some_iff, Option.map_eq_some_iff] at h ⊢
    obtain ⟨b, ⟨b', hb, rfl⟩, hw⟩ := h
    exact ⟨b', hb, hw⟩
  | gradient i p w =>
    simp only [Part.stored, hget] at h ⊢
    split at h
    · cases h
    · next hne =>
      rw [if_neg hne]
      simp only [Option.bind_eq_some_iff, Option.map_eq_some_iff] at h ⊢
      obtain ⟨g, ⟨b, ⟨b', hb, rfl⟩, hg⟩, hw⟩ := h
      rw [forget_gradient] at hg
      split at hg
      · cases hg
      · next hp => exact ⟨⟨g, ⟨b', hb, hg⟩, hw⟩, fun he => hp (by cases he; rfl)⟩

/-- **C111**, the remaining case: without the entry for the data of a gradient of the first block, the tensor map is loaded
without this gradient, and no error is reported. -/
theorem C111_forgotten (build : Build) (py : PyLiteral) (hash hash' hash1 hash1' : HashOrder)
    (archive archive' : Archive) (t : TensorMap NdArray) (parameter : String)
    (h : load build py hash hash' archive = .ok t) (hp : HasEntry archive (Part.gradient 0 parameter .data).name)
    (he : SameExcept (Part.gradient 0 parameter .data).name archive archive')
    (hg : ¬ HasEntry archive' (Part.gradient 0 parameter .data).name) :
    ∃ t', load build py hash1 hash1' archive' = .ok t' ∧ WithoutGradient parameter t t' := by
  obtain ⟨hv, hs⟩ := C110_entries build py hash hash' archive t h
  obtain ⟨t', h1, h2⟩ := C110_loads build py hash1 hash1' archive' (forget parameter t) (forget_valid hv parameter) (by
    refine ⟨fun part s hs' => ?_, fun b hb q => ?_, fun b hb p g hpg => ?_, he.named hp hs.named⟩
    · obtain ⟨h3, h4⟩ := forget_stored hs'
      have h5 := hs.parts part s h3
      have h6 := he part.name (fun hx => h4 (Part.name_injective hx))
      cases s with
      | labels l => unfold Says at h5 ⊢; rw [h6]; exact h5
      | data a => unfold Says at h5 ⊢; rw [h6]; exact h5
    · obtain ⟨b, hb', rfl⟩ := List.mem_map.1 hb
      rw [forget_gradient]
      by_cases hq : q = parameter
      · subst hq
        simp [hg]
      · rw [if_neg hq, he.hasEntry (fun hx => hq (by have := Part.name_injective hx; cases this; rfl))]
        exact hs.gradients b hb' q
    · obtain ⟨b, hb', rfl⟩ := List.mem_map.1 hb
      rw [forget_gradient] at hpg
      split at hpg
      · cases hpg
      · exact hs.noNul b hb' p g hpg)
  refine ⟨t', h1, h2.keys.symm, ?_⟩
  have h3 := (forget_without parameter t).blocks
  have h4 := h2.blocks
  generalize (forget parameter t).blocks = l at h3 h4
  generalize t.blocks = l0 at h3 ⊢
  generalize t'.blocks = l' at h4 ⊢
  induction h3 generalizing l' with
  | nil => cases h4; exact .nil
  | cons hab _ ih =>
    cases h4 with
    | cons hbc h4 =>
      exact .cons ⟨hbc.values.symm.trans hab.1, fun p => (hbc.gradients p).symm.trans (hab.2 p)⟩ (ih _ h4)

/-- **C111**, cut entries: an entry of which only the beginning is left is reported as an I/O error, for all entries and
wherever it was cut. -/
theorem C111_cut (build : Build) (py : PyLiteral) (hash hash' hash1 hash1' : HashOrder)
    (archive archive' : Archive) (t : TensorMap NdArray) (part : Part) (s : Stored)
    (h : load build py hash hash' archive = .ok t) (hp : Part.stored t part = some s)
    (he : SameExcept part.name archive archive') (bytes left : Bytes) (hb : archive.byName part.name = .ok bytes)
    (hl : archive'.byName part.name = .ok left) (hc : left <+: bytes) (hne : left ≠ bytes) :
    ∃ message, load build py hash1 hash1' archive' = .err (.io message) := by
  have hs := (C110_entries build py hash hash' archive t h).2.parts part s hp
  have : ∃ message, Damaged build py archive' part.name s (.error (.io message)) := by
    cases s with
    | labels l =>
      obtain ⟨bytes', h1, h2⟩ := hs
      rw [hb] at h1
      cases h1
      obtain ⟨m, hm⟩ := (readNpyLabels_exact h2).1 left hc hne
      exact ⟨m, by unfold Damaged; rw [hl]; exact hm⟩
    | data a =>
      obtain ⟨bytes', h1, h2⟩ := hs
      rw [hb] at h1
      cases h1
      obtain ⟨m, hm⟩ := (readData_exact h2).1 left hc hne
      exact ⟨m, by unfold Damaged; rw [hl]; exact hm⟩
  obtain ⟨m, hm⟩ := this
  exact ⟨m, C111_one_entry_partial build py hash hash' hash1 hash1' archive archive' t part s _ h hp he hm
    fun _ _ => hasEntry_iff.2 ⟨left, hl⟩⟩

/-- **C111**, continued entries: an entry with more bytes at its end is reported as a serialization error. -/
theorem C111_continued (build : Build) (py : PyLiteral) (hash hash' hash1 hash1' : HashOrder)
    (archive archive' : Archive) (t : TensorMap NdArray) (part : Part) (s : Stored)
    (h : load build py hash hash' archive = .ok t) (hp : Part.stored t part = some s)
    (he : SameExcept part.name archive archive') (bytes extra : Bytes) (hb : archive.byName part.name = .ok bytes)
    (hl : archive'.byName part.name = .ok (bytes ++ extra)) (hne : extra ≠ []) :
    ∃ message, load build py hash1 hash1' archive' = .err (.serialization message) := by
  have hs := (C110_entries build py hash hash' archive t h).2.parts part s hp
  have : ∃ message, Damaged build py archive' part.name s (.error (.serialization message)) := by
    cases s with
    | labels l =>
      obtain ⟨bytes', h1, h2⟩ := hs
      rw [hb] at h1
      cases h1
      obtain ⟨m, hm⟩ := (readNpyLabels_exact h2).2 extra hne
      exact ⟨m, by unfold Damaged; rw [hl]; exact hm⟩
    | data a =>
      obtain ⟨bytes', h1, h2⟩ := hs
      rw [hb] at h1
      cases h1
      obtain ⟨m, hm⟩ := (readData_exact h2).2 extra hne
      exact ⟨m, by unfold Damaged; rw [hl]; exact hm⟩
  obtain ⟨m, hm⟩ := this
  exact ⟨m, C111_one_entry_partial build py hash hash' hash1 hash1' archive archive' t part s _ h hp he hm
    fun _ _ => hasEntry_iff.2 ⟨_, hl⟩⟩

/-- **C111**, missing entries, partial: reported as a serialization error. What is missing: `C111_forgotten`. -/
theorem C111_missing_partial (build : Build) (py : PyLiteral) (hash hash' hash1 hash1' : HashOrder)
    (archive archive' : Archive) (t : TensorMap NdArray) (part : Part) (s : Stored)
    (h : load build py hash hash' archive = .ok t) (hp : Part.stored t part = some s)
    (he : SameExcept part.name archive archive') (hm : ¬ HasEntry archive' part.name)
    (hg : ∀ parameter, part ≠ .gradient 0 parameter .data) :
    ∃ message, load build py hash1 hash1' archive' = .err (.serialization message) := by
  obtain ⟨m, hb⟩ : ∃ message, archive'.byName part.name = .err (.serialization message) := by
    unfold HasEntry at hm
    unfold Archive.byName
    cases hl : archive'.reverse.lookup part.name with
    | none => exact ⟨_, rfl⟩
    | some bytes => exact absurd (hasEntry_iff.2 ⟨bytes, by unfold Archive.byName; rw [hl]⟩) hm
  refine ⟨m, C111_one_entry_partial build py hash hash' hash1 hash1' archive archive' t part s (.error (.serialization m)) h hp he ?_
    fun q hq => absurd hq (hg q)⟩
  cases s <;> (unfold Damaged; rw [hb]; rfl)

namespace Example

/-- Whether something is stored for a part of what was loaded. -/
def stores (r : Res (TensorMap NdArray)) (part : Part) : Bool :=
  match r with
  | .ok t => (Part.stored t part).isSome
  | _ => false

theorem stores_iff {r : Res (TensorMap NdArray)} {part : Part} (h : stores r part = true) :
    ∃ t s, r = .ok t ∧ Part.stored t part = some s := by
  cases r with
  | ok t =>
    obtain ⟨s, hs⟩ := Option.isSome_iff_exists.1 h
    exact ⟨t, s, rfl, hs⟩
  | err e => cases h
  | panic m => cases h

/-- The file with another content for the entry of a part. -/
def damagedFile (part : Part) (bytes : Bytes) : Archive := saved ++ [(part.name, bytes)]

theorem damagedFile_same (part : Part) (bytes : Bytes) : SameExcept part.name saved (damagedFile part bytes) := by
  intro other hne
  unfold Archive.byName damagedFile
  rw [List.reverse_append, List.reverse_singleton, List.singleton_append, List.lookup_cons, beq_false_of_ne hne]

theorem damagedFile_byName (part : Part) (bytes : Bytes) : (damagedFile part bytes).byName part.name = .ok bytes := by
  unfold Archive.byName damagedFile
  rw [List.reverse_append, List.reverse_singleton, List.singleton_append, List.lookup_cons, BEq.rfl]

/-- The file without the entry of a part. -/
def withoutEntry (part : Part) : Archive := saved.filter fun x => x.1 ≠ part.name

theorem removed_same (part : Part) : SameExcept part.name saved (withoutEntry part) := by
  intro other hne
  unfold Archive.byName withoutEntry
  rw [← List.filter_reverse, lookup_forget, if_neg hne]

theorem removed_entry (part : Part) : ¬ HasEntry (withoutEntry part) part.name := by
  unfold HasEntry withoutEntry
  simp

end Example

/-- **C111** does not hold: the gradient is lost silently. -/
theorem C111_counterexample : ¬ C111_full_statement := by
  intro h
  obtain ⟨t, s, ht, hs⟩ := Example.stores_iff (r := load ⟨true⟩ PyLiteral.fragment .insertion .insertion Example.saved)
    (part := .gradient 0 "g" .data) (by decide +kernel)
  obtain ⟨t', ht'⟩ := Example.isOk_iff
    (r := load ⟨true⟩ PyLiteral.fragment .insertion .insertion (Example.withoutEntry (.gradient 0 "g" .data))) (by decide +kernel)
  have hb : (Example.withoutEntry (.gradient 0 "g" .data)).byName (Part.gradient 0 "g" .data).name =
      .err (.serialization "specified file not found in archive: blocks/0/gradients/g/data.npy") := by decide +kernel
  have := h ⟨true⟩ PyLiteral.fragment .insertion .insertion .insertion .insertion Example.saved
    (Example.withoutEntry (.gradient 0 "g" .data)) t (.gradient 0 "g" .data) s (.error _) ht hs (Example.removed_same _) (by
      cases s <;> (unfold Damaged; rw [hb]; rfl))
  rw [ht'] at this
  cases this

-- `C111_one_entry_partial`: samples of a gradient which are not an NPY file any more
example : ∃ t s e, load ⟨true⟩ PyLiteral.fragment .insertion .insertion Example.saved = .ok t ∧
    Part.stored t (.gradient 1 "g" .samples) = some s ∧
    SameExcept (Part.gradient 1 "g" .samples).name Example.saved (Example.damagedFile (.gradient 1 "g" .samples) (List.replicate 100 0)) ∧
    Damaged ⟨true⟩ PyLiteral.fragment (Example.damagedFile (.gradient 1 "g" .samples) (List.replicate 100 0))
      (Part.gradient 1 "g" .samples).name s (.error e) := by
  obtain ⟨t, s, ht, hs⟩ := Example.stores_iff (r := load ⟨true⟩ PyLiteral.fragment .insertion .insertion Example.saved)
    (part := .gradient 1 "g" .samples) (by decide +kernel)
  refine ⟨t, s, parseError "start does not match magic string", ht, hs, Example.damagedFile_same _ _, ?_⟩
  have := stored_isData hs
  cases s with
  | labels l => unfold Damaged; rw [Example.damagedFile_byName]; rfl
  | data a => cases this

-- `C111_forgotten`
example : (∃ t, load ⟨true⟩ PyLiteral.fragment .insertion .insertion Example.saved = .ok t) ∧
    HasEntry Example.saved (Part.gradient 0 "g" .data).name ∧
    SameExcept (Part.gradient 0 "g" .data).name Example.saved (Example.withoutEntry (.gradient 0 "g" .data)) ∧
    ¬ HasEntry (Example.withoutEntry (.gradient 0 "g" .data)) (Part.gradient 0 "g" .data).name :=
  ⟨Example.isOk_iff Example.saved_loads, by unfold HasEntry; decide +kernel, Example.removed_same _, Example.removed_entry _⟩

-- `C111_cut` and `C111_continued`: the properties of the second block
example : ∃ t s bytes, load ⟨true⟩ PyLiteral.fragment .insertion .insertion Example.saved = .ok t ∧
    Part.stored t (.values 1 .properties) = some s ∧ Example.saved.byName (Part.values 1 .properties).name = .ok bytes ∧
    bytes.take 100 <+: bytes ∧ bytes.take 100 ≠ bytes ∧
    SameExcept (Part.values 1 .properties).name Example.saved (Example.damagedFile (.values 1 .properties) (bytes.take 100)) ∧
    (Example.damagedFile (.values 1 .properties) (bytes.take 100)).byName (Part.values 1 .properties).name = .ok (bytes.take 100) ∧
    SameExcept (Part.values 1 .properties).name Example.saved (Example.damagedFile (.values 1 .properties) (bytes ++ [0])) ∧
    (Example.damagedFile (.values 1 .properties) (bytes ++ [0])).byName (Part.values 1 .properties).name = .ok (bytes ++ [0]) := by
  obtain ⟨t, s, ht, hs⟩ := Example.stores_iff (r := load ⟨true⟩ PyLiteral.fragment .insertion .insertion Example.saved)
    (part := .values 1 .properties) (by decide +kernel)
  have : ∃ bytes, Example.saved.byName (Part.values 1 .properties).name = .ok bytes ∧ 100 < bytes.length := by
    have h : (match Example.saved.byName (Part.values 1 .properties).name with
      | .ok bytes => decide (100 < bytes.length)
      | _ => false) = true := by decide +kernel
    split at h
    · next bytes hb => exact ⟨bytes, hb, of_decide_eq_true h⟩
    · cases h
  obtain ⟨bytes, hb, hl⟩ := this
  refine ⟨t, s, bytes, ht, hs, hb, List.take_prefix _ _, fun he => ?_, Example.damagedFile_same _ _, Example.damagedFile_byName _ _,
    Example.damagedFile_same _ _, Example.damagedFile_byName _ _⟩
  have := congrArg List.length he
  rw [List.length_take] at this
  omega

-- `C111_missing_partial`: a component of a gradient
example : ∃ t s, load ⟨true⟩ PyLiteral.fragment .insertion .insertion Example.saved = .ok t ∧
    Part.stored t (.gradient 0 "g" (.component 1)) = some s ∧
    SameExcept (Part.gradient 0 "g" (.component 1)).name Example.saved (Example.withoutEntry (.gradient 0 "g" (.component 1))) ∧
    ¬ HasEntry (Example.withoutEntry (.gradient 0 "g" (.component 1))) (Part.gradient 0 "g" (.component 1)).name ∧
    ∀ parameter, Part.gradient 0 "g" (.component 1) ≠ .gradient 0 parameter .data := by
  obtain ⟨t, s, ht, hs⟩ := Example.stores_iff (r := load ⟨true⟩ PyLiteral.fragment .insertion .insertion Example.saved)
    (part := .gradient 0 "g" (.component 1)) (by decide +kernel)
  exact ⟨t, s, ht, hs, Example.removed_same _, Example.removed_entry _, by simp⟩

end Equistore
