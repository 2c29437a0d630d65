import Verif.Lemmas.LoadRequires
import Verif.Lemmas.PartOrder
import Verif.Lemmas.MergeBlock
import Verif.Spec.Files

/-! Archives which have not been written completely are not loaded. -/

namespace Equistore
open Spec
variable {A : Type} [ArrayLike A] {build build' : Build} {py : PyLiteral} {native : Endian} {hash : HashOrder}

/-! ### Parts of a tensor map -/

/-- What is written for a part of the values or of a gradient. -/
inductive WhatSource (b : BasicBlock A) : What → SaveSource A → Prop
  | data : WhatSource b .data (.data b.data)
  | samples : WhatSource b .samples (.labels b.samples)
  | component {i c} : b.components[i]? = some c → WhatSource b (.component i) (.labels c)
  | properties : WhatSource b .properties (.labels b.properties)

theorem mem_componentParts {part : Nat → Part} {components : List Labels} {x : Part × SaveSource A} :
    x ∈ (componentParts part components 0 : List (Part × SaveSource A)) ↔
      ∃ i c, components[i]? = some c ∧ x = (part i, .labels c) := by
  unfold componentParts
  simp only [List.mem_map, Prod.exists, List.mem_zipIdx_iff_getElem?]
  constructor
  · rintro ⟨c, i, h, rfl⟩; exact ⟨i, c, h, rfl⟩
  · rintro ⟨i, c, h, rfl⟩; exact ⟨c, i, h, rfl⟩

theorem mem_gradientParts {i : Nat} {g : String × BasicBlock A} {x : Part × SaveSource A} :
    x ∈ gradientParts i g ↔ ∃ w s, WhatSource g.2 w s ∧ w ≠ .properties ∧ x = (.gradient i g.1 w, s) := by
  unfold gradientParts
  simp only [List.mem_append, List.mem_cons, List.not_mem_nil, or_false, mem_componentParts]
  constructor
  · rintro ((rfl | rfl) | ⟨k, c, hc, rfl⟩)
    · exact ⟨_, _, .data, by simp, rfl⟩
    · exact ⟨_, _, .samples, by simp, rfl⟩
    · exact ⟨_, _, .component hc, by simp, rfl⟩
  · rintro ⟨w, r, hw, hne, rfl⟩
    cases hw with
    | data => exact .inl (.inl rfl)
    | samples => exact .inl (.inr rfl)
    | component hc => exact .inr ⟨_, _, hc, rfl⟩
    | properties => exact absurd rfl hne

theorem mem_blockParts {b : TensorBlock A} {i : Nat} {x : Part × SaveSource A} :
    x ∈ blockParts hash (b, i) ↔
      (∃ w s, WhatSource b.values w s ∧ x = (.values i w, s)) ∨
      (∃ p g w s, (p, g) ∈ b.gradients ∧ WhatSource g w s ∧ w ≠ .properties ∧ x = (.gradient i p w, s)) := by
  unfold blockParts
  simp only [List.mem_append, List.mem_cons, List.not_mem_nil, or_false, mem_componentParts, List.mem_flatMap,
    mem_gradientParts, (hash.perm _).mem_iff, Prod.exists]
  constructor
  · rintro ((((rfl | rfl) | ⟨k, c, hc, rfl⟩) | rfl) | ⟨p, g, hg, w, r, hw, hne, rfl⟩)
    · exact .inl ⟨_, _, .data, rfl⟩
    · exact .inl ⟨_, _, .samples, rfl⟩
    · exact .inl ⟨_, _, .component hc, rfl⟩
    · exact .inl ⟨_, _, .properties, rfl⟩
    · exact .inr ⟨p, g, w, r, hg, hw, hne, rfl⟩
  · rintro (⟨w, r, hw, rfl⟩ | ⟨p, g, w, r, hg, hw, hne, rfl⟩)
    · cases hw with
      | data => exact .inl (.inl (.inl (.inl rfl)))
      | samples => exact .inl (.inl (.inl (.inr rfl)))
      | component hc => exact .inl (.inl (.inr ⟨_, _, hc, rfl⟩))
      | properties => exact .inl (.inr rfl)
    · exact .inr ⟨p, g, hg, w, r, hw, hne, rfl⟩

theorem mem_tensorParts {t : TensorMap A} {x : Part × SaveSource A} :
    x ∈ tensorParts hash t ↔
      x = (.keys, .labels t.keys) ∨
      ∃ b i, t.blocks[i]? = some b ∧
        ((∃ w s, WhatSource b.values w s ∧ x = (.values i w, s)) ∨
         (∃ p g w s, (p, g) ∈ b.gradients ∧ WhatSource g w s ∧ w ≠ .properties ∧ x = (.gradient i p w, s))) := by
  unfold tensorParts
  simp only [List.mem_cons, List.mem_flatMap, Prod.exists, List.mem_zipIdx_iff_getElem?, mem_blockParts]

theorem tensorParts_nodup {t : TensorMap A} (ht : ∀ b ∈ t.blocks, b.GradientsNodup) :
    ((tensorParts hash t).map Prod.fst).Nodup := by
  have h := tensorItems_nodup (build := ⟨true⟩) (py := PyLiteral.mk (fun _ => none) (fun _ => none)) (native := .little)
    (hash := hash) ht
  rw [tensorItems_parts, List.map_map] at h
  exact h

/-! ### Entries -/

theorem Written.names {parts : List (Part × SaveSource A)} {archive : Archive} (h : Written build py native parts archive) :
    archive.map Prod.fst = (parts.map Prod.fst).map Part.name := by
  unfold Written at h
  induction h with
  | nil => rfl
  | cons h1 _ ih =>
    obtain ⟨bytes, -, rfl⟩ := h1
    rw [List.map_cons, List.map_cons, List.map_cons, ih]

/-- An archive where some parts are complete, and possibly another one is not. -/
structure Stopped (build : Build) (py : PyLiteral) (native : Endian) (t : TensorMap A) (hash : HashOrder)
    (before : List (Part × SaveSource A)) (part : Part) (source : SaveSource A) (archive : Archive) (content : Option Bytes) : Prop where
  parts : ∃ after, tensorParts hash t = before ++ (part, source) :: after
  written : Written build py native before archive
  incomplete : ∀ c, content = some c → Incomplete build py native source c

/-- All the entries. -/
def stoppedEntries (part : Part) (archive : Archive) (content : Option Bytes) : Archive :=
  archive ++ content.toList.map fun c => (part.name, c)

section
variable {t : TensorMap A} {before : List (Part × SaveSource A)} {part : Part} {source : SaveSource A} {archive : Archive}
  {content : Option Bytes}

/-- The parts with an entry. -/
def stoppedParts (before : List (Part × SaveSource A)) (part : Part) (content : Option Bytes) : List Part :=
  before.map Prod.fst ++ content.toList.map fun _ => part

theorem Stopped.names (h : Stopped build py native t hash before part source archive content) :
    (stoppedEntries part archive content).map Prod.fst = (stoppedParts before part content).map Part.name := by
  unfold stoppedEntries stoppedParts
  rw [List.map_append, h.written.names, List.map_append]
  cases content <;> rfl

theorem Stopped.parts_nodup (ht : ∀ b ∈ t.blocks, b.GradientsNodup)
    (h : Stopped build py native t hash before part source archive content) : (stoppedParts before part content).Nodup := by
  obtain ⟨after, hp⟩ := h.parts
  have hn := tensorParts_nodup (hash := hash) ht
  rw [hp, List.map_append, List.map_cons] at hn
  have hsub : (stoppedParts before part content).Sublist (before.map Prod.fst ++ part :: after.map Prod.fst) := by
    unfold stoppedParts
    refine List.Sublist.append (List.Sublist.refl _) ?_
    cases content with
    | none => exact List.nil_sublist _
    | some c => exact List.Sublist.cons_cons _ (List.nil_sublist _)
  exact hn.sublist hsub

theorem Stopped.names_nodup (ht : ∀ b ∈ t.blocks, b.GradientsNodup)
    (h : Stopped build py native t hash before part source archive content) :
    ((stoppedEntries part archive content).map Prod.fst).Nodup := by
  rw [h.names]
  exact (h.parts_nodup ht).map fun a b he => Part.name_injective he

theorem Stopped.byName_before (ht : ∀ b ∈ t.blocks, b.GradientsNodup)
    (h : Stopped build py native t hash before part source archive content) {x : Part × SaveSource A} (hx : x ∈ before) :
    ∃ bytes, x.2.write build py native = .ok bytes ∧
      (stoppedEntries part archive content).byName x.1.name = .ok bytes := by
  obtain ⟨entry, he, bytes, h1, rfl⟩ := forall₂_mem_left h.written hx
  exact ⟨bytes, h1, byName_of_mem (h.names_nodup ht) (List.mem_append_left _ he)⟩

theorem Stopped.byName_content (ht : ∀ b ∈ t.blocks, b.GradientsNodup)
    (h : Stopped build py native t hash before part source archive content) {c : Bytes} (hc : content = some c) :
    (stoppedEntries part archive content).byName part.name = .ok c := by
  refine byName_of_mem (h.names_nodup ht) (List.mem_append_right _ ?_)
  rw [hc]
  simp

theorem lookup_mem' {α : Type} {l : List (String × α)} {k : String} {v : α} (h : l.lookup k = some v) : (k, v) ∈ l := by
  induction l with
  | nil => cases h
  | cons a l ih =>
    obtain ⟨k', v'⟩ := a
    rw [List.lookup_cons] at h
    by_cases hk : k = k'
    · subst hk
      simp only [beq_self_eq_true, Option.some.injEq] at h
      rw [h]
      exact List.mem_cons_self
    · have : (k == k') = false := by simpa using hk
      rw [this] at h
      exact List.mem_cons_of_mem _ (ih h)

theorem byName_mem' {archive : Archive} {name : String} {file : Bytes} (h : archive.byName name = .ok file) :
    name ∈ archive.map Prod.fst := by
  unfold Archive.byName at h
  split at h
  · rename_i bytes hl
    exact List.mem_map.2 ⟨_, List.mem_reverse.1 (lookup_mem' hl), rfl⟩
  · cases h

theorem Stopped.byName_parts (h : Stopped build py native t hash before part source archive content) {q : Part} {file : Bytes}
    (hf : (stoppedEntries part archive content).byName q.name = .ok file) :
    q ∈ before.map Prod.fst ∨ (q = part ∧ content.isSome = true) := by
  have hm := byName_mem' hf
  rw [h.names, List.mem_map] at hm
  obtain ⟨q', hq, he⟩ := hm
  rw [Part.name_injective he] at hq
  unfold stoppedParts at hq
  rw [List.mem_append] at hq
  rcases hq with hq | hq
  · exact .inl hq
  · cases content with
    | none => simp at hq
    | some c => exact .inr ⟨by simpa using hq, rfl⟩

/-- The part which is not complete is not in the list before it. -/
theorem Stopped.part_not_before (ht : ∀ b ∈ t.blocks, b.GradientsNodup)
    (h : Stopped build py native t hash before part source archive content) : part ∉ before.map Prod.fst := by
  obtain ⟨after, hp⟩ := h.parts
  have hn := tensorParts_nodup (hash := hash) ht
  rw [hp, List.map_append, List.map_cons, List.nodup_append] at hn
  intro hm
  exact hn.2.2 part hm part List.mem_cons_self rfl

/-- Labels which are not complete are not read. -/
theorem Stopped.not_reads (ht : ∀ b ∈ t.blocks, b.GradientsNodup)
    (h : Stopped build py native t hash before part source archive content) (hpy : LawfulPy py) {l : Labels}
    (hs : source = .labels l) (hl : l.WF) (hm : l.InMemory) :
    ¬ ReadsLabels build' py (stoppedEntries part archive content) part := by
  rintro ⟨file, l', hf, hr⟩
  rcases h.byName_parts hf with hb | ⟨-, hc⟩
  · exact h.part_not_before ht hb
  · obtain ⟨c, hc⟩ := Option.isSome_iff_exists.1 hc
    rw [h.byName_content ht hc, Res.ok.injEq] at hf
    subst hf
    obtain ⟨h1, h2⟩ := h.incomplete _ hc
    subst hs
    by_cases hok : ∃ bytes, (SaveSource.labels l : SaveSource A).write build py native = .ok bytes
    · obtain ⟨bytes, hb⟩ := hok
      obtain ⟨h3, h4⟩ := h1 bytes hb
      rw [readNpyLabels_truncated hpy hl hm hb h3 h4] at hr
      cases hr
    · have := h2 l _ rfl hl.iter_eq fun b hb => hok ⟨b, hb⟩
      subst this
      rw [readNpyLabels_err (er := truncated) (by rfl)] at hr
      cases hr

theorem writeData_ok {a : A} {bytes : Bytes} (h : writeData build py native a = .ok bytes) :
    ∃ dims elements, ArrayLike.shape a = .ok dims ∧ ArrayLike.data a = .ok elements := by
  unfold writeData at h
  simp only [Res.bind_eq_ok] at h
  obtain ⟨_, -, dims, hs, _, -, elements, hd, -⟩ := h
  exact ⟨dims, elements, hs, hd⟩

/-- If the part which is not complete is a part of some values or of a gradient, they are not read. -/
theorem Stopped.not_group (ht : ∀ b ∈ t.blocks, b.GradientsNodup)
    (h : Stopped build py native t hash before part source archive content) (hpy : LawfulPy py) {b : BasicBlock A}
    (hv : BasicValid b) (hsound : BasicSound b) {path : What → Part} {w : What} (hpart : part = path w)
    (hw : WhatSource b w source) (hne : w ≠ .properties)
    (hdata : (path .data, SaveSource.data b.data) ∈ tensorParts hash t)
    (hprec : ∀ w ≠ What.data, Precedes (path .data) (path w))
    (hinj : ∀ w w', path w = path w' → w = w') :
    ¬ Reads build' py (stoppedEntries part archive content) path := by
  intro hr
  have hwf := hv.wf
  obtain ⟨after, hp⟩ := h.parts
  have hord := tensorParts_ordered (hash := hash) ht
  rw [hp] at hord hdata
  cases hw with
  | data =>
    obtain ⟨file, l, hf, -⟩ := hr.samples
    rcases h.byName_parts hf with hb | ⟨he, -⟩
    · obtain ⟨x, hx, hxe⟩ := List.mem_map.1 hb
      refine hord.not_before (y := x) ?_ hx
      rw [hxe, hpart]
      exact hprec _ (by simp)
    · rw [hpart] at he
      exact absurd (hinj _ _ he) (by simp)
  | samples =>
    have hm := hsound.labels b.samples (by simp)
    refine h.not_reads ht hpy rfl hwf.samples hm ?_ (build' := build')
    exact hpart.symm ▸ hr.samples
  | component hc =>
    rename_i k c
    have hcm := List.mem_of_getElem? hc
    have hm := hsound.labels c (by simp [hcm])
    have hbefore := hord.before hdata (by rw [hpart]; exact hprec _ (by simp))
    obtain ⟨bytes, hb1, hb2⟩ := h.byName_before ht hbefore
    obtain ⟨dims, elements, hs, hd⟩ := writeData_ok (build := build) (py := py) (native := native) hb1
    obtain ⟨hlen, hmem⟩ := hsound.data dims elements hs hd
    have hread := readData_written (build' := build') hpy hs hd hmem hlen hb1 []
    rw [List.append_nil, checkForExtraBytes_nil, Res.ok_bind] at hread
    obtain ⟨file, d, n, hf, hfd, hn, hcomp⟩ := hr.data
    have hf' : Res.ok bytes = Res.ok file := hb2.symm.trans hf
    rw [Res.ok.injEq] at hf'
    subst hf'
    rw [hread, Res.ok.injEq] at hfd
    subst hfd
    obtain ⟨shape, hshape, hmatch⟩ := hv.shape
    rw [hs, Res.ok.injEq] at hshape
    subst hshape
    have hlength := hmatch.length_eq
    rw [List.length_append, List.length_cons, List.length_singleton] at hlength
    rw [hlength, usizeSub_two, Res.ok.injEq] at hn
    subst hn
    have hk : k < b.components.length := (List.getElem?_eq_some_iff.1 hc).1
    refine h.not_reads ht hpy rfl (hwf.components c hcm) hm ?_ (build' := build')
    exact hpart.symm ▸ hcomp k hk
  | properties => exact hne rfl

/-- An archive which is not complete is not loaded, except if the only thing which is missing are gradients
of a single block, and no entry has been started for them. -/
theorem Stopped.not_loaded (hpy : LawfulPy py) (hv : TensorValid t) (hsound : Sound t)
    (h : Stopped build py native t hash before part source archive content)
    (hgap : content = none → (∃ i p, part = .gradient i p .data) → t.blocks.length ≠ 1) (hash1 hash2 : HashOrder)
    (t' : TensorMap NdArray) : load build' py hash1 hash2 (stoppedEntries part archive content) ≠ .ok t' := by
  intro hload
  have ht : ∀ b ∈ t.blocks, b.GradientsNodup := fun b hb => (hv.blocks b hb).names
  obtain ⟨file, keys, ps, count, hf, hk, hps, hcount, hreq⟩ := load_requires hload
  obtain ⟨after, hp⟩ := h.parts
  have hord := tensorParts_ordered (hash := hash) ht
  have hkwf := hv.keys.wf_of_count hv.count
  have hmem : (part, source) ∈ tensorParts hash t := by rw [hp]; simp
  rcases mem_tensorParts.1 hmem with he | ⟨b, i, hb, hcase⟩
  · cases he
    exact h.not_reads ht hpy rfl hkwf hsound.keys ⟨file, keys, hf, hk⟩
  have hbm := List.mem_of_getElem? hb
  have hi : i < t.blocks.length := (List.getElem?_eq_some_iff.1 hb).1
  have hblock : Part.block part = some i := by
    rcases hcase with ⟨w, s, -, he⟩ | ⟨p, g, w, s, -, -, -, he⟩ <;> cases he <;> rfl
  -- the keys are complete
  have hcount' : count = t.blocks.length := by
    have hbefore : ((Part.keys, SaveSource.labels t.keys) : Part × SaveSource A) ∈ before := by
      have h1 : ((Part.keys, SaveSource.labels t.keys) : Part × SaveSource A) ∈ tensorParts hash t := mem_tensorParts.2 (.inl rfl)
      rw [hp] at h1 hord
      refine hord.before h1 (.inl ⟨rfl, ?_⟩)
      show part ≠ _
      rintro rfl
      cases hblock
    obtain ⟨bytes, hb1, hb2⟩ := h.byName_before ht hbefore
    have hread := readNpyLabels_written (build' := build') hpy hkwf hsound.keys hb1 []
    rw [List.append_nil, checkForExtraBytes_nil, Res.ok_bind] at hread
    have hf' : Res.ok bytes = Res.ok file := hb2.symm.trans hf
    rw [Res.ok.injEq] at hf'
    subst hf'
    rw [hread, Res.ok.injEq] at hk
    subst hk
    rw [hv.count, Res.ok.injEq] at hcount
    exact hcount.symm
  subst hcount'
  -- the gradients found
  have hparam : ∀ p, Part.gradient 0 p .data ∈ stoppedParts before part content → p ∈ ps := by
    intro p hm
    have h1 := fileNames_perm (h.names_nodup ht) hash1
    rw [h.names] at h1
    obtain ⟨parts, h2, h3⟩ := perm_map_exists h1
    rw [h3, gradientParameters_eq, Res.ok.injEq] at hps
    rw [← hps]
    exact List.mem_filterMap.2 ⟨_, h2.mem_iff.2 hm, rfl⟩
  rcases hcase with ⟨w, s, hw, he⟩ | ⟨p, g, w, s, hg, hw, hne, he⟩
  · cases he
    obtain ⟨hr1, hr2, -⟩ := hreq i hi
    by_cases hne : w = .properties
    · subst hne
      cases hw
      exact h.not_reads ht hpy rfl (hv.blocks b hbm).values.wf.properties ((hsound.values b hbm).labels _ (by simp)) hr2
    · refine h.not_group ht hpy (hv.blocks b hbm).values (hsound.values b hbm) (path := Part.values i) rfl hw hne
        (mem_tensorParts.2 (.inr ⟨b, i, hb, .inl ⟨_, _, .data, rfl⟩⟩)) ?_ ?_ hr1
      · intro w' hw'
        refine .inr (.inl ⟨rfl, rfl, rfl, ?_⟩)
        cases w' <;> first | rfl | exact absurd rfl hw'
      · intro w w' he
        simpa using he
  · cases he
    have hgrad : b.gradient p = some g := (gradient_eq_some (ht b hbm)).2 hg
    -- a gradient of the first block
    have hfirst : ∃ b0 g0, t.blocks[0]? = some b0 ∧ (p, g0) ∈ b0.gradients := by
      have h0 : 0 < t.blocks.length := by omega
      refine ⟨t.blocks[0], ?_⟩
      have hs := (hv.consistent b hbm t.blocks[0] (List.getElem_mem h0)).parameters p
      rw [hgrad] at hs
      obtain ⟨g0, hg0⟩ := Option.isSome_iff_exists.1 hs.symm
      exact ⟨g0, List.getElem?_eq_getElem h0, (gradient_eq_some (ht _ (List.getElem_mem h0))).1 hg0⟩
    by_cases hin : Part.gradient 0 p .data ∈ stoppedParts before (.gradient i p w) content
    · obtain ⟨-, -, hr⟩ := hreq i hi
      refine h.not_group ht hpy ((hv.blocks b hbm).gradients p g hg).basic (hsound.gradients b hbm p g hgrad)
        (path := Part.gradient i p) rfl hw hne
        (mem_tensorParts.2 (.inr ⟨b, i, hb, .inr ⟨p, g, _, _, hg, .data, by simp, rfl⟩⟩)) ?_ ?_ (hr p (hparam p hin))
      · intro w' hw'
        refine .inr (.inl ⟨rfl, rfl, rfl, ?_⟩)
        cases w' <;> first | rfl | exact absurd rfl hw'
      · intro w w' he
        simpa using he
    · -- the entry for the data of the gradient has not been started
      have hdata : i = 0 ∧ w = .data ∧ content = none := by
        obtain ⟨b0, g0, hb0, hg0⟩ := hfirst
        have h1 : ((Part.gradient 0 p .data, SaveSource.data g0.data) : Part × SaveSource A) ∈ tensorParts hash t :=
          mem_tensorParts.2 (.inr ⟨b0, 0, hb0, .inr ⟨p, g0, _, _, hg0, .data, by simp, rfl⟩⟩)
        have hnot : ¬ Precedes (Part.gradient 0 p .data) (.gradient i p w) := by
          intro hprec
          rw [hp] at h1 hord
          have := hord.before h1 hprec
          exact hin (List.mem_append_left _ (List.mem_map.2 ⟨_, this, rfl⟩))
        have hi0 : i = 0 := by
          rcases Nat.eq_zero_or_pos i with h0 | h0
          · exact h0
          · exact absurd (.inr (.inr ⟨0, i, rfl, rfl, h0⟩)) hnot
        subst hi0
        have hw0 : w = .data := by
          by_contra hw0
          refine hnot (.inr (.inl ⟨rfl, rfl, rfl, ?_⟩))
          cases w <;> first | rfl | exact absurd rfl hw0
        subst hw0
        refine ⟨rfl, rfl, ?_⟩
        cases content with
        | none => rfl
        | some c => exact absurd (List.mem_append_right _ (by simp)) hin
      obtain ⟨rfl, rfl, rfl⟩ := hdata
      have hlen := hgap rfl ⟨_, _, rfl⟩
      -- there is a second block
      obtain ⟨hr1, -, -⟩ := hreq 1 (by omega)
      obtain ⟨file', d, n, hf', -⟩ := hr1.data
      rcases h.byName_parts hf' with hb' | ⟨he, -⟩
      · obtain ⟨x, hx, hxe⟩ := List.mem_map.1 hb'
        rw [hp] at hord
        refine hord.not_before (y := x) ?_ hx
        rw [hxe]
        exact .inr (.inr ⟨0, 1, rfl, rfl, by omega⟩)
      · cases he

end

end Equistore
