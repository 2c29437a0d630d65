import Verif.Lemmas.NoPanic
import Verif.Spec.Loaded

/-! What is loaded is what the entries say. -/

namespace Equistore
open Spec
variable {build : Build} {py : PyLiteral} {archive : Archive}

/-- All that is stored for values or gradients, without the properties. -/
def SaysBasic (build : Build) (py : PyLiteral) (archive : Archive) (b : BasicBlock NdArray) (part : What → Part) : Prop :=
  ∀ w s, w ≠ .properties → w.stored b = some s → Says build py archive (part w).name s

theorem loadComponents_says {path : Nat → String} {part : Nat → Part} (hp : ∀ i, path i = (part i).name) {n i : Nat}
    {components : List Labels} (h : loadComponents build py archive path n i = .ok components) :
    components.length = n ∧
    ∀ k c, components[k]? = some c → Says build py archive (part (i + k)).name (.labels c) := by
  induction n generalizing i components with
  | zero =>
    simp only [loadComponents, Res.ok.injEq] at h
    subst h
    simp
  | succ n ih =>
    unfold loadComponents at h
    simp only [Res.bind_eq_ok, Res.pure_eq, Res.ok.injEq] at h
    obtain ⟨file, hf, l, hl, others, ho, rfl⟩ := h
    obtain ⟨h1, h2⟩ := ih ho
    refine ⟨by rw [List.length_cons, h1], fun k c hk => ?_⟩
    cases k with
    | zero =>
      simp only [List.getElem?_cons_zero, Option.some.injEq] at hk
      subst hk
      exact ⟨file, by rw [Nat.add_zero, ← hp]; exact hf, hl⟩
    | succ k =>
      rw [List.getElem?_cons_succ] at hk
      have := h2 k c hk
      rwa [show i + 1 + k = i + (k + 1) by omega] at this

theorem saysBasic_of {part : What → Part} {data : NdArray} {samples properties : Labels} {components : List Labels}
    (hd : Says build py archive (part .data).name (.data data))
    (hs : Says build py archive (part .samples).name (.labels samples))
    (hc : ∀ k c, components[k]? = some c → Says build py archive (part (.component k)).name (.labels c)) :
    SaysBasic build py archive ⟨data, samples, components, properties⟩ part := by
  intro w s hne hw
  cases w with
  | data => simp only [What.stored, Option.some.injEq] at hw; subst hw; exact hd
  | samples => simp only [What.stored, Option.some.injEq] at hw; subst hw; exact hs
  | component i =>
    simp only [What.stored, Option.map_eq_some_iff] at hw
    obtain ⟨c, hc', rfl⟩ := hw
    exact hc i c hc'
  | properties => exact absurd rfl hne

theorem loadGradients_says {i : Nat} {parameters : List String} {block b : TensorBlock NdArray}
    (h : loadGradients build py archive i parameters block = .ok b) :
    b.values = block.values ∧
    (∀ q, q ∉ parameters → b.gradient q = block.gradient q) ∧
    ∀ q ∈ parameters, '\x00' ∉ q.toList ∧
      ∃ g, b.gradient q = some g ∧ SaysBasic build py archive g (Part.gradient i q) := by
  induction parameters generalizing block with
  | nil =>
    simp only [loadGradients, Res.ok.injEq] at h
    subst h
    exact ⟨rfl, fun _ _ => rfl, by simp⟩
  | cons p parameters ih =>
    unfold loadGradients at h
    rw [show gradientPath i p "data" = (Part.gradient i p .data).name from gradientPath_eq i p .data,
      show gradientPath i p "samples" = (Part.gradient i p .samples).name from gradientPath_eq i p .samples] at h
    simp only [Res.bind_eq_ok] at h
    obtain ⟨f1, hf1, data, hd, f2, hf2, samples, hs, n, -, components, hc, h⟩ := h
    rw [addGradient_eq] at h
    cases hk : TensorBlock.checkGradient block p data samples components with
    | err e => rw [hk] at h; simp at h
    | panic m => rw [hk] at h; simp at h
    | ok u =>
      rw [hk] at h
      by_cases hz : p.toList.contains '\x00' = true
      · simp only [hz, if_true] at h
        exact absurd h (by simp)
      · simp only [hz] at h
        obtain ⟨h1, h2, h3⟩ := ih h
        have hacc := checkGradient_iff.1 hk
        refine ⟨h1, fun q hq => ?_, fun q hq => ?_⟩
        · rw [List.mem_cons, not_or] at hq
          rw [h2 q hq.2, gradient_append]
          cases block.gradient q with
          | some g' => rfl
          | none => simp [hq.1]
        · by_cases hq' : q ∈ parameters
          · exact h3 q hq'
          · rcases List.mem_cons.1 hq with rfl | hq
            · refine ⟨by simpa using hz, block.gradientBlock data samples components, ?_,
                saysBasic_of (part := Part.gradient i q) ⟨f1, hf1, hd⟩ ⟨f2, hf2, hs⟩ fun k c hk' => ?_⟩
              · rw [h2 q hq', gradient_append, hacc.1]
                simp only [if_true]
              · have := (loadComponents_says (part := fun c => Part.gradient i q (.component c)) (componentsPath_gradient i q) hc).2 k c hk'
                rwa [Nat.zero_add] at this
            · exact absurd hq hq'

theorem loadBlock_says {parameters : List String} {i : Nat} {b : TensorBlock NdArray}
    (h : loadBlock build py archive parameters i = .ok b) :
    (∀ w s, w.stored b.values = some s → Says build py archive (Part.values i w).name s) ∧
    (∀ q, q ∈ parameters ↔ (b.gradient q).isSome = true) ∧
    ∀ q g, b.gradient q = some g → '\x00' ∉ q.toList ∧ SaysBasic build py archive g (Part.gradient i q) := by
  unfold loadBlock at h
  rw [show valuesPath i "data" = (Part.values i .data).name from valuesPath_eq i .data,
    show valuesPath i "samples" = (Part.values i .samples).name from valuesPath_eq i .samples,
    show valuesPath i "properties" = (Part.values i .properties).name from valuesPath_eq i .properties] at h
  simp only [Res.bind_eq_ok] at h
  obtain ⟨f1, hf1, data, hd, f2, hf2, samples, hs, n, -, components, hc, f3, hf3, properties, hp, block, hb, h⟩ := h
  obtain ⟨-, -, rfl⟩ := TensorBlock.new_eq_ok.1 hb
  obtain ⟨h1, h2, h3⟩ := loadGradients_says h
  have hnone : ∀ q, q ∉ parameters → b.gradient q = none := fun q hq => by
    rw [h2 q hq]; rfl
  refine ⟨fun w s hw => ?_, fun q => ⟨fun hq => ?_, fun hq => ?_⟩, fun q g hg => ?_⟩
  · rw [h1] at hw
    by_cases hwp : w = .properties
    · subst hwp
      simp only [What.stored, Option.some.injEq] at hw
      subst hw
      exact ⟨f3, hf3, hp⟩
    · refine saysBasic_of (part := Part.values i) ⟨f1, hf1, hd⟩ ⟨f2, hf2, hs⟩ (fun k c hk => ?_) w s hwp hw
      have := (loadComponents_says (part := fun c => Part.values i (.component c)) (componentsPath_values i) hc).2 k c hk
      rwa [Nat.zero_add] at this
  · obtain ⟨-, g, hg, -⟩ := h3 q hq
    rw [hg]; rfl
  · refine Classical.byContradiction fun hn => ?_
    rw [hnone q hn] at hq
    simp at hq
  · have hq : q ∈ parameters := Classical.byContradiction fun hn => by
      rw [hnone q hn] at hg
      simp at hg
    obtain ⟨hz, g', hg', hs'⟩ := h3 q hq
    rw [hg, Option.some.injEq] at hg'
    subst hg'
    exact ⟨hz, hs'⟩

theorem gradientData_name (p : String) :
    (Part.gradient 0 p .data).name.toList = "blocks/0/gradients/".toList ++ (p.toList ++ "/data.npy".toList) := by
  rw [gradient_name, digits_zero]
  rfl

theorem gradientParameters_found (p : String) (names : List String) :
    gradientParameters build ((Part.gradient 0 p .data).name :: names) =
      (do let others ← gradientParameters build names; return p :: others) := by
  have hm := Part.matches_iff (.gradient 0 p .data)
  rw [show (Part.parameter (.gradient 0 p .data)).isSome = true from rfl] at hm
  rw [gradientParameters, hm]
  simp only [if_true]
  rw [gradientData_name]
  unfold splitAt usizeSub
  rw [if_pos (by simp), List.drop_left' (by rfl)]
  simp only [Res.ok_bind]
  have hlen : (p.toList ++ "/data.npy".toList).length = p.toList.length + 9 := by
    rw [List.length_append]; rfl
  rw [hlen, if_pos (by omega)]
  simp only [Res.ok_bind, Nat.add_sub_cancel]
  rw [if_pos (by omega)]
  simp only [Res.ok_bind, List.take_left' rfl, String.ofList_toList]

theorem gradientParameters_short (names : List String) :
    ∃ m, gradientParameters build ("blocks/0/gradients/data.npy" :: names) = .panic m := by
  rw [gradientParameters]
  obtain ⟨debug⟩ := build
  have hm : ("blocks/0/gradients/".toList.isPrefixOf "blocks/0/gradients/data.npy".toList &&
    "/data.npy".toList.isSuffixOf "blocks/0/gradients/data.npy".toList) = true := by decide
  rw [hm]
  cases debug
  · exact ⟨_, rfl⟩
  · exact ⟨_, rfl⟩

theorem gradientParameters_skip {name : String} (h : ("blocks/0/gradients/".toList.isPrefixOf name.toList &&
    "/data.npy".toList.isSuffixOf name.toList) = false) (names : List String) :
    gradientParameters build (name :: names) = gradientParameters build names := by
  rw [gradientParameters, if_neg (by rw [h]; simp)]

/-- The names of gradients which are found. -/
theorem gradientParameters_mem {names ps : List String} (h : gradientParameters build names = .ok ps) :
    (∀ q, q ∈ ps ↔ (Part.gradient 0 q .data).name ∈ names) ∧ (names.Nodup → ps.Nodup) := by
  induction names generalizing ps with
  | nil =>
    simp only [gradientParameters, Res.ok.injEq] at h
    subst h
    simp
  | cons name names ih =>
    cases hm : ("blocks/0/gradients/".toList.isPrefixOf name.toList &&
        "/data.npy".toList.isSuffixOf name.toList) with
    | true =>
      have hm' := hm
      rw [Bool.and_eq_true, List.isPrefixOf_iff_prefix, List.isSuffixOf_iff_suffix] at hm'
      by_cases hne : name = "blocks/0/gradients/data.npy"
      · subst hne
        obtain ⟨m, hp⟩ := gradientParameters_short (build := build) names
        rw [hp] at h
        simp at h
      · obtain ⟨p, hp⟩ := parameter_split hm'.1 hm'.2 (fun he => hne (String.toList_inj.1 he))
        have hname : name = (Part.gradient 0 (String.ofList p) .data).name := by
          have hof : (String.ofList p).toList = p := String.toList_ofList
          rw [← String.toList_inj, gradientData_name, hof, hp]
        rw [hname, gradientParameters_found] at h
        simp only [Res.bind_eq_ok, Res.pure_eq, Res.ok.injEq] at h
        obtain ⟨others, ho, rfl⟩ := h
        obtain ⟨h1, h2⟩ := ih ho
        have hinj : ∀ q, (Part.gradient 0 q .data).name = name ↔ q = String.ofList p := fun q => by
          rw [hname]
          constructor
          · intro he
            have := Part.name_injective he
            simpa using this
          · rintro rfl; rfl
        refine ⟨fun q => by rw [List.mem_cons, List.mem_cons, h1, hinj], fun hn => ?_⟩
        rw [List.nodup_cons] at hn ⊢
        refine ⟨fun hmem => hn.1 ?_, h2 hn.2⟩
        rw [hname]
        exact (h1 _).1 hmem
    | false =>
      rw [gradientParameters_skip hm] at h
      obtain ⟨h1, h2⟩ := ih h
      refine ⟨fun q => ?_, fun hn => h2 (List.nodup_cons.1 hn).2⟩
      rw [List.mem_cons, h1]
      constructor
      · exact .inr
      · rintro (he | hq)
        · have := Part.matches_iff (.gradient 0 q .data)
          rw [he, hm] at this
          simp [Part.parameter] at this
        · exact hq

theorem forall₂_getElem? {α β : Type} {R : α → β → Prop} {l : List α} {l' : List β} (h : List.Forall₂ R l l') {i : Nat}
    {b : β} (hb : l'[i]? = some b) : ∃ a, l[i]? = some a ∧ R a b := by
  induction h generalizing i with
  | nil => simp at hb
  | cons h1 _ ih =>
    cases i with
    | zero =>
      simp only [List.getElem?_cons_zero, Option.some.injEq] at hb ⊢
      subst hb
      exact ⟨_, rfl, h1⟩
    | succ i =>
      rw [List.getElem?_cons_succ] at hb ⊢
      exact ih hb

theorem load_says {hash hash' : HashOrder} {t : TensorMap NdArray}
    (h : load build py hash hash' archive = .ok t) :
    (∀ part s, Part.stored t part = some s → Says build py archive part.name s) ∧
    (∀ b ∈ t.blocks, ∀ q, (b.gradient q).isSome = true ↔ HasEntry archive (Part.gradient 0 q .data).name) ∧
    NoNul t := by
  unfold load at h
  simp only [Res.bind_eq_ok] at h
  obtain ⟨f, hf, keys, hk, parameters, hp, count, hc, blocks, hb, h⟩ := h
  have hb' : ∀ b ∈ blocks, LoadedOk b := by
    intro b hb1
    obtain ⟨i, -, hi⟩ := forall₂_mem_right (mapM_eq_ok.1 hb) hb1
    exact loadBlock_ok hi
  obtain ⟨-, -, rfl⟩ := (TensorMap.new_eq_ok (fun b h => (hb' b h).1.names)).1 h
  have hget : ∀ i b, blocks[i]? = some b → loadBlock build py archive parameters i = .ok b := by
    intro i b hi
    obtain ⟨j, hj, hr⟩ := forall₂_getElem? (mapM_eq_ok.1 hb) hi
    rw [List.getElem?_eq_some_iff] at hj
    obtain ⟨_, hj⟩ := hj
    rw [List.getElem_range] at hj
    rw [hj]
    exact hr
  refine ⟨fun part s hs => ?_, fun b hbm q => ?_, fun b hbm p g hg => ?_⟩
  · cases part with
    | keys =>
      simp only [Part.stored, Option.some.injEq] at hs
      subst hs
      exact ⟨f, hf, hk⟩
    | values i w =>
      simp only [Part.stored, Option.bind_eq_some_iff] at hs
      obtain ⟨b, hb1, hs⟩ := hs
      exact (loadBlock_says (hget i b hb1)).1 w s hs
    | gradient i p w =>
      simp only [Part.stored] at hs
      split at hs
      · cases hs
      · next hne =>
        simp only [Option.bind_eq_some_iff] at hs
        obtain ⟨g, ⟨b, hb1, hg⟩, hs⟩ := hs
        exact ((loadBlock_says (hget i b hb1)).2.2 p g hg).2 w s hne hs
  · obtain ⟨i, hi⟩ := List.mem_iff_getElem?.1 hbm
    rw [← (loadBlock_says (hget i b hi)).2.1 q, (gradientParameters_mem hp).1 q, fileNames_mem]
    rfl
  · obtain ⟨i, hi⟩ := List.mem_iff_getElem?.1 hbm
    exact ((loadBlock_says (hget i b hi)).2.2 p g hg).1

/-! ### Loading again -/

theorem checkTypeDescriptor_pos {v : PyValue} {names : List String} {e : Endian}
    (h : checkTypeDescriptor v = .ok (names, e)) : 0 < names.length := by
  unfold checkTypeDescriptor at h
  split at h
  · next list =>
    simp only [Res.bind_eq_ok, Prod.exists, Res.expect_eq_ok, Res.pure_eq, Res.ok.injEq, Prod.mk.injEq] at h
    obtain ⟨names', o, hloop, e', he', rfl, rfl⟩ := h
    subst he'
    cases list with
    | nil => simp [checkTypeLoop] at hloop
    | cons v list =>
      have := checkTypeLoop_length hloop
      simp only [List.length_cons] at this
      omega
  · simp at h

theorem readNpyLabels_inMemory {file : Bytes} {l : Labels} (h : readNpyLabels build py file = .ok l) : l.InMemory := by
  unfold readNpyLabels at h
  simp only [Res.bind_eq_ok, Prod.exists] at h
  obtain ⟨header, r1, -, -, -, -, -, names, e, hn, rows, hrows, count, -, u, ha, bytes, r2, hx, -, -, b, hb, b1, hb1, h⟩ := h
  unfold allocate at ha
  split at ha
  · next hle =>
    have hlen := (readExact_eq_ok.1 hx).2
    have hbuild : Labels.build names (chunksExact names.length ((decodeAll e 4 bytes).map fun n => Int32.ofNat n)) = .ok l := by
      unfold Labels.build
      rw [hb]
      simp only [Res.ok_bind]
      rw [hb1]
      exact h
    have hpos := checkTypeDescriptor_pos hn
    have hl := (Labels.build_eq_ok hpos).1 hbuild
    unfold Labels.InMemory
    rw [hl.values_length, chunksExact_length, List.length_map]
    unfold decodeAll
    rw [List.length_map, chunksExact_length, hlen]
    have := Nat.div_mul_le_self (4 * count / 4) names.length
    omega
  · simp at ha

theorem readData_inMemory {file : Bytes} {a : NdArray} (h : readData build py file = .ok a) : ShapeInMemory a.shape := by
  have key : ∀ {shape : List Nat} {e : Endian} {size : Nat} {bytes : Bytes}, bytes.length = 8 * size →
      size * 8 ≤ isizeMax →
      fromShapeVec shape ((decodeAll e 8 bytes).map (BitVec.ofNat 64)) = some a → ShapeInMemory a.shape := by
    intro shape e size bytes hl hs h
    unfold fromShapeVec at h
    split at h
    · next hc =>
      simp only [Option.some.injEq] at h
      subst h
      refine ⟨hc.1, ?_⟩
      have h2 := hc.2
      rw [List.length_map] at h2
      unfold decodeAll at h2
      rw [List.length_map, chunksExact_length, hl] at h2
      show 8 * shapeSize shape ≤ _
      omega
    · simp at h
  unfold readData at h
  simp only [Res.bind_eq_ok, Prod.exists] at h
  obtain ⟨header, r1, -, -, -, size, -, u, ha, h⟩ := h
  unfold allocate at ha
  split at ha
  · next hle =>
    split at h
    · split at h
      · simp only [Res.bind_eq_ok, Prod.exists, Res.expect_eq_ok, Res.pure_eq, Res.ok.injEq, Prod.mk.injEq] at h
        obtain ⟨bytes, r2, hx, _, _, ⟨rfl, rfl⟩, _, -, h⟩ := h
        exact key (readExact_eq_ok.1 hx).2 hle h
      · split at h
        · simp only [Res.bind_eq_ok, Prod.exists, Res.expect_eq_ok, Res.pure_eq, Res.ok.injEq, Prod.mk.injEq] at h
          obtain ⟨bytes, r2, hx, _, _, ⟨rfl, rfl⟩, _, -, h⟩ := h
          exact key (readExact_eq_ok.1 hx).2 hle h
        · simp at h
    · simp at h
  · simp at ha

theorem eraseDups_nodup (l : List String) : l.eraseDups.Nodup := by
  induction hn : l.length using Nat.strongRecOn generalizing l with
  | ind n ih =>
    cases l with
    | nil => simp
    | cons a l =>
      rw [List.eraseDups_cons, List.nodup_cons]
      refine ⟨fun h => ?_, ih _ ?_ _ rfl⟩
      · rw [List.mem_eraseDups, List.mem_filter] at h
        simp at h
      · rw [← hn, List.length_cons]
        exact Nat.lt_succ_of_le (List.length_filter_le _ _)

theorem fileNames_nodup (hash : HashOrder) : (archive.fileNames hash).Nodup := by
  unfold Archive.fileNames
  rw [((hash.perm _).map Prod.fst).nodup_iff, List.map_map]
  have : (Prod.fst ∘ fun name : String => (name, ())) = id := rfl
  rw [this, List.map_id]
  exact eraseDups_nodup _

theorem gradientParameters_isOk {names : List String} (hn : "blocks/0/gradients/data.npy" ∉ names) :
    ∃ ps, gradientParameters build names = .ok ps := by
  induction names with
  | nil => exact ⟨[], rfl⟩
  | cons name names ih =>
    rw [List.mem_cons, not_or] at hn
    obtain ⟨ps, hps⟩ := ih hn.2
    cases hm : ("blocks/0/gradients/".toList.isPrefixOf name.toList &&
        "/data.npy".toList.isSuffixOf name.toList) with
    | true =>
      have hm' := hm
      rw [Bool.and_eq_true, List.isPrefixOf_iff_prefix, List.isSuffixOf_iff_suffix] at hm'
      obtain ⟨p, hp⟩ := parameter_split hm'.1 hm'.2 (fun he => hn.1 (String.toList_inj.1 he).symm)
      have hname : name = (Part.gradient 0 (String.ofList p) .data).name := by
        have hof : (String.ofList p).toList = p := String.toList_ofList
        rw [← String.toList_inj, gradientData_name, hof, hp]
      rw [hname, gradientParameters_found, hps]
      exact ⟨_, rfl⟩
    | false =>
      rw [gradientParameters_skip hm]
      exact ⟨ps, hps⟩

theorem contains_of_says {b : BasicBlock NdArray} {part : What → Part} {withProperties : Bool}
    (h : ∀ w s, (w = .properties → withProperties = true) → w.stored b = some s → Says build py archive (part w).name s) :
    Contains build py archive b (fun w => (part w).name) withProperties where
  data := by
    intro dims elements hr
    have h1 : (Res.ok b.data.shape : Res (List Nat)) = .ok dims := hr.shape
    have h2 : (Res.ok b.data.elements : Res (List Elt)) = .ok elements := hr.data
    simp only [Res.ok.injEq] at h1 h2
    subst h1 h2
    exact h .data _ (by simp) rfl
  samples := h .samples _ (by simp) rfl
  component := fun k c hk => h (.component k) (.labels c) (by simp) (by simp [What.stored, hk])
  properties := fun hp => h .properties _ (fun _ => hp) rfl

/-- What is read from a file fits in memory. -/
theorem Says.inMemory {name : String} {l : Labels} (h : Says build py archive name (.labels l)) : l.InMemory := by
  obtain ⟨bytes, -, h⟩ := h
  exact readNpyLabels_inMemory h

theorem storable_of_says {b : BasicBlock NdArray} {part : What → Part} (hp : b.properties.InMemory)
    (h : ∀ w s, w ≠ .properties → w.stored b = some s → Says build py archive (part w).name s) : BasicStorable b := by
  refine ⟨fun l hl => ?_, ?_⟩
  · simp only [List.cons_append, List.mem_cons, List.mem_append, List.not_mem_nil, or_false] at hl
    rcases hl with rfl | hl | rfl
    · exact Says.inMemory (h .samples _ (by simp) rfl)
    · obtain ⟨k, hk⟩ := List.mem_iff_getElem?.1 hl
      exact Says.inMemory (h (.component k) (.labels l) (by simp) (by simp [What.stored, hk]))
    · exact hp
  · obtain ⟨bytes, -, hd⟩ := h .data _ (by simp) rfl
    exact ⟨_, _, rfl, rfl, readData_ok hd, readData_inMemory hd⟩

theorem gradientParameters_named {names : List String} {ps : List String} (h : gradientParameters build names = .ok ps) :
    "blocks/0/gradients/data.npy" ∉ names := by
  induction names generalizing ps with
  | nil => simp
  | cons name names ih =>
    rw [List.mem_cons, not_or]
    refine ⟨fun he => ?_, ?_⟩
    · subst he
      obtain ⟨m, hp⟩ := gradientParameters_short (build := build) names
      rw [hp] at h
      cases h
    · rw [gradientParameters] at h
      split at h
      · simp only [Res.bind_eq_ok] at h
        obtain ⟨_, _, _, _, _, _, ps', hps, _⟩ := h
        exact ih hps
      · exact ih h

theorem load_named {hash hash' : HashOrder} {t : TensorMap NdArray} (h : load build py hash hash' archive = .ok t) :
    ¬ HasEntry archive "blocks/0/gradients/data.npy" := by
  unfold load at h
  simp only [Res.bind_eq_ok] at h
  obtain ⟨f, hf, keys, hk, parameters, hp, -⟩ := h
  exact fun he => gradientParameters_named hp (fileNames_mem.2 he)

/-- The steps of `load` after the list of gradients, with the keys. -/
def loadRest (build : Build) (py : PyLiteral) (hash' : HashOrder) (archive : Archive) (parameters : List String) :
    Res (TensorMap NdArray) := do
  let file ← archive.byName Part.keys.name
  let keys ← readNpyLabels build py file
  let count ← keys.count
  let blocks ← (List.range count).mapM (loadBlock build py archive parameters)
  TensorMap.new hash' keys blocks

theorem load_eq_loadRest {hash hash' : HashOrder} {ps : List String}
    (h : gradientParameters build (archive.fileNames hash) = .ok ps) :
    load build py hash hash' archive = loadRest build py hash' archive ps := by
  unfold load loadRest
  rw [h]
  rfl

/-- From a file whose entries say all parts of a tensor map, this tensor map is loaded, for all orders of gradients. -/
theorem loadRest_of_says {t : TensorMap NdArray} (hv : TensorValid t) (hz : NoNul t)
    (hs : ∀ part s, Part.stored t part = some s → Says build py archive part.name s) {ps : List String}
    (hn : ps.Nodup) (hps : ∀ b ∈ t.blocks, ∀ q, (b.gradient q).isSome = true ↔ q ∈ ps) (hash' : HashOrder) :
    ∃ t', loadRest build py hash' archive ps = .ok t' ∧ SameContent t t' := by
  obtain ⟨kb, hk1, hk2⟩ := hs .keys _ rfl
  cases hb : t.blocks with
  | nil =>
    refine ⟨t, ?_, rfl, by rw [hb]; exact .nil⟩
    have hc := hv.count
    rw [hb] at hc
    unfold loadRest
    rw [hk1, Res.ok_bind, hk2, Res.ok_bind, hc, Res.ok_bind]
    show TensorMap.new hash' t.keys [] = _
    refine (TensorMap.new_eq_ok (by simp)).2 ⟨hc, by simp, ?_⟩
    cases t
    simp only at hb
    rw [hb]
  | cons b0 blocks =>
    have hb0 : b0 ∈ t.blocks := by rw [hb]; exact List.mem_cons_self
    have hvalues : ∀ (i : Nat) (b : TensorBlock NdArray), t.blocks[i]? = some b → ∀ w s, w.stored b.values = some s →
        Says build py archive (Part.values i w).name s := fun i b hi w s hw =>
      hs (.values i w) s (by simp [Part.stored, hi, hw])
    have hgrad : ∀ (i : Nat) (b : TensorBlock NdArray), t.blocks[i]? = some b → ∀ p g, b.gradient p = some g → ∀ w s, w ≠ .properties → w.stored g = some s →
        Says build py archive (Part.gradient i p w).name s := fun i b hi p g hg w s hne hw =>
      hs (.gradient i p w) s (by simp [Part.stored, hi, hg, hw, hne])
    have hprop : ∀ (i : Nat) (b : TensorBlock NdArray), t.blocks[i]? = some b → b.values.properties.InMemory := fun i b hi =>
      Says.inMemory (hvalues i b hi .properties _ rfl)
    have hst : Storable t := by
      refine ⟨Says.inMemory ⟨kb, hk1, hk2⟩, fun b hbm => ?_, fun b hbm p g hpg => ?_⟩
      · obtain ⟨i, hi⟩ := List.mem_iff_getElem?.1 hbm
        exact storable_of_says (part := Part.values i) (hprop i b hi) fun w s _ hw => hvalues i b hi w s hw
      · obtain ⟨i, hi⟩ := List.mem_iff_getElem?.1 hbm
        have hgm := (gradient_eq_some (hv.blocks b hbm).names).1 hpg
        have hpr := ((hv.blocks b hbm).gradients p g hgm).properties
        exact storable_of_says (part := Part.gradient i p) (by rw [hpr]; exact hprop i b hi) (hgrad i b hi p g hpg)
    have hperm : ps.Perm (firstParameters t) := by
      unfold firstParameters
      rw [hb]
      refine (List.perm_ext_iff_of_nodup hn (hv.blocks b0 hb0).names).2 fun q => ?_
      rw [← gradient_isSome]
      exact (hps b0 hb0 q).symm
    obtain ⟨bs', h1, h2, h3⟩ := loadBlocks_of (build := build) (py := py) (archive := archive) hv hst hz hperm
      (fun i b hi => ⟨contains_of_says fun w s _ hw => hvalues i b hi w s hw, fun p g hpg =>
        contains_of_says fun w s hw' hw => hgrad i b hi p g hpg w s (fun he => absurd (hw' he) (by simp)) hw⟩) hash'
    refine ⟨⟨t.keys, bs'⟩, ?_, rfl, h3⟩
    unfold loadRest
    rw [hk1, Res.ok_bind, hk2, Res.ok_bind, hv.count, Res.ok_bind, h1, Res.ok_bind, h2]

/-- A file whose entries say all parts of a tensor map is loaded as this tensor map. -/
theorem load_of_says {t : TensorMap NdArray} (hv : TensorValid t) (hz : NoNul t)
    (hs : ∀ part s, Part.stored t part = some s → Says build py archive part.name s)
    (hg : ∀ b ∈ t.blocks, ∀ q, (b.gradient q).isSome = true ↔ HasEntry archive (Part.gradient 0 q .data).name)
    (hn : ¬ HasEntry archive "blocks/0/gradients/data.npy") (hash hash' : HashOrder) :
    ∃ t', load build py hash hash' archive = .ok t' ∧ SameContent t t' := by
  obtain ⟨ps, hps⟩ := gradientParameters_isOk (build := build) (names := archive.fileNames hash) (mt fileNames_mem.1 hn)
  rw [load_eq_loadRest hps]
  refine loadRest_of_says hv hz hs ((gradientParameters_mem hps).2 (fileNames_nodup hash)) (fun b hb q => ?_) hash'
  rw [(gradientParameters_mem hps).1 q, fileNames_mem]
  exact hg b hb q

end Equistore
