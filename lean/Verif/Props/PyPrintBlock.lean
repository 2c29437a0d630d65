import Verif.Spec.PyPrintBlock
import Verif.Lemmas.PyPrint
import Verif.Props.PyBlock

/-!
# Printing blocks and gradients in Python (C87)
-/

namespace Equistore
open Spec

section
variable {A : Type} [ArrayLike A]

theorem shownList_cons (n : String) (ns : List String) :
    shownList (n :: ns) = "['".toList ++ n.toList ++ "'".toList ++
      (ns.flatMap fun m => ", '".toList ++ m.toList ++ "'".toList) ++ "]".toList := by
  have key : ∀ (x : List Char) (ns : List String),
      List.intercalate ", ".toList (x :: ns.map fun m => "'".toList ++ m.toList ++ "'".toList) =
        x ++ ns.flatMap fun m => ", '".toList ++ m.toList ++ "'".toList := by
    intro x ns
    induction ns generalizing x with
    | nil => simp [List.intercalate]
    | cons m ns ih =>
      rw [List.map_cons, List.intercalate_cons_cons, ih, List.flatMap_cons]
      rw [show ", '".toList = ", ".toList ++ "'".toList from rfl]
      simp only [List.append_assoc]
  unfold shownList
  rw [List.map_cons, key]
  rw [show "['".toList = "[".toList ++ "'".toList from rfl]
  simp only [List.append_assoc]

theorem printNames_eq {names : List String} (h : names ≠ []) : (printNames names).map ("[".toList ++ ·) = .ok (shownList names) := by
  have key : ∀ (n : String) (ns : List String), printNames (n :: ns) = .ok ("'".toList ++ n.toList ++ "'".toList ++
      (ns.flatMap fun m => ", '".toList ++ m.toList ++ "'".toList) ++ "]".toList) := by
    intro n ns
    induction ns generalizing n with
    | nil => simp [printNames]
    | cons m ns ih =>
      have h1 := ih m
      unfold printNames at h1 ⊢
      rw [List.getLast?_cons_cons]
      cases hl : (m :: ns).getLast? with
      | none => simp at hl
      | some last =>
        rw [hl] at h1
        simp only [Except.ok.injEq] at h1 ⊢
        rw [List.dropLast_cons_cons, List.flatMap_cons, List.flatMap_cons]
        simp only [List.append_assoc] at h1 ⊢
        rw [h1]
        rw [show "', ".toList = "'".toList ++ ", ".toList from rfl, show ", '".toList = ", ".toList ++ "'".toList from rfl]
        simp only [List.append_assoc]
  cases names with
  | nil => exact absurd rfl h
  | cons n ns =>
    rw [key, shownList_cons, show "['".toList = "[".toList ++ "'".toList from rfl]
    simp [Except.map]

theorem printNames_ok {names : List String} (h : names ≠ []) :
    ∃ text, printNames names = .ok text ∧ "[".toList ++ text = shownList names := by
  have := printNames_eq h
  cases hp : printNames names with
  | error e => rw [hp] at this; cases this
  | ok text => rw [hp] at this; exact ⟨text, rfl, by cases this; rfl⟩

theorem printComponents_eq (s : List Char) (components : List PyLabels) (h : ∀ c ∈ components, c.names ≠ []) :
    printComponents (s ++ "[".toList) components = s ++ shownList (components.flatMap (·.names)) ++ "\n".toList := by
  have hinner : ∀ (names : List String) (s : List Char),
      names.foldl (fun s name => s ++ "'".toList ++ name.toList ++ "', ".toList) s =
        s ++ names.flatMap fun n => "'".toList ++ n.toList ++ "', ".toList := by
    intro names
    induction names with
    | nil => intro s; simp
    | cons n names ih => intro s; rw [List.foldl_cons, ih, List.flatMap_cons]; simp only [List.append_assoc]
  have houter : ∀ (components : List PyLabels) (s : List Char),
      components.foldl (fun s ic => ic.names.foldl (fun s name => s ++ "'".toList ++ name.toList ++ "', ".toList) s) s =
        s ++ (components.flatMap (·.names)).flatMap fun n => "'".toList ++ n.toList ++ "', ".toList := by
    intro components
    induction components with
    | nil => intro s; simp
    | cons c cs ih =>
      intro s
      rw [List.foldl_cons, ih, hinner, List.flatMap_cons, List.flatMap_append]
      simp only [List.append_assoc]
  have hdrop : ∀ (n : String) (ns : List String),
      ((n :: ns).flatMap fun n => "'".toList ++ n.toList ++ "', ".toList) =
        "'".toList ++ n.toList ++ "'".toList ++ (ns.flatMap fun m => ", '".toList ++ m.toList ++ "'".toList) ++ ", ".toList := by
    intro n ns
    induction ns generalizing n with
    | nil => simp
    | cons m ns ih =>
      rw [List.flatMap_cons, ih, List.flatMap_cons]
      rw [show "', ".toList = "'".toList ++ ", ".toList from rfl, show ", '".toList = ", ".toList ++ "'".toList from rfl]
      simp only [List.append_assoc]
  unfold printComponents
  simp only [houter]
  cases components with
  | nil => simp [shownList, List.intercalate]
  | cons c cs =>
    rw [if_pos (by simp)]
    obtain ⟨n, ns, hn⟩ := List.exists_cons_of_ne_nil (h c (by simp))
    rw [List.flatMap_cons, hn, List.cons_append, hdrop, shownList_cons]
    have h2 : ∀ x : List Char, (x ++ ", ".toList).dropLast.dropLast = x := by
      intro x
      rw [show ", ".toList = [','] ++ [' '] from rfl, ← List.append_assoc, List.dropLast_concat, List.dropLast_concat]
    rw [← List.append_assoc, h2]
    rw [show "['".toList = "[".toList ++ "'".toList from rfl, show "]\n".toList = "]".toList ++ "\n".toList from rfl]
    simp only [List.append_assoc]

theorem names_of_shows {vs : List PyLabels} {ls : List Labels} (h : List.Forall₂ ShowsLabels vs ls) :
    vs.flatMap (·.names) = ls.flatMap (·.names) := by
  induction h with
  | nil => rfl
  | cons h _ ih => rw [List.flatMap_cons, List.flatMap_cons, h.1, ih]

theorem names_ne_of_shows {vs : List PyLabels} {ls : List Labels} (h : List.Forall₂ ShowsLabels vs ls)
    (hl : ∀ l ∈ ls, l.names ≠ []) : ∀ v ∈ vs, v.names ≠ [] := by
  induction h with
  | nil => simp
  | cons h _ ih =>
    intro v hv
    rcases List.mem_cons.1 hv with rfl | hv
    · rw [h.1]; exact hl _ (by simp)
    · exact ih (fun l hl' => hl l (by simp [hl'])) v hv

/-- **C87.** Printing a block never fails, and shows the names of its samples, components, properties and gradients. -/
theorem C87_block (b : TensorBlock A) (hb : BlockValid b) (hnul : ∀ p ∈ b.gradients.map Prod.fst, '\x00' ∉ p.toList) :
    pyReprBlock b = .ok (blockText b.values.samples.names (componentNames b.values) b.values.properties.names
      b.gradientParameters) := by
  obtain ⟨⟨v, h1, h2⟩, ⟨vs, h3, h4⟩, ⟨w, h5, h6⟩, -⟩ := C84_shown b hb "values" (by decide) _ (.inl ⟨rfl, rfl⟩)
  have hne := hb.values.names_ne
  have hg := (C84_gradients b hb hnul).1
  obtain ⟨ts, e1, e2⟩ := printNames_ok (names := v.names) (by rw [h2.1]; exact hne _ (by simp [allLabels]))
  obtain ⟨tp, e3, e4⟩ := printNames_ok (names := w.names) (by rw [h6.1]; exact hne _ (by simp [allLabels]))
  have hc := names_ne_of_shows h4 fun l hl => hne l (by simp [allLabels, hl])
  unfold pyReprBlock
  simp only [h1, h3, h5, hg, e1, e3, bind, Except.bind, pure, Except.pure]
  rw [show "    component: [".toList = "    component: ".toList ++ "[".toList from rfl, ← List.append_assoc,
    printComponents_eq _ _ hc, names_of_shows h4]
  have hs : "    samples: [".toList = "    samples: ".toList ++ "[".toList := rfl
  have hp : "    properties: [".toList = "    properties: ".toList ++ "[".toList := rfl
  unfold blockText
  rw [← h2.1, ← h6.1, ← e2, ← e4, hs, hp]
  have n1 : "TensorBlock\n".toList = "TensorBlock".toList ++ "\n".toList := rfl
  have n2 : "\n    samples: ".toList = "\n".toList ++ "    samples: ".toList := rfl
  have n3 : "\n    component: ".toList = "\n".toList ++ "    component: ".toList := rfl
  have n4 : "\n    properties: ".toList = "\n".toList ++ "    properties: ".toList := rfl
  have n5 : "\n    gradients: ".toList = "\n".toList ++ "    gradients: ".toList := rfl
  rw [n1, n2, n3, n4, n5]
  by_cases h0 : b.gradientParameters = []
  · rw [if_neg (by simp [h0]), if_pos h0]
    simp only [List.append_assoc, componentNames]
  · obtain ⟨tg, e5, e6⟩ := printNames_ok h0
    rw [if_pos (List.length_pos_iff.2 h0), if_neg h0, e5, ← e6]
    simp only [List.append_assoc, componentNames]

/-- **C87.** Printing a gradient never fails, and shows its parameter and the names of its samples, components and
properties. -/
theorem C87_gradient (b : TensorBlock A) (hb : BlockValid b) (name : String) (h0 : '\x00' ∉ name.toList)
    (basic : BasicBlock A) (hp : BlockPart b name basic) :
    pyReprGradient b name = .ok (gradientText name basic.samples.names (componentNames basic) basic.properties.names) := by
  obtain ⟨⟨v, h1, h2⟩, ⟨vs, h3, h4⟩, ⟨w, h5, h6⟩, -⟩ := C84_shown b hb name h0 basic hp
  have hne := (hp.valid hb).names_ne
  obtain ⟨ts, e1, e2⟩ := printNames_ok (names := v.names) (by rw [h2.1]; exact hne _ (by simp [allLabels]))
  obtain ⟨tp, e3, e4⟩ := printNames_ok (names := w.names) (by rw [h6.1]; exact hne _ (by simp [allLabels]))
  have hc := names_ne_of_shows h4 fun l hl => hne l (by simp [allLabels, hl])
  unfold pyReprGradient
  simp only [h1, h3, h5, e1, e3, bind, Except.bind, pure, Except.pure]
  rw [show "component: [".toList = "component: ".toList ++ "[".toList from rfl, ← List.append_assoc,
    printComponents_eq _ _ hc, names_of_shows h4]
  unfold gradientText
  rw [← h2.1, ← h6.1, ← e2, ← e4]
  rw [show "Gradient TensorBlock \n".toList = "Gradient TensorBlock ".toList ++ "\n".toList from rfl,
    show "\nsamples: ".toList = "\n".toList ++ "samples: ".toList from rfl,
    show "\nparameter: '".toList = "\n".toList ++ "parameter: '".toList from rfl,
    show "\ncomponent: ".toList = "\n".toList ++ "component: ".toList from rfl,
    show "\nproperties: ".toList = "\n".toList ++ "properties: ".toList from rfl,
    show "samples: [".toList = "samples: ".toList ++ "[".toList from rfl,
    show "'\n".toList = "'".toList ++ "\n".toList from rfl,
    show "properties: [".toList = "properties: ".toList ++ "[".toList from rfl]
  simp only [List.append_assoc, componentNames]

/-! ### What the text says -/

/-- Up to the first character `c`. -/
theorem char_split_first {c : Char} {a a' r r' : List Char} (h1 : c ∉ a) (h2 : c ∉ a') (h : a ++ c :: r = a' ++ c :: r') :
    a = a' ∧ r = r' := by
  induction a generalizing a' with
  | nil =>
    cases a' with
    | nil => simpa using h
    | cons d a' =>
      simp only [List.nil_append, List.cons_append, List.cons.injEq] at h
      simp [h.1] at h2
  | cons d a ih =>
    cases a' with
    | nil =>
      simp only [List.nil_append, List.cons_append, List.cons.injEq] at h
      simp [h.1] at h1
    | cons d' a' =>
      simp only [List.cons_append, List.cons.injEq] at h
      simp only [List.mem_cons, not_or] at h1 h2
      obtain ⟨e1, e2⟩ := ih h1.2 h2.2 h.2
      exact ⟨by rw [h.1, e1], e2⟩

/-- From the last character `c`. -/
theorem char_split_last {c : Char} {a a' r r' : List Char} (h1 : c ∉ r) (h2 : c ∉ r') (h : a ++ c :: r = a' ++ c :: r') :
    a = a' ∧ r = r' := by
  have h3 := congrArg List.reverse h
  simp only [List.reverse_append, List.reverse_cons, List.append_assoc, List.singleton_append] at h3
  obtain ⟨e1, e2⟩ := char_split_first (by simpa using h1) (by simpa using h2) h3
  exact ⟨List.reverse_inj.1 e2, List.reverse_inj.1 e1⟩

theorem shownList_split {ns ms : List String} (h1 : ∀ n ∈ ns, '\'' ∉ n.toList) (h2 : ∀ n ∈ ms, '\'' ∉ n.toList)
    {r r' : List Char} (h : shownList ns ++ r = shownList ms ++ r') : ns = ms ∧ r = r' := by
  have tail : ∀ (ns ms : List String), (∀ n ∈ ns, '\'' ∉ n.toList) → (∀ n ∈ ms, '\'' ∉ n.toList) →
      (ns.flatMap fun m => ", '".toList ++ m.toList ++ "'".toList) ++ ']' :: r =
        (ms.flatMap fun m => ", '".toList ++ m.toList ++ "'".toList) ++ ']' :: r' → ns = ms ∧ r = r' := by
    intro ns
    induction ns with
    | nil =>
      intro ms _ _ h
      cases ms with
      | nil => simpa using h
      | cons m ms => simp at h
    | cons n ns ih =>
      intro ms h1 h2 h
      cases ms with
      | nil => simp at h
      | cons m ms =>
        rw [List.flatMap_cons, List.flatMap_cons] at h
        simp only [List.append_assoc] at h
        have h := List.append_cancel_left h
        rw [show "'".toList = ['\''] from rfl, List.singleton_append, List.singleton_append] at h
        obtain ⟨e1, e2⟩ := char_split_first (h1 n (by simp)) (h2 m (by simp)) h
        obtain ⟨e3, e4⟩ := ih ms (fun n hn => h1 n (by simp [hn])) (fun n hn => h2 n (by simp [hn]))
          (by
            rw [show "'".toList = ['\''] from rfl]
            simpa only [List.append_assoc, List.singleton_append, show "]".toList = [']'] from rfl] using e2)
        exact ⟨by rw [String.toList_inj.1 e1, e3], e4⟩
  cases ns with
  | nil =>
    cases ms with
    | nil => exact ⟨rfl, List.append_cancel_left h⟩
    | cons m ms => rw [shownList_cons] at h; simp [shownList, List.intercalate] at h
  | cons n ns =>
    cases ms with
    | nil => rw [shownList_cons] at h; simp [shownList, List.intercalate] at h
    | cons m ms =>
      rw [shownList_cons, shownList_cons] at h
      simp only [List.append_assoc] at h
      have h := List.append_cancel_left h
      rw [show "'".toList = ['\''] from rfl, List.singleton_append, List.singleton_append] at h
      obtain ⟨e1, e2⟩ := char_split_first (h1 n (by simp)) (h2 m (by simp)) h
      obtain ⟨e3, e4⟩ := tail ns ms (fun n hn => h1 n (by simp [hn])) (fun n hn => h2 n (by simp [hn]))
        (by
            rw [show "'".toList = ['\''] from rfl]
            simpa only [List.append_assoc, List.singleton_append, show "]".toList = [']'] from rfl] using e2)
      exact ⟨by rw [String.toList_inj.1 e1, e3], e4⟩

theorem shownList_not_mem {ns : List String} {c : Char} (h : ∀ n ∈ ns, c ∉ n.toList) (h1 : c ∉ "[', ]".toList) :
    c ∉ shownList ns := by
  have hc : c ≠ '[' ∧ c ≠ '\'' ∧ c ≠ ',' ∧ c ≠ ' ' ∧ c ≠ ']' := by simpa using h1
  obtain ⟨c1, c2, c3, c4, c5⟩ := hc
  cases ns with
  | nil => simp [shownList, List.intercalate, c1, c5]
  | cons n ns =>
    rw [shownList_cons]
    simp only [List.mem_append, List.mem_flatMap, not_or, not_exists, not_and]
    have hn := h n (by simp)
    have hns : ∀ m ∈ ns, c ∉ m.toList := fun m hm => h m (by simp [hm])
    simp_all

theorem labels_identifiers {b : BasicBlock A} (hv : BasicValid b) {l : Labels} (hl : l ∈ allLabels b) :
    ∀ n ∈ l.names, Identifier n := fun n hn =>
  (isValidLabelName_iff n).1 (((hv.labels _ hl).wf (hv.names_ne _ hl)).names_ok.1 n hn)

/-- The names of components of a valid block have one name each. -/
theorem componentNames_injective {b b' : BasicBlock A} (h : BasicValid b) (h' : BasicValid b')
    (he : componentNames b = componentNames b') : b.components.map (·.names) = b'.components.map (·.names) := by
  have key : ∀ cs : List Labels, (∀ c ∈ cs, c.names.length = 1) → cs.map (·.names) = (cs.flatMap (·.names)).map fun n => [n] := by
    intro cs
    induction cs with
    | nil => intro _; rfl
    | cons c cs ih =>
      intro h
      obtain ⟨n, hn⟩ := List.length_eq_one_iff.1 (h c (by simp))
      rw [List.map_cons, List.flatMap_cons, hn, ih fun c hc => h c (by simp [hc])]
      rfl
  rw [key _ h.components.1, key _ h'.components.1]
  exact congrArg _ he

theorem BasicValid.names_not_mem {b : BasicBlock A} (hv : BasicValid b) {c : Char} (hc : ¬ IdentRest c) :
    (∀ n ∈ b.samples.names, c ∉ n.toList) ∧ (∀ n ∈ componentNames b, c ∉ n.toList) ∧
      ∀ n ∈ b.properties.names, c ∉ n.toList := by
  refine ⟨fun n hn => identifier_not_mem (labels_identifiers hv (by simp [allLabels]) n hn) hc, fun n hn => ?_,
    fun n hn => identifier_not_mem (labels_identifiers hv (by simp [allLabels]) n hn) hc⟩
  obtain ⟨l, hl, hn⟩ := List.mem_flatMap.1 hn
  exact identifier_not_mem (labels_identifiers hv (l := l) (by simp [allLabels, hl]) n hn) hc

/-- **C87.** If no parameter of a gradient contains a quote, two blocks with the same text have the same names of samples,
components and properties, and the same gradients. Missing: parameters with a quote, see `C87_counterexample`. -/
theorem C87_block_determines_partial (b b' : TensorBlock A) (hb : BlockValid b) (hb' : BlockValid b')
    (hg : ∀ p ∈ b.gradientParameters ++ b'.gradientParameters, '\x00' ∉ p.toList ∧ '\'' ∉ p.toList)
    (text : List Char) (h : pyReprBlock b = .ok text) (h' : pyReprBlock b' = .ok text) :
    SameNames b.values b'.values ∧ b.values.properties.names = b'.values.properties.names ∧
      b.gradientParameters = b'.gradientParameters := by
  rw [C87_block b hb (by rw [← hb.list]; exact fun p hp => (hg p (by simp [hp])).1), Except.ok.injEq] at h
  rw [C87_block b' hb' (by rw [← hb'.list]; exact fun p hp => (hg p (by simp [hp])).1), Except.ok.injEq] at h'
  have he := h.trans h'.symm
  obtain ⟨q1, q2, q3⟩ := BasicValid.names_not_mem hb.values (c := '\'') (by unfold IdentRest IdentStart; decide)
  obtain ⟨q1', q2', q3'⟩ := BasicValid.names_not_mem hb'.values (c := '\'') (by unfold IdentRest IdentStart; decide)
  unfold blockText at he
  simp only [List.append_assoc] at he
  have he := List.append_cancel_left (List.append_cancel_left he)
  obtain ⟨e1, he⟩ := shownList_split q1 q1' he
  obtain ⟨e2, he⟩ := shownList_split q2 q2' (List.append_cancel_left he)
  obtain ⟨e3, he⟩ := shownList_split q3 q3' (List.append_cancel_left he)
  refine ⟨⟨e1, componentNames_injective hb.values hb'.values e2⟩, e3, ?_⟩
  have he := List.append_cancel_left he
  have hno : ∀ ns, shownList ns ≠ "no".toList := by
    intro ns h
    have := congrArg List.head? h
    simp [shownList] at this
  split at he <;> split at he
  · simp_all
  · exact absurd he.symm (hno _)
  · exact absurd he (hno _)
  · have := shownList_split (ns := b.gradientParameters) (ms := b'.gradientParameters) (r := []) (r' := []) (fun n hn => (hg n (by simp [hn])).2) (fun n hn => (hg n (by simp [hn])).2)
      (by rw [List.append_nil, List.append_nil]; exact he)
    exact this.1

/-- **C87.** Two gradients with the same text have the same parameter, and the same names of samples, components and
properties. -/
theorem C87_gradient_determines (b b' : TensorBlock A) (hb : BlockValid b) (hb' : BlockValid b') (name name' : String)
    (h0 : '\x00' ∉ name.toList) (h0' : '\x00' ∉ name'.toList) (g g' : BasicBlock A) (hp : BlockPart b name g)
    (hp' : BlockPart b' name' g') (text : List Char) (h : pyReprGradient b name = .ok text)
    (h' : pyReprGradient b' name' = .ok text) :
    name = name' ∧ SameNames g g' ∧ g.properties.names = g'.properties.names := by
  rw [C87_gradient b hb name h0 g hp, Except.ok.injEq] at h
  rw [C87_gradient b' hb' name' h0' g' hp', Except.ok.injEq] at h'
  have he := h.trans h'.symm
  have hv := hp.valid hb
  have hv' := hp'.valid hb'
  obtain ⟨q1, q2, q3⟩ := BasicValid.names_not_mem hv (c := '\'') (by unfold IdentRest IdentStart; decide)
  obtain ⟨q1', q2', q3'⟩ := BasicValid.names_not_mem hv' (c := '\'') (by unfold IdentRest IdentStart; decide)
  obtain ⟨n1, n2, n3⟩ := BasicValid.names_not_mem hv (c := '\n') (by unfold IdentRest IdentStart; decide)
  obtain ⟨n1', n2', n3'⟩ := BasicValid.names_not_mem hv' (c := '\n') (by unfold IdentRest IdentStart; decide)
  have hchar : '\n' ∉ "[', ]".toList := by decide
  have lastLine : ∀ (a a' : List Char) (title : List Char) (ns ms : List String), '\n' ∉ title →
      (∀ n ∈ ns, '\n' ∉ n.toList) → (∀ n ∈ ms, '\n' ∉ n.toList) → (∀ n ∈ ns, '\'' ∉ n.toList) → (∀ n ∈ ms, '\'' ∉ n.toList) →
      a ++ ('\n' :: title ++ shownList ns) = a' ++ ('\n' :: title ++ shownList ms) → a = a' ∧ ns = ms := by
    intro a a' title ns ms ht m1 m2 m3 m4 h
    obtain ⟨e1, e2⟩ := char_split_last (r := title ++ shownList ns) (r' := title ++ shownList ms)
      (by simp only [List.mem_append, not_or]; exact ⟨ht, shownList_not_mem m1 hchar⟩)
      (by simp only [List.mem_append, not_or]; exact ⟨ht, shownList_not_mem m2 hchar⟩) h
    have e3 := List.append_cancel_left e2
    exact ⟨e1, (shownList_split (r := []) (r' := []) m3 m4 (by rw [List.append_nil, List.append_nil]; exact e3)).1⟩
  unfold gradientText at he
  rw [show "\nproperties: ".toList = '\n' :: "properties: ".toList from rfl,
    show "\ncomponent: ".toList = '\n' :: "component: ".toList from rfl,
    show "\nsamples: ".toList = '\n' :: "samples: ".toList from rfl] at he
  rw [List.append_assoc, List.append_assoc _ ('\n' :: "properties: ".toList)] at he
  obtain ⟨he, e3⟩ := lastLine _ _ _ _ _ (by decide) n3 n3' q3 q3' he
  rw [List.append_assoc, List.append_assoc _ ('\n' :: "component: ".toList)] at he
  obtain ⟨he, e2⟩ := lastLine _ _ _ _ _ (by decide) n2 n2' q2 q2' he
  rw [List.append_assoc, List.append_assoc _ ('\n' :: "samples: ".toList)] at he
  obtain ⟨he, e1⟩ := lastLine _ _ _ _ _ (by decide) n1 n1' q1 q1' he
  have he := List.append_cancel_left (List.append_cancel_right he)
  exact ⟨String.toList_inj.1 he, ⟨e1, componentNames_injective hv hv' e2⟩, e3⟩

end

/-- **C87**, full statement for blocks, for arrays of the library. -/
def C87_full_statement : Prop :=
  ∀ (b b' : TensorBlock NdArray), BlockValid b → BlockValid b' →
    (∀ p ∈ b.gradientParameters ++ b'.gradientParameters, '\x00' ∉ p.toList) →
    ∀ text, pyReprBlock b = .ok text → pyReprBlock b' = .ok text →
      SameNames b.values b'.values ∧ b.values.properties.names = b'.values.properties.names ∧
        b.gradientParameters = b'.gradientParameters

namespace Example

/-- The block with a gradient for each parameter. -/
def withGradients (parameters : List String) : TensorBlock NdArray :=
  parameters.foldl (fun b p => (b.addGradient p gradientData gradientSamples [direction, component]).1) block

theorem withGradients_valid (parameters : List String)
    (h : (⟨Labels.mk' ["k"] [[0]], [withGradients parameters]⟩ : TensorMap NdArray).rebuilds = true) :
    BlockValid (withGradients parameters) :=
  (TensorMap.valid_of_rebuilds h).blocks _ (by simp)

theorem quote_valid : BlockValid (withGradients ["a', 'b"]) := withGradients_valid _ (by decide +kernel)
theorem two_valid : BlockValid (withGradients ["a", "b"]) := withGradients_valid _ (by decide +kernel)

/-- Non-vacuity of `C87_block` and `C87_block_determines_partial`: a block with two gradients. -/
example : BlockValid (withGradients ["a", "b"]) ∧
    (∀ p ∈ (withGradients ["a", "b"]).gradientParameters, '\x00' ∉ p.toList ∧ '\'' ∉ p.toList) ∧
    pyReprBlock (withGradients ["a", "b"]) = .ok ("TensorBlock\n    samples: ['s']\n    component: ['c']\n".toList ++
      "    properties: ['p']\n    gradients: ['a', 'b']".toList) :=
  ⟨two_valid, by decide +kernel, by decide +kernel⟩

/-- Non-vacuity of `C87_gradient` and `C87_gradient_determines`. -/
example : BlockPart gradBlock "g" (gradBlock.gradients.head?.map Prod.snd |>.getD gradBlock.values) ∧
    pyReprGradient gradBlock "g" = .ok ("Gradient TensorBlock \nparameter: 'g'\nsamples: ['sample', 'g']\n".toList ++
      "component: ['d', 'c']\nproperties: ['p']".toList) :=
  ⟨.inr ⟨by decide, by decide +kernel⟩, by decide +kernel⟩

end Example

open Example in
/-- A gradient with the parameter `a', 'b` is printed as two gradients. -/
theorem C87_counterexample : ¬ C87_full_statement := by
  intro h
  have := (h _ _ quote_valid two_valid (by decide +kernel) _ (C87_block _ quote_valid (by decide +kernel))
    (by decide +kernel)).2.2
  exact absurd this (by decide +kernel)

end Equistore
