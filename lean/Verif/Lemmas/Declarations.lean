import Verif.Spec.Declarations

/-! # Lemmas on the declarations used from Python -/

namespace Equistore.Decl

/-- The names known in Python and in C agree, and are of the kind the script expects. -/
structure Agree (penv cenv : Env) : Prop where
  same : ∀ n s, penv.lookup n = some s → cenv.lookup n = some s
  own : ∀ n, isOwn n = false → cenv.lookup n = none
  plain : ∀ n s, cenv.lookup n = some s → adjust s = s

/-- The tags of a type are names of structures or enumerations. -/
def TagsOk (penv : Env) (structs enums : List String) : Prop :=
  (∀ tag ∈ structs, isOwn tag = true ∧ ∀ s, penv.lookup tag = some s → s = .record tag) ∧
  (∀ tag ∈ enums, isOwn tag = true ∧ ∀ s, penv.lookup tag = some s → s = .enumeration tag)

theorem keepIf_some {p : Shape → Bool} {o : Option Shape} {s : Shape}
    (h : o.bind (keepIf p) = some s) : o = some s ∧ p s = true := by
  cases o with
  | none => simp at h
  | some x =>
    simp only [Option.bind_some, keepIf] at h
    split at h
    · simp only [Option.some.injEq] at h; subst h; exact ⟨rfl, by assumption⟩
    · simp at h

theorem own_ne_of {n m : String} (h : isOwn n = true) (hm : isOwn m = false) : n ≠ m := by
  rintro rfl; simp_all

mutual

/-- Comparing shapes. -/
def Shape.same : Shape → Shape → Bool
  | .void, .void => true
  | .char, .char => true
  | .bool, .bool => true
  | .integer s b, .integer s' b' => s == s' && decide (b = b')
  | .floating b, .floating b' => decide (b = b')
  | .pointer s, .pointer s' => s.same s'
  | .function r ps, .function r' ps' => r.same r' && Shape.sames ps ps'
  | .array s n, .array s' n' => s.same s' && n == n'
  | .record n, .record n' => n == n'
  | .enumeration n, .enumeration n' => n == n'
  | _, _ => false

/-- Comparing lists of shapes. -/
def Shape.sames : List Shape → List Shape → Bool
  | [], [] => true
  | s :: ss, s' :: ss' => s.same s' && Shape.sames ss ss'
  | _, _ => false

end

mutual

theorem Shape.eq_of_same : ∀ (s s' : Shape), s.same s' = true → s = s'
  | .void, s', h => by cases s' <;> simp_all [Shape.same]
  | .char, s', h => by cases s' <;> simp_all [Shape.same]
  | .bool, s', h => by cases s' <;> simp_all [Shape.same]
  | .integer _ _, s', h => by cases s' <;> simp_all [Shape.same]
  | .floating _, s', h => by cases s' <;> simp_all [Shape.same]
  | .pointer s, s', h => by
    cases s' <;> simp [Shape.same] at h ⊢
    exact Shape.eq_of_same _ _ h
  | .function r ps, s', h => by
    cases s' <;> simp [Shape.same] at h ⊢
    exact ⟨Shape.eq_of_same _ _ h.1, Shape.eq_of_sames _ _ h.2⟩
  | .array s _, s', h => by
    cases s' <;> simp [Shape.same] at h ⊢
    exact ⟨Shape.eq_of_same _ _ h.1, h.2⟩
  | .record _, s', h => by cases s' <;> simp_all [Shape.same]
  | .enumeration _, s', h => by cases s' <;> simp_all [Shape.same]

theorem Shape.eq_of_sames : ∀ (ss ss' : List Shape), Shape.sames ss ss' = true → ss = ss'
  | [], ss', h => by cases ss' <;> simp_all [Shape.sames]
  | s :: ss, ss', h => by
    cases ss' <;> simp [Shape.sames] at h ⊢
    exact ⟨Shape.eq_of_same _ _ h.1, Shape.eq_of_sames _ _ h.2⟩

end

theorem lookup_mem {β : Type} {α : Type} [BEq α] [LawfulBEq α] {l : List (α × β)} {k : α} {v : β}
    (h : l.lookup k = some v) : (k, v) ∈ l := by
  induction l with
  | nil => simp at h
  | cons p l ih =>
    obtain ⟨a, b⟩ := p
    by_cases hk : k = a
    · subst hk; simp [List.lookup] at h; simp [h]
    · rw [List.lookup_cons, beq_eq_false_iff_ne.2 hk] at h
      exact List.mem_cons_of_mem _ (ih h)

theorem standard_adjust {ws : List String} {s : Shape} (h : standard.lookup ws = some s) :
    adjust s = s := by
  have : ∀ p ∈ standard, (adjust p.2).same p.2 = true := by decide +kernel
  exact Shape.eq_of_same _ _ (this _ (lookup_mem h))

theorem ctypes_standard {n : String} {s s' : Shape} (h : ctypesType.lookup ("c_" ++ n) = some s)
    (h' : standard.lookup [n] = some s') : s = s' := by
  have hall : ∀ p ∈ standard, (match p.1 with
      | [n] => (match ctypesType.lookup ("c_" ++ n) with | some s => s.same p.2 | none => true)
      | _ => true) = true := by decide +kernel
  have := hall _ (lookup_mem h')
  simp only [h] at this
  exact Shape.eq_of_same _ _ this

theorem standard_not_own {w : String} {s : Shape} (h : standard.lookup [w] = some s) :
    isOwn w = false := by
  have hall : ∀ p ∈ standard, (match p.1 with | [n] => !isOwn n | _ => true) = true := by
    decide +kernel
  simpa using hall _ (lookup_mem h)

theorem value_own {penv : Env} {n : String} {s : Shape} (h : isOwn n = true)
    (hv : value penv (cTypeName n) = some s) : penv.lookup n = some s := by
  have hne : n ≠ "c_uintptr_t" := own_ne_of h (by decide +kernel)
  simpa [cTypeName, h, value, hne] using hv

/-- A name is the same type on both sides. -/
theorem value_name {penv cenv : Env} (hA : Agree penv cenv) {t : CType} {n : String}
    {s s' : Shape} (hn : typedeclName t = some n) (hv : value penv (cTypeName n) = some s)
    (hm : meaning cenv t = some s') (ht : TagsOk penv (structTags t) (enumTags t)) :
    s = s' ∧ adjust s' = s' := by
  cases t with
  | struct tag =>
    simp only [typedeclName, Option.some.injEq] at hn; subst hn
    obtain ⟨ho, ht⟩ := ht.1 tag (by simp [structTags])
    simp only [meaning, Option.some.injEq] at hm; subst hm
    exact ⟨ht _ (value_own ho hv), rfl⟩
  | enum tag =>
    simp only [typedeclName, Option.some.injEq] at hn; subst hn
    obtain ⟨ho, ht⟩ := ht.2 tag (by simp [enumTags])
    simp only [meaning, Option.some.injEq] at hm; subst hm
    exact ⟨ht _ (value_own ho hv), rfl⟩
  | ptr to => simp [typedeclName] at hn
  | array of size => simp [typedeclName] at hn
  | func r ps => simp [typedeclName] at hn
  | base ws =>
    match ws, hn with
    | [], hn => simp [typedeclName] at hn
    | _ :: _ :: _, hn => simp [typedeclName] at hn
    | [w], hn =>
      simp only [typedeclName, Option.some.injEq] at hn; subst hn
      by_cases ho : isOwn w = true
      · have h := hA.same _ _ (value_own ho hv)
        simp only [meaning, h, Option.some.injEq] at hm
        subst hm
        exact ⟨rfl, hA.plain _ _ h⟩
      · have ho : isOwn w = false := by simpa using ho
        simp only [meaning, hA.own _ ho] at hm
        refine ⟨?_, standard_adjust hm⟩
        unfold cTypeName at hv
        rw [ho] at hv
        by_cases h1 : w = "uintptr_t"
        · subst h1
          rw [show standard.lookup ["uintptr_t"] = some (.integer false .pointer) from rfl] at hm
          simp [value] at hv; simp_all
        by_cases h2 : w = "void"
        · subst h2
          rw [show standard.lookup ["void"] = some .void from rfl] at hm
          simp [value] at hv; simp_all
        by_cases h3 : w = "int32_t"
        · subst h3
          rw [show standard.lookup ["int32_t"] = some (.integer true (.bytes 4)) from rfl] at hm
          simp [value] at hv
          rw [show ctypesType.lookup "c_int32" = some (.integer true (.bytes 4)) from rfl] at hv
          simp_all
        by_cases h4 : w = "uint32_t"
        · subst h4
          rw [show standard.lookup ["uint32_t"] = some (.integer false (.bytes 4)) from rfl] at hm
          simp [value] at hv
          rw [show ctypesType.lookup "c_uint32" = some (.integer false (.bytes 4)) from rfl] at hv
          simp_all
        by_cases h5 : w = "int64_t"
        · subst h5
          rw [show standard.lookup ["int64_t"] = some (.integer true (.bytes 8)) from rfl] at hm
          simp [value] at hv
          rw [show ctypesType.lookup "c_int64" = some (.integer true (.bytes 8)) from rfl] at hv
          simp_all
        by_cases h6 : w = "uint64_t"
        · subst h6
          rw [show standard.lookup ["uint64_t"] = some (.integer false (.bytes 8)) from rfl] at hm
          simp [value] at hv
          rw [show ctypesType.lookup "c_uint64" = some (.integer false (.bytes 8)) from rfl] at hv
          simp_all
        simp only [h1, h2, h3, h4, h5, h6, beq_iff_eq, if_false, Bool.false_eq_true, value] at hv
        exact ctypes_standard hv hm

/-- Only the type `char` is called `char`; and the same for other names of the language. -/
theorem meaning_word {penv cenv : Env} (hA : Agree penv cenv) {t : CType} {w : String} {s' : Shape}
    (hn : typedeclName t = some w) (hw : isOwn w = false) (hm : meaning cenv t = some s')
    (ht : TagsOk penv (structTags t) (enumTags t)) : standard.lookup [w] = some s' := by
  cases t with
  | struct tag =>
    simp only [typedeclName, Option.some.injEq] at hn; subst hn
    have := (ht.1 tag (by simp [structTags])).1
    simp_all
  | enum tag =>
    simp only [typedeclName, Option.some.injEq] at hn; subst hn
    have := (ht.2 tag (by simp [enumTags])).1
    simp_all
  | ptr to => simp [typedeclName] at hn
  | array of size => simp [typedeclName] at hn
  | func r ps => simp [typedeclName] at hn
  | base ws =>
    match ws, hn with
    | [], hn => simp [typedeclName] at hn
    | _ :: _ :: _, hn => simp [typedeclName] at hn
    | [w'], hn =>
      simp only [typedeclName, Option.some.injEq] at hn; subst hn
      simpa [meaning, hA.own _ hw] using hm

theorem TagsOk.append {penv : Env} {a b c d : List String} (h : TagsOk penv (a ++ b) (c ++ d)) :
    TagsOk penv a c ∧ TagsOk penv b d :=
  ⟨⟨fun t ht => h.1 t (by simp [ht]), fun t ht => h.2 t (by simp [ht])⟩,
   ⟨fun t ht => h.1 t (by simp [ht]), fun t ht => h.2 t (by simp [ht])⟩⟩

/-- Whether it is written as a function type. -/
def CType.isFunc : CType → Bool
  | .func _ _ => true
  | _ => false

theorem meaning_adjust {penv cenv : Env} (hA : Agree penv cenv) {t : CType} {s' : Shape}
    (hm : meaning cenv t = some s') (hf : t.isFunc = false) (ha : t.isArray = false) :
    adjust s' = s' := by
  cases t with
  | struct tag => simp [meaning] at hm; subst hm; rfl
  | enum tag => simp [meaning] at hm; subst hm; rfl
  | ptr to =>
    simp only [meaning, Option.map_eq_some_iff] at hm
    obtain ⟨_, _, rfl⟩ := hm
    rfl
  | array of size => simp [CType.isArray] at ha
  | func r ps => simp [CType.isFunc] at hf
  | base ws =>
    match ws, hm with
    | [], hm => exact standard_adjust (by simpa [meaning] using hm)
    | _ :: _ :: _, hm => exact standard_adjust (by simpa [meaning] using hm)
    | [w], hm =>
      simp only [meaning] at hm
      split at hm
      · rename_i s h
        simp only [Option.some.injEq] at hm; subst hm
        exact hA.plain _ _ h
      · exact standard_adjust hm

/-- A pointer to something with a name. -/
theorem value_ptr_name {penv cenv : Env} (hA : Agree penv cenv) {t : CType} {e : PyExpr}
    {s s' : Shape}
    (he : (match typedeclName t with
      | some name =>
        if name == "void" then some (PyExpr.ctypes "c_void_p")
        else if name == "char" then some (.ctypes "c_char_p")
        else some (.pointer (cTypeName name))
      | none => none) = some e)
    (hv : value penv e = some s) (hm : meaning cenv (.ptr t) = some s')
    (ht : TagsOk penv (structTags t) (enumTags t)) : s = s' := by
  cases hn : typedeclName t with
  | none => simp [hn] at he
  | some name =>
    simp only [hn] at he
    simp only [meaning, Option.map_eq_some_iff] at hm
    obtain ⟨x, hx, rfl⟩ := hm
    by_cases h1 : name = "void"
    · subst h1
      simp at he; subst he
      have := meaning_word hA hn (by decide +kernel) hx ht
      rw [show standard.lookup ["void"] = some .void from rfl] at this
      simp [value] at hv
      rw [show ctypesType.lookup "c_void_p" = some (.pointer .void) from rfl] at hv
      simp_all
    by_cases h2 : name = "char"
    · subst h2
      simp at he; subst he
      have := meaning_word hA hn (by decide +kernel) hx ht
      rw [show standard.lookup ["char"] = some .char from rfl] at this
      simp [value] at hv
      rw [show ctypesType.lookup "c_char_p" = some (.pointer .char) from rfl] at hv
      simp_all
    simp only [beq_iff_eq, h1, h2, if_false, Option.some.injEq] at he
    subst he
    simp only [value, Option.map_eq_some_iff] at hv
    obtain ⟨y, hy, rfl⟩ := hv
    rw [(value_name hA hn (keepIf_some hy).1 hx ht).1]

/-- A pointer to a pointer to something with a name. -/
theorem value_ptr_ptr_name {penv cenv : Env} (hA : Agree penv cenv) {t : CType} {e : PyExpr}
    {s s' : Shape}
    (he : (match typedeclName t with
      | some name =>
        if name == "char" then some (PyExpr.pointer (.ctypes "c_char_p"))
        else some (.pointer (.pointer (cTypeName name)))
      | none => none) = some e)
    (hv : value penv e = some s) (hm : meaning cenv (.ptr (.ptr t)) = some s')
    (ht : TagsOk penv (structTags t) (enumTags t)) : s = s' := by
  cases hn : typedeclName t with
  | none => simp [hn] at he
  | some name =>
    simp only [hn] at he
    simp only [meaning, Option.map_map, Option.map_eq_some_iff, Function.comp] at hm
    obtain ⟨x, hx, rfl⟩ := hm
    by_cases h2 : name = "char"
    · subst h2
      simp at he; subst he
      have := meaning_word hA hn (by decide +kernel) hx ht
      rw [show standard.lookup ["char"] = some .char from rfl] at this
      simp only [value, Option.map_eq_some_iff] at hv
      obtain ⟨y, hy, rfl⟩ := hv
      have hy := (keepIf_some hy).1
      rw [show ctypesType.lookup "c_char_p" = some (.pointer .char) from rfl] at hy
      simp_all
    simp only [beq_iff_eq, h2, if_false, Option.some.injEq] at he
    subst he
    simp only [value, Option.map_eq_some_iff] at hv
    obtain ⟨y, hy, rfl⟩ := hv
    have hy := (keepIf_some hy).1
    simp only [Option.map_eq_some_iff] at hy
    obtain ⟨z, hz, rfl⟩ := hy
    rw [(value_name hA hn (keepIf_some hz).1 hx ht).1]

theorem values_withoutVoid {penv : Env} : ∀ {es : List PyExpr} {ss : List Shape},
    values penv es = some ss → withoutVoid ss = ss := by
  intro es ss h
  match ss, h with
  | [], _ => rfl
  | a :: b :: c, _ => cases a <;> rfl
  | [a], h =>
    cases a <;> try rfl
    match es, h with
    | [], h => simp [values] at h
    | e :: es, h =>
      simp only [values] at h
      split at h
      · rename_i s ss hs hss
        simp only [Option.some.injEq, List.cons.injEq] at h
        obtain ⟨rfl, rfl⟩ := h
        exact absurd (keepIf_some hs).2 (by simp [isCtypes])
      · simp at h

/-- Function pointers, from what is known of the result and of the parameters. -/
theorem value_func {penv cenv : Env} {r : CType} {ps : List CType} {e : PyExpr} {s f : Shape}
    (hr : ∀ e s s', typeToCtypes r = some e → value penv e = some s → meaning cenv r = some s' →
      r.isFunc = false → s = s')
    (hps : ∀ es ss ss', typesToCtypes ps = some es → values penv es = some ss →
      parametersMeaning cenv ps = some ss' → ss = ss')
    (he : (match typeToCtypes r, typesToCtypes ps with
      | some r, some ps => some (PyExpr.cfunctype r ps)
      | _, _ => none) = some e)
    (hv : value penv e = some s) (hm : meaning cenv (.func r ps) = some f) : s = .pointer f := by
  split at he
  · rename_i r' ps' h1 h2
    simp only [Option.some.injEq] at he; subst he
    simp only [value] at hv
    split at hv
    · rename_i sr sps h3 h4
      simp only [Option.some.injEq] at hv; subst hv
      simp only [meaning] at hm
      split at hm
      · rename_i cr cps h5 h6
        simp only [Option.some.injEq] at hm; subst hm
        have hres := keepIf_some h5
        have hrf : r.isFunc = false := by
          cases r <;> try rfl
          simp only [meaning] at hres
          split at hres
          · obtain ⟨h, h'⟩ := hres
            simp only [Option.some.injEq] at h; subst h
            simp [isResult] at h'
          · simp at hres
        rw [hr _ _ _ h1 (keepIf_some h3).1 hres.1 hrf]
        have := hps _ _ _ h2 h4 h6
        subst this
        rw [values_withoutVoid h4]
      · simp at hm
    · simp at hv
  · simp at he

mutual

/-- Types mean the same on both sides. -/
theorem value_type {penv cenv : Env} (hA : Agree penv cenv) : ∀ (t : CType) {e : PyExpr}
    {s s' : Shape}, typeToCtypes t = some e → value penv e = some s → meaning cenv t = some s' →
    noArrays t = true → TagsOk penv (structTags t) (enumTags t) → t.isFunc = false → s = s'
  | .base [], e, s, s', he, hv, hm, hna, ht, hf => by simp [typeToCtypes] at he
  | .base (_ :: _ :: _), e, s, s', he, hv, hm, hna, ht, hf => by simp [typeToCtypes] at he
  | .base [w], e, s, s', he, hv, hm, hna, ht, hf => by
    simp only [typeToCtypes, Option.some.injEq] at he; subst he
    exact (value_name hA rfl hv hm ht).1
  | .struct tag, e, s, s', he, hv, hm, hna, ht, hf => by
    simp only [typeToCtypes, Option.some.injEq] at he; subst he
    exact (value_name hA rfl hv hm ht).1
  | .enum tag, e, s, s', he, hv, hm, hna, ht, hf => by
    simp only [typeToCtypes, Option.some.injEq] at he; subst he
    exact (value_name hA rfl hv hm ht).1
  | .func r ps, e, s, s', he, hv, hm, hna, ht, hf => by simp [CType.isFunc] at hf
  | .array of size, e, s, s', he, hv, hm, hna, ht, hf => by
    simp only [typeToCtypes] at he
    split at he
    · rename_i e' n h1
      simp only [Option.some.injEq] at he; subst he
      simp only [value, Option.map_eq_some_iff] at hv
      obtain ⟨x, hx, rfl⟩ := hv
      simp only [meaning] at hm
      split at hm
      · rename_i y n' h2 h3
        simp only [Option.some.injEq] at hm; subst hm
        simp only [Option.some.injEq] at h3; subst h3
        have hy := keepIf_some h2
        have hof : of.isFunc = false := by
          cases of <;> try rfl
          simp only [meaning] at hy
          split at hy
          · obtain ⟨h, h'⟩ := hy
            simp only [Option.some.injEq] at h; subst h
            simp [isObject] at h'
          · simp at hy
        rw [value_type hA of h1 (keepIf_some hx).1 hy.1 (by simpa [noArrays] using hna)
          (by simpa [structTags, enumTags] using ht) hof]
      · simp at hm
    · simp at he
  | .ptr (.base ws), e, s, s', he, hv, hm, hna, ht, hf => by
    simp only [typeToCtypes] at he
    exact value_ptr_name hA he hv hm (by simpa [structTags, enumTags] using ht)
  | .ptr (.struct tag), e, s, s', he, hv, hm, hna, ht, hf => by
    simp only [typeToCtypes] at he
    exact value_ptr_name hA he hv hm (by simpa [structTags, enumTags] using ht)
  | .ptr (.enum tag), e, s, s', he, hv, hm, hna, ht, hf => by
    simp only [typeToCtypes] at he
    exact value_ptr_name hA he hv hm (by simpa [structTags, enumTags] using ht)
  | .ptr (.array of size), e, s, s', he, hv, hm, hna, ht, hf => by
    simp [typeToCtypes, typedeclName] at he
  | .ptr (.func r ps), e, s, s', he, hv, hm, hna, ht, hf => by
    simp only [typeToCtypes] at he
    simp only [structTags, enumTags] at ht
    simp only [noArrays, Bool.and_eq_true] at hna
    have hm' := hm
    rw [meaning, Option.map_eq_some_iff] at hm'
    obtain ⟨f, hf', rfl⟩ := hm'
    exact value_func
      (fun e s s' h1 h2 h3 h4 => value_type hA r h1 h2 h3 hna.1 ht.append.1 h4)
      (fun es ss ss' h1 h2 h3 => values_types hA ps h1 h2 h3 hna.2 ht.append.2) he hv hf'
  | .ptr (.ptr (.base ws)), e, s, s', he, hv, hm, hna, ht, hf => by
    simp only [typeToCtypes] at he
    exact value_ptr_ptr_name hA he hv hm (by simpa [structTags, enumTags] using ht)
  | .ptr (.ptr (.struct tag)), e, s, s', he, hv, hm, hna, ht, hf => by
    simp only [typeToCtypes] at he
    exact value_ptr_ptr_name hA he hv hm (by simpa [structTags, enumTags] using ht)
  | .ptr (.ptr (.enum tag)), e, s, s', he, hv, hm, hna, ht, hf => by
    simp only [typeToCtypes] at he
    exact value_ptr_ptr_name hA he hv hm (by simpa [structTags, enumTags] using ht)
  | .ptr (.ptr (.array of size)), e, s, s', he, hv, hm, hna, ht, hf => by
    simp [typeToCtypes, typedeclName] at he
  | .ptr (.ptr (.func r ps)), e, s, s', he, hv, hm, hna, ht, hf => by
    simp [typeToCtypes, typedeclName] at he
  | .ptr (.ptr (.ptr t)), e, s, s', he, hv, hm, hna, ht, hf => by
    simp only [typeToCtypes] at he
    cases hn : typedeclName t with
    | none => simp [hn] at he
    | some name =>
      simp only [hn] at he
      by_cases h2 : name = "char"
      · subst h2
        simp only [beq_self_eq_true, if_true, Option.some.injEq] at he; subst he
        simp only [meaning, Option.map_map, Option.map_eq_some_iff, Function.comp] at hm
        obtain ⟨x, hx, rfl⟩ := hm
        have := meaning_word hA hn (by decide +kernel) hx (by simpa [structTags, enumTags] using ht)
        rw [show standard.lookup ["char"] = some .char from rfl] at this
        simp only [value, Option.map_eq_some_iff] at hv
        obtain ⟨y, hy, rfl⟩ := hv
        have hy := (keepIf_some hy).1
        simp only [Option.map_eq_some_iff] at hy
        obtain ⟨z, hz, rfl⟩ := hy
        have hz := (keepIf_some hz).1
        rw [show ctypesType.lookup "c_char_p" = some (.pointer .char) from rfl] at hz
        simp_all
      · simp [h2] at he

/-- Parameters of function pointers mean the same on both sides. -/
theorem values_types {penv cenv : Env} (hA : Agree penv cenv) : ∀ (ts : List CType)
    {es : List PyExpr} {ss ss' : List Shape}, typesToCtypes ts = some es →
    values penv es = some ss → parametersMeaning cenv ts = some ss' → noArrayParameters ts = true →
    TagsOk penv (structTagsList ts) (enumTagsList ts) → ss = ss'
  | [], es, ss, ss', he, hv, hm, hna, ht => by
    simp only [typesToCtypes, Option.some.injEq] at he; subst he
    simp only [values, Option.some.injEq] at hv; subst hv
    simpa [parametersMeaning] using hm
  | t :: ts, es, ss, ss', he, hv, hm, hna, ht => by
    simp only [typesToCtypes] at he
    split at he
    · rename_i e es' h1 h2
      simp only [Option.some.injEq] at he; subst he
      simp only [values] at hv
      split at hv
      · rename_i s ss1 h3 h4
        simp only [Option.some.injEq] at hv; subst hv
        simp only [parametersMeaning] at hm
        split at hm
        · rename_i s' ss2 h5 h6
          simp only [Option.some.injEq] at hm; subst hm
          simp only [structTagsList, enumTagsList] at ht
          simp only [noArrayParameters, Bool.and_eq_true] at hna
          have htail := values_types hA ts h2 h4 h6 hna.2 ht.append.2
          have h3 := (keepIf_some h3).1
          rw [htail]
          congr 1
          match t with
          | .func r ps =>
            simp only [typeToCtypes] at h1
            have ht' := ht.append.1
            simp only [structTags, enumTags] at ht'
            have hna' : noArrays r = true ∧ noArrayParameters ps = true := by
              simpa [noArrays, CType.isArray] using hna.1
            have hp := value_func
              (fun e s s' h1 h2 h3 h4 => value_type hA r h1 h2 h3 hna'.1 ht'.append.1 h4)
              (fun es ss ss' h1 h2 h3 => values_types hA ps h1 h2 h3 hna'.2 ht'.append.2) h1 h3 h5
            rw [hp]
            simp only [meaning] at h5
            split at h5
            · simp only [Option.some.injEq] at h5; subst h5; rfl
            · simp at h5
          | .array of size => simp [CType.isArray] at hna
          | .base ws =>
            rw [meaning_adjust hA h5 rfl rfl]
            exact value_type hA _ h1 h3 h5 rfl ht.append.1 rfl
          | .struct tag =>
            rw [meaning_adjust hA h5 rfl rfl]
            exact value_type hA _ h1 h3 h5 rfl ht.append.1 rfl
          | .enum tag =>
            rw [meaning_adjust hA h5 rfl rfl]
            exact value_type hA _ h1 h3 h5 rfl ht.append.1 rfl
          | .ptr to =>
            rw [meaning_adjust hA h5 rfl rfl]
            exact value_type hA _ h1 h3 h5 hna.1.2 ht.append.1 rfl
        · simp at hm
      · simp at hv
    · simp at he

end

/-! ## The names of a header -/

mutual

theorem meaning_mono {env env' : Env} (hsub : ∀ n s, env.lookup n = some s → env'.lookup n = some s)
    (hown : ∀ n, isOwn n = false → env'.lookup n = none) : ∀ (t : CType) {s : Shape},
    meaning env t = some s → meaning env' t = some s
  | .base [], s, h => by simpa [meaning] using h
  | .base (_ :: _ :: _), s, h => by simpa [meaning] using h
  | .base [w], s, h => by
    simp only [meaning] at h ⊢
    split at h
    · rename_i x hx
      rw [hsub _ _ hx]; exact h
    · rw [hown _ (standard_not_own h)]; exact h
  | .struct tag, s, h => by simpa [meaning] using h
  | .enum tag, s, h => by simpa [meaning] using h
  | .ptr to, s, h => by
    simp only [meaning, Option.map_eq_some_iff] at h ⊢
    obtain ⟨x, hx, rfl⟩ := h
    exact ⟨x, meaning_mono hsub hown to hx, rfl⟩
  | .array of size, s, h => by
    simp only [meaning] at h ⊢
    split at h
    · rename_i x n hx
      obtain ⟨h1, h2⟩ := keepIf_some hx
      rw [meaning_mono hsub hown of h1]
      simpa [keepIf, h2] using h
    · simp at h
  | .func r ps, s, h => by
    simp only [meaning] at h ⊢
    split at h
    · rename_i x y hx hy
      obtain ⟨h1, h2⟩ := keepIf_some hx
      rw [meaning_mono hsub hown r h1, parametersMeaning_mono hsub hown ps hy]
      simpa [keepIf, h2] using h
    · simp at h

theorem parametersMeaning_mono {env env' : Env}
    (hsub : ∀ n s, env.lookup n = some s → env'.lookup n = some s)
    (hown : ∀ n, isOwn n = false → env'.lookup n = none) : ∀ (ts : List CType) {ss : List Shape},
    parametersMeaning env ts = some ss → parametersMeaning env' ts = some ss
  | [], ss, h => by simpa [parametersMeaning] using h
  | t :: ts, ss, h => by
    simp only [parametersMeaning] at h ⊢
    split at h
    · rename_i x y hx hy
      rw [meaning_mono hsub hown t hx, parametersMeaning_mono hsub hown ts hy]
      exact h
    · simp at h

end

/-- What is known of the `typedef`s of a header. -/
structure Known (ds : List Declaration) (env fin : Env) : Prop where
  sub : ∀ n s, env.lookup n = some s → fin.lookup n = some s
  own : ∀ n, isOwn n = false → fin.lookup n = none
  plain : ∀ n s, fin.lookup n = some s → adjust s = s
  typedef : ∀ n t, Declaration.typedef n t ∈ ds →
    ∃ s, fin.lookup n = some s ∧ meaning fin t = some s
  struct : ∀ n tag ms, Declaration.typedefStruct n tag ms ∈ ds →
    fin.lookup n = some (.record (tag.getD n))
  enum : ∀ n tag vs, Declaration.typedefEnum n tag vs ∈ ds →
    fin.lookup n = some (.enumeration (tag.getD n))

theorem lookup_cons_self {n : String} {s : Shape} {env : Env} :
    List.lookup n ((n, s) :: env) = some s := by simp [List.lookup]

theorem lookup_cons_ne {n m : String} {s : Shape} {env : Env} (h : m ≠ n) :
    List.lookup m ((n, s) :: env) = env.lookup m := by
  rw [List.lookup_cons, beq_eq_false_iff_ne.2 h]

theorem sub_cons {n : String} {s : Shape} {env : Env} (h : env.lookup n = none) :
    ∀ m x, env.lookup m = some x → List.lookup m ((n, s) :: env) = some x := by
  intro m x hm
  rw [lookup_cons_ne]
  · exact hm
  · rintro rfl; simp_all

theorem own_cons {n : String} {s : Shape} {env : Env} (h : isOwn n = true)
    (ho : ∀ m, isOwn m = false → env.lookup m = none) :
    ∀ m, isOwn m = false → List.lookup m ((n, s) :: env) = none := by
  intro m hm
  rw [lookup_cons_ne]
  · exact ho m hm
  · rintro rfl; simp_all

theorem plain_cons {n : String} {s : Shape} {env : Env} (h : adjust s = s)
    (hp : ∀ m x, env.lookup m = some x → adjust x = x) :
    ∀ m x, List.lookup m ((n, s) :: env) = some x → adjust x = x := by
  intro m x hm
  by_cases hmn : m = n
  · subst hmn; rw [lookup_cons_self] at hm; simp only [Option.some.injEq] at hm; exact hm ▸ h
  · rw [lookup_cons_ne hmn] at hm; exact hp _ _ hm

theorem known : ∀ (ds : List Declaration) {env fin : Env}, typedefs ds env = some fin →
    (typedefNames ds).Nodup → (∀ n ∈ typedefNames ds, isOwn n = true) →
    (∀ n ∈ typedefNames ds, env.lookup n = none) →
    (∀ n t, Declaration.typedef n t ∈ ds → simpleTypedef n t = true) →
    (∀ n, isOwn n = false → env.lookup n = none) →
    (∀ n s, env.lookup n = some s → adjust s = s) → Known ds env fin := by
  intro ds
  induction ds with
  | nil =>
    intro env fin h _ _ _ _ ho hp
    simp only [typedefs, Option.some.injEq] at h; subst h
    exact ⟨fun _ _ h => h, ho, hp, by simp, by simp, by simp⟩
  | cons d ds ih =>
    intro env fin h hnd hown hdis hs ho hp
    have step : ∀ (n : String) (x : Shape), adjust x = x → typedefNames (d :: ds) = n :: typedefNames ds →
        typedefs ds ((n, x) :: env) = some fin →
        Known ds ((n, x) :: env) fin ∧ env.lookup n = none := by
      intro n x hx hn hf
      rw [hn] at hnd hown hdis
      have hnone := hdis n (by simp)
      refine ⟨ih hf (List.nodup_cons.1 hnd).2 (fun m hm => hown m (by simp [hm])) ?_
        (fun m t hm => hs m t (by simp [hm])) (own_cons (hown n (by simp)) ho) (plain_cons hx hp), hnone⟩
      intro m hm
      rw [lookup_cons_ne]
      · exact hdis m (by simp [hm])
      · rintro rfl; exact (List.nodup_cons.1 hnd).1 hm
    match d, h with
    | .typedef n t, h =>
      simp only [typedefs] at h
      split at h
      · rename_i x hx
        have hsimple := hs n t (by simp)
        have hxp : adjust x = x := by
          match t, hx, hsimple with
          | .base [w], hx, _ =>
            simp only [meaning] at hx
            split at hx
            · rename_i y hy
              simp only [Option.some.injEq] at hx; subst hx; exact hp _ _ hy
            · exact standard_adjust hx
          | .base (w :: w' :: ws), hx, _ => exact standard_adjust hx
          | .base [], _, h0 => exact absurd h0 (by simp [simpleTypedef, firstWordIsEnough])
          | .struct _, hx, _ => simp only [meaning, Option.some.injEq] at hx; subst hx; rfl
          | .ptr _, hx, _ =>
            simp only [meaning, Option.map_eq_some_iff] at hx
            obtain ⟨_, _, rfl⟩ := hx; rfl
        obtain ⟨k, hnone⟩ := step n x hxp rfl h
        refine ⟨fun m s hm => k.sub _ _ (sub_cons hnone _ _ hm), k.own, k.plain, ?_, ?_, ?_⟩
        · intro m t' hm
          rcases List.mem_cons.1 hm with hm | hm
          · simp only [Declaration.typedef.injEq] at hm
            obtain ⟨rfl, rfl⟩ := hm
            exact ⟨x, k.sub _ _ lookup_cons_self,
              meaning_mono (fun m s hm => k.sub _ _ (sub_cons hnone _ _ hm)) k.own _ hx⟩
          · exact k.typedef m t' hm
        · intro m tag ms hm; exact k.struct m tag ms (by simpa using hm)
        · intro m tag ms hm; exact k.enum m tag ms (by simpa using hm)
      · simp at h
    | .typedefStruct n tag ms, h =>
      simp only [typedefs] at h
      obtain ⟨k, hnone⟩ := step n _ rfl rfl h
      refine ⟨fun m s hm => k.sub _ _ (sub_cons hnone _ _ hm), k.own, k.plain, ?_, ?_, ?_⟩
      · intro m t hm; exact k.typedef m t (by simpa using hm)
      · intro m tag' ms' hm
        rcases List.mem_cons.1 hm with hm | hm
        · simp only [Declaration.typedefStruct.injEq] at hm
          obtain ⟨rfl, rfl, rfl⟩ := hm
          exact k.sub _ _ lookup_cons_self
        · exact k.struct m tag' ms' hm
      · intro m tag ms hm; exact k.enum m tag ms (by simpa using hm)
    | .typedefEnum n tag vs, h =>
      simp only [typedefs] at h
      obtain ⟨k, hnone⟩ := step n _ rfl rfl h
      refine ⟨fun m s hm => k.sub _ _ (sub_cons hnone _ _ hm), k.own, k.plain, ?_, ?_, ?_⟩
      · intro m t hm; exact k.typedef m t (by simpa using hm)
      · intro m tag ms hm; exact k.struct m tag ms (by simpa using hm)
      · intro m tag' ms' hm
        rcases List.mem_cons.1 hm with hm | hm
        · simp only [Declaration.typedefEnum.injEq] at hm
          obtain ⟨rfl, rfl, rfl⟩ := hm
          exact k.sub _ _ lookup_cons_self
        · exact k.enum m tag' ms' hm
    | .function n r as, h =>
      simp only [typedefs] at h
      have k := ih h hnd hown hdis (fun m t hm => hs m t (by simp [hm])) ho hp
      exact ⟨k.sub, k.own, k.plain, fun m t hm => k.typedef m t (by simpa using hm),
        fun m a b hm => k.struct m a b (by simpa using hm),
        fun m a b hm => k.enum m a b (by simpa using hm)⟩
    | .variable_ n t, h =>
      simp only [typedefs] at h
      have k := ih h hnd hown hdis (fun m t hm => hs m t (by simp [hm])) ho hp
      exact ⟨k.sub, k.own, k.plain, fun m t hm => k.typedef m t (by simpa using hm),
        fun m a b hm => k.struct m a b (by simpa using hm),
        fun m a b hm => k.enum m a b (by simpa using hm)⟩

/-! ## What the visitor keeps -/

theorem setItem_new {β : Type} {d : List (String × β)} {k : String} {v : β}
    (h : k ∉ d.map (·.1)) : setItem d k v = d ++ [(k, v)] := by
  unfold setItem
  rw [if_neg]
  simp only [List.any_eq_true, beq_iff_eq, not_exists, not_and]
  intro p hp hk
  exact h (hk ▸ List.mem_map.2 ⟨p, hp, rfl⟩)

theorem foldl_setItem {β : Type} : ∀ (ms d : List (String × β)),
    (ms.map (·.1)).Nodup → (∀ m ∈ ms, m.1 ∉ d.map (·.1)) →
    ms.foldl (fun d p => setItem d p.1 p.2) d = d ++ ms := by
  intro ms
  induction ms with
  | nil => simp
  | cons m ms ih =>
    intro d hnd hdis
    simp only [List.map_cons, List.nodup_cons] at hnd
    rw [List.foldl_cons, setItem_new (hdis m (by simp)), ih _ hnd.2]
    · simp
    · intro x hx
      simp only [List.map_append, List.map_cons, List.map_nil, List.mem_append, List.mem_singleton,
        not_or]
      refine ⟨hdis x (by simp [hx]), fun he => hnd.1 (he ▸ List.mem_map.2 ⟨x, hx, rfl⟩)⟩

/-- The types of a header that are put aside. -/
def nodesOf (header : List Declaration) : List (String × Node) :=
  header.filterMap fun d => match d with
    | .typedef _ (.struct _) => none
    | .typedef name (.base ws) => some (name, .words ws)
    | .typedef name (.ptr to) => some (name, .type to)
    | .typedef name (.array of _) => some (name, .type of)
    | .typedef name (.func r _) => some (name, .type r)
    | _ => none

/-- The names of the enumerations of a header. -/
def enumNamesOf (header : List Declaration) : List String :=
  header.filterMap fun d => match d with
    | .typedefEnum name _ _ => some name
    | _ => none

theorem visited : ∀ (ds : List Declaration) {v v' : Visitor}, ds.foldlM visit v = some v' →
    (typedefNames ds).Nodup → (∀ n ∈ typedefNames ds, isOwn n = true) →
    (∀ n ∈ typedefNames ds, n ∉ v.types.map (·.1)) →
    (∀ n tag ms, Declaration.typedefStruct n tag ms ∈ ds → (ms.map (·.1)).Nodup) →
    v'.types = v.types ++ nodesOf ds ∧ v'.structs = v.structs ++ structsOf ds ∧
    v'.enums.map (·.1) = v.enums.map (·.1) ++ enumNamesOf ds ∧
    v'.functions.map (fun f => (f.1, f.2.1, some f.2.2)) =
      v.functions.map (fun f => (f.1, f.2.1, some f.2.2)) ++ functionsOf ds := by
  intro ds
  induction ds with
  | nil =>
    intro v v' h _ _ _ _
    simp only [List.foldlM_nil] at h
    cases h
    simp [nodesOf, structsOf, enumNamesOf, functionsOf]
  | cons d ds ih =>
    intro v v' h hnd hown hdis hmem
    simp only [List.foldlM_cons] at h
    cases hv : visit v d with
    | none => simp [hv] at h
    | some v1 =>
      rw [hv] at h
      have h : ds.foldlM visit v1 = some v' := h
      have hmem' : ∀ n tag ms, Declaration.typedefStruct n tag ms ∈ ds → (ms.map (·.1)).Nodup :=
        fun n tag ms hm => hmem n tag ms (by simp [hm])
      match d, hv with
      | .function name r args, hv =>
        simp only [visit] at hv
        by_cases ho : isOwn name = true
        · rw [if_pos ho] at hv
          cases args with
          | none => simp at hv
          | some as =>
            simp only [Option.some.injEq] at hv; subst hv
            obtain ⟨h1, h2, h3, h4⟩ := ih h hnd hown hdis hmem'
            refine ⟨h1, h2, h3, ?_⟩
            rw [h4]
            simp [functionsOf, ho]
        · rw [if_neg ho] at hv
          simp only [Option.some.injEq] at hv; subst hv
          obtain ⟨h1, h2, h3, h4⟩ := ih h hnd hown hdis hmem'
          refine ⟨h1, h2, h3, ?_⟩
          rw [h4]
          simp [functionsOf, ho]
      | .variable_ name t, hv =>
        simp only [visit] at hv
        by_cases ho : isOwn name = true
        · simp [ho] at hv
        · rw [if_neg ho] at hv
          simp only [Option.some.injEq] at hv; subst hv
          exact ih h hnd hown hdis hmem'
      | .typedefEnum name tag values, hv =>
        simp only [typedefNames] at hnd hown hdis
        simp only [visit, hown name (by simp), if_true] at hv
        split at hv
        · simp only [Option.some.injEq] at hv; subst hv
          obtain ⟨h1, h2, h3, h4⟩ := ih h (List.nodup_cons.1 hnd).2
            (fun n hn => hown n (List.mem_cons_of_mem _ hn))
            (fun n hn => hdis n (List.mem_cons_of_mem _ hn)) hmem'
          refine ⟨h1, h2, ?_, h4⟩
          rw [h3]
          simp [enumNamesOf]
        · simp at hv
      | .typedefStruct name tag members, hv =>
        simp only [typedefNames] at hnd hown hdis
        have ho := hown name (by simp)
        simp only [visit, ho, if_true, Option.some.injEq] at hv
        subst hv
        obtain ⟨h1, h2, h3, h4⟩ := ih h (List.nodup_cons.1 hnd).2
          (fun n hn => hown n (List.mem_cons_of_mem _ hn))
          (fun n hn => hdis n (List.mem_cons_of_mem _ hn)) hmem'
        refine ⟨h1, ?_, h3, h4⟩
        rw [h2, foldl_setItem _ _ (hmem name tag members (by simp)) (by simp)]
        simp [structsOf, ho]
      | .typedef name t, hv =>
        simp only [typedefNames] at hnd hown hdis
        have ho := hown name (by simp)
        simp only [visit, ho, if_true] at hv
        have hnew : ∀ node : Node, setItem v.types name node = v.types ++ [(name, node)] :=
          fun node => setItem_new (hdis name (by simp))
        have hrest : ∀ node : Node, ∀ n ∈ typedefNames ds, n ∉ (v.types ++ [(name, node)]).map (·.1) := by
          intro node n hn
          simp only [List.map_append, List.map_cons, List.map_nil, List.mem_append,
            List.mem_singleton, not_or]
          refine ⟨hdis n (List.mem_cons_of_mem _ hn), ?_⟩
          rintro rfl
          exact (List.nodup_cons.1 hnd).1 hn
        have hnd' := (List.nodup_cons.1 hnd).2
        have hown' : ∀ n ∈ typedefNames ds, isOwn n = true :=
          fun n hn => hown n (List.mem_cons_of_mem _ hn)
        cases t with
        | base ws =>
          simp only [hnew, Option.some.injEq] at hv; subst hv
          obtain ⟨h1, h2, h3, h4⟩ := ih h hnd' hown' (hrest _) hmem'
          exact ⟨by rw [h1]; simp [nodesOf], h2, h3, h4⟩
        | struct tag =>
          simp only [Option.some.injEq] at hv; subst hv
          obtain ⟨h1, h2, h3, h4⟩ := ih h hnd' hown'
            (fun n hn => hdis n (List.mem_cons_of_mem _ hn)) hmem'
          exact ⟨h1, by rw [h2]; simp [structsOf, ho], h3, h4⟩
        | enum tag => simp at hv
        | ptr to =>
          simp only [hnew, Option.some.injEq] at hv; subst hv
          obtain ⟨h1, h2, h3, h4⟩ := ih h hnd' hown' (hrest _) hmem'
          exact ⟨by rw [h1]; simp [nodesOf], h2, h3, h4⟩
        | array of size =>
          simp only [hnew, Option.some.injEq] at hv; subst hv
          obtain ⟨h1, h2, h3, h4⟩ := ih h hnd' hown' (hrest _) hmem'
          exact ⟨by rw [h1]; simp [nodesOf], h2, h3, h4⟩
        | func r ps =>
          simp only [hnew, Option.some.injEq] at hv; subst hv
          obtain ⟨h1, h2, h3, h4⟩ := ih h hnd' hown' (hrest _) hmem'
          exact ⟨by rw [h1]; simp [nodesOf], h2, h3, h4⟩

/-! ## What is imported -/

/-- The names known in Python are known in C. -/
def Sub (penv cenv : Env) : Prop := ∀ n s, penv.lookup n = some s → cenv.lookup n = some s

theorem Sub.cons {penv cenv : Env} {n : String} {s : Shape} (h : Sub penv cenv)
    (hn : cenv.lookup n = some s) : Sub ((n, s) :: penv) cenv := by
  intro m x hm
  by_cases hmn : m = n
  · subst hmn; rw [lookup_cons_self] at hm; simp_all
  · rw [lookup_cons_ne hmn] at hm; exact h _ _ hm

theorem Sub.agree {ds : List Declaration} {env penv cenv : Env} (h : Sub penv cenv)
    (k : Known ds env cenv) : Agree penv cenv := ⟨h, k.own, k.plain⟩

theorem mapM_cons_some {α β : Type} {f : α → Option β} {a : α} {l : List α} {r : List β}
    (h : (a :: l).mapM f = some r) : ∃ b bs, f a = some b ∧ l.mapM f = some bs ∧ r = b :: bs := by
  rw [List.mapM_cons] at h
  cases hf : f a with
  | none => simp [hf] at h
  | some b =>
    cases hl : l.mapM f with
    | none => simp [hf, hl] at h
    | some bs =>
      simp [hf, hl] at h
      exact ⟨b, bs, rfl, rfl, h.symm⟩

/-- The first word of these types says the same as the whole, if it says something. -/
theorem value_firstWord {penv cenv : Env} {w : String} {ws : List String} {s s' : Shape}
    (h : firstWordIsEnough.contains (w :: ws) = true) (hv : value penv (cTypeName w) = some s)
    (hm : meaning cenv (.base (w :: ws)) = some s') : s = s' := by
  have hall : ∀ l ∈ firstWordIsEnough, (match l with
      | w :: _ :: _ => (match cTypeName w with
        | .ctypes a => (match ctypesType.lookup a with
          | some s => (match standard.lookup l with | some s' => s.same s' | none => true)
          | none => true)
        | _ => false)
      | _ => false) = true := by decide +kernel
  have := hall _ (by simpa using h)
  match ws, this, hm with
  | w' :: ws, this, hm =>
    simp only [meaning] at hm
    simp only at this
    split at this
    · rename_i a ha
      rw [ha] at hv
      simp only [value] at hv
      rw [hv, hm] at this
      exact Shape.eq_of_same _ _ this
    · simp at this

theorem importTypes_sub {ds : List Declaration} {env0 cenv : Env} (k : Known ds env0 cenv)
    (htags : ∀ penv, Sub penv cenv → ∀ n t, Declaration.typedef n t ∈ ds →
      TagsOk penv (structTags t) (enumTags t))
    (harr : ∀ n t, Declaration.typedef n t ∈ ds → noArrays t = true) :
    ∀ (nodes : List (String × Node)) {types : List (String × PyExpr)} {penv penv' : Env},
    (∀ p ∈ nodes, ∃ t, Declaration.typedef p.1 t ∈ ds ∧ t.isFunc = false ∧
      (p.2.toCtypes = typeToCtypes t ∨
        ∃ w ws, t = .base (w :: ws) ∧ firstWordIsEnough.contains (w :: ws) = true ∧
          p.2.toCtypes = some (cTypeName w))) →
    nodes.mapM (fun p => (p.2.toCtypes).map fun e => (p.1, e)) = some types →
    Sub penv cenv → importTypes types penv = some penv' → Sub penv' cenv := by
  intro nodes
  induction nodes with
  | nil =>
    intro types penv penv' _ ht hs hi
    simp at ht; subst ht
    simp [importTypes] at hi; exact hi ▸ hs
  | cons p nodes ih =>
    intro types penv penv' hn ht hs hi
    obtain ⟨b, bs, hb, hbs, rfl⟩ := mapM_cons_some ht
    simp only [Option.map_eq_some_iff] at hb
    obtain ⟨e, he, rfl⟩ := hb
    simp only [importTypes] at hi
    split at hi
    · rename_i s hv
      obtain ⟨t, hmem, hf, hte⟩ := hn p (by simp)
      obtain ⟨s', hl, hm⟩ := k.typedef _ _ hmem
      have : s = s' := by
        rcases hte with hte | ⟨w, ws, rfl, hws, hte⟩
        · exact value_type (hs.agree k) t (hte ▸ he) hv hm (harr _ _ hmem) (htags _ hs _ _ hmem) hf
        · rw [hte, Option.some.injEq] at he
          subst he
          exact value_firstWord hws hv hm
      subst this
      exact ih (fun q hq => hn q (by simp [hq])) hbs (hs.cons hl) hi
    · simp at hi

theorem importEnums_sub {cenv : Env} : ∀ (enums : List (String × List (String × Int))) {penv : Env},
    (∀ n ∈ enums.map (·.1), cenv.lookup n = some (.enumeration n)) → Sub penv cenv →
    Sub (importEnums enums penv) cenv := by
  intro enums
  induction enums with
  | nil => intro penv _ hs; exact hs
  | cons p enums ih =>
    intro penv hn hs
    simp only [importEnums, List.foldl_cons]
    exact ih (fun n h => hn n (by simp at h ⊢; exact Or.inr h)) (hs.cons (hn p.1 (by simp)))

theorem fields_eq {penv cenv : Env} (hA : Agree penv cenv) : ∀ (ms : List (String × CType))
    {fs : List (String × PyExpr)} {a b : List (String × Shape)},
    ms.mapM (fun m => (typeToCtypes m.2).map fun e => (m.1, e)) = some fs →
    fs.mapM (fun m => ((value penv m.2).bind (keepIf isCtypes)).map fun x => (m.1, x)) = some a →
    ms.mapM (fun m => ((meaning cenv m.2).bind (keepIf isObject)).map fun x => (m.1, x)) = some b →
    (∀ m ∈ ms, noArrays m.2 = true ∧ TagsOk penv (structTags m.2) (enumTags m.2)) → a = b := by
  intro ms
  induction ms with
  | nil =>
    intro fs a b h1 h2 h3 _
    simp at h1 h3; subst h1; subst h3
    simpa using h2.symm
  | cons m ms ih =>
    intro fs a b h1 h2 h3 hg
    obtain ⟨e, es, he, hes, rfl⟩ := mapM_cons_some h1
    obtain ⟨x, xs, hx, hxs, rfl⟩ := mapM_cons_some h2
    obtain ⟨y, ys, hy, hys, rfl⟩ := mapM_cons_some h3
    simp only [Option.map_eq_some_iff] at he hx hy
    obtain ⟨e', he', rfl⟩ := he
    obtain ⟨x', hx', rfl⟩ := hx
    obtain ⟨y', hy', rfl⟩ := hy
    rw [ih hes hxs hys (fun q hq => hg q (by simp [hq]))]
    have hy2 := keepIf_some hy'
    have hf : m.2.isFunc = false := by
      cases hm : m.2 <;> try rfl
      rw [hm] at hy2
      simp only [meaning] at hy2
      split at hy2
      · obtain ⟨h, h'⟩ := hy2
        simp only [Option.some.injEq] at h; subst h
        simp [isObject] at h'
      · simp at hy2
    rw [value_type hA m.2 he' (keepIf_some hx').1 hy2.1 (hg m (by simp)).1 (hg m (by simp)).2 hf]

theorem structs_eq {ds : List Declaration} {env0 cenv : Env} (k : Known ds env0 cenv) :
    ∀ (ss : List (String × List (String × CType))) {gs : List (String × List (String × PyExpr))}
    {penv penv' : Env} {a b : List (String × List (String × Shape))},
    ss.mapM generateStruct = some gs → importStructs gs penv = some (penv', a) →
    ss.mapM (structMeaning cenv) = some b → Sub penv cenv →
    (∀ s ∈ ss, cenv.lookup s.1 = some (.record s.1)) →
    (∀ s ∈ ss, ∀ m ∈ s.2, noArrays m.2 = true ∧
      ∀ penv, Sub penv cenv → TagsOk penv (structTags m.2) (enumTags m.2)) →
    a = b ∧ Sub penv' cenv := by
  intro ss
  induction ss with
  | nil =>
    intro gs penv penv' a b h1 h2 h3 hs _ _
    simp at h1 h3; subst h1; subst h3
    simp only [importStructs, Option.some.injEq, Prod.mk.injEq] at h2
    exact ⟨h2.2.symm, h2.1 ▸ hs⟩
  | cons st ss ih =>
    intro gs penv penv' a b h1 h2 h3 hs hl hg
    obtain ⟨g, gs, hgen, hgs, rfl⟩ := mapM_cons_some h1
    obtain ⟨y, ys, hy, hys, rfl⟩ := mapM_cons_some h3
    unfold generateStruct at hgen
    split at hgen
    · rename_i fields hfields
      simp only [Option.some.injEq] at hgen; subst hgen
      have hs' : Sub ((st.1, .record st.1) :: penv) cenv := hs.cons (hl st (by simp))
      simp only [importStructs] at h2
      split at h2
      · simp at h2
      · rename_i fs hfs
        cases hi : importStructs gs ((st.1, .record st.1) :: penv) with
        | none => simp [hi] at h2
        | some r =>
          obtain ⟨env', ss'⟩ := r
          simp only [hi, Option.some.injEq, Prod.mk.injEq] at h2
          obtain ⟨rfl, rfl⟩ := h2
          obtain ⟨hr, hr'⟩ := ih hgs hi hys hs' (fun s hs => hl s (by simp [hs]))
            (fun s hs => hg s (by simp [hs]))
          unfold structMeaning at hy
          split at hy
          · rename_i cf hcf
            simp only [Option.some.injEq] at hy; subst hy
            refine ⟨?_, hr'⟩
            rw [hr, fields_eq (hs'.agree k) st.2 hfields hfs hcf
              (fun m hm => ⟨(hg st (by simp) m hm).1, (hg st (by simp) m hm).2 _ hs'⟩)]
          · simp at hy
    · simp at hgen

/-- An argument means the same on both sides. -/
theorem argument_eq {penv cenv : Env} (hA : Agree penv cenv) {t : CType} {e : PyExpr} {s s' : Shape}
    (he : typeToCtypes t = some e) (hv : argument penv e = some s)
    (hm : meaning cenv t = some s') (hna : noArrays t = true)
    (ht : TagsOk penv (structTags t) (enumTags t)) : s = adjust s' ∧ s ≠ .void := by
  unfold argument at hv
  rw [Option.map_eq_some_iff] at hv
  obtain ⟨x, hx, rfl⟩ := hv
  obtain ⟨hx, hxc⟩ := keepIf_some hx
  have hnv : x ≠ .void := by rintro rfl; simp [isCtypes] at hxc
  cases t with
  | func r ps =>
    simp only [typeToCtypes] at he
    simp only [structTags, enumTags] at ht
    simp only [noArrays, Bool.and_eq_true] at hna
    have hp := value_func
      (fun e s s' h1 h2 h3 h4 => value_type hA r h1 h2 h3 hna.1 ht.append.1 h4)
      (fun es ss ss' h1 h2 h3 => values_types hA ps h1 h2 h3 hna.2 ht.append.2) he hx hm
    subst hp
    simp only [meaning] at hm
    split at hm
    · simp only [Option.some.injEq] at hm; subst hm; exact ⟨rfl, by simp⟩
    · simp at hm
  | array of size =>
    have := value_type hA _ he hx hm hna ht rfl
    subst this
    simp only [meaning] at hm
    split at hm
    · simp only [Option.some.injEq] at hm; subst hm; exact ⟨rfl, by simp⟩
    · simp at hm
  | base ws =>
    have := value_type hA _ he hx hm hna ht rfl
    subst this
    have ha := meaning_adjust hA hm rfl rfl
    refine ⟨?_, ?_⟩
    · rw [ha]; revert ha; cases x <;> simp [adjust]
    · revert ha hnv; cases x <;> simp [adjust]
  | struct ws =>
    have := value_type hA _ he hx hm hna ht rfl
    subst this
    have ha := meaning_adjust hA hm rfl rfl
    refine ⟨?_, ?_⟩
    · rw [ha]; revert ha; cases x <;> simp [adjust]
    · revert ha hnv; cases x <;> simp [adjust]
  | enum ws =>
    have := value_type hA _ he hx hm hna ht rfl
    subst this
    have ha := meaning_adjust hA hm rfl rfl
    refine ⟨?_, ?_⟩
    · rw [ha]; revert ha; cases x <;> simp [adjust]
    · revert ha hnv; cases x <;> simp [adjust]
  | ptr to =>
    have := value_type hA _ he hx hm hna ht rfl
    subst this
    have ha := meaning_adjust hA hm rfl rfl
    refine ⟨?_, ?_⟩
    · rw [ha]; revert ha; cases x <;> simp [adjust]
    · revert ha hnv; cases x <;> simp [adjust]

theorem arguments_eq {penv cenv : Env} (hA : Agree penv cenv) : ∀ (ts : List CType)
    {es : List PyExpr} {ss ss' : List Shape}, typesToCtypes ts = some es →
    es.mapM (argument penv) = some ss → parametersMeaning cenv ts = some ss' →
    (∀ t ∈ ts, noArrays t = true ∧ TagsOk penv (structTags t) (enumTags t)) →
    ss = ss' ∧ .void ∉ ss := by
  intro ts
  induction ts with
  | nil =>
    intro es ss ss' h1 h2 h3 _
    simp only [typesToCtypes, Option.some.injEq] at h1; subst h1
    simp only [parametersMeaning, Option.some.injEq] at h3; subst h3
    simp at h2; subst h2; simp
  | cons t ts ih =>
    intro es ss ss' h1 h2 h3 hg
    simp only [typesToCtypes] at h1
    split at h1
    · rename_i e es' he hes
      simp only [Option.some.injEq] at h1; subst h1
      obtain ⟨x, xs, hx, hxs, rfl⟩ := mapM_cons_some h2
      simp only [parametersMeaning] at h3
      split at h3
      · rename_i y ys hy hys
        simp only [Option.some.injEq] at h3; subst h3
        obtain ⟨h4, h5⟩ := ih hes hxs hys (fun q hq => hg q (by simp [hq]))
        obtain ⟨h6, h7⟩ := argument_eq hA he hx hy (hg t (by simp)).1 (hg t (by simp)).2
        exact ⟨by rw [h4, h6], by simp [h5, Ne.symm h7]⟩
      · simp at h3
    · simp at h1

theorem withoutVoid_of {ss : List Shape} (h : .void ∉ ss) : withoutVoid ss = ss := by
  match ss with
  | [] => rfl
  | a :: b :: c => cases a <;> rfl
  | [a] => cases a <;> first | rfl | simp at h

theorem cTypeName_name {w n : String} (h : cTypeName w = .name n) (hn : isOwn n = true) : w = n := by
  unfold cTypeName at h
  by_cases ho : isOwn w = true
  · simpa [ho] using h
  · rw [if_neg ho] at h
    exfalso
    by_cases h1 : w = "uintptr_t"
    · simp [h1] at h
      subst h
      exact absurd hn (by decide +kernel)
    · simp only [beq_iff_eq, h1, if_false] at h
      repeat' split at h
      all_goals simp at h

theorem isNone_cTypeName {t : CType} {e : PyExpr} (he : typeToCtypes t = some e)
    (h : e.isNone = true) : e = .none ∧ t.isFunc = false := by
  cases e <;> simp [PyExpr.isNone] at h
  refine ⟨rfl, ?_⟩
  cases t <;> try rfl
  simp only [typeToCtypes] at he
  split at he <;> simp at he

/-- A function means the same on both sides. -/
theorem function_eq {penv cenv : Env} (hA : Agree penv cenv)
    (hstatus : ∀ s, cenv.lookup "eqs_status_t" = some s → s = .integer true (.bytes 4))
    {f : String × CType × List CType}
    (htag : f.2.1 ≠ .struct "eqs_status_t" ∧ f.2.1 ≠ .enum "eqs_status_t")
    {g : String × List PyExpr × Restype}
    {a b : String × List Shape × Shape} (hg : generateFunction f = some g)
    (ha : importFunction penv g = some a)
    (hb : functionMeaning cenv (f.1, f.2.1, some f.2.2) = some b)
    (hok : ∀ t ∈ f.2.1 :: f.2.2, noArrays t = true ∧ TagsOk penv (structTags t) (enumTags t)) :
    a = b := by
  obtain ⟨name, r, args⟩ := f
  unfold generateFunction at hg
  split at hg
  · rename_i es er hes her
    simp only [Option.some.injEq] at hg; subst hg
    simp only at hes her
    unfold importFunction at ha
    split at ha
    · rename_i ss sr hss hsr
      simp only [Option.some.injEq] at ha; subst ha
      simp only [functionMeaning] at hb
      split at hb
      · rename_i cr cps hcr hcps
        simp only [Option.some.injEq] at hb; subst hb
        obtain ⟨hcr, hres⟩ := keepIf_some hcr
        have hrf : r.isFunc = false := by
          cases r <;> try rfl
          simp only [meaning] at hcr
          split at hcr
          · simp only [Option.some.injEq] at hcr; subst hcr
            simp [isResult] at hres
          · simp at hcr
        have hrok := hok r (by simp)
        have hr : sr = cr := by
          cases er with
          | name n =>
            simp only at hsr
            by_cases hn : n = "eqs_status_t"
            · subst hn
              simp [result] at hsr; subst hsr
              cases r with
              | base ws =>
                match ws, her, hcr with
                | [], her, _ => simp [typeToCtypes] at her
                | _ :: _ :: _, her, _ => simp [typeToCtypes] at her
                | [w], her, hcr =>
                  simp only [typeToCtypes, Option.some.injEq] at her
                  have := cTypeName_name her (by decide +kernel)
                  subst this
                  simp only [meaning] at hcr
                  split at hcr
                  · rename_i x hx
                    simp only [Option.some.injEq] at hcr; subst hcr
                    exact (hstatus _ hx).symm
                  · have := standard_not_own hcr
                    exact absurd this (by decide +kernel)
              | struct tag =>
                simp only [typeToCtypes, Option.some.injEq] at her
                have := cTypeName_name her (by decide +kernel)
                subst this
                exact (htag.1 rfl).elim
              | enum tag =>
                simp only [typeToCtypes, Option.some.injEq] at her
                have := cTypeName_name her (by decide +kernel)
                subst this
                exact (htag.2 rfl).elim
              | array of size => simp only [typeToCtypes] at her; split at her <;> simp at her
              | func _ _ => simp [CType.isFunc] at hrf
              | ptr to =>
                exfalso
                have : ∀ t n, typeToCtypes (.ptr t) ≠ some (.name n) := by
                  intro t n h
                  cases t with
                  | ptr t =>
                    cases t <;> simp only [typeToCtypes, typedeclName] at h <;>
                      (repeat' split at h) <;> simp at h
                  | func _ _ => simp only [typeToCtypes] at h; split at h <;> simp at h
                  | _ =>
                    simp only [typeToCtypes] at h
                    (repeat' split at h) <;> simp at h
                exact this _ _ her
            · simp [hn, result] at hsr
              exact value_type hA r her hsr hcr hrok.1 hrok.2 hrf
          | _ =>
            simp only [result] at hsr
            exact value_type hA r her hsr hcr hrok.1 hrok.2 hrf
        have hargs : ss = withoutVoid cps := by
          have hok' : ∀ t ∈ args, noArrays t = true ∧ TagsOk penv (structTags t) (enumTags t) :=
            fun t ht => hok t (by simp [ht])
          match es, hes, hss with
          | [e], hes, hss =>
            simp only at hss
            by_cases hnone : e.isNone = true
            · simp [hnone] at hss; subst hss
              match args, hes, hcps, hok' with
              | [], hes, _, _ => simp [typesToCtypes] at hes
              | t :: ts, hes, hcps, hok' =>
                simp only [typesToCtypes] at hes
                split at hes
                · rename_i e' es' he hes'
                  simp only [Option.some.injEq, List.cons.injEq] at hes
                  obtain ⟨rfl, rfl⟩ := hes
                  match ts, hes' with
                  | _ :: _, hes' => simp only [typesToCtypes] at hes'; split at hes' <;> simp at hes'
                  | [], _ =>
                    obtain ⟨rfl, hf⟩ := isNone_cTypeName he hnone
                    simp only [parametersMeaning] at hcps
                    split at hcps
                    · rename_i s ss hs hss
                      simp only [Option.some.injEq] at hcps hss; subst hss; subst hcps
                      have := value_type hA t he (s := .void) rfl hs (hok' t (by simp)).1
                        (hok' t (by simp)).2 hf
                      subst this
                      rfl
                    · simp at hcps
                · simp at hes
            · simp only [hnone, Bool.false_eq_true, if_false] at hss
              obtain ⟨h1, h2⟩ := arguments_eq hA args hes hss hcps hok'
              rw [← h1, withoutVoid_of h2]
          | [], hes, hss =>
            obtain ⟨h1, h2⟩ := arguments_eq hA args hes hss hcps hok'
            rw [← h1, withoutVoid_of h2]
          | e :: e' :: es, hes, hss =>
            obtain ⟨h1, h2⟩ := arguments_eq hA args hes hss hcps hok'
            rw [← h1, withoutVoid_of h2]
        rw [hr, hargs]
      · simp at hb
    · simp at ha
  · simp at hg

theorem mem_nodes {header : List Declaration} {p : String × Node}
    (hs : ∀ n t, Declaration.typedef n t ∈ header → simpleTypedef n t = true)
    (h : p ∈ nodesOf header) : ∃ t, Declaration.typedef p.1 t ∈ header ∧ t.isFunc = false ∧
      (p.2.toCtypes = typeToCtypes t ∨
        ∃ w ws, t = .base (w :: ws) ∧ firstWordIsEnough.contains (w :: ws) = true ∧
          p.2.toCtypes = some (cTypeName w)) := by
  unfold nodesOf at h
  rw [List.mem_filterMap] at h
  obtain ⟨d, hd, hp⟩ := h
  match d, hd, hp with
  | .typedef n (.base ws), hd, hp =>
    simp only [Option.some.injEq] at hp; subst hp
    refine ⟨_, hd, rfl, ?_⟩
    have := hs _ _ hd
    match ws, this with
    | [w], _ => exact Or.inl rfl
    | w :: w' :: ws, this => exact Or.inr ⟨w, _, rfl, this, rfl⟩
    | [], this => exact absurd this (by simp [simpleTypedef, firstWordIsEnough])
  | .typedef n (.ptr to), hd, hp =>
    simp only [Option.some.injEq] at hp; subst hp
    refine ⟨_, hd, rfl, Or.inl ?_⟩
    have := hs _ _ hd
    match to, this with
    | .func r ps, _ => simp [Node.toCtypes, typeToCtypes]
  | .typedef n (.array _ _), hd, hp => exact absurd (hs _ _ hd) (by simp [simpleTypedef])
  | .typedef n (.func _ _), hd, hp => exact absurd (hs _ _ hd) (by simp [simpleTypedef])

/-! ## Deciding -/

mutual

/-- Comparing expressions. -/
def PyExpr.same : PyExpr → PyExpr → Bool
  | .name n, .name n' => n == n'
  | .none, .none => true
  | .ctypes a, .ctypes a' => a == a'
  | .pointer e, .pointer e' => e.same e'
  | .cfunctype r ps, .cfunctype r' ps' => r.same r' && PyExpr.sames ps ps'
  | .times e n, .times e' n' => e.same e' && n == n'
  | _, _ => false

/-- Comparing lists of expressions. -/
def PyExpr.sames : List PyExpr → List PyExpr → Bool
  | [], [] => true
  | s :: ss, s' :: ss' => s.same s' && PyExpr.sames ss ss'
  | _, _ => false

end

mutual

theorem PyExpr.same_iff : ∀ (s s' : PyExpr), s.same s' = true ↔ s = s'
  | .name _, s' => by cases s' <;> simp [PyExpr.same]
  | .none, s' => by cases s' <;> simp [PyExpr.same]
  | .ctypes _, s' => by cases s' <;> simp [PyExpr.same]
  | .pointer s, s' => by
    cases s' <;> simp [PyExpr.same]
    exact PyExpr.same_iff _ _
  | .cfunctype r ps, s' => by
    cases s' <;> simp [PyExpr.same]
    rw [PyExpr.same_iff, PyExpr.sames_iff]
  | .times s _, s' => by
    cases s' <;> simp [PyExpr.same]
    rw [PyExpr.same_iff]; simp

theorem PyExpr.sames_iff : ∀ (ss ss' : List PyExpr), PyExpr.sames ss ss' = true ↔ ss = ss'
  | [], ss' => by cases ss' <;> simp [PyExpr.sames]
  | s :: ss, ss' => by
    cases ss' <;> simp [PyExpr.sames]
    rw [PyExpr.same_iff, PyExpr.sames_iff]

end

instance : DecidableEq PyExpr := fun a b => decidable_of_iff _ (PyExpr.same_iff a b)

deriving instance DecidableEq for Restype, Module

/-- `Usual`, in a form that can be computed. -/
def usualChecks (header : List Declaration) : Bool :=
  decide (typedefNames header).Nodup && (typedefNames header).all isOwn &&
  header.all (fun d => match d with
    | .typedef n t => simpleTypedef n t
    | .typedefStruct n tag ms => tag.getD n == n && decide (ms.map (·.1)).Nodup
    | .typedefEnum n tag _ => tag.getD n == n
    | _ => true) &&
  header.all (fun d => d.mentions.all fun t => noArrays t &&
    (structTags t).all (fun tag => header.any fun d => match d with
      | .typedef n (.struct tag') => n == tag && tag' == tag
      | .typedefStruct n _ _ => n == tag
      | _ => false) &&
    (enumTags t).all (fun tag => header.any fun d => match d with
      | .typedefEnum n _ _ => n == tag
      | _ => false)) &&
  (match typedefs header [] with
    | some env => (match env.lookup "eqs_status_t" with
      | some s => s.same (.integer true (.bytes 4))
      | none => true)
    | none => true)

theorem Usual.of_checks {header : List Declaration} (h : usualChecks header = true) :
    Usual header := by
  simp only [usualChecks, Bool.and_eq_true, decide_eq_true_eq] at h
  obtain ⟨⟨⟨⟨h1, h2⟩, h3⟩, h4⟩, h5⟩ := h
  rw [List.all_eq_true] at h2 h3 h4
  refine ⟨h1, h2, ?_, ?_, ?_, ?_, ?_, ?_, ?_, ?_⟩
  · intro n t hm; exact h3 _ hm
  · intro n tag ms hm
    have := h3 _ hm
    simp only [Bool.and_eq_true, beq_iff_eq] at this
    exact this.1
  · intro n tag ms hm
    have := h3 _ hm
    simpa using this
  · intro n tag ms hm
    have := h3 _ hm
    simp only [Bool.and_eq_true, decide_eq_true_eq] at this
    exact this.2
  · intro d hd t ht
    have := List.all_eq_true.1 (h4 d hd) t ht
    simp only [Bool.and_eq_true] at this
    exact this.1.1
  · intro d hd t ht tag htag
    have := List.all_eq_true.1 (h4 d hd) t ht
    simp only [Bool.and_eq_true] at this
    obtain ⟨d', hd', hm⟩ := List.any_eq_true.1 (List.all_eq_true.1 this.1.2 tag htag)
    split at hm
    · simp only [Bool.and_eq_true, beq_iff_eq] at hm
      obtain ⟨rfl, rfl⟩ := hm
      exact Or.inl hd'
    · simp only [beq_iff_eq] at hm; subst hm
      exact Or.inr ⟨_, _, hd'⟩
    · simp at hm
  · intro d hd t ht tag htag
    have := List.all_eq_true.1 (h4 d hd) t ht
    simp only [Bool.and_eq_true] at this
    obtain ⟨d', hd', hm⟩ := List.any_eq_true.1 (List.all_eq_true.1 this.2 tag htag)
    split at hm
    · simp only [beq_iff_eq] at hm; subst hm
      exact ⟨_, _, hd'⟩
    · simp at hm
  · intro env s he hl
    rw [he] at h5
    simp only [hl] at h5
    exact Shape.eq_of_same _ _ h5

end Equistore.Decl
