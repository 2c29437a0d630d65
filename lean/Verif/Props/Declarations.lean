import Verif.Lemmas.Declarations
import Verif.Model.DeclarationsOfEquistore

/-!
# C94: the functions Python calls are declared with the types of the C header

What a header declares in C (`inC`) is what the module written for it declares to `ctypes`
(`inPython`), for every header written in the usual way (`Usual`), unless the script or the import
of the module stops with an exception.
-/

namespace Equistore.Decl

theorem tags_of_usual {header : List Declaration} {cenv : Env} (hu : Usual header)
    (k : Known header [] cenv) {d : Declaration} (hd : d ∈ header) {t : CType}
    (ht : t ∈ d.mentions) (penv : Env) (hs : Sub penv cenv) :
    TagsOk penv (structTags t) (enumTags t) := by
  refine ⟨fun tag htag => ?_, fun tag htag => ?_⟩
  · rcases hu.structTags d hd t ht tag htag with h | ⟨tag', ms, h⟩
    · refine ⟨hu.own _ (List.mem_filterMap.2 ⟨_, h, rfl⟩), fun s hl => ?_⟩
      obtain ⟨s', h1, h2⟩ := k.typedef _ _ h
      have := hs _ _ hl
      simp only [meaning, Option.some.injEq] at h2
      simp_all
    · refine ⟨hu.own _ (List.mem_filterMap.2 ⟨_, h, rfl⟩), fun s hl => ?_⟩
      have h1 := k.struct _ _ _ h
      rw [hu.structs _ _ _ h, hs _ _ hl] at h1
      simpa using h1
  · obtain ⟨tag', vs, h⟩ := hu.enumTags d hd t ht tag htag
    refine ⟨hu.own _ (List.mem_filterMap.2 ⟨_, h, rfl⟩), fun s hl => ?_⟩
    have h1 := k.enum _ _ _ h
    rw [hu.enums _ _ _ h, hs _ _ hl] at h1
    simpa using h1

theorem functions_eq {penv cenv : Env} :
    ∀ (fs : List (String × CType × List CType)) {gs : List (String × List PyExpr × Restype)}
    {a b : List (String × List Shape × Shape)},
    fs.mapM generateFunction = some gs → gs.mapM (importFunction penv) = some a →
    (fs.map fun f => (f.1, f.2.1, some f.2.2)).mapM (functionMeaning cenv) = some b →
    (∀ f ∈ fs, ∀ g x y, generateFunction f = some g → importFunction penv g = some x →
      functionMeaning cenv (f.1, f.2.1, some f.2.2) = some y → x = y) → a = b := by
  intro fs
  induction fs with
  | nil =>
    intro gs a b h1 h2 h3 _
    simp at h1 h3; subst h1; subst h3
    simpa using h2.symm
  | cons f fs ih =>
    intro gs a b h1 h2 h3 hg
    obtain ⟨e, es, he, hes, rfl⟩ := mapM_cons_some h1
    obtain ⟨x, xs, hx, hxs, rfl⟩ := mapM_cons_some h2
    rw [List.map_cons] at h3
    obtain ⟨y, ys, hy, hys, rfl⟩ := mapM_cons_some h3
    rw [ih hes hxs hys (fun q hq => hg q (by simp [hq])), hg f (by simp) _ _ _ he hx hy]

/-- **C94**, for headers written in the usual way: what the written module declares to `ctypes` is
what the header declares in C, function by function and structure by structure, with the same
arguments, results and fields in the same order. What is missing: headers with other `typedef`s;
see `C94_counterexample`. -/
theorem C94_partial (header : List Declaration) (hu : Usual header) (m : Module)
    (python c : Interface) (hg : generate header = some m) (hp : inPython m = some python)
    (hc : inC header = some c) : python = c := by
  simp only [generate, Option.bind_eq_bind, Option.bind_eq_some_iff, Option.pure_def,
    Option.some.injEq] at hg
  obtain ⟨v, hv, types, htypes, structs, hstructs, functions, hfunctions, rfl⟩ := hg
  simp only [inPython, Option.bind_eq_bind, Option.bind_eq_some_iff, Option.pure_def,
    Option.some.injEq] at hp
  obtain ⟨penv0, hpenv0, ⟨penv, pstructs⟩, hpstructs, pfunctions, hpfunctions, rfl⟩ := hp
  simp only [inC, Option.bind_eq_bind, Option.bind_eq_some_iff, Option.pure_def,
    Option.some.injEq] at hc
  obtain ⟨cenv, hcenv, cfunctions, hcfunctions, cstructs, hcstructs, rfl⟩ := hc
  have k : Known header [] cenv := known header hcenv hu.names hu.own (by simp) hu.simple (by simp)
    (by simp)
  obtain ⟨v1, v2, v3, v4⟩ := visited header hv hu.names hu.own (by simp) hu.members
  simp only [List.nil_append, List.map_nil] at v1 v2 v3 v4
  have htags := fun {d} hd {t} ht => @tags_of_usual header cenv hu k d hd t ht
  -- the types
  rw [v1] at htypes
  have hsub0 : Sub penv0 cenv := by
    refine importTypes_sub k (fun penv hs n t hm => htags hm (by simp [Declaration.mentions]) penv hs)
      (fun n t hm => hu.arrays _ hm t (by simp [Declaration.mentions])) _
      (fun p hp => mem_nodes hu.simple hp) htypes (fun n s h => by simp at h) hpenv0
  -- the enumerations
  have hsub1 : Sub (importEnums v.enums penv0) cenv := by
    refine importEnums_sub _ (fun n hn => ?_) hsub0
    rw [v3] at hn
    unfold enumNamesOf at hn
    obtain ⟨d, hd, hm⟩ := List.mem_filterMap.1 hn
    split at hm
    · simp only [Option.some.injEq] at hm; subst hm
      rw [k.enum _ _ _ hd, hu.enums _ _ _ hd]
    · simp at hm
  -- the structures
  rw [v2] at hstructs
  obtain ⟨rfl, hsub⟩ := structs_eq k _ hstructs hpstructs hcstructs hsub1
    (fun s hs => by
      unfold structsOf at hs
      obtain ⟨d, hd, hm⟩ := List.mem_filterMap.1 hs
      split at hm
      · split at hm
        · simp only [Option.some.injEq] at hm; subst hm
          simp only
          rw [k.struct _ _ _ hd, hu.structs _ _ _ hd]
        · simp at hm
      · split at hm
        · simp only [Option.some.injEq] at hm; subst hm
          obtain ⟨s, h1, h2⟩ := k.typedef _ _ hd
          have := hu.simple _ _ hd
          simp only [simpleTypedef, beq_iff_eq] at this
          subst this
          rw [h1, ← h2]; rfl
        · simp at hm
      · simp at hm)
    (fun s hs m hm => by
      unfold structsOf at hs
      obtain ⟨d, hd, hmm⟩ := List.mem_filterMap.1 hs
      split at hmm
      · rename_i name tag members
        split at hmm
        · simp only [Option.some.injEq] at hmm; subst hmm
          have hin : m.2 ∈ (Declaration.typedefStruct name tag members).mentions :=
            List.mem_map.2 ⟨m, hm, rfl⟩
          exact ⟨hu.arrays _ hd _ hin, fun penv hs => htags hd hin penv hs⟩
        · simp at hmm
      · split at hmm
        · simp only [Option.some.injEq] at hmm; subst hmm
          simp at hm
        · simp at hmm
      · simp at hmm)
  -- the functions
  rw [← v4] at hcfunctions
  have hf := functions_eq _ hfunctions hpfunctions hcfunctions (fun f hf g x y h1 h2 h3 => by
    have hmem : (f.1, f.2.1, some f.2.2) ∈ functionsOf header := by
      rw [← v4]; exact List.mem_map.2 ⟨f, hf, rfl⟩
    unfold functionsOf at hmem
    obtain ⟨d, hd, hm⟩ := List.mem_filterMap.1 hmem
    split at hm
    · rename_i n r as
      split at hm
      · simp only [Option.some.injEq, Prod.mk.injEq] at hm
        obtain ⟨h4, h5, h6⟩ := hm
        have hstatus := fun s hs => hu.status cenv s hcenv hs
        have hres : f.2.1 ∈ (Declaration.function n r as).mentions := by
          rw [← h5]; simp [Declaration.mentions]
        refine function_eq (hsub.agree k) hstatus ?_ h1 h2 h3 ?_
        · refine ⟨fun hr => ?_, fun hr => ?_⟩
          · rcases hu.structTags _ hd _ hres "eqs_status_t" (by rw [hr]; simp [structTags]) with
              h | ⟨tag', ms, h⟩
            · obtain ⟨s, h7, h8⟩ := k.typedef _ _ h
              simp only [meaning, Option.some.injEq] at h8
              have := hstatus _ h7
              simp_all
            · have := hstatus _ (k.struct _ _ _ h)
              simp at this
          · obtain ⟨tag', vs, h⟩ := hu.enumTags _ hd _ hres "eqs_status_t"
              (by rw [hr]; simp [enumTags])
            have := hstatus _ (k.enum _ _ _ h)
            simp at this
        · intro t ht
          have hin : t ∈ (Declaration.function n r as).mentions := by
            rw [h6, h5]; exact ht
          exact ⟨hu.arrays _ hd _ hin, htags hd hin penv hsub⟩
      · simp at hm
    · simp at hm)
  rw [hf]

/-- **C94**, in full: for every valid header. -/
def C94_full_statement : Prop :=
  ∀ (header : List Declaration) (m : Module) (python c : Interface),
    generate header = some m → inPython m = some python → inC header = some c → python = c

/-- A header with a `typedef` of a pointer, and a function that takes it. -/
def Example.pointerTypedef : List Declaration :=
  [.typedef "eqs_status_t" (.base ["int32_t"]),
   .typedef "eqs_values_t" (.ptr (.base ["int32_t"])),
   .function "eqs_sum" (.base ["eqs_status_t"]) (some [.base ["eqs_values_t"]])]

/-- The full statement is false: the script looks inside the outermost declarator of a `typedef`,
so that the name of a pointer is declared as what it points to. Python would then pass a number
where the function expects an address. -/
theorem C94_counterexample : ¬ C94_full_statement := by
  intro h
  have := h Example.pointerTypedef
    { types := [("eqs_status_t", .ctypes "c_int32"), ("eqs_values_t", .ctypes "c_int32")],
      enums := [], structs := [],
      functions := [("eqs_sum", [.name "eqs_values_t"], .checkStatus)] }
    { functions := [("eqs_sum", [.integer true (.bytes 4)], .integer true (.bytes 4))],
      structs := [] }
    { functions := [("eqs_sum", [.pointer (.integer true (.bytes 4))], .integer true (.bytes 4))],
      structs := [] }
    (by decide +kernel) rfl rfl
  simp at this

/-- The same happens with a `typedef` of a `long long`, of which only the first word is read: this
header is refused neither by the script nor by `ctypes`. -/
example : generate [.typedef "eqs_big_t" (.base ["long", "long"])] =
    some { types := [("eqs_big_t", .ctypes "c_long")], enums := [], structs := [],
           functions := [] } := by decide +kernel

/-! ## The header of equistore -/

/-- The header of equistore is written in the usual way. -/
theorem equistoreHeader_usual : Usual equistoreHeader := Usual.of_checks (by decide +kernel)

/-- **C94**, the committed module is the one that is written for the committed header. -/
theorem C94_module : generate equistoreHeader = some equistoreModule := by decide +kernel

/-- **C94**, equistore: the functions of `equistore/_c_api.py` can be set up, and each has the
arguments and the result that `include/equistore.h` gives it. -/
theorem C94_equistore : ∃ interface, inPython equistoreModule = some interface ∧
    inC equistoreHeader = some interface := by
  have h1 : (inPython equistoreModule).isSome = true := by decide +kernel
  have h2 : (inC equistoreHeader).isSome = true := by decide +kernel
  obtain ⟨p, hp⟩ := Option.isSome_iff_exists.1 h1
  obtain ⟨c, hc⟩ := Option.isSome_iff_exists.1 h2
  have := C94_partial _ equistoreHeader_usual _ _ _ C94_module hp hc
  subst this
  exact ⟨p, hp, hc⟩

/-! ## Other headers -/

/-- A header written in the usual way, with a `typedef` of two words, an enumeration, an array in a
structure, a pointer to a function, and a function without arguments. -/
def Example.usual : List Declaration :=
  [.typedef "eqs_status_t" (.base ["int32_t"]),
   .typedef "eqs_length_t" (.base ["long", "int"]),
   .typedefEnum "eqs_kind_t" (some "eqs_kind_t") [("EQS_A", some 0), ("EQS_B", some 1)],
   .typedef "eqs_callback_t"
     (.ptr (.func (.base ["eqs_status_t"]) [.ptr (.base ["void"]), .base ["double"]])),
   .typedefStruct "eqs_cell_t" none
     [("matrix", .array (.array (.base ["double"]) (some 3)) (some 3)), ("periodic", .base ["bool"])],
   .function "eqs_kind" (.base ["eqs_kind_t"]) (some [.base ["void"]]),
   .function "eqs_length" (.base ["eqs_length_t"]) (some [.ptr (.base ["eqs_cell_t"])]),
   .function "eqs_apply" (.base ["eqs_status_t"])
     (some [.ptr (.base ["eqs_cell_t"]), .base ["eqs_callback_t"], .array (.base ["size_t"]) (some 3)])]

example : Usual Example.usual := Usual.of_checks (by decide +kernel)

example : ∃ m, generate Example.usual = some m ∧ inPython m = some
    { functions :=
        [("eqs_kind", [], .enumeration "eqs_kind_t"),
         ("eqs_length", [.pointer (.record "eqs_cell_t")], .integer true .long),
         ("eqs_apply", [.pointer (.record "eqs_cell_t"),
            .pointer (.function (.integer true (.bytes 4)) [.pointer .void, .floating (.bytes 8)]),
            .pointer (.integer false .pointer)], .integer true (.bytes 4))],
      structs :=
        [("eqs_cell_t", [("matrix", .array (.array (.floating (.bytes 8)) 3) 3),
                         ("periodic", .bool)])] } :=
  ⟨_, rfl, rfl⟩

end Equistore.Decl
