import Verif.Spec.CMakeBuild

/-!
# C118: the library which is installed is the one the user asked for
-/

namespace Equistore
namespace Props

open CMakeBuild
open Spec.CMakeBuild

/-- **C118**, full statement: what is installed was made by the `cargo` which was checked, for the target, the kind of build and the
features the user asked for. -/
def C118_full_statement : Prop :=
  ∀ (name : Bool → Text) (s : Settings) (exe onPath : Cargo) (env : CargoEnvironment) (files : Files) (plan : Plan) (library : Library),
    configure name s (some exe) = .ok plan → install name onPath env plan files = some library → Expected s exe library

/-! ### Lists of CMake -/

private theorem split_single {t : Text} (h : ';' ∉ t) : split t = [t] := by
  induction t with
  | nil => rfl
  | cons c t ih =>
    simp only [List.mem_cons, not_or] at h
    rw [split, if_neg (Ne.symm h.1), ih h.2]

private theorem split_append (a b : Text) : split (a ++ ';' :: b) = split a ++ split b := by
  induction a with
  | nil => simp [split]
  | cons c a ih =>
    rw [List.cons_append, split, split]
    split
    · rw [ih]; rfl
    · rw [ih]
      cases ha : split a with
      | nil => cases a <;> simp [split] at ha; split at ha <;> (try split at ha) <;> simp at ha
      | cons first others => rfl

private theorem elements_append (a b : Text) : elements (a ++ ';' :: b) = elements a ++ elements b := by
  simp [elements, split_append]

private theorem elements_single {t : Text} (h : ';' ∉ t) (hne : t ≠ []) : elements t = [t] := by
  simp [elements, split_single h, hne]

private theorem elements_nil : elements [] = [] := by simp [elements, split]

private theorem lowered_single {t : Text} (h : ';' ∉ t) : lowered t = if t = [] then none else some (t.map Char.toLower) := by
  by_cases hne : t = []
  · subst hne
    rw [lowered, elements_nil]
    rfl
  · rw [lowered, elements_single h hne, if_neg hne]
    simp

/-! ### When CMake succeeds -/

private theorem greater_iff (v : Numbers) :
    FindPackage.versionGreater [1, 53, 0] [v.1, v.2.1, v.2.2] = false ↔ RecentEnough v := by
  obtain ⟨a, b, c⟩ := v
  simp [FindPackage.versionGreater, RecentEnough]
  omega

private theorem checkCargo_ok (exe : Option Cargo) :
    checkCargo exe = .ok () ↔ ∃ v, exe = some (some v) ∧ RecentEnough v := by
  rcases exe with _ | _ | ⟨a, b, c⟩
  · simp [checkCargo]
  · simp [checkCargo]
  · simp only [checkCargo, Option.some.injEq, exists_eq_left']
    rw [← greater_iff]
    split <;> simp_all

/-- The kind of build which is chosen, `none` if there is an error. -/
private theorem chosen (s : Settings) (h : ';' ∉ s.buildType) :
    (AsksDebug s ∧ ¬ AsksRelease s ∧ ∃ type, lowered (chosenType s) = some type ∧ profile type = some ([], "debug".toList)) ∨
    (AsksRelease s ∧ ¬ AsksDebug s ∧
      ∃ type, lowered (chosenType s) = some type ∧ profile type = some ("--release".toList, "release".toList)) ∨
    (¬ AsksDebug s ∧ ¬ AsksRelease s ∧ (lowered (chosenType s) = none ∨
      ∃ type, lowered (chosenType s) = some type ∧ profile type = none)) := by
  by_cases h0 : s.top = true ∧ s.buildType = [] ∧ s.configurations = []
  · refine .inr (.inl ⟨.inr (.inr h0), ?_, "release".toList, ?_, ?_⟩)
    · simp [AsksDebug, h0.2.1]
    · rw [chosenType, if_pos h0]; decide
    · decide
  · have h1 : chosenType s = s.buildType := by rw [chosenType, if_neg h0]
    rw [h1, lowered_single h]
    by_cases h2 : s.buildType = []
    · refine .inr (.inr ⟨by simp [AsksDebug, h2], ?_, .inl (by simp [h2])⟩)
      simp only [AsksRelease, not_or]
      exact ⟨by simp [h2], by simp [h2], h0⟩
    · simp only [h2, if_false, Option.some.injEq, exists_eq_left', reduceCtorEq, false_or]
      unfold AsksDebug AsksRelease profile
      by_cases h3 : s.buildType.map Char.toLower = "debug".toList
      · exact .inl ⟨h3, by rw [h3]; simp [h2], by rw [if_pos h3]⟩
      · by_cases h4 : s.buildType.map Char.toLower = "release".toList
        · exact .inr (.inl ⟨.inl h4, h3, by rw [if_neg h3, if_pos h4]⟩)
        · by_cases h5 : s.buildType.map Char.toLower = "relwithdebinfo".toList
          · exact .inr (.inl ⟨.inr (.inl h5), h3, by rw [if_neg h3, if_neg h4, if_pos h5]⟩)
          · exact .inr (.inr ⟨h3, fun h => h.elim h4 fun h => h.elim h5 h0, by rw [if_neg h3, if_neg h4, if_neg h5]⟩)

private theorem configure_of (name : Bool → Text) (s : Settings) (exe : Option Cargo) {type arg kind : Text}
    (h2 : lowered (chosenType s) = some type) (h3 : profile type = some (arg, kind)) :
    configure name s exe = match checkCargo exe with
      | .error e => .error e
      | .ok () => .ok (makePlan name s arg kind) := by
  unfold configure
  rw [h2]
  dsimp only
  rw [h3]
  rfl

private theorem configure_fails (name : Bool → Text) (s : Settings) (exe : Option Cargo)
    (h : lowered (chosenType s) = none ∨ ∃ type, lowered (chosenType s) = some type ∧ profile type = none) :
    ∃ e, configure name s exe = .error e := by
  rcases h with h | ⟨type, h1, h2⟩
  · exact ⟨.noBuildType, by rw [configure, h]⟩
  · refine ⟨.unsupportedBuildType, ?_⟩
    unfold configure
    rw [h1]
    dsimp only
    rw [h2]

/-- **C118**: CMake succeeds exactly if the build type is one of the three supported ones, in any capitalization, or is missing in the
main project, and `cargo` is found, can be run and is recent enough. In particular there is no default in a project added with
`add_subdirectory`. -/
theorem C118_configures (name : Bool → Text) (s : Settings) (exe : Option Cargo) (h : ';' ∉ s.buildType) :
    (∃ plan, configure name s exe = .ok plan) ↔
      (AsksDebug s ∨ AsksRelease s) ∧ ∃ v, exe = some (some v) ∧ RecentEnough v := by
  rw [← checkCargo_ok]
  rcases chosen s h with ⟨h1, -, type, h2, h3⟩ | ⟨h1, -, type, h2, h3⟩ | ⟨h1, h2, h3⟩
  · rw [configure_of name s exe h2 h3]
    cases checkCargo exe with
    | error e => exact ⟨fun ⟨_, hp⟩ => (nomatch hp), fun ⟨_, hp⟩ => (nomatch hp)⟩
    | ok u => exact ⟨fun _ => ⟨.inl h1, rfl⟩, fun _ => ⟨_, rfl⟩⟩
  · rw [configure_of name s exe h2 h3]
    cases checkCargo exe with
    | error e => exact ⟨fun ⟨_, hp⟩ => (nomatch hp), fun ⟨_, hp⟩ => (nomatch hp)⟩
    | ok u => exact ⟨fun _ => ⟨.inr h1, rfl⟩, fun _ => ⟨_, rfl⟩⟩
  · refine ⟨fun ⟨plan, hp⟩ => ?_, fun ⟨h, _⟩ => absurd h (not_or.2 ⟨h1, h2⟩)⟩
    obtain ⟨e, he⟩ := configure_fails name s exe h3
    rw [he] at hp
    cases hp

/-! ### What is installed -/

/-- The arguments for `cargo`. -/
private def argsFor (release : Bool) (target : Text) (python : Bool) : List Text :=
  (if release then ["--release".toList] else []) ++ ((if target = [] then [] else ["--target=".toList ++ target]) ++
    (if python then ["--features=serialization".toList] else []))

/-- What they mean. -/
private def optionsFor (release : Bool) (target : Text) (python : Bool) : Options :=
  ⟨release, if target = [] then none else some target, if python then ["serialization".toList] else []⟩

private theorem parse_release {rest : List Text} {o : Options} (h : parse rest = some o) :
    parse ("--release".toList :: rest) = some { o with release := true } := by
  rw [parse, h]
  exact if_pos rfl

private theorem target_ne (target : Text) : "--target=".toList ++ target ≠ "--release".toList := by
  intro h
  have h1 := congrArg (fun l => l.take 9) h
  have h2 : ("--target=".toList ++ target).take 9 = "--target=".toList := by
    rw [List.take_append_of_le_length (by decide +kernel)]
    decide +kernel
  rw [h2] at h1
  exact absurd h1 (by decide +kernel)

private theorem parse_target {rest : List Text} {o : Options} (h : parse rest = some o) (target : Text) :
    parse (("--target=".toList ++ target) :: rest) = some { o with target := some target } := by
  rw [parse, h]
  have h5 : ("--target=".toList ++ target).drop 9 = target := List.drop_left' (by decide +kernel)
  refine (if_neg (target_ne target)).trans ((if_pos (List.prefix_append _ _)).trans ?_)
  rw [h5]

private theorem parse_args (release : Bool) (target : Text) (python : Bool) :
    parse (argsFor release target python) = some (optionsFor release target python) := by
  have h1 : parse (if python then ["--features=serialization".toList] else []) =
      some ⟨false, none, if python then ["serialization".toList] else []⟩ := by
    cases python <;> decide +kernel
  have h2 : parse ((if target = [] then [] else ["--target=".toList ++ target]) ++
      (if python then ["--features=serialization".toList] else [])) =
      some ⟨false, if target = [] then none else some target, if python then ["serialization".toList] else []⟩ := by
    by_cases ht : target = []
    · rw [if_pos ht, if_pos ht]
      exact h1
    · rw [if_neg ht, if_neg ht]
      exact parse_target h1 target
  cases release with
  | false => exact h2
  | true => exact parse_release h2

private theorem makePlan_eq (name : Bool → Text) (s : Settings) (release : Bool) (type : Text) (ht : ';' ∉ s.target) :
    makePlan name s (if release then "--release".toList else []) type =
      ⟨argsFor release s.target s.python,
        "target/".toList ++ (if s.target = [] then [] else s.target ++ ['/']) ++ type ++ '/' :: name s.shared⟩ := by
  have e1 : elements (if release then "--release".toList else []) = if release then ["--release".toList] else [] := by
    cases release <;> decide +kernel
  have e2 : ∀ arg, elements (arg ++ ";--features=serialization".toList) = elements arg ++ ["--features=serialization".toList] := by
    intro arg
    rw [show ";--features=serialization".toList = ';' :: "--features=serialization".toList by decide +kernel, elements_append]
    congr 1
  have e3 : ∀ arg, elements (arg ++ ";--target=".toList ++ s.target) = elements arg ++ ["--target=".toList ++ s.target] := by
    intro arg
    have h0 : ";--target=".toList ++ s.target = ';' :: ("--target=".toList ++ s.target) := by
      rw [show ";--target=".toList = ';' :: "--target=".toList by decide +kernel]
      rfl
    rw [List.append_assoc, h0, elements_append, elements_single (t := "--target=".toList ++ s.target)]
    · rw [List.mem_append, not_or]
      exact ⟨by decide +kernel, ht⟩
    · exact List.append_ne_nil_of_left_ne_nil (by decide +kernel) _
  have e4 : ∀ (python : Bool) arg, elements (if python then arg ++ ";--features=serialization".toList else arg) =
      elements arg ++ if python then ["--features=serialization".toList] else [] := by
    intro python arg
    cases python
    · exact (List.append_nil _).symm
    · exact e2 arg
  unfold makePlan withTarget argsFor
  by_cases h0 : s.target = []
  · rw [if_pos h0, if_pos h0, if_pos h0]
    refine congrArg₂ Plan.mk ?_ ?_
    · rw [e4, e1]; rfl
    · rw [List.append_nil]
  · rw [if_neg h0, if_neg h0, if_neg h0]
    refine congrArg₂ Plan.mk ?_ ?_
    · rw [e4, e3, e1, List.append_assoc]
    · rw [List.append_assoc, List.append_assoc, List.append_assoc, List.append_assoc, List.append_assoc]
      rfl

/-- The plan, when CMake succeeds. -/
private theorem plan_eq {name : Bool → Text} {s : Settings} {exe : Option Cargo} {plan : Plan} (hc : configure name s exe = .ok plan)
    (hb : ';' ∉ s.buildType) (ht : ';' ∉ s.target) :
    ∃ release : Bool, (release = false ↔ AsksDebug s) ∧
      plan = ⟨argsFor release s.target s.python,
        "target/".toList ++ (if s.target = [] then [] else s.target ++ ['/']) ++
          (if release then "release".toList else "debug".toList) ++ '/' :: name s.shared⟩ := by
  rcases chosen s hb with ⟨h1, -, type, h2, h3⟩ | ⟨h1, h1', type, h2, h3⟩ | ⟨h1, h2, h3⟩
  · refine ⟨false, ⟨fun _ => h1, fun _ => rfl⟩, ?_⟩
    rw [configure_of name s exe h2 h3] at hc
    split at hc
    · cases hc
    · rw [← Except.ok.inj hc]
      exact makePlan_eq name s false "debug".toList ht
  · refine ⟨true, ⟨fun h => (by cases h), fun h => absurd h h1'⟩, ?_⟩
    rw [configure_of name s exe h2 h3] at hc
    split at hc
    · cases hc
    · rw [← Except.ok.inj hc]
      exact makePlan_eq name s true "release".toList ht
  · obtain ⟨e, he⟩ := configure_fails name s exe h3
    rw [he] at hc
    cases hc

/-- **C118**, partial: without variables which tell `cargo` to write its files somewhere else, and for the name of a target, the library
which is installed is the one which was just built, whatever was there before. It is a shared library if and only if the user asked for
one, it is a debug build if and only if the user asked for one, and it has the features for Python if and only if it is for Python. It is made by the `cargo` of the `PATH`, which does not have
to be the one which was checked. -/
theorem C118_partial (name : Bool → Text) (s : Settings) (exe : Option Cargo) (onPath : Numbers) (env : CargoEnvironment) (files : Files)
    (plan : Plan) (hc : configure name s exe = .ok plan) (hb : ';' ∉ s.buildType) (ht : ';' ∉ s.target)
    (hj : ¬ ".json".toList <:+ s.target) (hd : env.targetDir = none) (he : env.buildTarget = none ∨ s.target ≠ [])
    (hn : name true ≠ name false) :
    ∃ library, install name (some onPath) env plan files = some library ∧ Expected s (some onPath) library := by
  obtain ⟨release, hr, rfl⟩ := plan_eq hc hb ht
  have htarget : ((if s.target = [] then none else some s.target) <|> env.buildTarget) =
      if s.target = [] then none else some s.target := by
    rcases he with he | he
    · rw [he]; split <;> rfl
    · simp [he]
  refine ⟨⟨s.shared, some onPath, !release, if s.target = [] then none else some s.target,
    if s.python then ["serialization".toList] else []⟩, ?_, rfl, rfl, ?_, rfl, rfl⟩
  · have hdir : "target/".toList ++ (if s.target = [] then [] else s.target ++ ['/']) ++
        (if release then "release".toList else "debug".toList) ++ '/' :: name s.shared =
        ("target".toList ++ '/' :: (match (if s.target = [] then none else some s.target : Option Text) with
          | none => []
          | some t => targetDirectory t ++ ['/']) ++ (if release then "release".toList else "debug".toList)) ++ '/' :: name s.shared := by
      rw [show "target/".toList = "target".toList ++ ['/'] by decide +kernel]
      generalize (if release then "release".toList else "debug".toList) = kind
      generalize "target".toList = dir
      by_cases h0 : s.target = []
      · rw [if_pos h0, if_pos h0]; simp
      · rw [if_neg h0, if_neg h0]
        simp only [targetDirectory]
        rw [if_neg hj]
        simp
    have hbuild : cargoBuild (some onPath) env (argsFor release s.target s.python) =
        some ("target".toList ++ '/' :: (match (if s.target = [] then none else some s.target : Option Text) with
          | none => []
          | some t => targetDirectory t ++ ['/']) ++ (if release then "release".toList else "debug".toList),
          fun shared => ⟨shared, some onPath, !release, if s.target = [] then none else some s.target,
            if s.python then ["serialization".toList] else []⟩) := by
      unfold cargoBuild
      rw [parse_args]
      dsimp only [optionsFor]
      rw [hd, htarget]
      rfl
    rw [install, hbuild]
    dsimp only
    rw [hdir]
    generalize s.shared = shared
    cases shared with
    | true => exact if_pos rfl
    | false =>
      refine (if_neg fun h => ?_).trans (if_pos rfl)
      exact hn (List.cons.inj (List.append_cancel_left h)).2.symm
  · rw [← hr]
    cases release <;> simp

/-- **C118** for `setup.py`: what happens with each environment. Without `EQUISTORE_BUILD_TYPE` the build is a release build, other
values than the two names are refused; without a directory `build`, the first run fails. -/
theorem C118_python_refused (name : Bool → Text) (env : Environment) (found : Option Cargo) (checkout : Checkout) :
    ((pythonConfigure name env found checkout).2 = .error .invalidBuildType ↔
      ∃ t, env.buildType = some t ∧ t ≠ "debug".toList ∧ t ≠ "release".toList) ∧
    ((pythonConfigure name env found checkout).2 = .error .noDirectory ↔
      (env.buildType = none ∨ env.buildType = some "debug".toList ∨ env.buildType = some "release".toList) ∧
        checkout.build = false ∧ checkout.cmakeBuild = false) := by
  unfold pythonConfigure
  rcases hb : env.buildType with _ | t
  · cases h1 : checkout.build <;> cases h2 : checkout.cmakeBuild <;> simp <;> (split <;> simp)
  · by_cases h3 : t = "debug".toList
    · cases h1 : checkout.build <;> cases h2 : checkout.cmakeBuild <;> simp [h3] <;> (split <;> simp)
    · by_cases h4 : t = "release".toList
      · cases h1 : checkout.build <;> cases h2 : checkout.cmakeBuild <;> simp [h4] <;> (split <;> simp)
      · simp only [Option.getD_some, List.mem_cons, h3, h4, List.not_mem_nil, or_self, not_false_eq_true, if_true, true_iff,
          Option.some.injEq, reduceCtorEq, false_and, iff_false, ne_eq]
        exact ⟨⟨t, rfl, h3, h4⟩, fun h => by cases h⟩

/-- **C118** for `setup.py`: otherwise it succeeds exactly if the `cargo` in the variable `CARGO`, or else the one of the last run in the
same directory, or else the one which CMake finds can be run and is recent enough. -/
theorem C118_python_configures (name : Bool → Text) (env : Environment) (found : Option Cargo) (checkout : Checkout) :
    (∃ plan, (pythonConfigure name env found checkout).2 = .ok plan) ↔
      (env.buildType = none ∨ env.buildType = some "debug".toList ∨ env.buildType = some "release".toList) ∧
      (checkout.build = true ∨ checkout.cmakeBuild = true) ∧
      ∃ v, RecentEnough v ∧ (env.cargo = some (some v) ∨ env.cargo = none ∧
        (checkout.cargo = some (some v) ∨ checkout.cargo = none ∧ found = some (some v))) := by
  have hexe : ∀ v : Numbers, (env.cargo.or checkout.cargo).or found = some (some v) ↔
      (env.cargo = some (some v) ∨ env.cargo = none ∧
        (checkout.cargo = some (some v) ∨ checkout.cargo = none ∧ found = some (some v))) := by
    intro v
    cases env.cargo <;> cases checkout.cargo <;> simp
  have hbt : env.buildType.getD "release".toList ∈ ["debug".toList, "release".toList] ↔
      (env.buildType = none ∨ env.buildType = some "debug".toList ∨ env.buildType = some "release".toList) := by
    cases env.buildType <;> simp
  rw [← hbt]
  unfold pythonConfigure
  by_cases h1 : env.buildType.getD "release".toList ∈ ["debug".toList, "release".toList]
  · have h1' : env.buildType.getD "release".toList = "debug".toList ∨ env.buildType.getD "release".toList = "release".toList :=
      (List.mem_cons.1 h1).imp_right List.mem_singleton.1
    have key := C118_configures name ⟨true, env.buildType.getD "release".toList, [], (env.target.or checkout.target).getD [], true, true⟩
      ((env.cargo.or checkout.cargo).or found) (by rcases h1' with h | h <;> rw [h] <;> dsimp only <;> decide)
    have hask : AsksDebug ⟨true, env.buildType.getD "release".toList, [], (env.target.or checkout.target).getD [], true, true⟩ ∨
        AsksRelease ⟨true, env.buildType.getD "release".toList, [], (env.target.or checkout.target).getD [], true, true⟩ := by
      unfold AsksDebug AsksRelease
      rcases h1' with h | h <;> rw [h]
      · exact .inl (by dsimp only; decide)
      · exact .inr (.inl (by dsimp only; decide))
    simp only [h1, not_true_eq_false, if_false, true_and]
    cases h2 : (checkout.build || checkout.cmakeBuild) with
    | false =>
      rw [Bool.or_eq_false_iff] at h2
      refine ⟨fun ⟨_, h⟩ => (nomatch h), fun ⟨h, _⟩ => ?_⟩
      rw [h2.1, h2.2] at h
      exact absurd h (by simp)
    | true =>
      rw [Bool.or_eq_true] at h2
      have h3 : (∃ v, RecentEnough v ∧ (env.cargo = some (some v) ∨ env.cargo = none ∧
          (checkout.cargo = some (some v) ∨ checkout.cargo = none ∧ found = some (some v)))) ↔
          ∃ plan, configure name ⟨true, env.buildType.getD "release".toList, [], (env.target.or checkout.target).getD [], true, true⟩
            ((env.cargo.or checkout.cargo).or found) = .ok plan := by
        rw [key]
        simp only [hask, true_and, hexe]
        exact exists_congr fun v => and_comm
      rw [h3]
      simp only [h2, true_and]
      rw [if_neg (by decide)]
      dsimp only
      cases configure name ⟨true, env.buildType.getD "release".toList, [], (env.target.or checkout.target).getD [], true, true⟩
            ((env.cargo.or checkout.cargo).or found) with
      | error e => exact ⟨fun ⟨_, h⟩ => (nomatch h), fun ⟨_, h⟩ => (nomatch h)⟩
      | ok plan => exact ⟨fun _ => ⟨_, rfl⟩, fun _ => ⟨_, rfl⟩⟩
  · rw [if_pos h1]
    exact ⟨fun ⟨_, h⟩ => (nomatch h), fun ⟨h, _⟩ => absurd h h1⟩

/-- What is installed, with any target from the last run. -/
private theorem python_installed (name : Bool → Text) (env : Environment) (found : Option Cargo) (checkout checkout' : Checkout)
    (onPath : Numbers) (cargoEnv : CargoEnvironment) (files : Files) (plan : Plan) (target : Text)
    (h : pythonConfigure name env found checkout = (checkout', .ok plan)) (htarget : (env.target.or checkout.target).getD [] = target)
    (ht : ';' ∉ target) (hj : ¬ ".json".toList <:+ target) (hd : cargoEnv.targetDir = none)
    (he : cargoEnv.buildTarget = none ∨ target ≠ []) (hn : name true ≠ name false) :
    ∃ library, install name (some onPath) cargoEnv plan files = some library ∧ library.shared = true ∧ library.compiler = some onPath ∧
      (library.debug = true ↔ env.buildType = some "debug".toList) ∧
      library.target = (if target = [] then none else some target) ∧ library.features = ["serialization".toList] := by
  unfold pythonConfigure at h
  simp only [htarget] at h
  split at h
  · cases h
  · next hbt =>
    split at h
    · cases h
    · split at h
      · cases h
      · next plan' hplan =>
        obtain rfl : plan' = plan := by cases h; rfl
        have hbt' : env.buildType.getD "release".toList = "debug".toList ∨ env.buildType.getD "release".toList = "release".toList := by
          simpa [or_iff_not_imp_left] using hbt
        obtain ⟨library, h1, h0, h2, h3, h4, h5⟩ := C118_partial name _ _ onPath cargoEnv files plan' hplan
          (by rcases hbt' with hbt' | hbt' <;> simp only [hbt'] <;> decide) ht hj hd he hn
        refine ⟨library, h1, h0, h2, ?_, h4, h5⟩
        rw [h3]
        unfold AsksDebug
        simp only
        cases hb : env.buildType with
        | none => simp
        | some t =>
          rw [hb, Option.getD_some] at hbt'
          rcases hbt' with rfl | rfl <;> simp

/-- **C118** for `setup.py`, partial: the library for Python is a shared library which can read and write files, is a debug build if and
only if `EQUISTORE_BUILD_TYPE` is `debug`, and is for the target in `RUST_BUILD_TARGET`, if the last build in the same directory had none
or this one has one. -/
theorem C118_python_partial (name : Bool → Text) (env : Environment) (found : Option Cargo) (checkout checkout' : Checkout)
    (onPath : Numbers) (cargoEnv : CargoEnvironment) (files : Files) (plan : Plan)
    (h : pythonConfigure name env found checkout = (checkout', .ok plan)) (hcache : checkout.target = none ∨ env.target ≠ none)
    (ht : ';' ∉ env.target.getD []) (hj : ¬ ".json".toList <:+ env.target.getD []) (hd : cargoEnv.targetDir = none)
    (he : cargoEnv.buildTarget = none ∨ env.target.getD [] ≠ []) (hn : name true ≠ name false) :
    ∃ library, install name (some onPath) cargoEnv plan files = some library ∧ library.shared = true ∧ library.compiler = some onPath ∧
      (library.debug = true ↔ env.buildType = some "debug".toList) ∧
      library.target = (if env.target.getD [] = [] then none else env.target) ∧ library.features = ["serialization".toList] := by
  have htarget : (env.target.or checkout.target).getD [] = env.target.getD [] := by
    rcases hcache with hcache | hcache
    · rw [hcache, Option.or_none]
    · cases het : env.target with
      | none => exact absurd het hcache
      | some t => rfl
  obtain ⟨library, h1, h0, h2, h3, h4, h5⟩ := python_installed name env found checkout checkout' onPath cargoEnv files plan _ h htarget
    ht hj hd he hn
  refine ⟨library, h1, h0, h2, h3, ?_, h5⟩
  rw [h4]
  cases het : env.target with
  | none => rfl
  | some t => rfl

private theorem accepted_step (name : Bool → Text) (env : Environment) (found : Option Cargo) (checkout : Checkout) (ha : Accepted env)
    (hb : checkout.build = true) :
    (pythonConfigure name env found checkout).1.build = true ∧
      (pythonConfigure name env found checkout).1.target = env.target.or checkout.target := by
  have hmem : env.buildType.getD "release".toList ∈ ["debug".toList, "release".toList] := by
    rcases ha with ha | ha | ha <;> rw [ha]
    · exact List.mem_cons_of_mem _ List.mem_cons_self
    · exact List.mem_cons_self
    · exact List.mem_cons_of_mem _ List.mem_cons_self
  unfold pythonConfigure
  rw [if_neg (not_not.2 hmem), hb, if_neg (by simp)]
  exact ⟨rfl, rfl⟩

private theorem runs_target (name : Bool → Text) (runs : List (Environment × Option Cargo)) (checkout : Checkout)
    (ha : ∀ run ∈ runs, Accepted run.1) (hb : checkout.build = true) :
    (pythonRuns name runs checkout).build = true ∧
      (∀ t, LastGiven (runs.map Prod.fst) t → (pythonRuns name runs checkout).target = some t) ∧
      ((∀ run ∈ runs, run.1.target = none) → (pythonRuns name runs checkout).target = checkout.target) := by
  induction runs generalizing checkout with
  | nil =>
    refine ⟨hb, fun t ⟨before, env, after, h, _⟩ => ?_, fun _ => rfl⟩
    exact absurd h (by simp)
  | cons run runs ih =>
    obtain ⟨h1, h2⟩ := accepted_step name run.1 run.2 checkout (ha run List.mem_cons_self) hb
    obtain ⟨h3, h4, h5⟩ := ih (pythonConfigure name run.1 run.2 checkout).1 (fun r hr => ha r (List.mem_cons_of_mem _ hr)) h1
    refine ⟨h3, ?_, ?_⟩
    · rintro t ⟨before, env, after, h, ht, hafter⟩
      cases before with
      | nil =>
        rw [List.nil_append, List.map_cons, List.cons.injEq] at h
        obtain ⟨rfl, rfl⟩ := h
        refine (h5 fun r hr => hafter r.1 (List.mem_map_of_mem hr)).trans ?_
        rw [h2, ht]
        rfl
      | cons e before =>
        rw [List.cons_append, List.map_cons, List.cons.injEq] at h
        exact h4 t ⟨before, env, after, h.2, ht, hafter⟩
    · intro hnone
      refine (h5 fun r hr => hnone r (List.mem_cons_of_mem _ hr)).trans ?_
      rw [h2, hnone run List.mem_cons_self]
      rfl

/-- **C118** for `setup.py`, partial: what is installed after any number of earlier runs in the same directory, with any results. The
library is for the target given last, in this run or in an earlier one, and for this machine if there was none; everything else only
depends on this run. -/
theorem C118_python_history_partial (name : Bool → Text) (earlier : List (Environment × Option Cargo)) (env : Environment)
    (found : Option Cargo) (checkout checkout' : Checkout) (onPath : Numbers) (cargoEnv : CargoEnvironment) (files : Files) (plan : Plan)
    (target : Text) (hb : checkout.build = true) (hc : checkout.target = none) (ha : ∀ run ∈ earlier, Accepted run.1)
    (h : pythonConfigure name env found (pythonRuns name earlier checkout) = (checkout', .ok plan))
    (htarget : LastGiven (earlier.map Prod.fst ++ [env]) target ∨
      (∀ e ∈ earlier.map Prod.fst ++ [env], e.target = none) ∧ target = [])
    (ht : ';' ∉ target) (hj : ¬ ".json".toList <:+ target) (hd : cargoEnv.targetDir = none)
    (he : cargoEnv.buildTarget = none ∨ target ≠ []) (hn : name true ≠ name false) :
    ∃ library, install name (some onPath) cargoEnv plan files = some library ∧ library.shared = true ∧ library.compiler = some onPath ∧
      (library.debug = true ↔ env.buildType = some "debug".toList) ∧
      library.target = (if target = [] then none else some target) ∧ library.features = ["serialization".toList] := by
  refine python_installed name env found _ checkout' onPath cargoEnv files plan target h ?_ ht hj hd he hn
  obtain ⟨-, h1, h2⟩ := runs_target name earlier checkout ha hb
  rcases htarget with ⟨before, last, after, heq, hlast, hafter⟩ | ⟨hnone, rfl⟩
  · rcases List.eq_nil_or_concat after with rfl | ⟨after, e, rfl⟩
    · obtain ⟨-, h3⟩ := List.append_inj' heq rfl
      rw [List.cons.injEq] at h3
      rw [h3.1, hlast]
      rfl
    · rw [List.concat_eq_append, ← List.cons_append, ← List.append_assoc] at heq
      obtain ⟨h3, h4⟩ := List.append_inj' heq rfl
      rw [List.cons.injEq] at h4
      rw [h4.1, hafter e (by simp), h1 target ⟨before, last, after, h3, hlast, fun e he => hafter e (by simp [he])⟩]
      rfl
  · rw [hnone env (by simp), h2 fun r hr => hnone r.1 (List.mem_append_left _ (List.mem_map_of_mem hr)), hc]
    rfl

/-! ### Counterexamples -/

namespace CMakeExample

/-- Names of libraries on Linux. -/
def linux : Bool → Text
  | true => "libequistore.so".toList
  | false => "libequistore.a".toList

/-- The main project, without any option. -/
def plain : Settings := ⟨true, [], [], [], false, true⟩

/-- A debug build which was made before. -/
def old : Library := ⟨true, some (1, 60, 0), true, none, []⟩

/-- It was written to the directory for release builds some time ago. -/
def files : Files := fun path => if path = "target/release/libequistore.so".toList then some old else none

/-- No variables for `cargo`. -/
def clean : CargoEnvironment := ⟨none, none⟩

end CMakeExample

open CMakeExample

/-- The full statement is false: with `CARGO_TARGET_DIR`, `cargo` writes the library somewhere else, and what was built before is
installed, if there is something. -/
theorem C118_counterexample : ¬ C118_full_statement := by
  intro h
  have := h linux plain (some (1, 60, 0)) (some (1, 60, 0)) ⟨some "elsewhere".toList, none⟩ files
    ⟨["--release".toList], "target/release/libequistore.so".toList⟩ old (by decide) (by decide)
  have h1 := this.2.2.1.1 rfl
  exact absurd h1 (by unfold AsksDebug; decide)

/-- The version of the `cargo` given by the user is checked, and the one of the `PATH` is used. -/
theorem C118_counterexample_cargo : ∃ plan library,
    configure linux plain (some (some (1, 60, 0))) = .ok plan ∧
    install linux (some (1, 40, 0)) clean plan files = some library ∧ library.compiler = some (1, 40, 0) ∧
      ¬ RecentEnough (1, 40, 0) :=
  ⟨⟨["--release".toList], "target/release/libequistore.so".toList⟩, ⟨true, some (1, 40, 0), false, none, []⟩, by decide, by decide, rfl,
    by simp [RecentEnough]⟩

/-- A target described by a file is built and then not found. -/
theorem C118_counterexample_json : ∃ plan,
    configure linux { plain with target := "my.json".toList } (some (some (1, 60, 0))) = .ok plan ∧
    (cargoBuild (some (1, 60, 0)) clean plan.args).map Prod.fst = some "target/my/release".toList ∧
    install linux (some (1, 60, 0)) clean plan (fun _ => none) = none :=
  ⟨⟨["--release".toList, "--target=my.json".toList], "target/my.json/release/libequistore.so".toList⟩, by decide, by decide, by decide⟩

/-- `setup.py` for another machine, then without `RUST_BUILD_TARGET`: the second library is for the other machine, too. -/
theorem C118_counterexample_cache : ∃ checkout plan₁ plan₂ checkout₂,
    pythonConfigure linux ⟨none, some "aarch64-apple-darwin".toList, none⟩ (some (some (1, 60, 0))) ⟨true, false, none, none⟩ =
      (checkout, .ok plan₁) ∧
    pythonConfigure linux ⟨none, none, none⟩ (some (some (1, 60, 0))) checkout = (checkout₂, .ok plan₂) ∧
    ∃ library, install linux (some (1, 60, 0)) clean plan₂ files = some library ∧
      library.target = some "aarch64-apple-darwin".toList := by
  refine ⟨_, _, _, _, rfl, rfl, ⟨true, some (1, 60, 0), false, some "aarch64-apple-darwin".toList, ["serialization".toList]⟩, ?_, rfl⟩
  decide +kernel

/-- Non-vacuity of `C118_partial` and `C118_python_partial`: a debug build for another machine, and a build for Python. -/
example : ∃ plan library, configure linux ⟨false, "DeBug".toList, [], "x86_64-pc-windows-gnu".toList, true, false⟩
      (some (some (2, 0, 0))) = .ok plan ∧
    install linux (some (1, 70, 1)) ⟨none, some "other".toList⟩ plan files = some library ∧
    library = ⟨false, some (1, 70, 1), true, some "x86_64-pc-windows-gnu".toList, ["serialization".toList]⟩ :=
  ⟨⟨["--target=x86_64-pc-windows-gnu".toList, "--features=serialization".toList],
    "target/x86_64-pc-windows-gnu/debug/libequistore.a".toList⟩, _, by decide +kernel, by decide +kernel, rfl⟩

example : ∃ checkout plan, pythonConfigure linux ⟨some "debug".toList, none, none⟩ (some (some (1, 60, 0)))
    ⟨true, false, none, none⟩ = (checkout, .ok plan) :=
  ⟨_, _, rfl⟩

/-- Non-vacuity of `C118_python_history_partial`: three runs, of which the second one is for another machine. -/
example : ∃ checkout plan, pythonConfigure linux ⟨some "debug".toList, none, none⟩ (some (some (1, 60, 0)))
      (pythonRuns linux [(⟨none, none, none⟩, none), (⟨none, some "aarch64-apple-darwin".toList, none⟩, some (some (1, 60, 0)))]
        ⟨true, false, none, none⟩) = (checkout, .ok plan) ∧
    LastGiven [⟨none, none, none⟩, ⟨none, some "aarch64-apple-darwin".toList, none⟩, ⟨some "debug".toList, none, none⟩]
      "aarch64-apple-darwin".toList :=
  ⟨_, _, rfl, [_], _, [_], rfl, rfl, by simp⟩

/-- In a project added with `add_subdirectory` without a build type, CMake fails. -/
example : configure linux { plain with top := false } (some (some (1, 60, 0))) = .error .noBuildType := by decide

end Props
end Equistore
