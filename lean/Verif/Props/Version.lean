import Verif.Spec.Version

/-!
# C106: the version of the Python and CMake packages
-/

namespace Equistore
namespace Props

open Equistore.Version Spec.Version

private theorem lines_append (a b : Text) (h : a = [] ∨ a.getLast? = some '\n') : lines (a ++ b) = lines a ++ lines b := by
  induction a with
  | nil => rfl
  | cons c a ih =>
    simp only [List.cons_append, lines]
    split
    · rename_i hc
      cases a with
      | nil => rfl
      | cons d a => rw [ih (.inr (by simpa using h)), List.cons_append]
    · rename_i hc
      cases a with
      | nil => simp_all
      | cons d a =>
        rw [ih (.inr (by simpa using h))]
        have hne : lines (d :: a) ≠ [] := by
          simp only [lines]
          split
          · simp
          · split <;> simp
        cases hl : lines (d :: a) with
        | nil => exact absurd hl hne
        | cons l ls => rfl

private theorem lines_one (l rest : Text) (h : '\n' ∉ l) : lines (l ++ '\n' :: rest) = (l ++ ['\n']) :: lines rest := by
  induction l with
  | nil => simp [lines]
  | cons c l ih =>
    simp only [List.mem_cons, not_or] at h
    simp only [List.cons_append, lines]
    rw [if_neg (fun e => h.1 e.symm), ih h.2]

private theorem lines_cons (t l : Text) (ls : List Text) (h : lines t = l :: ls) :
    l <+: t ∧ ∀ x ∈ ls, '\n' :: x <:+: t := by
  induction t generalizing l ls with
  | nil => simp [lines] at h
  | cons c t ih =>
    simp only [lines] at h
    split at h
    · rename_i hc
      subst hc
      simp only [List.cons.injEq] at h
      obtain ⟨rfl, rfl⟩ := h
      refine ⟨⟨t, rfl⟩, fun x hx => ?_⟩
      cases hl : lines t with
      | nil => simp [hl] at hx
      | cons l' ls' =>
        obtain ⟨h1, h2⟩ := ih l' ls' hl
        rw [hl] at hx
        rcases List.mem_cons.1 hx with rfl | hx
        · obtain ⟨r, hr⟩ := h1
          exact ⟨[], r, by rw [← hr]; rfl⟩
        · exact (h2 x hx).trans (List.suffix_cons _ _).isInfix
    · split at h
      · simp only [List.cons.injEq] at h
        obtain ⟨rfl, rfl⟩ := h
        exact ⟨⟨t, rfl⟩, by simp⟩
      · rename_i l' ls' hl
        simp only [List.cons.injEq] at h
        obtain ⟨rfl, rfl⟩ := h
        obtain ⟨⟨r, hr⟩, h2⟩ := ih l' ls' hl
        exact ⟨⟨r, by rw [← hr]; rfl⟩, fun x hx => (h2 x hx).trans (List.suffix_cons _ _).isInfix⟩

private theorem lines_infix (t line : Text) (h : line ∈ lines t) : line <:+: t := by
  cases hl : lines t with
  | nil => simp [hl] at h
  | cons l ls =>
    obtain ⟨h1, h2⟩ := lines_cons t l ls hl
    rw [hl] at h
    rcases List.mem_cons.1 h with rfl | h
    · exact h1.isInfix
    · exact (List.suffix_cons _ _).isInfix.trans (h2 line h)

private theorem lines_start (t : Text) (w : Text) (h1 : ¬ w <+: t) (h2 : ¬ '\n' :: w <:+: t) :
    ∀ line ∈ lines t, ¬ w <+: line := by
  intro line h hw
  cases hl : lines t with
  | nil => simp [hl] at h
  | cons l ls =>
    obtain ⟨hp, hi⟩ := lines_cons t l ls hl
    rw [hl] at h
    rcases List.mem_cons.1 h with rfl | h
    · exact h1 (hw.trans hp)
    · obtain ⟨r, rfl⟩ := hw
      exact h2 (List.IsInfix.trans ⟨[], r, rfl⟩ (hi _ h))

private theorem split_none (t : Text) (h : ' ' ∉ t) : splitEquals t = [t] := by
  induction t with
  | nil => rfl
  | cons c t ih =>
    simp only [List.mem_cons, not_or] at h
    rw [splitEquals, ih h.2]
    intro rest hc
    exact absurd hc.symm h.1

private theorem split_line (t : Text) (h : ' ' ∉ t) : splitEquals ("version = ".toList ++ t) = ["version".toList, t] := by
  show splitEquals ('v' :: 'e' :: 'r' :: 's' :: 'i' :: 'o' :: 'n' :: ' ' :: '=' :: ' ' :: t) = _
  simp [splitEquals, split_none t h]

private theorem removeQuotes_spec (v : Text) : removeQuotes ('"' :: (v ++ ['"', '\n'])) = v := by
  simp [removeQuotes]

private theorem read_skip (a b : List Text) (h : ∀ line ∈ a, ¬ "version".toList <+: line) :
    readVersion (a ++ b) = readVersion b := by
  induction a with
  | nil => rfl
  | cons l a ih =>
    simp only [List.cons_append, readVersion]
    rw [if_neg (by rw [List.isPrefixOf_iff_prefix]; exact h l (by simp)), ih fun x hx => h x (by simp [hx])]

private theorem lines_cargo {cargo before version after : Text} (h : HasVersion cargo before version after) :
    lines cargo = lines before ++ ("version = ".toList ++ '"' :: (version ++ ['"', '\n'])) :: lines after := by
  obtain ⟨rfl, h1, _, _, h4⟩ := h
  rw [List.append_assoc, lines_append _ _ h1]
  congr 1
  have := lines_one ("version = ".toList ++ '"' :: (version ++ ['"'])) after (by
    intro hm
    simp only [List.mem_append, List.mem_cons, List.not_mem_nil, or_false] at hm
    rcases hm with hm | hm | hm | hm
    · exact absurd hm (by decide +kernel)
    · exact absurd hm (by decide)
    · exact (h4 _ hm).1 rfl
    · exact absurd hm (by decide))
  simpa using this

private theorem read_spec {cargo before version after : Text} (h : HasVersion cargo before version after) :
    readVersion (lines cargo) = .ok version := by
  rw [lines_cargo h, read_skip _ _ (lines_start before _ h.2.2.1 h.2.2.2.1), readVersion, if_pos, split_line]
  · simp only [removeQuotes_spec]
  · intro hm
    simp only [List.mem_append, List.mem_cons, List.not_mem_nil, or_false] at hm
    rcases hm with hm | hm | hm | hm
    · exact absurd hm (by decide)
    · exact (h.2.2.2.2 _ hm).2 rfl
    · exact absurd hm (by decide)
    · exact absurd hm (by decide)
  · rw [List.isPrefixOf_iff_prefix]
    exact ⟨" = ".toList ++ '"' :: (version ++ ['"', '\n']), rfl⟩

/-- White space, for `strip`. -/
private def space (c : Char) : Bool := c == ' ' || c == '\n' || c == '\t' || c == '\r'

private theorem strip_line (t : Text) (h : ∀ c ∈ t, space c = false) : strip (t ++ ['\n']) = t := by
  have hd : ∀ l : Text, (∀ c ∈ l, space c = false) → l.dropWhile space = l := by
    intro l hl
    cases l with
    | nil => rfl
    | cons c l => rw [List.dropWhile_cons_of_neg (by simp [hl c (by simp)])]
  show (((t ++ ['\n']).dropWhile space).reverse.dropWhile space).reverse = t
  cases t with
  | nil => decide
  | cons c t =>
    rw [List.cons_append, List.dropWhile_cons_of_neg (by simp [h c (by simp)]), ← List.cons_append, List.reverse_append,
      List.reverse_singleton, List.singleton_append, List.dropWhile_cons_of_pos (by decide),
      hd _ (fun x hx => h x (List.mem_reverse.1 hx)), List.reverse_reverse]

private theorem name_space {t : Text} (h : IsName t) : ∀ c ∈ t, space c = false := by
  intro c hc
  have := h.2 c hc
  simp [space, this]

private theorem decimal_digit (n : Nat) : ∀ c ∈ decimal n, c.isDigit = true := by
  intro c hc
  have : c ∈ Nat.toDigits 10 n := by simpa [decimal, Nat.repr] using hc
  exact Nat.isDigit_of_mem_toDigits (b := 10) (by decide) (by decide) this

private theorem decimal_space (n : Nat) : ∀ c ∈ decimal n, space c = false := by
  intro c hc
  have h := decimal_digit n c hc
  cases hs : space c with
  | false => rfl
  | true =>
    simp only [space, Bool.or_eq_true, beq_iff_eq] at hs
    rcases hs with ((rfl | rfl) | rfl) | rfl <;> exact absurd h (by decide)

private theorem strip_ne_nil (t : Text) (c : Char) (hc : c ∈ t) (h : space c = false) : strip t ≠ [] := by
  have hk : ∀ l : Text, c ∈ l → c ∈ l.dropWhile space := by
    intro l
    induction l with
    | nil => simp
    | cons d l ih =>
      intro hm
      cases hd : space d with
      | false => rwa [List.dropWhile_cons_of_neg (by simp [hd])]
      | true =>
        rw [List.dropWhile_cons_of_pos hd]
        rcases List.mem_cons.1 hm with rfl | hm
        · rw [h] at hd; cases hd
        · exact ih hm
  intro he
  have : c ∈ strip t := by
    show c ∈ ((t.dropWhile space).reverse.dropWhile space).reverse
    exact List.mem_reverse.2 (hk _ (List.mem_reverse.2 (hk t hc)))
  rw [he] at this
  cases this

private theorem strip_tags {tags : List Text} (h : ∀ name ∈ tags, IsName name) (hne : tags ≠ []) :
    strip (listing tags) ≠ [] := by
  cases tags with
  | nil => exact absurd rfl hne
  | cons t tags =>
    have ht := h t (by simp)
    cases hc : t with
    | nil => exact absurd hc ht.1
    | cons c r =>
      exact strip_ne_nil _ c (by simp [listing]) (name_space ht c (by simp [hc]))

private theorem reference_tag {git : Git} {h : History} (hg : Answers git h) {tag : Text} (ht : h.last = some tag) :
    reference git = tag := by
  have hm := hg.known tag ht
  have hne : h.tags ≠ [] := fun e => by simp [e] at hm
  simp only [reference, hg.tag, hg.describe, ht, Option.map_some]
  rw [if_neg (strip_tags (fun n hn => hg.names n (.inl hn)) hne), strip_line _ (name_space (hg.names tag (.inl hm)))]

private theorem reference_first {git : Git} {h : History} (hg : Answers git h) {first : Text} (ht : h.tags = [])
    (hr : h.roots = [first]) : reference git = first := by
  simp only [reference, hg.tag, hg.roots, ht, hr]
  rw [if_pos (by decide)]
  simp only [listing, List.flatMap_cons, List.flatMap_nil, List.append_nil]
  exact strip_line _ (name_space (hg.names first (.inr (by simp [hr]))))

private theorem version_count {cargo before version after : Text} (hc : HasVersion cargo before version after) {git : Git}
    {n : Nat} (h : git.count (reference git ++ "..HEAD".toList) = some (decimal n ++ ['\n'])) :
    getVersion cargo git = .ok (version ++ ".dev".toList ++ decimal n) := by
  simp only [getVersion, read_spec hc, h, strip_line _ (decimal_space n)]

/-- **C106**, as it should be: the version of the Python package is the one in `Cargo.toml` for releases and without
`git`, and says how many commits there are since the last release for others; CMake uses the one in `Cargo.toml`. False, see
`C106_counterexample` and `C106_counterexample_cmake`. -/
def C106_full_statement : Prop :=
  ∀ (cargo before version after : Text) (git : Git), HasVersion cargo before version after →
    (IsTriple version → cmakeVersion (lines cargo) = some version) ∧
    (NoGit git → getVersion cargo git = .ok version) ∧
    ∀ h, Answers git h → ∃ result, getVersion cargo git = .ok result ∧ Expected version h result

/-- **C106** (partial): without `git`, and for all histories where the current commit is not a release. -/
theorem C106_partial (cargo before version after : Text) (git : Git) (hc : HasVersion cargo before version after) :
    (NoGit git → getVersion cargo git = .ok version) ∧
    ∀ h, Answers git h → (∀ tag, h.last = some tag → h.since tag ≠ 0) →
      ∃ result, getVersion cargo git = .ok result ∧ Expected version h result := by
  refine ⟨fun hn => by simp only [getVersion, read_spec hc, hn.2.2.2], fun h hg hdev => ?_⟩
  cases hl : h.last with
  | some tag =>
    have hm := hg.known tag hl
    refine ⟨_, version_count hc (by rw [reference_tag hg hl]; exact hg.count tag (.inl hm)), ?_, ?_⟩
    · intro t ht
      rw [hl] at ht
      cases ht
      rw [if_neg (hdev tag hl)]
    · intro first ht
      simp [ht] at hm
  | none =>
    by_cases hf : ∃ first, h.tags = [] ∧ h.roots = [first]
    · obtain ⟨first, ht, hr⟩ := hf
      refine ⟨_, version_count hc (by rw [reference_first hg ht hr]; exact hg.count first (.inr (by simp [hr]))), ?_, ?_⟩
      · intro t h'
        rw [hl] at h'
        cases h'
      · intro f _ hr'
        rw [hr] at hr'
        cases hr'
        rfl
    · have : ∃ result, getVersion cargo git = .ok result := by
        simp only [getVersion, read_spec hc]
        split <;> exact ⟨_, rfl⟩
      obtain ⟨r, hr⟩ := this
      refine ⟨r, hr, ?_, fun first ht hr' => absurd ⟨first, ht, hr'⟩ hf⟩
      intro t h'
      rw [hl] at h'
      cases h'

/-- What happens for releases: all of them get a development version. -/
theorem C106_release (cargo before version after : Text) (git : Git) (hc : HasVersion cargo before version after)
    (h : History) (hg : Answers git h) (tag : Text) (hl : h.last = some tag) (h0 : h.since tag = 0) :
    getVersion cargo git = .ok (version ++ ".dev0".toList) := by
  have := version_count hc (n := 0) (by
    rw [reference_tag hg hl, hg.count tag (.inl (hg.known tag hl)), h0])
  rw [this, List.append_assoc]
  rfl

/-- If there are tags, but none before the current commit, the version does not depend on the number of commits. -/
theorem C106_other_tags (cargo before version after : Text) (git : Git) (hc : HasVersion cargo before version after)
    (h : History) (hg : Answers git h) (hl : h.last = none) (ht : h.tags ≠ []) :
    getVersion cargo git = .ok (version ++ ".dev0".toList) := by
  have hr : reference git = [] := by
    simp only [reference, hg.tag, hg.describe, hl, Option.map_none]
    rw [if_neg (strip_tags (fun n hn => hg.names n (.inl hn)) ht)]
  have := version_count hc (n := 0) (git := git) (by rw [hr]; exact hg.current)
  rw [this, List.append_assoc]
  rfl

private theorem literal_append (a b : Text) : literal a (a ++ b) = some b := by
  simp [literal]

private theorem digits_append (a b : Text) (c : Char) (ha : IsNumber a) (hc : c.isDigit = false) :
    digits (a ++ c :: b) = some (a, c :: b) := by
  obtain ⟨hne, ha⟩ := ha
  induction a with
  | nil => exact absurd rfl hne
  | cons d a ih =>
    simp only [List.cons_append, digits, ha d (by simp), if_true]
    cases a with
    | nil => simp [digits, hc]
    | cons e a => rw [ih (by simp) fun x hx => ha x (by simp [hx])]

private theorem match_version {version : Text} (h : IsTriple version) (rest : Text) :
    matchHere ("version = \"".toList ++ (version ++ '"' :: rest)) = some version := by
  obtain ⟨a, b, c, ha, hb, hc, rfl⟩ := h
  have e : (a ++ '.' :: b ++ '.' :: c) ++ '"' :: rest = a ++ '.' :: (b ++ '.' :: (c ++ '"' :: rest)) := by simp
  have d1 := digits_append a (b ++ '.' :: (c ++ '"' :: rest)) '.' ha (by decide)
  have d2 := digits_append b (c ++ '"' :: rest) '.' hb (by decide)
  have d3 := digits_append c rest '"' hc (by decide)
  have l1 : literal ['.'] ('.' :: (b ++ '.' :: (c ++ '"' :: rest))) = some (b ++ '.' :: (c ++ '"' :: rest)) :=
    literal_append ['.'] _
  have l2 : literal ['.'] ('.' :: (c ++ '"' :: rest)) = some (c ++ '"' :: rest) := literal_append ['.'] _
  have l3 : literal ['"'] ('"' :: rest) = some rest := literal_append ['"'] _
  simp only [matchHere, literal_append, e, Option.bind_eq_bind, Option.bind_some, d1, d2, d3, l1, l2, l3]
  rfl

private theorem replace_none (t : Text) (h : ¬ "version = \"".toList <:+: t) : replace t = none := by
  induction t with
  | nil => rfl
  | cons c t ih =>
    have h1 : matchHere (c :: t) = none := by
      have : literal "version = \"".toList (c :: t) = none := by
        unfold literal
        rw [if_neg]
        rw [List.isPrefixOf_iff_prefix]
        exact fun hp => h hp.isInfix
      unfold matchHere
      rw [this]
      rfl
    simp only [replace, h1, ih fun hi => h (hi.trans (List.suffix_cons _ _).isInfix), Option.map_none]

private theorem cmake_skip (a b : List Text) (h : ∀ line ∈ a, replace line = none) :
    cmakeVersion (a ++ b) = cmakeVersion b := by
  induction a with
  | nil => rfl
  | cons l a ih =>
    simp only [List.cons_append, cmakeVersion, h l (by simp)]
    exact ih fun x hx => h x (by simp [hx])

/-- The library, for CMake, and the Python package without `git` have the same version, the one in `Cargo.toml`. What is
missing: other lines with `version = "` before, see `C106_cmake_anywhere`. -/
theorem C106_same_version_partial (cargo before version after : Text) (git : Git) (hc : HasVersion cargo before version after)
    (hv : IsTriple version) (hb : ¬ "version = \"".toList <:+: before) (hn : NoGit git) :
    cmakeVersion (lines cargo) = some version ∧ getVersion cargo git = .ok version := by
  refine ⟨?_, (C106_partial cargo before version after git hc).1 hn⟩
  rw [lines_cargo hc, cmake_skip _ _ fun line hl => replace_none line fun hi => hb (hi.trans (lines_infix before line hl))]
  have hm := match_version hv ['\n']
  have e : "version = ".toList ++ '"' :: (version ++ ['"', '\n']) = "version = \"".toList ++ (version ++ '"' :: ['\n']) := by
    simp
  rw [e]
  have hr : replace ("version = \"".toList ++ (version ++ '"' :: ['\n'])) = some version := by
    show replace ('v' :: ("ersion = \"".toList ++ (version ++ '"' :: ['\n']))) = some version
    have hm' : matchHere ('v' :: ("ersion = \"".toList ++ (version ++ '"' :: ['\n']))) = some version := hm
    simp only [replace, hm']
  simp only [cmakeVersion, hr]

private theorem replace_prefix (p version rest : Text) (hv : IsTriple version)
    (hp : ¬ "version = \"".toList <:+: p ++ "version = ".toList) :
    replace (p ++ ("version = \"".toList ++ (version ++ '"' :: rest))) = some (p ++ version) := by
  induction p with
  | nil =>
    have hm := match_version hv rest
    show replace ('v' :: ("ersion = \"".toList ++ (version ++ '"' :: rest))) = some version
    have hm' : matchHere ('v' :: ("ersion = \"".toList ++ (version ++ '"' :: rest))) = some version := hm
    simp only [replace, hm']
  | cons c p ih =>
    have h1 : matchHere (c :: (p ++ ("version = \"".toList ++ (version ++ '"' :: rest)))) = none := by
      have : literal "version = \"".toList (c :: (p ++ ("version = \"".toList ++ (version ++ '"' :: rest)))) = none := by
        unfold literal
        rw [if_neg]
        rw [List.isPrefixOf_iff_prefix]
        intro hpre
        have e : c :: (p ++ ("version = \"".toList ++ (version ++ '"' :: rest))) =
            (c :: p ++ "version = ".toList) ++ ('"' :: (version ++ '"' :: rest)) := by simp
        rw [e] at hpre
        exact hp (List.prefix_of_prefix_length_le hpre (List.prefix_append _ _) (by simp)).isInfix
      unfold matchHere
      rw [this]
      rfl
    simp only [List.cons_append, replace, h1,
      ih fun hi => hp (hi.trans (List.suffix_cons c _).isInfix), Option.map_some]

/-- CMake does not look for the start of a line: the first line with `version = "x.y.z"` anywhere in it is used, and what is
before this text becomes a part of the version. -/
theorem C106_cmake_anywhere (before after p version : Text) (hb : before = [] ∨ before.getLast? = some '\n')
    (hn : ¬ "version = \"".toList <:+: before) (hl : '\n' ∉ p) (hp : ¬ "version = \"".toList <:+: p ++ "version = ".toList)
    (hv : IsTriple version) (hv' : '\n' ∉ version) :
    cmakeVersion (lines (before ++ (p ++ "version = \"".toList ++ version ++ "\"\n".toList) ++ after)) =
      some (p ++ version) := by
  rw [List.append_assoc, lines_append _ _ hb,
    cmake_skip _ _ fun line h => replace_none line fun hi => hn (hi.trans (lines_infix before line h))]
  have h1 := lines_one (p ++ ("version = \"".toList ++ (version ++ ['"']))) after (by
    intro hm
    simp only [List.mem_append, List.mem_cons, List.not_mem_nil, or_false] at hm
    rcases hm with hm | hm | hm | hm
    · exact hl hm
    · exact absurd hm (by decide +kernel)
    · exact hv' hm
    · exact absurd hm (by decide))
  have e : (p ++ "version = \"".toList ++ version ++ "\"\n".toList) ++ after =
      (p ++ ("version = \"".toList ++ (version ++ ['"']))) ++ '\n' :: after := by simp
  have e' : (p ++ ("version = \"".toList ++ (version ++ ['"']))) ++ ['\n'] =
      p ++ ("version = \"".toList ++ (version ++ '"' :: ['\n'])) := by simp
  rw [e, h1, e']
  simp only [cmakeVersion, replace_prefix p version ['\n'] hv hp]

/-- Without a line for the version in `Cargo.toml` there is an exception, and no package is made. -/
theorem C106_no_version (cargo : Text) (git : Git) (h1 : ¬ "version".toList <+: cargo)
    (h2 : ¬ "\nversion".toList <:+: cargo) : getVersion cargo git = .error .unboundLocalError := by
  have := read_skip (lines cargo) [] (lines_start cargo _ h1 h2)
  rw [List.append_nil] at this
  simp only [getVersion, this, readVersion]

/-! ### Examples -/

namespace VersionExample

/-- The start of `Cargo.toml`, with the version 1.2.3. -/
def before : Text := "[package]\nname = \"equistore\"\n".toList
def cargo : Text := "[package]\nname = \"equistore\"\nversion = \"1.2.3\"\nedition = \"2021\"\n".toList

theorem cargo_has : HasVersion cargo before "1.2.3".toList "edition = \"2021\"\n".toList := by
  refine ⟨by decide +kernel, by decide +kernel, by decide +kernel, by decide +kernel, by decide +kernel⟩

/-- The tags v1 and v2, with this many commits after v2. -/
def history (commits : Nat) : History where
  tags := ["v1".toList, "v2".toList]
  last := some "v2".toList
  roots := ["abc".toList]
  since := fun name => if name = "v2".toList then commits else commits + 7

/-- What `git` says. -/
def git (h : History) : Git where
  tag := some (listing h.tags)
  roots := some (listing h.roots)
  describe := h.last.map (· ++ ['\n'])
  count := fun text =>
    if text = "..HEAD".toList then some "0\n".toList
    else if '\n' ∈ text then none
    else some (decimal (h.since (text.take (text.length - 6))) ++ ['\n'])

theorem answers (h : History) (hn : ∀ name, name ∈ h.tags ∨ name ∈ h.roots → IsName name)
    (hk : ∀ tag, h.last = some tag → tag ∈ h.tags) : Answers (git h) h where
  names := hn
  known := hk
  tag := rfl
  roots := rfl
  describe := rfl
  count := by
    intro name hm
    have h1 := hn name hm
    have e : (name ++ "..HEAD".toList).take ((name ++ "..HEAD".toList).length - 6) = name := by simp
    simp only [git, e]
    rw [if_neg, if_neg]
    · intro hc
      rcases List.mem_append.1 hc with hc | hc
      · exact (h1.2 _ hc).2.1 rfl
      · exact absurd hc (by decide +kernel)
    · intro hc
      exact h1.1 (by simpa using hc)
  current := rfl
  lines := by
    intro name hm
    simp only [git]
    rw [if_neg, if_pos (by simp [hm])]
    intro hc
    have : name = [] := by simpa using hc
    simp [this] at hm

theorem history_answers (n : Nat) : Answers (git (history n)) (history n) := by
  apply answers
  · intro name hm
    simp only [history, List.mem_cons, List.not_mem_nil, or_false] at hm
    rcases hm with (rfl | rfl) | rfl <;> exact ⟨by decide +kernel, by decide +kernel⟩
  · intro tag ht
    simp only [history, Option.some.injEq] at ht
    subst ht
    simp [history]

-- twelve commits after v2
example : getVersion cargo (git (history 12)) = .ok "1.2.3.dev12".toList := by
  obtain ⟨r, h1, h2, _⟩ := (C106_partial _ _ _ _ _ cargo_has).2 _ (history_answers 12) (by simp [history])
  rw [h1, h2 "v2".toList rfl]
  congr 1

-- without `git`, and the version for CMake
example : cmakeVersion (lines cargo) = some "1.2.3".toList ∧
    getVersion cargo ⟨none, none, none, fun _ => none⟩ = .ok "1.2.3".toList :=
  C106_same_version_partial _ _ _ _ _ cargo_has
    ⟨"1".toList, "2".toList, "3".toList, ⟨by decide, by decide⟩, ⟨by decide, by decide⟩, ⟨by decide, by decide⟩, rfl⟩
    (by decide +kernel) ⟨rfl, rfl, rfl, fun _ => rfl⟩

-- tags only on other branches
example : getVersion cargo (git { history 5 with last := none }) = .ok "1.2.3.dev0".toList :=
  C106_other_tags _ _ _ _ _ cargo_has _ (answers _ (history_answers 5).names (by simp)) rfl (by simp [history])

end VersionExample

/-- With a line for `rust-version` before the one for the version, Python and CMake do not have the same version. -/
theorem C106_counterexample_cmake : ∃ cargo before version after, HasVersion cargo before version after ∧
    getVersion cargo ⟨none, none, none, fun _ => none⟩ = .ok version ∧
    cmakeVersion (lines cargo) = some "rust-1.56.0".toList ∧ version = "1.2.3".toList := by
  have hc : HasVersion "[package]\nrust-version = \"1.56.0\"\nversion = \"1.2.3\"\n".toList
      "[package]\nrust-version = \"1.56.0\"\n".toList "1.2.3".toList [] :=
    ⟨by decide +kernel, by decide +kernel, by decide +kernel, by decide +kernel, by decide +kernel⟩
  refine ⟨_, _, _, _, hc, (C106_partial _ _ _ _ _ hc).1 ⟨rfl, rfl, rfl, fun _ => rfl⟩, ?_, rfl⟩
  exact C106_cmake_anywhere "[package]\n".toList "version = \"1.2.3\"\n".toList "rust-".toList "1.56.0".toList
    (by decide +kernel) (by decide +kernel) (by decide +kernel) (by decide +kernel)
    ⟨"1".toList, "56".toList, "0".toList, ⟨by decide, by decide⟩, ⟨by decide, by decide⟩, ⟨by decide, by decide⟩, rfl⟩
    (by decide +kernel)

/-- The property does not hold: the release itself is called a development version, before the release. -/
theorem C106_counterexample : ¬ C106_full_statement := by
  intro h
  obtain ⟨r, h1, h2, _⟩ := (h _ _ _ _ _ VersionExample.cargo_has).2.2 _ (VersionExample.history_answers 0)
  have h3 := C106_release _ _ _ _ _ VersionExample.cargo_has _ (VersionExample.history_answers 0) "v2".toList rfl rfl
  have h4 := h2 "v2".toList rfl
  rw [h1] at h3
  simp only [Except.ok.injEq] at h3
  rw [h3, if_pos (by rfl)] at h4
  exact absurd h4 (by decide +kernel)

end Props
end Equistore
