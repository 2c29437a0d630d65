import Verif.Lemmas.NamesMemory

/-!
# The memory of names

C100: the list of gradients given to C. C101: names are freed exactly once.
-/

namespace Equistore

open NamesMemory Spec.Names

/-! ### C101 -/

/-- **C101.** No call of a program is undefined behaviour: no name is used after it was freed, or freed twice. -/
theorem C101_defined {s : State} {content : Content} (h : Run s content) {c : Call} (hc : Call.Allowed content c) :
    (c.run s).isSome := by
  obtain ⟨g, hg⟩ := inv_run h
  obtain ⟨s', r, g', h1, -⟩ := run_step hg hc
  simp [h1]

/-- **C101.** When all blocks and labels are dropped, all memory for names was freed. -/
theorem C101_freed {s : State} {content : Content} (h : Run s content) (hd : ∀ o ∈ content, o = none) (a : Addr) :
    s.memory.cells a = none := by
  obtain ⟨g, hg⟩ := inv_run h
  have : a ∉ g.footprint := by
    intro ha
    obtain ⟨o, ho, h1⟩ := List.mem_flatMap.1 ha
    have := hd (o.map fun o => (o.1, o.2.names)) (by rw [hg.content]; exact List.mem_map_of_mem ho)
    cases o with
    | none => simp at h1
    | some o => simp at this
  rw [← Option.not_isSome_iff_eq_none, hg.owns.live]
  exact this

/-- **C101.** At any time there is exactly the memory which is needed: one string for every name, and one vector for
everything which has names. -/
theorem C101_exactly {s : State} {content : Content} (h : Run s content) :
    ∃ live : List Addr, live.Nodup ∧ (∀ a, a ∈ live ↔ (s.memory.cells a).isSome) ∧
      live.length = (content.map fun o => match o with
        | none => 0
        | some (_, names) => if names = [] then 0 else names.length + 1).sum := by
  obtain ⟨g, hg⟩ := inv_run h
  refine ⟨g.footprint, hg.owns.nodup, fun a => (hg.owns.live a).symm, ?_⟩
  have hs : ∀ o ∈ g, ((o.map fun o => o.2.footprint).getD []).length =
      (match o.map fun o => (o.1, o.2.names) with
        | none => 0
        | some (_, names) => if names = [] then 0 else names.length + 1) := by
    intro o ho
    cases o with
    | none => rfl
    | some o =>
      obtain ⟨i, hi, he⟩ := List.getElem_of_mem ho
      have hsh := hg.shapes i o (by rw [List.getElem?_eq_getElem hi, he])
      have hlen := hsh.names.length_eq
      have hne := hsh.nonempty
      simp only [Option.map_some, Option.getD_some, Own.footprint, List.length_append, ← hlen]
      have hnil : o.2.names = [] ↔ o.2.entries = [] := by
        rw [← List.length_eq_zero_iff, ← List.length_eq_zero_iff, hlen]
      by_cases hn : o.2.names = []
      · have he := hnil.1 hn
        have : o.2.vec.buffer = none := by
          cases hb : o.2.vec.buffer with
          | none => rfl
          | some a => exact absurd he (hne.1 (by simp [hb]))
        simp [hn, he, this]
      · obtain ⟨a, ha⟩ := Option.isSome_iff_exists.1 (hne.2 fun he => hn (hnil.2 he))
        simp [hn, ha, Nat.add_comm]
  rw [hg.content, List.map_map, Ghosts.footprint, List.length_flatMap]
  congr 1
  exact List.map_congr_left fun o ho => hs o ho

/-- **C101.** A call panics exactly if it needs a name with a NUL in it, and then changes nothing for the program. -/
theorem C101_panics {s s' : State} {content : Content} (h : Run s content) {c : Call} {r : Res Unit}
    (hc : Call.Allowed content c) (hr : c.run s = some (s', r)) :
    (r = .ok () ∨ r = .panic "invalid C string") ∧
      (r ≠ .ok () ↔ (∃ names, c = .labels names ∧ ∃ s ∈ names, ¬ CanBeName s) ∨
        ∃ i name inPlace, c = .add i name inPlace ∧ ¬ CanBeName name) ∧
      (r ≠ .ok () → content.after c = content ∧ s'.owners = s.owners) := by
  obtain ⟨g, hg⟩ := inv_run h
  cases c with
  | block => cases hr; simp
  | labels names =>
    by_cases hn : ∀ s ∈ names, CanBeName s
    · obtain ⟨m1, new, h1, h2, h3, h4, h5⟩ := newNames_owns names hg.owns hn
      obtain ⟨m2, v, g1, g2, g3, g4, g5⟩ := ofEntries_owns h2 h5
      have : r = .ok () := by
        simp only [Call.run, State.step, bind, CAct.bind, h1, g1, Option.some.injEq, Prod.mk.injEq] at hr
        exact hr.2.symm
      refine ⟨.inl this, ⟨fun hne => absurd this hne, ?_⟩, fun hne => absurd this hne⟩
      rintro (⟨names', he, s, hs, hb⟩ | ⟨_, _, _, he, _⟩)
      · cases he; exact absurd (hn s hs) hb
      · cases he
    · obtain ⟨m1, h1, h2, h3, h4⟩ := newNames_panic names hg.owns hn
      simp only [Call.run, State.step, bind, CAct.bind, h1, Option.some.injEq, Prod.mk.injEq] at hr
      obtain ⟨rfl, rfl⟩ := hr
      refine ⟨.inr rfl, ⟨fun _ => .inl ⟨names, rfl, ?_⟩, fun _ => by simp⟩, fun _ => ⟨?_, rfl⟩⟩
      · push Not at hn
        exact hn
      · exact if_neg hn
  | add i name inPlace =>
    obtain ⟨names, hc⟩ := hc
    obtain ⟨o, ho, rfl, hv⟩ := hg.get hc
    by_cases hn : CanBeName name
    · obtain ⟨m', o', h1, -⟩ := push_owns (hg.owns.perm (Ghosts.footprint_get ho)) (hg.shapes i _ ho) hn inPlace
      have : r = .ok () := by
        simp only [Call.run, hv, State.step, h1, Option.some.injEq, Prod.mk.injEq] at hr
        exact hr.2.symm
      refine ⟨.inl this, ⟨fun hne => absurd this hne, ?_⟩, fun hne => absurd this hne⟩
      rintro (⟨_, he, _⟩ | ⟨_, _, _, he, hb⟩)
      · cases he
      · cases he; exact absurd hn hb
    · simp only [Call.run, hv, State.step, push_panic hn, Option.some.injEq, Prod.mk.injEq] at hr
      obtain ⟨rfl, rfl⟩ := hr
      refine ⟨.inr rfl, ⟨fun _ => .inr ⟨i, name, inPlace, rfl, hn⟩, fun _ => by simp⟩, fun _ => ⟨?_, rfl⟩⟩
      simp [Content.after, hc, hn]
  | copy i =>
    obtain ⟨kind, names, hc⟩ := names_isSome hc
    obtain ⟨o, ho, rfl, hv⟩ := hg.get hc
    obtain ⟨m', o', h1, -⟩ := clone_owns hg.owns (hg.shapes i _ ho) (Ghosts.footprint_mem ho)
    have : r = .ok () := by
      simp only [Call.run, hv, State.step, h1, Option.some.injEq, Prod.mk.injEq] at hr
      exact hr.2.symm
    simp [this]
  | drop i =>
    obtain ⟨kind, names, hc⟩ := names_isSome hc
    obtain ⟨o, ho, rfl, hv⟩ := hg.get hc
    obtain ⟨m', h1, -⟩ := drop_owns (hg.owns.perm (Ghosts.footprint_get ho)) (hg.shapes i _ ho)
    have : r = .ok () := by
      simp only [Call.run, hv, State.step, h1, Option.some.injEq, Prod.mk.injEq] at hr
      exact hr.2.symm
    simp [this]

/-- **C101.** A string without NUL which is stored as a name is read back; two names are equal exactly if the strings
are; a copy is at another address and reads the same. -/
theorem C101_strings {st : State} {content : Content} (h : Run st content) {s t : String} (hs : CanBeName s)
    (ht : CanBeName t) :
    ∃ m₁ m₂ m₃ a b c, newName s st.memory = some (m₁, .ok a) ∧ newName t m₁ = some (m₂, .ok b) ∧
      cloneName a m₂ = some (m₃, .ok c) ∧ asStr a m₃ = some (m₃, .ok s) ∧ asStr b m₃ = some (m₃, .ok t) ∧
      asStr c m₃ = some (m₃, .ok s) ∧ c ≠ a ∧ a ≠ b ∧ eqName a b m₃ = some (m₃, .ok (decide (s = t))) ∧
      eqName a c m₃ = some (m₃, .ok true) := by
  obtain ⟨g, hg⟩ := inv_run h
  obtain ⟨m1, h1, h2, h3, h4, h5⟩ := newName_owns hg.owns hs
  obtain ⟨m2, g1, g2, g3, g4, g5⟩ := newName_owns h2 ht
  obtain ⟨m3, k1, k2, k3, k4, k5⟩ := cloneName_owns g2 (h5.agree g3 (by simp))
  have ha : IsName m3 st.memory.next s := (h5.agree g3 (by simp)).agree k3 (by simp)
  have hb : IsName m3 m1.next t := g5.agree k3 (by simp)
  have hnd := k2.nodup
  simp only [List.nodup_cons, List.mem_cons, not_or] at hnd
  refine ⟨m1, m2, m3, _, _, _, h1, g1, k1, asStr_isName ha, asStr_isName hb, asStr_isName k5,
    hnd.1.2.1, fun he => hnd.2.1.1 he.symm, ?_, ?_⟩
  · have : (utf8Bytes s == utf8Bytes t) = decide (s = t) := by
      by_cases hst : s = t
      · simp [hst]
      · have hne : utf8Bytes s ≠ utf8Bytes t := by
          intro he
          have h1 := cstrStr_cstring hs
          rw [cstring, he] at h1
          exact hst (Option.some.inj (h1.symm.trans (cstrStr_cstring ht)))
        simp [hst, hne]
    simp only [eqName, bind, CAct.bind, asCStr_isName ha, asCStr_isName hb, pure, this]
  · simp [eqName, bind, CAct.bind, asCStr_isName ha, asCStr_isName k5, pure]

/-! ### C100 -/

/-- **C100**, the whole statement. The list of names can be read until the block or labels are dropped. -/
def C100_full_statement : Prop :=
  ∀ (s s' : State) (content content' : Content) (i : Nat) (list : Option Addr × Nat) (names : List String),
    Run s content → s.list i = some list → readNames s.memory list = some names →
    Later (Keeps i) s content s' content' → readNames s'.memory list = some names

theorem follows_later {s s' : State} {content content' : Content} {i : Nat} {g : Ghosts} {o : Kind × Own}
    (hg : Inv s content g) (ho : g[i]? = some (some o)) (h : Later (Keeps i) s content s' content') :
    ∃ g' o', Inv s' content' g' ∧ g'[i]? = some (some (o.1, o')) ∧ Follows s'.memory o.2 o' := by
  induction h with
  | refl => exact ⟨g, o.2, hg, ho, .refl _ _⟩
  | step _ hc hk hr ih =>
    obtain ⟨g1, o1, h1, h2, h3⟩ := ih hg
    obtain ⟨s', r, g', h4, h5⟩ := run_step h1 hc
    rw [hr] at h4
    cases h4
    obtain ⟨o2, h6, h7, -⟩ := h5.follows i _ hk h2
    exact ⟨g', o2, h5.inv, h6, h3.trans h5.grows h7⟩

theorem same_later {s s' : State} {content content' : Content} {i : Nat} {g : Ghosts} {o : Kind × Own}
    (hg : Inv s content g) (ho : g[i]? = some (some o)) (h : Later (LeavesAlone i) s content s' content') :
    ∃ g', Inv s' content' g' ∧ g'[i]? = some (some o) := by
  induction h with
  | refl => exact ⟨g, hg, ho⟩
  | step _ hc hk hr ih =>
    obtain ⟨g1, h1, h2⟩ := ih hg
    obtain ⟨s', r, g', h4, h5⟩ := run_step h1 hc
    rw [hr] at h4
    cases h4
    exact ⟨g', h5.inv, h5.same i o hk h2⟩

theorem mapM_readString {m : Memory} {entries : List Addr} {names : List String}
    (h : List.Forall₂ (IsName m) entries names) : entries.mapM (readString m) = some names := by
  induction h with
  | nil => rfl
  | cons h _ ih => simp [List.mapM_cons, readString_isName h, ih]

/-- The list of something with names. -/
theorem list_eq {s : State} {content : Content} {g : Ghosts} {i : Nat} {o : Kind × Own} (hg : Inv s content g)
    (ho : g[i]? = some (some o)) : s.list i = some (o.2.vec.buffer, o.2.entries.length) := by
  have hv : s.owners[i]? = some (some o.2.vec) := by rw [hg.owners, List.getElem?_map, ho]; rfl
  have hs := hg.shapes i o ho
  simp only [State.list, hv, hs.length]
  by_cases he : o.2.entries = []
  · have : o.2.vec.buffer = none := by
      cases hb : o.2.vec.buffer with
      | none => rfl
      | some a => exact absurd he (hs.nonempty.1 (by simp [hb]))
    simp [he, this]
  · simp [he]

theorem owner_of_list {s : State} {content : Content} {g : Ghosts} {i : Nat} {list : Option Addr × Nat}
    (hg : Inv s content g) (hl : s.list i = some list) : ∃ o, g[i]? = some (some o) := by
  simp only [State.list, hg.owners, List.getElem?_map] at hl
  cases h : g[i]? with
  | none => simp [h] at hl
  | some o =>
    cases o with
    | none => simp [h] at hl
    | some o => exact ⟨o, rfl⟩

/-- Reading through a pointer which is still there. -/
theorem readNames_prefix {m : Memory} {o o' : Own} (hs : o'.Shape m) (hb : o'.vec.buffer = o.vec.buffer)
    (he : o.entries <+: o'.entries) (hn : o.names <+: o'.names) (hlen : o.entries.length = o.names.length) :
    readNames m (o.vec.buffer, o.entries.length) = some o.names := by
  have h2 : List.Forall₂ (IsName m) o.entries o.names := by
    have := List.forall₂_take o.entries.length hs.names
    rw [← List.prefix_iff_eq_take.1 he] at this
    rwa [hlen, ← List.prefix_iff_eq_take.1 hn] at this
  have h1 : readPointers m o.vec.buffer o.entries.length = some o.entries := by
    unfold readPointers
    by_cases h0 : o.entries.length = 0
    · simp [List.length_eq_zero_iff.1 h0]
    · have hne : o'.entries ≠ [] := by
        intro h; rw [h] at he; exact h0 (by simp [List.prefix_nil.1 he])
      obtain ⟨a, ha⟩ := Option.isSome_iff_exists.1 (hs.nonempty.2 hne)
      rw [← hb, ha]
      simp only [h0, if_false, Option.bind_some, hs.buffer a ha, he.length_le, if_true]
      rw [← List.prefix_iff_eq_take.1 he]
  simp [readNames, h1, mapM_readString h2]

/-- **C100.** The list contains the names of the gradients of a block in the order in which they were added (or the
names of labels), and can be read until the block or the labels are dropped or a gradient is added to this block. In
between, anything can happen to other blocks and labels.

Missing from the full statement: gradients added to the same block, for which it is not true. -/
theorem C100_partial {s s' : State} {content content' : Content} {i : Nat} {list : Option Addr × Nat}
    (h : Run s content) (hl : s.list i = some list) (hlater : Later (LeavesAlone i) s content s' content') :
    content.names i = content'.names i ∧ (content.names i).isSome ∧ readNames s'.memory list = content.names i ∧
      s'.list i = some list := by
  obtain ⟨g, hg⟩ := inv_run h
  obtain ⟨o, ho⟩ := owner_of_list hg hl
  obtain ⟨g', hg', ho'⟩ := same_later hg ho hlater
  have hn : ∀ {s content} {g : Ghosts}, Inv s content g → g[i]? = some (some o) → content.names i = some o.2.names := by
    intro s content g hg ho
    simp [Content.names, hg.content, ho]
  have hs := hg'.shapes i o ho'
  have := list_eq hg ho
  rw [hl] at this
  cases this
  rw [hn hg ho, hn hg' ho']
  exact ⟨rfl, rfl, readNames_prefix hs rfl List.prefix_rfl List.prefix_rfl hs.names.length_eq, list_eq hg' ho'⟩

/-- **C100.** For labels the full statement is true: gradients can not be added to them. -/
theorem C100_labels {s s' : State} {content content' : Content} {i : Nat} {names : List String}
    {list : Option Addr × Nat} (h : Run s content) (hc : content[i]? = some (some (.labels, names)))
    (hl : s.list i = some list) (hlater : Later (Keeps i) s content s' content') :
    readNames s'.memory list = some names ∧ content'[i]? = some (some (.labels, names)) := by
  have hall : Later (LeavesAlone i) s content s' content' ∧ content'[i]? = some (some (.labels, names)) := by
    induction hlater with
    | refl => exact ⟨.refl _ _, hc⟩
    | @step s1 s2 _ content1 c r h1 hc1 hk hr ih =>
      obtain ⟨ih1, ih2⟩ := ih h hc
      have hlt := (List.getElem?_eq_some_iff.1 ih2).1
      have hleave : LeavesAlone i c := by
        refine ⟨hk, fun name inPlace he => ?_⟩
        subst he
        obtain ⟨names', hb⟩ := hc1
        rw [ih2] at hb
        cases hb
      refine ⟨.step ih1 hc1 hleave hr, ?_⟩
      cases c with
      | block => exact getElem?_append_some ih2
      | labels names' =>
        simp only [Content.after]
        split
        · exact getElem?_append_some ih2
        · exact ih2
      | add j name inPlace =>
        have hij : j ≠ i := fun hij => hleave.2 name inPlace (hij ▸ rfl)
        simp only [Content.after]
        split
        · split
          · rw [List.getElem?_set_ne hij, ih2]
          · exact ih2
        · exact ih2
      | copy j => exact getElem?_append_some ih2
      | drop j =>
        have hij : j ≠ i := fun hij => hk (hij ▸ rfl)
        simp only [Content.after]
        rw [List.getElem?_set_ne hij, ih2]
  have := (C100_partial h hl hall.1).2.2.1
  refine ⟨?_, hall.2⟩
  rw [this]
  simp [Content.names, hc]

/-- **C100.** Also if gradients are added to the block, the strings stay where they are: a program which copied the
pointers out of the list can read them until the block is dropped. -/
theorem C100_strings {s s' : State} {content content' : Content} {i : Nat} {list : Option Addr × Nat}
    {pointers : List Addr} (h : Run s content) (hl : s.list i = some list)
    (hp : readPointers s.memory list.1 list.2 = some pointers) (hlater : Later (Keeps i) s content s' content') :
    ∃ names, content.names i = some names ∧ pointers.mapM (readString s'.memory) = some names := by
  obtain ⟨g, hg⟩ := inv_run h
  obtain ⟨o, ho⟩ := owner_of_list hg hl
  obtain ⟨g', o', hg', ho', hf⟩ := follows_later hg ho hlater
  refine ⟨o.2.names, by simp [Content.names, hg.content, ho], ?_⟩
  have hs := hg.shapes i o ho
  have hs' := hg'.shapes i _ ho'
  have := list_eq hg ho
  rw [hl] at this
  cases this
  have hpe : pointers = o.2.entries := by
    by_cases h0 : o.2.entries.length = 0
    · simp [readPointers, h0] at hp
      rw [hp, List.length_eq_zero_iff.1 h0]
    · obtain ⟨a, ha⟩ := Option.isSome_iff_exists.1 (hs.nonempty.2 fun he => h0 (by simp [he]))
      simp [readPointers, h0, ha, hs.buffer a ha] at hp
      exact hp.symm
  rw [hpe]
  apply mapM_readString
  have := List.forall₂_take o.2.entries.length hs'.names
  rw [← List.prefix_iff_eq_take.1 hf.entries] at this
  rwa [hs.names.length_eq, ← List.prefix_iff_eq_take.1 hf.names] at this

theorem room_later {s s' : State} {content content' : Content} {i : Nat} {g : Ghosts} {o : Kind × Own}
    (hg : Inv s content g) (ho : g[i]? = some (some o)) (h : Later (Keeps i) s content s' content') :
    ∃ g' o', Inv s' content' g' ∧ g'[i]? = some (some (o.1, o')) ∧ Follows s'.memory o.2 o' ∧
      (o'.names.length ≤ o.2.vec.capacity → o'.vec.buffer = o.2.vec.buffer ∧ o'.vec.capacity = o.2.vec.capacity) := by
  induction h with
  | refl => exact ⟨g, o.2, hg, ho, .refl _ _, fun _ => ⟨rfl, rfl⟩⟩
  | step _ hc hk hr ih =>
    obtain ⟨g1, o1, h1, h2, h3, hroom⟩ := ih hg
    obtain ⟨s', r, g', h4, h5⟩ := run_step h1 hc
    rw [hr] at h4
    cases h4
    obtain ⟨o2, h6, h7, h8⟩ := h5.follows i _ hk h2
    refine ⟨g', o2, h5.inv, h6, h3.trans h5.grows h7, fun hle => ?_⟩
    obtain ⟨hb, hcap⟩ := hroom (Nat.le_trans h7.names.length_le hle)
    have := h8 (hcap ▸ hle)
    exact ⟨this.1.trans hb, this.2.trans hcap⟩

/-- **C100.** The list can also be read after gradients were added to the block, as long as there is room for them in the
vector which was allocated. -/
theorem C100_room {s s' : State} {content content' : Content} {i : Nat} {list : Option Addr × Nat} {v : NameVec}
    {names names' : List String} (h : Run s content) (hv : s.owners[i]? = some (some v)) (hl : s.list i = some list)
    (hn : content.names i = some names) (hlater : Later (Keeps i) s content s' content')
    (hn' : content'.names i = some names') (hroom : names'.length ≤ v.capacity) :
    readNames s'.memory list = some names ∧ names <+: names' ∧ s'.list i = some (list.1, names'.length) := by
  obtain ⟨g, hg⟩ := inv_run h
  obtain ⟨o, ho⟩ := owner_of_list hg hl
  obtain ⟨g', o', hg', ho', hf, hr⟩ := room_later hg ho hlater
  have hs := hg.shapes i o ho
  have hs' := hg'.shapes i _ ho'
  have h1 := list_eq hg ho
  have h2 := list_eq hg' ho'
  rw [hl] at h1
  cases h1
  rw [hg.owners, List.getElem?_map, ho] at hv
  cases hv
  simp only [Content.names, hg.content, List.getElem?_map, ho, Option.map_some, Option.join_some, Option.some.injEq] at hn
  simp only [Content.names, hg'.content, List.getElem?_map, ho', Option.map_some, Option.join_some, Option.some.injEq] at hn'
  subst hn
  subst hn'
  have hb := (hr hroom).1
  refine ⟨readNames_prefix hs' hb hf.entries hf.names hs.names.length_eq, hf.names, ?_⟩
  rw [h2, hb, hs'.names.length_eq]

/-- **C100.** After gradients were added, the old list can be read exactly if `eqs_block_gradients_list` still gives the same
pointer; then the first names in it are the same. If not, reading it is undefined behaviour. -/
theorem C100_exact {s s' : State} {content content' : Content} {i : Nat} {list list' : Option Addr × Nat}
    (h : Run s content) (hl : s.list i = some list) (hne : list.2 ≠ 0)
    (hlater : Later (Keeps i) s content s' content') (hl' : s'.list i = some list') :
    (list'.1 = list.1 → readNames s'.memory list = content.names i) ∧
      (list'.1 ≠ list.1 → readNames s'.memory list = none) := by
  obtain ⟨g, hg⟩ := inv_run h
  obtain ⟨o, ho⟩ := owner_of_list hg hl
  obtain ⟨g', o', hg', ho', hf⟩ := follows_later hg ho hlater
  have hs := hg.shapes i o ho
  have hs' := hg'.shapes i _ ho'
  have h1 := list_eq hg ho
  have h2 := list_eq hg' ho'
  rw [hl] at h1
  rw [hl'] at h2
  cases h1
  cases h2
  refine ⟨fun hb => ?_, fun hb => ?_⟩
  · rw [readNames_prefix hs' hb hf.entries hf.names hs.names.length_eq]
    simp [Content.names, hg.content, ho]
  · have h0 : o.2.entries.length ≠ 0 := hne
    obtain ⟨a, ha⟩ := Option.isSome_iff_exists.1 (hs.nonempty.2 fun he => h0 (by simp [he]))
    have hdead := (hf.buffer.resolve_left hb a ha).1
    simp [readNames, readPointers, h0, ha, hdead]

/-! ### Concrete programs -/

namespace Example

instance (content : Content) (c : Call) : Decidable (Call.Allowed content c) :=
  match c with
  | .block | .labels _ => isTrue trivial
  | .copy i | .drop i => inferInstanceAs (Decidable ((content.names i).isSome = true))
  | .add i _ _ =>
    match h : content[i]? with
    | some (some (.block, names)) => isTrue ⟨names, h⟩
    | some (some (.labels, _)) => isFalse (by rintro ⟨_, hn⟩; rw [h] at hn; cases hn)
    | some none => isFalse (by rintro ⟨_, hn⟩; rw [h] at hn; cases hn)
    | none => isFalse (by rintro ⟨_, hn⟩; rw [h] at hn; cases hn)

/-- All calls are allowed when they are made, and have the property. -/
def allowedAll (P : Call → Bool) : Content → List Call → Bool
  | _, [] => true
  | content, c :: cs => decide (Call.Allowed content c) && P c && allowedAll P (content.after c) cs

theorem later_of_calls (P : Call → Bool) : ∀ (cs : List Call) {s₀ s : State} {content₀ content : Content},
    Run s content → Later (fun c => P c = true) s₀ content₀ s content → allowedAll P content cs = true →
    ∃ s', runCalls cs s = some s' ∧ Run s' (cs.foldl (fun content c => content.after c) content) ∧
      Later (fun c => P c = true) s₀ content₀ s' (cs.foldl (fun content c => content.after c) content)
  | [], _, s, _, _, h, hl, _ => ⟨s, rfl, h, hl⟩
  | c :: cs, _, s, _, content, h, hl, ha => by
    simp only [allowedAll, Bool.and_eq_true, decide_eq_true_eq] at ha
    obtain ⟨⟨s', r⟩, hr⟩ := Option.isSome_iff_exists.1 (C101_defined h ha.1.1)
    obtain ⟨s'', h1, h2, h3⟩ := later_of_calls P cs (.step h ha.1.1 hr) (.step hl ha.1.1 ha.1.2 hr) ha.2
    exact ⟨s'', by simp [runCalls, hr, h1], h2, h3⟩

theorem run_of_calls {cs : List Call} (ha : allowedAll (fun _ => true) [] cs = true) :
    ∃ s, runCalls cs State.start = some s ∧ Run s (cs.foldl (fun content c => content.after c) []) := by
  obtain ⟨s, h1, h2, -⟩ := later_of_calls _ cs .start (.refl State.start []) ha
  exact ⟨s, h1, h2⟩

/-- A block with four gradients. -/
def fourGradients : List Call :=
  [.block, .add 0 "positions" false, .add 0 "cell" false, .add 0 "strain" false, .add 0 "charge" false]

/-- Labels, a name which panics, a copy, and the end of the copied block. -/
def program : List Call :=
  [.block, .labels ["structure", "center"], .add 0 "positions" false, .add 0 "a\x00b" false, .labels ["x", "\x00"],
    .copy 0, .add 0 "cell" false, .drop 0, .add 2 "cell" false]

end Example

open Example in
/-- **C100** is false of the code: the fifth gradient needs a larger vector, and the list the program has is dangling. -/
theorem C100_counterexample : ¬ C100_full_statement := by
  intro hall
  obtain ⟨s, h1, h2⟩ := run_of_calls (cs := fourGradients) (by decide +kernel)
  obtain ⟨s', h3, h4, h5⟩ := later_of_calls (fun c => match c with
    | .drop 0 => false
    | _ => true) [.add 0 "field" false] h2 (.refl _ _) (by decide +kernel)
  have hl : (runCalls fourGradients State.start).bind (·.list 0) = some (some 1, 4) := by decide +kernel
  have hl' : (runCalls (fourGradients ++ [.add 0 "field" false]) State.start).bind (·.list 0) = some (some 6, 5) := by
    decide +kernel
  have hrun : runCalls (fourGradients ++ [.add 0 "field" false]) State.start = some s' := by
    have happ : ∀ (a b : List Call) (s : State), runCalls (a ++ b) s = (runCalls a s).bind (runCalls b) := by
      intro a b
      induction a with
      | nil => intro s; rfl
      | cons c a ih =>
        intro s
        simp only [List.cons_append, runCalls]
        cases c.run s with
        | none => rfl
        | some x => exact ih x.1
    rw [happ, h1]
    exact h3
  rw [h1] at hl
  rw [hrun] at hl'
  have hk := (show ∀ {c d : Content}, Later _ s c s' d → Later (Keeps 0) s c s' d from by
    intro c d h5
    have hmono : ∀ {P Q : Call → Prop} {a c : State} {b d : Content}, (∀ c, P c → Q c) → Later P a b c d →
        Later Q a b c d := by
      intro P Q a c b d hpq h
      induction h with
      | refl => exact .refl _ _
      | step _ h1 h2 h3 ih => exact .step ih h1 (hpq _ h2) h3
    refine hmono (fun c hc => ?_) h5
    rintro rfl
    cases hc) h5
  have h0 := (C100_partial h2 hl (.refl _ _)).2.2.1
  have hread := hall s s' _ _ 0 (some 1, 4) _ h2 hl h0 hk
  rw [(C100_exact h2 hl (by decide) hk hl').2 (by decide)] at hread
  cases hread

open Example in
/-- A concrete program: the names of the block and its copy, what can be read, and that all memory is freed in the end. -/
example :
    ((runCalls program State.start).bind fun s => (s.list 2).bind (readNames s.memory)) = some ["positions", "cell"] ∧
    ((runCalls program State.start).bind fun s => (s.list 1).bind (readNames s.memory)) = some ["structure", "center"] ∧
    ((runCalls program State.start).bind fun s => s.list 0) = none ∧
    ((runCalls (program ++ [.drop 1, .drop 2]) State.start).map fun s => (List.range s.memory.next).filter
      fun a => (s.memory.cells a).isSome) = some [] := by
  decide +kernel

open Example in
/-- The hypotheses of the theorems above are met by a program: see the content of this one. -/
example : ∃ s, runCalls program State.start = some s ∧
    Run s [none, some (.labels, ["structure", "center"]), some (.block, ["positions", "cell"])] := by
  obtain ⟨s, h1, h2⟩ := run_of_calls (cs := program) (by decide +kernel)
  exact ⟨s, h1, by
    rwa [show program.foldl (fun (content : Content) c => content.after c) ([] : Content) =
      [none, some (.labels, ["structure", "center"]), some (.block, ["positions", "cell"])] from by decide +kernel] at h2⟩

end Equistore
