import Verif.Lemmas.PyChanges

/-! The statements of Python programs keep everything in order: creating tensor maps, and all statements. -/

namespace Equistore
namespace Python
open Spec Heap
variable {B : Type}

/-! ### Giving blocks to a tensor map -/

theorem claim_spec (L : List Nat) (s : PyState B) :
    (s.claim L).1 = { s with blocks := (s.claim L).1.blocks } ∧
    (∀ b, (s.claim L).1.blocks b = s.blocks b ∨ ∃ o, b ∈ L ∧ s.blocks b = some o ∧ o.owning = true ∧
      (s.claim L).1.blocks b = some { o with ptr := .null }) ∧
    ((s.claim L).2 = true → ∀ b ∈ L, ∃ o, s.blocks b = some o ∧ o.owning = true ∧
      (s.claim L).1.blocks b = some { o with ptr := .null }) ∧
    ((∀ b ∈ L, ∃ o, s.blocks b = some o ∧ o.owning = true) → (s.claim L).2 = true) := by
  induction L generalizing s with
  | nil => exact ⟨rfl, fun _ => .inl rfl, fun _ b hb => (by cases hb), fun _ => rfl⟩
  | cons b rest ih =>
    cases hb : s.blocks b with
    | none =>
      have heq : s.claim (b :: rest) = (s, false) := by simp [PyState.claim, hb]
      rw [heq]
      refine ⟨rfl, fun _ => .inl rfl, fun h => (by cases h), fun h => ?_⟩
      obtain ⟨o, h1, _⟩ := h b List.mem_cons_self
      rw [hb] at h1; cases h1
    | some o =>
      cases hown : o.owning with
      | false =>
        have heq : s.claim (b :: rest) = (s, false) := by simp [PyState.claim, hb, hown]
        rw [heq]
        refine ⟨rfl, fun _ => .inl rfl, fun h => (by cases h), fun h => ?_⟩
        obtain ⟨o', h1, h2⟩ := h b List.mem_cons_self
        rw [hb] at h1; cases h1
        rw [hown] at h2; cases h2
      | true =>
        have heq : s.claim (b :: rest) =
            PyState.claim rest { s with blocks := setAt s.blocks b (some { o with ptr := .null }) } := by
          simp [PyState.claim, hb, hown]
        rw [heq]
        obtain ⟨h1, h2, h3, h4⟩ := ih { s with blocks := setAt s.blocks b (some { o with ptr := .null }) }
        generalize hc : PyState.claim rest { s with blocks := setAt s.blocks b (some { o with ptr := .null }) } = c at *
        have hself : c.1.blocks b = some { o with ptr := .null } := by
          rcases h2 b with h5 | ⟨o', _, h5, h6, h7⟩
          · exact h5.trans (setAt_self _ _ _)
          · have h5 : setAt s.blocks b (some { o with ptr := .null }) b = some o' := h5
            rw [setAt_self] at h5
            cases h5
            exact h7
        refine ⟨h1, ?_, ?_, ?_⟩
        · intro b'
          by_cases hbb : b' = b
          · subst hbb
            exact .inr ⟨o, List.mem_cons_self, hb, hown, hself⟩
          · rcases h2 b' with h5 | ⟨o', h5, h6, h7, h8⟩
            · left
              rw [h5]
              exact setAt_ne _ _ hbb
            · right
              have h6 : setAt s.blocks b (some { o with ptr := .null }) b' = some o' := h6
              rw [setAt_ne _ _ hbb] at h6
              exact ⟨o', List.mem_cons_of_mem _ h5, h6, h7, h8⟩
        · intro ht b' hb'
          by_cases hbb : b' = b
          · subst hbb
            exact ⟨o, hb, hown, hself⟩
          · obtain ⟨o', h6, h7, h8⟩ := h3 ht b' ((List.mem_cons.1 hb').resolve_left hbb)
            have h6 : setAt s.blocks b (some { o with ptr := .null }) b' = some o' := h6
            rw [setAt_ne _ _ hbb] at h6
            exact ⟨o', h6, h7, h8⟩
        · intro hall
          refine h4 fun b' hb' => ?_
          by_cases hbb : b' = b
          · subst hbb
            exact ⟨_, setAt_self _ _ _, hown⟩
          · obtain ⟨o', h6, h7⟩ := hall b' (List.mem_cons_of_mem _ hb')
            exact ⟨o', by show setAt s.blocks b _ b' = _; rw [setAt_ne _ _ hbb]; exact h6, h7⟩

section
variable {all : Prop} {next : Nat} {bs bs' : Nat → Option PyBlock} {ts : Nat → Option PyTensor}
  {lists : List (List Nat)} {l : PyLedger} {lc lc' : Ledger}

theorem Objects.claim (ho : Objects all next bs ts lists l lc) {L : List Nat}
    (hbs : ∀ b, bs' b = bs b ∨ ∃ o, b ∈ L ∧ bs b = some o ∧ o.owning = true ∧ bs' b = some { o with ptr := .null })
    (hb : ∀ b o n, bs' b = some o → bs b = some o → o.ptr = .owned n → n ∈ lc'.blocks)
    (hall : all → ∀ n ∈ lc'.blocks, n ∈ lc.blocks ∧ ∀ b o, bs b = some o → o.ptr = .owned n → bs' b = bs b)
    (ht : lc'.tensors = lc.tensors) (hi : lc'.interior = lc.interior) (given : List Nat) :
    Objects all next bs' ts lists { l with moved := L ++ l.moved, given := given } lc' where
  fresh i hi := by
    refine ⟨?_, (ho.fresh i hi).2⟩
    rcases hbs i with h1 | ⟨o, _, h1, _⟩
    · rw [h1]; exact (ho.fresh i hi).1
    · rw [(ho.fresh i hi).1] at h1; cases h1
  owning b o hbo hown := by
    rcases hbs b with h1 | ⟨o', _, h1, h2, h3⟩
    · rw [h1] at hbo
      obtain ⟨h4, h5⟩ := ho.owning b o hbo hown
      refine ⟨h4, h5.imp_right ?_⟩
      rintro ⟨n, _, h6⟩
      exact ⟨n, hb b o n (by rw [h1]; exact hbo) hbo h6, h6⟩
    · rw [h3] at hbo; cases hbo
      exact ⟨(ho.owning b o' h1 h2).1, .inl rfl⟩
  once b o b' o' n h1 h2 h3 h4 := by
    have key : ∀ b o, bs' b = some o → o.ptr = .owned n → bs b = some o := by
      intro b o h1 h3
      rcases hbs b with h5 | ⟨o', _, _, _, h5⟩
      · rw [← h5]; exact h1
      · rw [h5] at h1; cases h1; cases h3
    exact ho.once b o b' o' n (key b o h1 h3) (key b' o' h2 h4) h3 h4
  viewing b o hbo hown := by
    rcases hbs b with h1 | ⟨o', _, h1, h2, h3⟩
    · rw [h1] at hbo
      rw [hi]
      exact ho.viewing b o hbo hown
    · rw [h3] at hbo; cases hbo
      rw [h2] at hown; cases hown
  tensor := by rw [ht]; exact ho.tensor
  tensorOnce := ho.tensorOnce
  moved b o hbo hm := by
    simp only [List.mem_append, not_or] at hm
    rcases hbs b with h1 | ⟨o', h1, _⟩
    · rw [h1] at hbo
      exact ho.moved b o hbo hm.2
    · exact absurd h1 hm.1
  members L hL b hbL := by
    rcases hbs b with h1 | ⟨o', _, _, _, h1⟩
    · rw [h1]; exact ho.members L hL b hbL
    · rw [h1]; rfl
  complete h := by
    refine ⟨fun n hn => ?_, by rw [ht]; exact (ho.complete h).2⟩
    obtain ⟨h1, h2⟩ := hall h n hn
    obtain ⟨b, o, h3, h4⟩ := (ho.complete h).1 n h1
    exact ⟨b, o, by rw [h2 b o h3 h4]; exact h3, h4⟩

end

variable [Inhabited B] [ArrayCallbacks B] {s : PyState B} {l : PyLedger} {all : Prop}

theorem good_newTensor (p : Platform) (hi : PyInv all s l) {keys : CLabels} {i : Nat}
    (hmoved : ∀ b ∈ s.lists.getD i [], b ∉ l.moved)
    (haccepted : all → (∃ labels, Labels.ofC keys = .ok labels) ∧ (s.lists.getD i []).Nodup ∧
      ∀ b ∈ s.lists.getD i [], ∀ t, (b, t) ∉ l.views) :
    PyGood p all s l (.newTensor keys i) := by
  obtain ⟨lc, hr, harr, hobj, halive⟩ := hi
  cases hL : s.lists[i]? with
  | none =>
    refine ⟨s, .raised, by simp [PyCall.run, hL], lc, hr, harr, ?_, halive⟩
    have h1 : s.lists.getD i [] = [] := by rw [List.getD_eq_getElem?_getD, hL]; rfl
    show Objects all _ _ _ _ { l with moved := s.lists.getD i [] ++ l.moved } lc
    rw [h1]; exact hobj
  | some L =>
    have hgetD : s.lists.getD i [] = L := by rw [List.getD_eq_getElem?_getD, hL]; rfl
    rw [hgetD] at hmoved haccepted
    have hlist : L ∈ s.lists := List.mem_of_getElem? hL
    obtain ⟨hc1, hc2, hc3, hc4⟩ := claim_spec L s
    have hsome : ∀ b ∈ L, ∃ o, s.blocks b = some o := fun b hb =>
      Option.isSome_iff_exists.1 (hobj.members L hlist b hb)
    have hown : all → ∀ b ∈ L, ∃ o, s.blocks b = some o ∧ o.owning = true := by
      intro h b hb
      obtain ⟨o, ho⟩ := hsome b hb
      refine ⟨o, ho, ?_⟩
      cases h1 : o.owning with
      | true => rfl
      | false =>
        obtain ⟨t, _, _, _, _, _, _, h2, _⟩ := hobj.viewing b o ho h1
        exact absurd h2 ((haccepted h).2.2 b hb t)
    generalize hcl : s.claim L = cl at hc1 hc2 hc3 hc4
    obtain ⟨s₁, ok⟩ := cl
    simp only at hc1 hc2 hc3 hc4
    generalize hbs' : s₁.blocks = bs' at hc1 hc2 hc3 hc4
    subst hc1
    have hkeep : ∀ b o m, bs' b = some o → o.ptr = .owned m → s.blocks b = some o := by
      intro b o m h1 h2
      rcases hc2 b with h3 | ⟨o', _, _, _, h3⟩
      · rw [← h3]; exact h1
      · rw [h3] at h1; cases h1; cases h2
    have harrays : ∀ b o, bs' b = some o → ∃ o₀, s.blocks b = some o₀ ∧ o.arrays = o₀.arrays := by
      intro b o h1
      rcases hc2 b with h2 | ⟨o₀, _, h3, _, h4⟩
      · rw [h2] at h1; exact ⟨o, h1, rfl⟩
      · rw [h4] at h1; cases h1; exact ⟨o₀, h3, rfl⟩
    have hthere : ∀ b o, s.blocks b = some o → ∃ o', bs' b = some o' ∧ o'.arrays = o.arrays := by
      intro b o h1
      rcases hc2 b with h2 | ⟨o₀, _, h3, _, h4⟩
      · exact ⟨o, by rw [h2]; exact h1, rfl⟩
      · rw [h1] at h3; cases h3; exact ⟨_, h4, rfl⟩
    cases ok with
    | false =>
      have hnot : ¬ all := fun h => by simpa using hc4 (hown h)
      refine ⟨{ s with blocks := bs' }, .raised, by simp only [PyCall.run, hL, hcl]; rfl, lc, hr, harr, ?_, ?_⟩
      · show Objects all _ _ _ _ { l with moved := s.lists.getD i [] ++ l.moved } lc
        rw [hgetD]
        exact hobj.claim hc2 (fun b o n _ h1 h2 => (hobj.ptr h1 h2).2) (fun h => absurd h hnot) rfl rfl l.given
      · refine halive.step (Nat.le_refl _) (fun _ _ => rfl) halive.empty (fun a _ => halive.bound a) ?_ ?_ ?_
        · intro b o h1 x hx
          obtain ⟨o₀, h2, h3⟩ := harrays b o h1
          exact .inr ⟨b, o₀, h2, h3 ▸ hx⟩
        · intro b o m blk h1 h2 h3 a h4
          exact .inl (halive.block b o m blk (hkeep b o m h1 h2) h2 h3 a h4)
        · intro t T m tm v h1 h2 h3 a h4
          refine .inr ⟨(lt_next_tensor hr h3).2 a h4, T, tm, v, h1, h2, h3, h4, fun b hb o ho => ?_⟩
          obtain ⟨o', h5, h6⟩ := hthere b o ho
          exact ⟨o', hb, h5, fun x hx => h6 ▸ hx⟩
    | true =>
      have hc3 := hc3 rfl
      have hptrs : ∀ q ∈ L.map (fun b => ((s.blocks b).map (·.ptr)).getD .null), ∃ n ∈ lc.blocks, q = .owned n := by
        intro q hq
        obtain ⟨b, hb, rfl⟩ := List.mem_map.1 hq
        obtain ⟨o, h1, h2, _⟩ := hc3 b hb
        rw [h1]
        rcases (hobj.owning b o h1 h2).2 with h3 | ⟨n, h3, h4⟩
        · exact absurd h3 (hobj.moved b o h1 (hmoved b hb))
        · exact ⟨n, h3, h4⟩
      have hmem : ∀ b ∈ L, ∀ o, s.blocks b = some o →
          o.ptr ∈ L.map (fun b => ((s.blocks b).map (·.ptr)).getD .null) := by
        intro b hb o ho
        exact List.mem_map.2 ⟨b, hb, by rw [ho]; rfl⟩
      have hback : ∀ q ∈ L.map (fun b => ((s.blocks b).map (·.ptr)).getD .null),
          ∃ b ∈ L, ∃ o, s.blocks b = some o ∧ o.ptr = q := by
        intro q hq
        obtain ⟨b, hb, rfl⟩ := List.mem_map.1 hq
        obtain ⟨o, h1, _, _⟩ := hc3 b hb
        exact ⟨b, hb, o, h1, by rw [h1]; rfl⟩
      have hnodup : L.Nodup → (L.map (fun b => ((s.blocks b).map (·.ptr)).getD .null)).Nodup := by
        intro h
        refine List.Nodup.map_on ?_ h
        intro b hb b' hb' heq
        obtain ⟨o, h1, _, _⟩ := hc3 b hb
        obtain ⟨o', h2, _, _⟩ := hc3 b' hb'
        rw [h1, h2] at heq
        obtain ⟨n, _, h3⟩ := hptrs _ (hmem b hb o h1)
        exact hobj.once b o b' o' n h1 h2 h3 (by rw [← h3]; exact heq.symm)
      obtain ⟨ns, hns, hnsb⟩ := owned_list hptrs
      have hclaimed : ∀ b o m, bs' b = some o → o.ptr = .owned m → m ∉ ns := by
        intro b o m h1 h2 h3
        have h4 : BlockPtr.owned m ∈ L.map (fun b => ((s.blocks b).map (·.ptr)).getD .null) := by
          rw [hns]; exact List.mem_map.2 ⟨m, h3, rfl⟩
        obtain ⟨b', hb', o', h5, h6⟩ := hback _ h4
        have := hobj.once b o b' o' m (hkeep b o m h1 h2) h5 h2 h6
        subst this
        obtain ⟨o'', h7, _, h8⟩ := hc3 b hb'
        rw [h8] at h1; cases h1; cases h2
      generalize hpq : L.map (fun b => ((s.blocks b).map (·.ptr)).getD .null) = pointers at *
      obtain ⟨h', reply, h1, h2, h3, h4, h5⟩ := call_step (s := { s with blocks := bs' }) hr p
        (c := .tensormap keys pointers) hptrs (by
          intro a ha
          obtain ⟨q, hq, ha⟩ := List.mem_flatMap.1 ha
          obtain ⟨b, _, o, ho, h6⟩ := hback q hq
          rw [← h6] at ha
          exact halive.block_free hobj ho a ha)
      obtain ⟨hnext, hnew⟩ := tensormap_from h2
      obtain ⟨r, after, rfl, hafter, hnull⟩ := tensormap_after h2
      have hnulls : pointers.map (fun _ => BlockPtr.null) = ns.map fun _ => BlockPtr.null := by
        rw [hns, List.map_map]; rfl
      obtain ⟨hl1, hl2, hl3, hl4, _⟩ := takenBlocks_null lc ns
      have hlc : (lc.takenBlocks (pointers.zip after)).arrays = [] ∧
          (lc.takenBlocks (pointers.zip after)).tensors = lc.tensors ∧
          (lc.takenBlocks (pointers.zip after)).interior = lc.interior ∧
          (∀ n, n ∈ lc.blocks → n ∉ ns → n ∈ (lc.takenBlocks (pointers.zip after)).blocks) ∧
          (all → ∀ n ∈ (lc.takenBlocks (pointers.zip after)).blocks, n ∈ lc.blocks ∧ n ∉ ns) := by
        by_cases hn : after = pointers.map (fun _ => BlockPtr.null)
        · rw [hn, hnulls, hns]
          exact ⟨hl1.trans harr, hl2, hl3, fun n h6 h7 => (hl4 n).2 ⟨h6, h7⟩, fun _ n h6 => (hl4 n).1 h6⟩
        · have hsame := hafter.resolve_right hn
          refine ⟨?_, ?_, ?_, ?_, fun h => absurd (hnull (haccepted h).1 (hnodup (haccepted h).2.1)) hn⟩
          all_goals rw [hsame, hns, takenBlocks_same]
          · exact harr
          · exact fun n h6 _ => h6
      obtain ⟨hlc1, hlc2, hlc3, hlc4, hlc5⟩ := hlc
      have hobj' : ∀ given, Objects all s.next bs' s.tensors s.lists { l with moved := L ++ l.moved, given := given }
          (lc.takenBlocks (pointers.zip after)) := by
        intro given
        refine hobj.claim hc2 ?_ ?_ hlc2 hlc3 given
        · intro b o n h6 h7 h8
          exact hlc4 n (hobj.ptr h7 h8).2 (hclaimed b o n h6 h8)
        · intro h n hn
          obtain ⟨h6, h7⟩ := hlc5 h n hn
          refine ⟨h6, fun b o h8 h9 => ?_⟩
          rcases hc2 b with h10 | ⟨o', h10, h11, _, _⟩
          · exact h10
          · exfalso
            rw [h8] at h11; cases h11
            have : o.ptr ∈ pointers := hmem b h10 o h8
            rw [h9, hns] at this
            obtain ⟨m, hm, heq⟩ := List.mem_map.1 this
            cases heq
            exact h7 hm
      have hblock : ∀ b o' m blk', bs' b = some o' → o'.ptr = .owned m → h'.blocks m = some blk' →
          ∀ a ∈ ids blk'.arrays, a < s.heap.next ∧ ∃ o blk, s.blocks b = some o ∧ o.ptr = .owned m ∧
            s.heap.blocks m = some blk ∧ a ∈ ids blk.arrays ∧ ∀ x ∈ o.arrays, x ∈ o'.arrays := by
        intro b o m blk h6 h7 h8 a ha
        have h9 := hkeep b o m h6 h7
        obtain ⟨h10, h11⟩ := frame_block hr (hobj.ptr h9 h7).2 (fun x hx => h4 m x hx (by
          rintro ⟨q, hq, h12⟩
          rw [hns] at hq
          obtain ⟨k, hk, rfl⟩ := List.mem_map.1 hq
          cases h12
          exact hclaimed b o m h6 h7 hk)) h8
        exact ⟨h11 a ha, o, blk, h9, h7, h10, ha, fun _ h => h⟩
      have htensor : ∀ t T m tm v, s.tensors t = some T → T.ptr = some m → h'.tensors m = some (tm, v) →
          ∀ a ∈ ids tm.arrays, a < s.heap.next ∧ ∃ T₀ tm v, s.tensors t = some T₀ ∧ T₀.ptr = some m ∧
            s.heap.tensors m = some (tm, v) ∧ a ∈ ids tm.arrays ∧
            ∀ b ∈ s.lists.getD T₀.blocks [], ∀ o, s.blocks b = some o → ∃ o', b ∈ s.lists.getD T.blocks [] ∧
              bs' b = some o' ∧ ∀ x ∈ o.arrays, x ∈ o'.arrays := by
        intro t T m tm v hT hm htm a ha
        obtain ⟨k, hk, hk'⟩ := hobj.tensor t T hT
        rw [hm] at hk'; cases hk'
        obtain ⟨h7, h8⟩ := frame_tensor hr hk (fun x hx => h5 m x hx (by
          rintro ⟨q, hq, h12⟩
          rw [hns] at hq
          obtain ⟨k, hk, rfl⟩ := List.mem_map.1 hq
          cases h12)) htm
        refine ⟨h8 a ha, T, tm, v, hT, hm, h7, ha, fun b hb o ho => ?_⟩
        obtain ⟨o', h9, h10⟩ := hthere b o ho
        exact ⟨o', hb, h9, fun x hx => h10 ▸ hx⟩
      have hold : ∀ b o', bs' b = some o' → ∀ x ∈ o'.arrays,
          s.heap.next ≤ x ∨ ∃ b o, s.blocks b = some o ∧ x ∈ o.arrays := by
        intro b o h6 x hx
        obtain ⟨o₀, h7, h8⟩ := harrays b o h6
        exact .inr ⟨b, o₀, h7, h8 ▸ hx⟩
      have hfail : (∀ n, r ≠ .ok n) → PyInv all { s with blocks := bs', heap := h' }
          { l with moved := s.lists.getD i [] ++ l.moved } := by
        intro hne
        have hrec : lc.record (Call.tensormap keys pointers : Call B) (.newTensor r after) =
            lc.takenBlocks (pointers.zip after) := by
          cases r with
          | ok n => exact absurd rfl (hne n)
          | _ => rfl
        rw [hrec] at h3
        refine ⟨_, h3, hlc1, by rw [hgetD]; exact hobj' l.given, ?_⟩
        refine halive.step hnext (fun _ _ => rfl) (fun a ha => halive.empty a (Nat.le_trans hnext ha))
          (fun a _ x hx => Nat.lt_of_lt_of_le (halive.bound a x hx) hnext) hold ?_ ?_
        · exact fun b o m blk h6 h7 h8 a ha => .inr (hblock b o m blk h6 h7 h8 a ha)
        · exact fun t T m tm v hT hm htm a ha => .inr (htensor t T m tm v hT hm htm a ha)
      cases r with
      | err e =>
        exact ⟨_, .raised, by
          simp only [PyCall.run, hL, hcl, hpq, if_true, h1, Option.bind_eq_bind, Option.bind_some]; rfl, hfail (by simp)⟩
      | panic m =>
        exact ⟨_, .raised, by
          simp only [PyCall.run, hL, hcl, hpq, if_true, h1, Option.bind_eq_bind, Option.bind_some]; rfl, hfail (by simp)⟩
      | ok n =>
        obtain ⟨hn, _, hids⟩ := hnew n after rfl
        replace hn : s.heap.next ≤ n := hn
        refine ⟨(PyState.putTensor { s with blocks := bs', heap := h' } { ptr := some n, blocks := i }).1,
          .tensor s.next, by
          simp only [PyCall.run, hL, hcl, hpq, if_true, h1, Option.bind_eq_bind, Option.bind_some]; rfl, _, h3, hlc1, ?_, ?_⟩
        · show Objects all _ _ _ _ { l with moved := s.lists.getD i [] ++ l.moved, given := s.lists.getD i [] ++ l.given } _
          rw [hgetD]
          refine (hobj' (L ++ l.given)).putTensor (n := n)
            (lc' := { lc.takenBlocks (pointers.zip after) with
              tensors := n :: (lc.takenBlocks (pointers.zip after)).tensors }) ?_ rfl rfl rfl i
          rw [hlc2]
          intro hm
          obtain ⟨t, v, ht⟩ := (mem_tensors hr).1 hm
          have := (lt_next_tensor hr ht).1
          omega
        · refine halive.step hnext (fun _ _ => rfl) (fun a ha => halive.empty a (Nat.le_trans hnext ha))
            (fun a _ x hx => Nat.lt_of_lt_of_le (halive.bound a x hx) hnext) hold ?_ ?_
          · exact fun b o m blk h6 h7 h8 a ha => .inr (hblock b o m blk h6 h7 h8 a ha)
          · intro t T m tm v hT hm htm a ha
            rcases setAt_some hT with ⟨_, h6⟩ | ⟨_, h6⟩
            · cases h6
              cases hm
              left
              rcases hids tm v htm a ha with h7 | ⟨m, blk, h7, h8, h9⟩
              · exact .inl (halive.empty a h7)
              · obtain ⟨b, hb, o, h10, h11⟩ := hback _ h7
                rcases halive.block b o m blk h10 h11 h8 a h9 with h12 | ⟨x, hx, h12⟩
                · exact .inl h12
                · obtain ⟨o', h13, h14⟩ := hthere b o h10
                  refine .inr ⟨x, hx, b, ?_, o', h13, h14 ▸ h12⟩
                  show b ∈ s.lists.getD i []
                  rw [hgetD]; exact hb
            · exact .inr (htensor t T m tm v h6 hm htm a ha)

/-! ### All statements -/

theorem py_good (p : Platform) {rules : PyRule → Prop} (h1 : rules .moved) (h2 : rules .stale) (h3 : rules .gradients)
    (h4 : rules .lists) (hi : PyInv (rules .accepted) s l) {c : PyCall B} (hc : PyCall.Careful rules s l c) :
    PyGood p (rules .accepted) s l c := by
  cases c with
  | newBlock values samples components properties => exact good_newBlock p hi values samples components properties
  | copyBlock b => exact good_copyBlock p hi (hc h2)
  | deleteBlock b => exact good_deleteBlock p hi b
  | labels b values dimension => exact good_labels p hi (hc h2) values dimension
  | data b parameter => exact good_data p hi (hc h2) parameter
  | gradientsList b => exact good_gradientsList p hi (hc h2)
  | addGradient b parameter data samples components =>
    exact good_pyAddGradient p hi (hc.1 h2) (hc.2 h3) parameter data samples components
  | newList blocks => exact good_newList p hi blocks
  | setList i blocks => exact good_setList p hi (hc h4) blocks
  | newTensor keys blocks => exact good_newTensor p hi (hc.1 h1) hc.2
  | deleteTensor t => exact good_deleteTensor p hi t
  | keys t => exact good_keys p hi t
  | block t index => exact good_pyBlock p hi t index
  | blocksMatching t selection => exact good_matching p hi t selection
  | keysToProperties t keysToMove sort parents => exact good_pyKeysToProperties p hi t keysToMove sort parents
  | keysToSamples t keysToMove sort parents => exact good_pyKeysToSamples p hi t keysToMove sort parents
  | componentsToProperties t names parents => exact good_pyComponentsToProperties p hi t names parents
  | load archive => exact good_pyLoad p hi archive
  | save t => exact good_pySave p hi t
  | collect choice => exact good_collect p hi choice

theorem py_start {all : Prop} : PyInv all (PyState.empty : PyState B) PyLedger.empty := by
  refine ⟨Ledger.empty, .start, rfl, ?_, ?_⟩
  · constructor <;> simp [PyState.empty, Ledger.empty]
  · constructor <;> simp [PyState.empty]

theorem py_inv {rules : PyRule → Prop} (h1 : rules .moved) (h2 : rules .stale) (h3 : rules .gradients)
    (h4 : rules .lists) (hr : PyRun rules s l) : PyInv (rules .accepted) s l := by
  induction hr with
  | start => exact py_start
  | step p _ hc hrun ih =>
    obtain ⟨s', reply, h5, h6⟩ := py_good p h1 h2 h3 h4 ih hc
    rw [hrun] at h5
    cases h5
    exact h6

end Python
end Equistore
