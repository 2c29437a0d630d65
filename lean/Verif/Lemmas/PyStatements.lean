import Verif.Lemmas.PyObjects

/-! The statements of Python programs keep everything in order: pointers. -/

namespace Equistore
namespace Python
open Spec Heap
variable {B : Type}

theorem setAt_some {α : Type} {f : Nat → Option α} {n m : Nat} {v : Option α} {x : α} (h : setAt f n v m = some x) :
    (m = n ∧ v = some x) ∨ (m ≠ n ∧ f m = some x) := by
  unfold setAt at h
  split at h
  · rename_i hm; exact .inl ⟨hm, h⟩
  · rename_i hm; exact .inr ⟨hm, h⟩

theorem setAt_self {α : Type} (f : Nat → Option α) (n : Nat) (v : Option α) : setAt f n v n = v := by
  simp [setAt]

theorem setAt_ne {α : Type} (f : Nat → Option α) {n m : Nat} (v : Option α) (h : m ≠ n) : setAt f n v m = f m := by
  simp [setAt, h]

variable {all : Prop} {next : Nat} {bs : Nat → Option PyBlock} {ts : Nat → Option PyTensor} {lists : List (List Nat)}
  {l : PyLedger} {lc lc' : Ledger}

theorem Objects.ledger (ho : Objects all next bs ts lists l lc) (hb : lc'.blocks = lc.blocks)
    (ht : lc'.tensors = lc.tensors) (hi : lc'.interior = lc.interior) : Objects all next bs ts lists l lc' where
  fresh := ho.fresh
  owning := by rw [hb]; exact ho.owning
  once := ho.once
  viewing := by rw [hi]; exact ho.viewing
  tensor := by rw [ht]; exact ho.tensor
  tensorOnce := ho.tensorOnce
  moved := ho.moved
  members := ho.members
  complete := by rw [hb, ht]; exact ho.complete

theorem Objects.ptr (ho : Objects all next bs ts lists l lc) {b n : Nat} {o : PyBlock} (hb : bs b = some o)
    (hp : o.ptr = .owned n) : o.owning = true ∧ n ∈ lc.blocks := by
  cases hown : o.owning with
  | true =>
    refine ⟨rfl, ?_⟩
    rcases (ho.owning b o hb hown).2 with h1 | ⟨m, hm, h1⟩
    · rw [hp] at h1; cases h1
    · rw [hp] at h1; cases h1; exact hm
  | false =>
    obtain ⟨_, _, _, _, _, _, h1, _⟩ := ho.viewing b o hb hown
    rw [hp] at h1; cases h1

theorem Objects.putOwned (ho : Objects all next bs ts lists l lc) {n : Nat} (hn : n ∉ lc.blocks)
    (hb : lc'.blocks = n :: lc.blocks) (ht : lc'.tensors = lc.tensors) (hi : lc'.interior = lc.interior)
    (arrays : List Nat) :
    Objects all (next + 1) (setAt bs next (some { ptr := .owned n, owning := true, parent := none, arrays })) ts lists
      l lc' where
  fresh i hi := by
    rw [setAt_ne _ _ (by omega)]
    exact ho.fresh i (by omega)
  owning b o hbo hown := by
    rcases setAt_some hbo with ⟨_, h1⟩ | ⟨_, h1⟩
    · cases h1
      exact ⟨rfl, .inr ⟨n, by rw [hb]; exact List.mem_cons_self, rfl⟩⟩
    · obtain ⟨h2, h3⟩ := ho.owning b o h1 hown
      refine ⟨h2, h3.imp_right ?_⟩
      rintro ⟨m, hm, h4⟩
      exact ⟨m, by rw [hb]; exact List.mem_cons_of_mem _ hm, h4⟩
  once b o b' o' m h1 h2 h3 h4 := by
    rcases setAt_some h1 with ⟨h5, h6⟩ | ⟨h5, h6⟩ <;> rcases setAt_some h2 with ⟨h7, h8⟩ | ⟨h7, h8⟩
    · rw [h5, h7]
    · cases h6; cases h3
      exact absurd (ho.ptr h8 h4).2 hn
    · cases h8; cases h4
      exact absurd (ho.ptr h6 h3).2 hn
    · exact ho.once b o b' o' m h6 h8 h3 h4
  viewing b o hbo hown := by
    rcases setAt_some hbo with ⟨_, h1⟩ | ⟨_, h1⟩
    · cases h1; cases hown
    · rw [hi]; exact ho.viewing b o h1 hown
  tensor := by rw [ht]; exact ho.tensor
  tensorOnce := ho.tensorOnce
  moved b o hbo hm := by
    rcases setAt_some hbo with ⟨_, h1⟩ | ⟨_, h1⟩
    · cases h1; simp
    · exact ho.moved b o h1 hm
  members L hL b hbL := by
    have h1 := ho.members L hL b hbL
    rw [setAt_ne]
    · exact h1
    · rintro rfl
      rw [(ho.fresh b (Nat.le_refl _)).1] at h1
      cases h1
  complete ha := by
    obtain ⟨h1, h2⟩ := ho.complete ha
    refine ⟨fun m hm => ?_, by rw [ht]; exact h2⟩
    rw [hb] at hm
    rcases List.mem_cons.1 hm with rfl | hm
    · exact ⟨next, _, setAt_self _ _ _, rfl⟩
    · obtain ⟨b, o, h3, h4⟩ := h1 m hm
      refine ⟨b, o, ?_, h4⟩
      rw [setAt_ne]
      · exact h3
      · rintro rfl
        rw [(ho.fresh b (Nat.le_refl _)).1] at h3
        cases h3

theorem Objects.putView (ho : Objects all next bs ts lists l lc) {q : BlockPtr} {t n : Nat} {T : PyTensor}
    (hT : ts t = some T) (hp : T.ptr = some n) (hq : insideOf n q = true) (hb : lc'.blocks = lc.blocks)
    (ht : lc'.tensors = lc.tensors) (hi : lc'.interior = q :: lc.interior) (arrays : List Nat) :
    Objects all (next + 1) (setAt bs next (some { ptr := q, owning := false, parent := some t, arrays })) ts lists
      { l with views := (next, t) :: l.views } lc' where
  fresh i hi := by
    rw [setAt_ne _ _ (by omega)]
    exact ho.fresh i (by omega)
  owning b o hbo hown := by
    rcases setAt_some hbo with ⟨_, h1⟩ | ⟨_, h1⟩
    · cases h1; cases hown
    · rw [hb]; exact ho.owning b o h1 hown
  once b o b' o' m h1 h2 h3 h4 := by
    rcases setAt_some h1 with ⟨h5, h6⟩ | ⟨h5, h6⟩ <;> rcases setAt_some h2 with ⟨h7, h8⟩ | ⟨h7, h8⟩
    · rw [h5, h7]
    · cases h6; cases h3; cases hq
    · cases h8; cases h4; cases hq
    · exact ho.once b o b' o' m h6 h8 h3 h4
  viewing b o hbo hown := by
    rcases setAt_some hbo with ⟨h0, h1⟩ | ⟨_, h1⟩
    · cases h1
      refine ⟨t, T, n, rfl, hT, hp, hq, by rw [h0]; exact List.mem_cons_self, fun _ => ?_⟩
      rw [hi]; exact List.mem_cons_self
    · obtain ⟨t', T', n', h2, h3, h4, h5, h6, h7⟩ := ho.viewing b o h1 hown
      exact ⟨t', T', n', h2, h3, h4, h5, List.mem_cons_of_mem _ h6,
        fun h8 => by rw [hi]; exact List.mem_cons_of_mem _ (h7 h8)⟩
  tensor := by rw [ht]; exact ho.tensor
  tensorOnce := ho.tensorOnce
  moved b o hbo hm := by
    rcases setAt_some hbo with ⟨_, h1⟩ | ⟨_, h1⟩
    · cases h1
      intro hnull
      simp only at hnull
      rw [hnull] at hq; cases hq
    · exact ho.moved b o h1 hm
  members L hL b hbL := by
    have h1 := ho.members L hL b hbL
    rw [setAt_ne]
    · exact h1
    · rintro rfl
      rw [(ho.fresh b (Nat.le_refl _)).1] at h1
      cases h1
  complete ha := by
    obtain ⟨h1, h2⟩ := ho.complete ha
    refine ⟨fun m hm => ?_, by rw [ht]; exact h2⟩
    rw [hb] at hm
    obtain ⟨b, o, h3, h4⟩ := h1 m hm
    refine ⟨b, o, ?_, h4⟩
    rw [setAt_ne]
    · exact h3
    · rintro rfl
      rw [(ho.fresh b (Nat.le_refl _)).1] at h3
      cases h3

theorem Objects.putTensor (ho : Objects all next bs ts lists l lc) {n : Nat} (hn : n ∉ lc.tensors)
    (hb : lc'.blocks = lc.blocks) (ht : lc'.tensors = n :: lc.tensors) (hi : lc'.interior = lc.interior) (i : Nat) :
    Objects all (next + 1) bs (setAt ts next (some { ptr := some n, blocks := i })) lists l lc' where
  fresh i hi := by
    rw [setAt_ne _ _ (by omega)]
    exact ho.fresh i (by omega)
  owning := by rw [hb]; exact ho.owning
  once := ho.once
  viewing b o hbo hown := by
    obtain ⟨t', T', n', h2, h3, h4, h5, h6, h7⟩ := ho.viewing b o hbo hown
    refine ⟨t', T', n', h2, ?_, h4, h5, h6, by rw [hi]; exact h7⟩
    rw [setAt_ne]
    · exact h3
    · rintro rfl
      rw [(ho.fresh t' (Nat.le_refl _)).2] at h3
      cases h3
  tensor t T hT := by
    rw [ht]
    rcases setAt_some hT with ⟨_, h1⟩ | ⟨_, h1⟩
    · cases h1; exact ⟨n, List.mem_cons_self, rfl⟩
    · obtain ⟨m, hm, h2⟩ := ho.tensor t T h1
      exact ⟨m, List.mem_cons_of_mem _ hm, h2⟩
  tensorOnce t T t' T' m h1 h2 h3 h4 := by
    rcases setAt_some h1 with ⟨h5, h6⟩ | ⟨h5, h6⟩ <;> rcases setAt_some h2 with ⟨h7, h8⟩ | ⟨h7, h8⟩
    · rw [h5, h7]
    · cases h6; cases h3
      obtain ⟨k, hk, h9⟩ := ho.tensor t' T' h8
      rw [h4] at h9; cases h9
      exact absurd hk hn
    · cases h8; cases h4
      obtain ⟨k, hk, h9⟩ := ho.tensor t T h6
      rw [h3] at h9; cases h9
      exact absurd hk hn
    · exact ho.tensorOnce t T t' T' m h6 h8 h3 h4
  moved := ho.moved
  members := ho.members
  complete ha := by
    obtain ⟨h1, h2⟩ := ho.complete ha
    refine ⟨by rw [hb]; exact h1, fun m hm => ?_⟩
    rw [ht] at hm
    rcases List.mem_cons.1 hm with rfl | hm
    · exact ⟨next, _, setAt_self _ _ _, rfl⟩
    · obtain ⟨t, T, h3, h4⟩ := h2 m hm
      refine ⟨t, T, ?_, h4⟩
      rw [setAt_ne]
      · exact h3
      · rintro rfl
        rw [(ho.fresh t (Nat.le_refl _)).2] at h3
        cases h3

/-- Delete a block which is not in a list. -/
theorem Objects.deleteBlock (ho : Objects all next bs ts lists l lc) {b : Nat} {o : PyBlock} (hbo : bs b = some o)
    (hlist : ∀ L ∈ lists, b ∉ L) (hb : ∀ n, n ∈ lc'.blocks ↔ n ∈ lc.blocks ∧ o.ptr ≠ .owned n)
    (ht : lc'.tensors = lc.tensors) (hi : lc'.interior = lc.interior) :
    Objects all next (setAt bs b none) ts lists l lc' where
  fresh i hi := by
    refine ⟨?_, (ho.fresh i hi).2⟩
    by_cases h1 : i = b
    · rw [h1]; exact setAt_self _ _ _
    · rw [setAt_ne _ _ h1]; exact (ho.fresh i hi).1
  owning b' o' hb' hown := by
    rcases setAt_some hb' with ⟨_, h1⟩ | ⟨hne, h1⟩
    · cases h1
    · obtain ⟨h2, h3⟩ := ho.owning b' o' h1 hown
      refine ⟨h2, h3.imp_right ?_⟩
      rintro ⟨m, hm, h4⟩
      exact ⟨m, (hb m).2 ⟨hm, fun h5 => hne (ho.once b' o' b o m h1 hbo h4 h5)⟩, h4⟩
  once b o b' o' m h1 h2 h3 h4 := by
    rcases setAt_some h1 with ⟨h5, h6⟩ | ⟨h5, h6⟩
    · cases h6
    rcases setAt_some h2 with ⟨h7, h8⟩ | ⟨h7, h8⟩
    · cases h8
    exact ho.once b o b' o' m h6 h8 h3 h4
  viewing b' o' hb' hown := by
    rcases setAt_some hb' with ⟨_, h1⟩ | ⟨hne, h1⟩
    · cases h1
    · rw [hi]; exact ho.viewing b' o' h1 hown
  tensor := by rw [ht]; exact ho.tensor
  tensorOnce := ho.tensorOnce
  moved b' o' hb' hm := by
    rcases setAt_some hb' with ⟨_, h1⟩ | ⟨hne, h1⟩
    · cases h1
    · exact ho.moved b' o' h1 hm
  members L hL b' hb' := by
    rw [setAt_ne]
    · exact ho.members L hL b' hb'
    · rintro rfl; exact hlist L hL hb'
  complete ha := by
    obtain ⟨h1, h2⟩ := ho.complete ha
    refine ⟨fun m hm => ?_, by rw [ht]; exact h2⟩
    obtain ⟨h3, h4⟩ := (hb m).1 hm
    obtain ⟨b', o', h5, h6⟩ := h1 m h3
    refine ⟨b', o', ?_, h6⟩
    rw [setAt_ne]
    · exact h5
    · rintro rfl
      rw [hbo] at h5; cases h5
      exact h4 h6

/-- Delete a tensor map which is not the parent of a block. -/
theorem Objects.deleteTensor (ho : Objects all next bs ts lists l lc) {t n : Nat} {T : PyTensor} (hT : ts t = some T)
    (hp : T.ptr = some n) (hparent : ∀ b o, bs b = some o → o.parent ≠ some t) (hb : lc'.blocks = lc.blocks)
    (ht : ∀ m, m ∈ lc'.tensors ↔ m ∈ lc.tensors ∧ m ≠ n)
    (hi : ∀ q ∈ lc.interior, insideOf n q = false → q ∈ lc'.interior) :
    Objects all next bs (setAt ts t none) lists l lc' where
  fresh i hi := by
    refine ⟨(ho.fresh i hi).1, ?_⟩
    by_cases h1 : i = t
    · rw [h1]; exact setAt_self _ _ _
    · rw [setAt_ne _ _ h1]; exact (ho.fresh i hi).2
  owning := by rw [hb]; exact ho.owning
  once := ho.once
  viewing b o hbo hown := by
    obtain ⟨t', T', n', h2, h3, h4, h5, h6, h7⟩ := ho.viewing b o hbo hown
    have hne : t' ≠ t := by rintro rfl; exact hparent b o hbo h2
    refine ⟨t', T', n', h2, by rw [setAt_ne _ _ hne]; exact h3, h4, h5, h6, fun h8 => hi _ (h7 h8) ?_⟩
    cases hin : insideOf n o.ptr with
    | false => rfl
    | true =>
      exfalso
      cases hq : o.ptr with
      | null => rw [hq] at hin; cases hin
      | owned => rw [hq] at hin; cases hin
      | inside m v i =>
        rw [hq] at hin h5
        simp only [insideOf, decide_eq_true_eq] at hin h5
        subst hin; subst h5
        exact hne (ho.tensorOnce t' T' t T m h3 hT h4 hp)
  tensor t' T' hT' := by
    rcases setAt_some hT' with ⟨_, h1⟩ | ⟨hne, h1⟩
    · cases h1
    · obtain ⟨m, hm, h2⟩ := ho.tensor t' T' h1
      refine ⟨m, (ht m).2 ⟨hm, ?_⟩, h2⟩
      rintro rfl
      exact hne (ho.tensorOnce t' T' t T m h1 hT h2 hp)
  tensorOnce t₁ T₁ t₂ T₂ m h1 h2 h3 h4 := by
    rcases setAt_some h1 with ⟨h5, h6⟩ | ⟨h5, h6⟩
    · cases h6
    rcases setAt_some h2 with ⟨h7, h8⟩ | ⟨h7, h8⟩
    · cases h8
    exact ho.tensorOnce t₁ T₁ t₂ T₂ m h6 h8 h3 h4
  moved := ho.moved
  members := ho.members
  complete ha := by
    obtain ⟨h1, h2⟩ := ho.complete ha
    refine ⟨by rw [hb]; exact h1, fun m hm => ?_⟩
    obtain ⟨h3, h4⟩ := (ht m).1 hm
    obtain ⟨t', T', h5, h6⟩ := h2 m h3
    refine ⟨t', T', ?_, h6⟩
    rw [setAt_ne]
    · exact h5
    · rintro rfl
      rw [hT] at h5; cases h5
      rw [hp] at h6; cases h6
      exact h4 rfl

/-- The pointers to blocks in a tensor map are not valid any more. -/
theorem Objects.stale (ho : Objects all next bs ts lists l lc) {t n : Nat} {T : PyTensor} (hT : ts t = some T)
    (hp : T.ptr = some n) (hb : lc'.blocks = lc.blocks) (ht : lc'.tensors = lc.tensors)
    (hi : ∀ q ∈ lc.interior, insideOf n q = false → q ∈ lc'.interior) :
    Objects all next bs ts lists { l with stale := (l.views.filter fun v => v.2 = t).map (·.1) ++ l.stale } lc' where
  fresh := ho.fresh
  owning := by rw [hb]; exact ho.owning
  once := ho.once
  viewing b o hbo hown := by
    obtain ⟨t', T', n', h2, h3, h4, h5, h6, h7⟩ := ho.viewing b o hbo hown
    refine ⟨t', T', n', h2, h3, h4, h5, h6, fun h8 => ?_⟩
    simp only [List.mem_append, not_or] at h8
    refine hi _ (h7 h8.2) ?_
    cases hin : insideOf n o.ptr with
    | false => rfl
    | true =>
      exfalso
      cases hq : o.ptr with
      | null => rw [hq] at hin; cases hin
      | owned => rw [hq] at hin; cases hin
      | inside m v i =>
        rw [hq] at hin h5
        simp only [insideOf, decide_eq_true_eq] at hin h5
        subst hin; subst h5
        have := ho.tensorOnce t' T' t T m h3 hT h4 hp
        subst this
        exact h8.1 (List.mem_map.2 ⟨(b, t'), List.mem_filter.2 ⟨h6, by simp⟩, rfl⟩)
  tensor := by rw [ht]; exact ho.tensor
  tensorOnce := ho.tensorOnce
  moved := ho.moved
  members := ho.members
  complete := by rw [hb, ht]; exact ho.complete

/-- Append something to the arrays of a block. -/
theorem Objects.setArrays (ho : Objects all next bs ts lists l lc) {b : Nat} {o : PyBlock} (hbo : bs b = some o)
    (arrays : List Nat) : Objects all next (setAt bs b (some { o with arrays })) ts lists l lc where
  fresh i hi := by
    refine ⟨?_, (ho.fresh i hi).2⟩
    have := (ho.fresh i hi).1
    rw [setAt_ne]
    · exact this
    · rintro rfl; rw [hbo] at this; cases this
  owning b' o' hb' hown := by
    rcases setAt_some hb' with ⟨rfl, h1⟩ | ⟨hne, h1⟩
    · cases h1; exact ho.owning b' o hbo hown
    · exact ho.owning b' o' h1 hown
  once b₁ o₁ b₂ o₂ m h1 h2 h3 h4 := by
    rcases setAt_some h1 with ⟨h5, h6⟩ | ⟨h5, h6⟩ <;> rcases setAt_some h2 with ⟨h7, h8⟩ | ⟨h7, h8⟩
    · rw [h5, h7]
    · cases h6
      rw [h5]; exact ho.once b o b₂ o₂ m hbo h8 h3 h4
    · cases h8
      rw [h7]; exact ho.once b₁ o₁ b o m h6 hbo h3 h4
    · exact ho.once b₁ o₁ b₂ o₂ m h6 h8 h3 h4
  viewing b' o' hb' hown := by
    rcases setAt_some hb' with ⟨rfl, h1⟩ | ⟨hne, h1⟩
    · cases h1; exact ho.viewing b' o hbo hown
    · exact ho.viewing b' o' h1 hown
  tensor := ho.tensor
  tensorOnce := ho.tensorOnce
  moved b' o' hb' hm := by
    rcases setAt_some hb' with ⟨rfl, h1⟩ | ⟨hne, h1⟩
    · cases h1; exact ho.moved b' o hbo hm
    · exact ho.moved b' o' h1 hm
  members L hL b' hb' := by
    by_cases h1 : b' = b
    · rw [h1, setAt_self]; rfl
    · rw [setAt_ne _ _ h1]; exact ho.members L hL b' hb'
  complete ha := by
    obtain ⟨h1, h2⟩ := ho.complete ha
    refine ⟨fun m hm => ?_, h2⟩
    obtain ⟨b', o', h5, h6⟩ := h1 m hm
    by_cases h7 : b' = b
    · subst h7
      rw [hbo] at h5; cases h5
      exact ⟨b', _, setAt_self _ _ _, h6⟩
    · exact ⟨b', o', by rw [setAt_ne _ _ h7]; exact h5, h6⟩

/-- Change the lists. -/
theorem Objects.setLists (ho : Objects all next bs ts lists l lc) {lists' : List (List Nat)}
    (hm : ∀ L ∈ lists', ∀ b ∈ L, (bs b).isSome) : Objects all next bs ts lists' l lc :=
  ⟨ho.fresh, ho.owning, ho.once, ho.viewing, ho.tensor, ho.tensorOnce, ho.moved, hm, ho.complete⟩

end Python
end Equistore
