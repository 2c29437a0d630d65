import Verif.Lemmas.MovedTwice

/-!
# First appearances in lists
-/

namespace Equistore
open Spec

section
variable {α β κ : Type} [DecidableEq α] [DecidableEq β] [DecidableEq κ]

/-- The elements of a list, in the order in which they first appear. -/
def firsts : List α → List α
  | [] => []
  | a :: l => a :: (firsts l).filter (· ≠ a)

theorem mem_firsts {l : List α} {x : α} : x ∈ firsts l ↔ x ∈ l := by
  induction l with
  | nil => simp [firsts]
  | cons a l ih =>
    simp only [firsts, List.mem_cons, List.mem_filter, ih, decide_eq_true_eq]
    by_cases h : x = a <;> simp [h]

theorem firstAppearances_firsts (l : List α) : FirstAppearances l (firsts l) := by
  induction l with
  | nil => exact ⟨.nil, fun x => Iff.rfl, .nil⟩
  | cons a l ih =>
    refine ⟨?_, fun x => mem_firsts, ?_⟩
    · refine List.nodup_cons.2 ⟨by simp, ih.nodup.filter _⟩
    · refine List.pairwise_cons.2 ⟨fun y hy => ?_, ?_⟩
      · have hya : y ≠ a := by simpa using (List.mem_filter.1 hy).2
        rw [List.idxOf_cons_self, List.idxOf_cons_ne _ (Ne.symm hya)]
        omega
      · refine (ih.order.filter _).imp_of_mem fun {x y} hx hy hxy => ?_
        have hxa : x ≠ a := by simpa using (List.mem_filter.1 hx).2
        have hya : y ≠ a := by simpa using (List.mem_filter.1 hy).2
        rw [List.idxOf_cons_ne _ (Ne.symm hxa), List.idxOf_cons_ne _ (Ne.symm hya)]
        omega

theorem Spec.FirstAppearances.eq {l r : List α} (h : FirstAppearances l r) : r = firsts l :=
  FirstAppearances.unique h (firstAppearances_firsts l)

theorem Spec.FirstAppearances.filter {l r : List α} (h : FirstAppearances l r) (p : α → Bool) :
    FirstAppearances (l.filter p) (r.filter p) := by
  rw [h.eq]
  have : (firsts l).filter p = firsts (l.filter p) := by
    clear h
    induction l with
    | nil => rfl
    | cons a l ih =>
      by_cases hp : p a = true
      · rw [List.filter_cons_of_pos hp]
        simp only [firsts, List.filter_cons_of_pos hp, ← ih, List.filter_filter, Bool.and_comm]
      · rw [List.filter_cons_of_neg hp, ← ih]
        simp only [firsts, List.filter_cons_of_neg hp, List.filter_filter]
        refine List.filter_congr fun x _ => ?_
        by_cases hx : x = a
        · simp [hx, hp]
        · simp [hx]
  rw [this]
  exact firstAppearances_firsts _

theorem firsts_append (l l' : List α) : firsts (l ++ l') = firsts l ++ (firsts l').filter (· ∉ l) := by
  induction l with
  | nil => simp [firsts]
  | cons a l ih =>
    simp only [List.cons_append, firsts, ih, List.filter_append, List.filter_filter, List.mem_cons, not_or,
      Bool.decide_and]

theorem firsts_nodup {l : List α} (h : l.Nodup) : firsts l = l := by
  induction l with
  | nil => rfl
  | cons a l ih =>
    rw [List.nodup_cons] at h
    rw [firsts, ih h.2, List.filter_eq_self.2]
    intro x hx
    simp only [decide_eq_true_eq]
    rintro rfl
    exact h.1 hx

/-- Putting several elements in the place of each. -/
theorem Spec.FirstAppearances.flatMap {l r : List α} (h : FirstAppearances l r) {f : α → List β}
    (hn : (r.flatMap f).Nodup) : FirstAppearances (l.flatMap f) (r.flatMap f) := by
  have hd : ∀ a ∈ l, (f a).Nodup := fun a ha => (List.nodup_flatMap.1 hn).1 a ((h.same a).2 ha)
  have hp : ∀ a ∈ l, ∀ b ∈ l, a ≠ b → ∀ x ∈ f a, x ∉ f b := by
    intro a ha b hb hab x hx hx'
    have hpw := (List.nodup_flatMap.1 hn).2
    rcases List.pairwise_iff_getElem.1 hpw with hpw
    obtain ⟨i, hi, rfl⟩ := List.getElem_of_mem ((h.same a).2 ha)
    obtain ⟨j, hj, rfl⟩ := List.getElem_of_mem ((h.same b).2 hb)
    rcases Nat.lt_trichotomy i j with hij | rfl | hij
    · exact hpw i j hi hj hij hx hx'
    · exact hab rfl
    · exact hpw j i hj hi hij hx' hx
  rw [h.eq]
  have : (firsts l).flatMap f = firsts (l.flatMap f) := by
    clear h hn
    induction l with
    | nil => rfl
    | cons a l ih =>
      have ih := ih (fun b hb => hd b (List.mem_cons_of_mem _ hb)) fun b hb c hc =>
        hp b (List.mem_cons_of_mem _ hb) c (List.mem_cons_of_mem _ hc)
      rw [List.flatMap_cons, firsts_append, firsts_nodup (hd a List.mem_cons_self), ← ih, firsts, List.flatMap_cons,
        List.filter_flatMap]
      congr 1
      have : ∀ m : List α, (∀ b ∈ m, b ∈ l) → (m.filter (· ≠ a)).flatMap f =
          m.flatMap fun b => (f b).filter (· ∉ f a) := by
        intro m hm
        induction m with
        | nil => rfl
        | cons b m ihm =>
          have ihm := ihm fun c hc => hm c (List.mem_cons_of_mem _ hc)
          rw [List.flatMap_cons, ← ihm]
          by_cases hb : b = a
          · subst hb
            have e : (f b).filter (· ∉ f b) = [] := List.filter_eq_nil_iff.2 (by simp)
            rw [List.filter_cons_of_neg (by simp), e, List.nil_append]
          · have e : (f b).filter (· ∉ f a) = f b := List.filter_eq_self.2 fun x hx => by
              simpa using hp b (List.mem_cons_of_mem _ (hm b List.mem_cons_self)) a List.mem_cons_self hb x hx
            rw [List.filter_cons_of_pos (by simpa using hb), List.flatMap_cons, e]
      exact this _ fun b hb => mem_firsts.1 hb
  rw [this]
  exact firstAppearances_firsts _

omit [DecidableEq α] in
/-- If every class of a list contains the same elements in the same order, this is the order in which they
first appear. -/
theorem firstAppearances_classes {l : List α} {c : α → κ} {g : α → β} {ms : List β} (hn : ms.Nodup)
    (hne : l = [] → ms = []) (h : ∀ a ∈ l, (l.filter fun b => c b = c a).map g = ms) :
    FirstAppearances (l.map g) ms := by
  have hin : ∀ x ∈ ms, x ∈ l.map g := by
    intro x hx
    cases l with
    | nil => rw [hne rfl] at hx; cases hx
    | cons a l =>
      rw [← h a List.mem_cons_self, List.mem_map] at hx
      obtain ⟨b, hb, rfl⟩ := hx
      exact List.mem_map_of_mem (List.mem_filter.1 hb).1
  refine ⟨hn, fun x => ⟨hin x, fun hx => ?_⟩, ?_⟩
  · obtain ⟨a, ha, rfl⟩ := List.mem_map.1 hx
    rw [← h a ha]
    exact List.mem_map_of_mem (List.mem_filter.2 ⟨ha, by simp⟩)
  · rw [List.pairwise_iff_getElem]
    intro i j hi hj hij
    -- the first appearance of the second element
    have hmem : ms[j] ∈ l.map g := hin _ (List.getElem_mem hj)
    have hlt := List.idxOf_lt_length_iff.2 hmem
    generalize hk : (l.map g).idxOf ms[j] = k at *
    rw [List.length_map] at hlt
    have hg : g l[k] = ms[j] := by
      have := List.getElem_idxOf (xs := l.map g) (x := ms[j]) (by rw [hk]; simpa using hlt)
      simpa only [hk, List.getElem_map] using this
    have hms := h l[k] (List.getElem_mem _)
    have hl : l = l.take k ++ l[k] :: l.drop (k + 1) := by simp
    have hms' : ((l.take k).filter fun b => c b = c l[k]).map g ++
        ms[j] :: ((l.drop (k + 1)).filter fun b => c b = c l[k]).map g = ms := by
      rw [← hg, ← List.map_cons, ← List.map_append, ← List.filter_cons_of_pos (by simp), ← List.filter_append]
      rw [← hl]
      exact hms
    -- the index of the second element
    have hj' : (((l.take k).filter fun b => c b = c l[k]).map g).length = j := by
      have e1 : ms[(((l.take k).filter fun b => c b = c l[k]).map g).length]? = some ms[j] := by
        conv_lhs => rw [← hms']
        rw [List.getElem?_append_right (Nat.le_refl _)]
        simp
      obtain ⟨e2, e3⟩ := List.getElem?_eq_some_iff.1 e1
      exact (List.Nodup.getElem_inj_iff hn).1 e3
    have hx : ms[i] ∈ ((l.take k).filter fun b => c b = c l[k]).map g := by
      have e1 : ms[i]? = some ms[i] := List.getElem?_eq_getElem hi
      conv_lhs at e1 => rw [← hms']
      rw [List.getElem?_append_left (by omega)] at e1
      exact List.mem_of_getElem? e1
    obtain ⟨b, hb, hb'⟩ := List.mem_map.1 hx
    obtain ⟨m, hm, hbm⟩ := List.getElem_of_mem (List.mem_filter.1 hb).1
    rw [List.length_take] at hm
    rw [List.getElem_take] at hbm
    refine Nat.lt_of_le_of_lt (idxOf_le_of_getElem? (i := m) ?_) (by omega)
    rw [List.getElem?_map, List.getElem?_eq_getElem (by omega), hbm, Option.map_some, hb']

omit [DecidableEq α] in
theorem firstAppearances_classes_flatMap {l : List α} {c : α → κ} {f : α → List β} {ms : List β} (hn : ms.Nodup)
    (hne : l = [] → ms = []) (h : ∀ a ∈ l, (l.filter fun b => c b = c a).flatMap f = ms) :
    FirstAppearances (l.flatMap f) ms := by
  have hf : ∀ l : List α, l.flatMap f = (l.flatMap fun a => (f a).map fun x => (a, x)).map Prod.snd := by
    intro l
    rw [List.map_flatMap]
    refine List.flatMap_congr fun a _ => ?_
    rw [List.map_map]
    exact (List.map_id _).symm
  rw [hf]
  by_cases hms : ms = []
  · subst hms
    have : l.flatMap f = [] := by
      rw [List.flatMap_eq_nil_iff]
      intro a ha
      have := h a ha
      rw [List.flatMap_eq_nil_iff] at this
      exact this a (List.mem_filter.2 ⟨ha, by simp⟩)
    rw [← hf, this]
    exact ⟨.nil, fun x => Iff.rfl, .nil⟩
  · refine firstAppearances_classes (c := fun x => c x.1) hn ?_ ?_
    · intro he
      have := congrArg (List.map Prod.snd) he
      rw [← hf] at this
      cases l with
      | nil => exact hne rfl
      | cons a l =>
        rw [← h a List.mem_cons_self]
        rw [List.flatMap_eq_nil_iff.2]
        intro b hb
        rw [List.map_nil, List.flatMap_eq_nil_iff] at this
        exact this b (List.mem_filter.1 hb).1
    · rintro ⟨a, x⟩ ha
      obtain ⟨a', ha', hx⟩ := List.mem_flatMap.1 ha
      obtain ⟨x', hx', he⟩ := List.mem_map.1 hx
      obtain ⟨rfl, rfl⟩ := Prod.mk.inj he
      rw [← h a' ha', hf, List.filter_flatMap]
      congr 1
      generalize l = l
      induction l with
      | nil => rfl
      | cons b l ih =>
        rw [List.flatMap_cons, ih]
        by_cases hb : c b = c a'
        · rw [List.filter_cons_of_pos (by simpa using hb), List.flatMap_cons, List.filter_eq_self.2]
          simp [hb]
        · rw [List.filter_cons_of_neg (by simpa using hb), List.filter_eq_nil_iff.2, List.nil_append]
          simp [hb]

/-- The pieces a list is made of can be found again if they start with different values. -/
theorem segments_unique {w : Nat} {l l' : List (List β × List (List β))}
    (h : l.flatMap (fun x => x.2.map (x.1 ++ ·)) = l'.flatMap (fun x => x.2.map (x.1 ++ ·)))
    (hw : ∀ x ∈ l, x.1.length = w) (hw' : ∀ x ∈ l', x.1.length = w) (hs : ∀ x ∈ l, x.2 ≠ []) (hs' : ∀ x ∈ l', x.2 ≠ [])
    (hn : (l.map Prod.fst).Nodup) (hn' : (l'.map Prod.fst).Nodup) : l = l' := by
  have hempty : ∀ (m : List β × List (List β)) (k : List (List β × List (List β))), m.2 ≠ [] →
      (m :: k).flatMap (fun x => x.2.map (x.1 ++ ·)) ≠ [] := by
    intro m k hm
    rw [List.flatMap_cons]
    simp [hm]
  -- the first piece
  have hfirst : ∀ (m : List β × List (List β)) (k : List (List β × List (List β))), (∀ x ∈ m :: k, x.1.length = w) →
      ((m :: k).map Prod.fst).Nodup →
      ((m :: k).flatMap (fun x => x.2.map (x.1 ++ ·))).filter (fun y => y.take w = m.1) = m.2.map (m.1 ++ ·) ∧
      ((m :: k).flatMap (fun x => x.2.map (x.1 ++ ·))).filter (fun y => y.take w ≠ m.1) =
        k.flatMap (fun x => x.2.map (x.1 ++ ·)) := by
    intro m k hw hn
    rw [List.map_cons, List.nodup_cons] at hn
    have h1 : ∀ y ∈ m.2.map (m.1 ++ ·), y.take w = m.1 := by
      intro y hy
      obtain ⟨z, -, rfl⟩ := List.mem_map.1 hy
      rw [← hw m List.mem_cons_self, List.take_left]
    have h2 : ∀ y ∈ k.flatMap (fun x => x.2.map (x.1 ++ ·)), y.take w ≠ m.1 := by
      intro y hy
      obtain ⟨x, hx, hy⟩ := List.mem_flatMap.1 hy
      obtain ⟨z, -, rfl⟩ := List.mem_map.1 hy
      rw [← hw x (List.mem_cons_of_mem _ hx), List.take_left]
      exact fun he => hn.1 (he ▸ List.mem_map_of_mem hx)
    rw [List.flatMap_cons, List.filter_append, List.filter_append]
    constructor
    · rw [List.filter_eq_self.2 (by simpa using h1), List.filter_eq_nil_iff.2 (by simpa using h2), List.append_nil]
    · rw [List.filter_eq_nil_iff.2 (by simpa using h1), List.filter_eq_self.2 (by simpa using h2), List.nil_append]
  induction l generalizing l' with
  | nil =>
    cases l' with
    | nil => rfl
    | cons m k => exact absurd h.symm (hempty m k (hs' m List.mem_cons_self))
  | cons m k ih =>
    cases l' with
    | nil => exact absurd h (hempty m k (hs m List.mem_cons_self))
    | cons m' k' =>
      have he : m.1 = m'.1 := by
        obtain ⟨a, u, ha⟩ := List.exists_cons_of_ne_nil (hs m List.mem_cons_self)
        obtain ⟨a', u', ha'⟩ := List.exists_cons_of_ne_nil (hs' m' List.mem_cons_self)
        have := h
        rw [List.flatMap_cons, List.flatMap_cons, ha, ha', List.map_cons, List.map_cons, List.cons_append,
          List.cons_append] at this
        have := (List.cons.inj this).1
        have := congrArg (List.take w) this
        rwa [← hw m List.mem_cons_self, List.take_left, hw m List.mem_cons_self, ← hw' m' List.mem_cons_self,
          List.take_left] at this
      obtain ⟨h1, h2⟩ := hfirst m k hw hn
      obtain ⟨h1', h2'⟩ := hfirst m' k' hw' hn'
      rw [h, he, h1'] at h1
      rw [h, he, h2'] at h2
      have e2 : m.2 = m'.2 := by
        refine List.map_injective_iff.2 (List.append_right_injective m.1) ?_
        rw [he]; exact h1.symm
      rw [ih h2.symm (fun x hx => hw x (List.mem_cons_of_mem _ hx)) (fun x hx => hw' x (List.mem_cons_of_mem _ hx))
        (fun x hx => hs x (List.mem_cons_of_mem _ hx)) (fun x hx => hs' x (List.mem_cons_of_mem _ hx))
        (List.nodup_cons.1 hn).2 (List.nodup_cons.1 hn').2, Prod.ext he e2]

end

end Equistore
