import Verif.Spec.NamesMemory
import Verif.Lemmas.CMemory
import Mathlib.Data.List.Nodup
import Mathlib.Data.List.Perm.Basic
import Mathlib.Tactic.Tauto

/-!
# Who owns the memory of names
-/

namespace Equistore
namespace NamesMemory

open Spec.Names

/-- Show that a list is part of another one. -/
local macro "sub" : tactic => `(tactic| (intro x hx; simp at hx ⊢; tauto))

/-! ### The memory -/

/-- The allocations are exactly these addresses. -/
structure Owns (m : Memory) (l : List Addr) : Prop where
  nodup : l.Nodup
  live : ∀ x, (m.cells x).isSome ↔ x ∈ l
  fresh : ∀ x, (m.cells x).isSome → x < m.next

theorem Owns.perm {m : Memory} {l l' : List Addr} (h : Owns m l) (hp : l.Perm l') : Owns m l' :=
  ⟨hp.nodup_iff.1 h.nodup, fun x => (h.live x).trans hp.mem_iff, h.fresh⟩

/-- The same is at these addresses. -/
def Agree (m m' : Memory) (l : List Addr) : Prop := ∀ x ∈ l, m'.cells x = m.cells x

theorem Agree.refl (m : Memory) (l : List Addr) : Agree m m l := fun _ _ => rfl

theorem Agree.trans {m m' m'' : Memory} {l : List Addr} (h : Agree m m' l) (h' : Agree m' m'' l) :
    Agree m m'' l := fun x hx => (h' x hx).trans (h x hx)

theorem Agree.mono {m m' : Memory} {l l' : List Addr} (h : Agree m m' l) (hl : l' ⊆ l) : Agree m m' l' :=
  fun x hx => h x (hl hx)

/-- What is gone does not come back. -/
structure Grows (m m' : Memory) : Prop where
  next : m.next ≤ m'.next
  dead : ∀ x, x < m.next → m.cells x = none → m'.cells x = none

theorem Grows.refl (m : Memory) : Grows m m := ⟨Nat.le_refl _, fun _ _ h => h⟩

theorem Grows.trans {m m' m'' : Memory} (h : Grows m m') (h' : Grows m' m'') : Grows m m'' :=
  ⟨Nat.le_trans h.next h'.next, fun x hx h0 => h'.dead x (Nat.lt_of_lt_of_le hx h.next) (h.dead x hx h0)⟩

theorem alloc_owns {m : Memory} {l : List Addr} (h : Owns m l) (c : Cell) :
    ∃ m', alloc c m = some (m', .ok m.next) ∧ Owns m' (m.next :: l) ∧ Agree m m' l ∧ Grows m m' ∧
      m'.cells m.next = some c := by
  have hn : m.next ∉ l := fun hl => Nat.lt_irrefl _ (h.fresh _ ((h.live _).2 hl))
  refine ⟨_, rfl, ⟨List.nodup_cons.2 ⟨hn, h.nodup⟩, fun x => ?_, fun x hx => ?_⟩, fun x hx => ?_, ⟨Nat.le_succ _, fun x hx h0 => ?_⟩,
    by simp⟩
  · by_cases hx : x = m.next
    · simp [hx]
    · simp [hx, h.live]
  · by_cases hx' : x = m.next
    · simp [hx']
    · simp only [hx', if_false] at hx
      exact Nat.lt_succ_of_lt (h.fresh x hx)
  · have : x ≠ m.next := fun he => hn (he ▸ hx)
    simp [this]
  · have : x ≠ m.next := Nat.ne_of_lt hx
    simp [this, h0]

theorem free_owns {m : Memory} {a : Addr} {l : List Addr} (h : Owns m (a :: l)) :
    ∃ m', free a m = some (m', .ok ()) ∧ Owns m' l ∧ Agree m m' l ∧ Grows m m' ∧ m'.cells a = none := by
  obtain ⟨c, hc⟩ := Option.isSome_iff_exists.1 ((h.live a).2 (by simp))
  have hn := (List.nodup_cons.1 h.nodup).1
  refine ⟨⟨fun x => if x = a then none else m.cells x, m.next⟩, by simp [free, hc], ⟨(List.nodup_cons.1 h.nodup).2, fun x => ?_, fun x hx => ?_⟩,
    fun x hx => ?_, ⟨Nat.le_refl _, fun x _ h0 => ?_⟩, by simp⟩
  · by_cases hx : x = a
    · simp [hx, hn]
    · simp [hx, h.live]
  · by_cases hx' : x = a
    · simp [hx'] at hx
    · simp only [hx', if_false] at hx
      exact h.fresh x hx
  · have : x ≠ a := fun he => hn (he ▸ hx)
    simp [this]
  · by_cases hx : x = a
    · simp [hx]
    · simp [hx, h0]

theorem store_owns {m : Memory} {a : Addr} {l : List Addr} (h : Owns m (a :: l)) (c : Cell) :
    ∃ m', store a c m = some (m', .ok ()) ∧ Owns m' (a :: l) ∧ Agree m m' l ∧ Grows m m' ∧ m'.cells a = some c := by
  obtain ⟨c', hc⟩ := Option.isSome_iff_exists.1 ((h.live a).2 (by simp))
  have hn := (List.nodup_cons.1 h.nodup).1
  refine ⟨⟨fun x => if x = a then some c else m.cells x, m.next⟩, by simp [store, hc], ⟨h.nodup, fun x => ?_, fun x hx => ?_⟩,
    fun x hx => ?_, ⟨Nat.le_refl _, fun x _ h0 => ?_⟩, by simp⟩
  · by_cases hx : x = a
    · simp [hx]
    · simp [hx, h.live]
  · by_cases hx' : x = a
    · exact hx' ▸ h.fresh a (by simp [hc])
    · simp only [hx', if_false] at hx
      exact h.fresh x hx
  · have : x ≠ a := fun he => hn (he ▸ hx)
    simp [this]
  · by_cases hx : x = a
    · rw [hx, hc] at h0; cases h0
    · simp [hx, h0]

/-! ### Strings -/

theorem zero_mem_utf8Bytes {s : String} : (0 : UInt8) ∈ utf8Bytes s ↔ ¬ CanBeName s := by
  unfold CanBeName
  constructor
  · intro h h0
    exact utf8Bytes_no_zero h0 h
  · intro h
    rw [utf8Bytes_eq]
    simp only [not_not] at h
    exact List.mem_flatMap.2 ⟨_, h, by decide⟩

theorem cstrBytes_cstring {s : String} (h : CanBeName s) : cstrBytes (cstring s) = utf8Bytes s :=
  takeWhile_ne_zero (rest := []) (utf8Bytes_no_zero h)

/-- There is this name at this address. -/
def IsName (m : Memory) (a : Addr) (s : String) : Prop := m.cells a = some (.str (cstring s)) ∧ CanBeName s

theorem IsName.agree {m m' : Memory} {a : Addr} {s : String} {l : List Addr} (h : IsName m a s) (hm : Agree m m' l)
    (ha : a ∈ l) : IsName m' a s := ⟨(hm a ha).trans h.1, h.2⟩

theorem loadStr_isName {m : Memory} {a : Addr} {s : String} (h : IsName m a s) :
    loadStr a m = some (m, .ok (cstring s)) := by
  simp [loadStr, h.1, cstring]

theorem asCStr_isName {m : Memory} {a : Addr} {s : String} (h : IsName m a s) :
    asCStr a m = some (m, .ok (utf8Bytes s)) := by
  simp [asCStr, bind, CAct.bind, loadStr_isName h, pure, cstrBytes_cstring h.2]

theorem asStr_isName {m : Memory} {a : Addr} {s : String} (h : IsName m a s) :
    asStr a m = some (m, .ok s) := by
  simp [asStr, bind, CAct.bind, loadStr_isName h, pure, cstrStr_cstring h.2]

theorem readString_isName {m : Memory} {a : Addr} {s : String} (h : IsName m a s) : readString m a = some s := by
  simp [readString, h.1, cstrStr_cstring h.2]
  simp [cstring]

theorem newName_owns {m : Memory} {l : List Addr} (h : Owns m l) {s : String} (hs : CanBeName s) :
    ∃ m', newName s m = some (m', .ok m.next) ∧ Owns m' (m.next :: l) ∧ Agree m m' l ∧ Grows m m' ∧
      IsName m' m.next s := by
  obtain ⟨m', h1, h2, h3, h4, h5⟩ := alloc_owns h (.str (cstring s))
  refine ⟨m', ?_, h2, h3, h4, h5, hs⟩
  have : (0 : UInt8) ∉ utf8Bytes s := utf8Bytes_no_zero hs
  simp [newName, this, h1]

theorem newName_panic {s : String} (hs : ¬ CanBeName s) (m : Memory) :
    newName s m = some (m, .panic "invalid C string") := by
  simp [newName, zero_mem_utf8Bytes.2 hs, CAct.lift]

theorem cloneName_owns {m : Memory} {l : List Addr} (h : Owns m l) {a : Addr} {s : String} (hs : IsName m a s) :
    ∃ m', cloneName a m = some (m', .ok m.next) ∧ Owns m' (m.next :: l) ∧ Agree m m' l ∧ Grows m m' ∧
      IsName m' m.next s := by
  obtain ⟨m', h1, h2, h3, h4, h5⟩ := alloc_owns h (.str (cstring s))
  refine ⟨m', ?_, h2, h3, h4, h5, hs.2⟩
  simp [cloneName, bind, CAct.bind, asCStr_isName hs]
  exact h1

theorem dropName_owns {m : Memory} {l : List Addr} {a : Addr} (h : Owns m (a :: l)) {s : String} (hs : IsName m a s) :
    ∃ m', dropName a m = some (m', .ok ()) ∧ Owns m' l ∧ Agree m m' l ∧ Grows m m' := by
  obtain ⟨m', h1, h2, h3, h4, -⟩ := free_owns h
  refine ⟨m', ?_, h2, h3, h4⟩
  simp only [dropName, bind, CAct.bind, loadStr_isName hs, cstrBytes_cstring hs.2]
  have : utf8Bytes s ++ [0] = cstring s := rfl
  simp [this, h1]

theorem dropNames_owns {l : List Addr} : ∀ {m : Memory} {entries : List Addr} {names : List String},
    Owns m (entries ++ l) → List.Forall₂ (IsName m) entries names →
    ∃ m', dropNames entries m = some (m', .ok ()) ∧ Owns m' l ∧ Agree m m' l ∧ Grows m m'
  | m, [], _, h, _ => ⟨m, rfl, h, .refl _ _, .refl _⟩
  | m, a :: entries, _, h, hn => by
    cases hn with
    | cons hs hn =>
      obtain ⟨m1, h1, h2, h3, h4⟩ := dropName_owns (l := entries ++ l) h hs
      have hn' : List.Forall₂ (IsName m1) entries _ :=
        List.forall₂_iff_zip.2 ⟨(List.forall₂_iff_zip.1 hn).1, fun {x y} hxy =>
          ((List.forall₂_iff_zip.1 hn).2 hxy).agree h3 (by simp [(List.of_mem_zip hxy).1])⟩
      obtain ⟨m2, g1, g2, g3, g4⟩ := dropNames_owns h2 hn'
      refine ⟨m2, ?_, g2, (h3.mono (by simp)).trans g3, h4.trans g4⟩
      simp [dropNames, bind, CAct.bind, h1, g1]

theorem forall₂_agree {m m' : Memory} {l entries : List Addr} {names : List String}
    (h : List.Forall₂ (IsName m) entries names) (hm : Agree m m' l) (hl : entries ⊆ l) :
    List.Forall₂ (IsName m') entries names :=
  List.forall₂_iff_zip.2 ⟨(List.forall₂_iff_zip.1 h).1, fun {_ _} hxy =>
    ((List.forall₂_iff_zip.1 h).2 hxy).agree hm (hl (List.of_mem_zip hxy).1)⟩

theorem cloneNames_owns : ∀ {m : Memory} {l entries : List Addr} {names : List String},
    Owns m l → entries ⊆ l → List.Forall₂ (IsName m) entries names →
    ∃ m' new, cloneNames entries m = some (m', .ok new) ∧ Owns m' (new ++ l) ∧ Agree m m' l ∧ Grows m m' ∧
      List.Forall₂ (IsName m') new names
  | m, l, [], _, h, _, hn => by
    cases hn
    exact ⟨m, [], rfl, h, .refl _ _, .refl _, .nil⟩
  | m, l, a :: entries, _, h, hl, hn => by
    cases hn with
    | cons hs hn =>
      obtain ⟨m1, h1, h2, h3, h4, h5⟩ := cloneName_owns h hs
      have hl' : entries ⊆ l := fun x hx => hl (by simp [hx])
      obtain ⟨m2, new, g1, g2, g3, g4, g5⟩ := cloneNames_owns h2 (fun x hx => by simp [hl' hx]) (forall₂_agree hn h3 hl')
      refine ⟨m2, m.next :: new, ?_, g2.perm ?_, h3.trans (g3.mono (by simp)), h4.trans g4, .cons (h5.agree g3 (by simp)) g5⟩
      · simp [cloneNames, bind, CAct.bind, h1, g1, pure]
      · exact List.perm_middle

theorem newNames_owns : ∀ {m : Memory} {l : List Addr} (names : List String), Owns m l →
    (∀ s ∈ names, CanBeName s) →
    ∃ m' new, newNames names m = some (m', .ok new) ∧ Owns m' (new ++ l) ∧ Agree m m' l ∧ Grows m m' ∧
      List.Forall₂ (IsName m') new names
  | m, l, [], h, _ => ⟨m, [], rfl, h, .refl _ _, .refl _, .nil⟩
  | m, l, s :: names, h, hn => by
    obtain ⟨m1, h1, h2, h3, h4, h5⟩ := newName_owns h (hn s (by simp))
    obtain ⟨m2, new, g1, g2, g3, g4, g5⟩ := newNames_owns names h2 (fun s hs => hn s (by simp [hs]))
    refine ⟨m2, m.next :: new, ?_, g2.perm ?_, h3.trans (g3.mono (by simp)), h4.trans g4, .cons (h5.agree g3 (by simp)) g5⟩
    · simp [newNames, bind, CAct.bind, h1, g1]
    · exact List.perm_middle

/-- A panic frees everything which was allocated before. -/
theorem newNames_panic : ∀ {m : Memory} {l : List Addr} (names : List String), Owns m l →
    ¬ (∀ s ∈ names, CanBeName s) →
    ∃ m', newNames names m = some (m', .panic "invalid C string") ∧ Owns m' l ∧ Agree m m' l ∧ Grows m m'
  | m, l, [], h, hn => absurd (by simp) hn
  | m, l, s :: names, h, hn => by
    by_cases hs : CanBeName s
    · obtain ⟨m1, h1, h2, h3, h4, h5⟩ := newName_owns h hs
      have hn' : ¬ ∀ s ∈ names, CanBeName s := fun h => hn (by simpa [hs] using h)
      obtain ⟨m2, g1, g2, g3, g4⟩ := newNames_panic names h2 hn'
      obtain ⟨m3, k1, k2, k3, k4⟩ := dropName_owns g2 (h5.agree g3 (by simp))
      refine ⟨m3, ?_, k2, (h3.trans (g3.mono (by simp))).trans k3, (h4.trans g4).trans k4⟩
      simp [newNames, bind, CAct.bind, h1, g1, k1]
    · refine ⟨m, ?_, h, .refl _ _, .refl _⟩
      simp [newNames, bind, CAct.bind, newName_panic hs]

/-! ### Vectors -/

/-- A vector, with the pointers in it and the names they point to. -/
structure Own where
  vec : NameVec
  entries : List Addr
  names : List String

/-- All allocations of a vector. -/
def Own.footprint (o : Own) : List Addr := o.vec.buffer.toList ++ o.entries

/-- The memory contains the vector. -/
structure Own.Shape (m : Memory) (o : Own) : Prop where
  length : o.vec.length = o.entries.length
  names : List.Forall₂ (IsName m) o.entries o.names
  buffer : ∀ a, o.vec.buffer = some a → m.cells a = some (.list o.entries o.vec.capacity)
  nonempty : o.vec.buffer.isSome ↔ o.entries ≠ []
  capacity : o.entries.length ≤ o.vec.capacity
  empty : o.vec.buffer = none → o.vec.capacity = 0

theorem Own.Shape.agree {m m' : Memory} {l : List Addr} {o : Own} (h : o.Shape m) (hm : Agree m m' l)
    (hl : o.footprint ⊆ l) : o.Shape m' where
  length := h.length
  names := forall₂_agree h.names hm (fun x hx => hl (by simp [Own.footprint, hx]))
  buffer a ha := (hm a (hl (by simp [Own.footprint, ha]))).trans (h.buffer a ha)
  nonempty := h.nonempty
  capacity := h.capacity
  empty := h.empty

/-- The vector of a block without gradients. -/
def Own.empty : Own := ⟨NameVec.empty, [], []⟩

theorem Own.shape_empty (m : Memory) : Own.empty.Shape m :=
  ⟨rfl, .nil, by simp [Own.empty, NameVec.empty], by simp [Own.empty, NameVec.empty], by simp [Own.empty], fun _ => rfl⟩

theorem ofEntries_owns {m : Memory} {l entries : List Addr} {names : List String} (h : Owns m (entries ++ l))
    (hn : List.Forall₂ (IsName m) entries names) :
    ∃ m' v, NameVec.ofEntries entries m = some (m', .ok v) ∧ Owns m' ((⟨v, entries, names⟩ : Own).footprint ++ l) ∧
      Agree m m' l ∧ Grows m m' ∧ (⟨v, entries, names⟩ : Own).Shape m' := by
  by_cases he : entries = []
  · subst he
    cases hn
    exact ⟨m, NameVec.empty, rfl, h, .refl _ _, .refl _, Own.shape_empty m⟩
  · obtain ⟨m', h1, h2, h3, h4, h5⟩ := alloc_owns h (.list entries entries.length)
    refine ⟨m', ⟨some m.next, entries.length, entries.length⟩, ?_, ?_, h3.mono (by simp), h4,
      ⟨rfl, forall₂_agree hn h3 (by simp), ?_, by simpa using he, Nat.le_refl _, by simp⟩⟩
    · simp [NameVec.ofEntries, he, bind, CAct.bind, allocList, h1, pure]
    · simpa [Own.footprint] using h2
    · rintro a ha
      cases ha
      exact h5

/-- How a vector changes when a name is added: the strings which were there are not moved; the pointers to them are,
if there is no space for more. -/
structure Extends (m' : Memory) (o o' : Own) (name : String) : Prop where
  entries : ∃ a, o'.entries = o.entries ++ [a]
  names : o'.names = o.names ++ [name]
  buffer : o'.vec.buffer = o.vec.buffer ∨ ∀ a, o.vec.buffer = some a → m'.cells a = none ∧ a < m'.next
  same : o.vec.length < o.vec.capacity → o'.vec.buffer = o.vec.buffer ∧ o'.vec.capacity = o.vec.capacity

theorem push_owns {m : Memory} {l : List Addr} {o : Own} (h : Owns m (o.footprint ++ l)) (ho : o.Shape m)
    {name : String} (hn : CanBeName name) (inPlace : Bool) :
    ∃ (m' : Memory) (o' : Own), (newName name >>= fun a => o.vec.push a inPlace) m = some (m', .ok o'.vec) ∧
      Owns m' (o'.footprint ++ l) ∧ Agree m m' l ∧ Grows m m' ∧ o'.Shape m' ∧ Extends m' o o' name := by
  obtain ⟨m1, h1, h2, h3, h4, h5⟩ := newName_owns h hn
  have ho1 := ho.agree h3 (by simp)
  have hnames : ∀ {m2 : Memory}, Agree m1 m2 (m.next :: o.entries) →
      List.Forall₂ (IsName m2) (o.entries ++ [m.next]) (o.names ++ [name]) := fun hm =>
    List.rel_append (forall₂_agree ho1.names hm (by simp)) (.cons (h5.agree hm (by simp)) .nil)
  cases hb : o.vec.buffer with
  | none =>
    have he : o.entries = [] := by
      by_contra hne
      have := ho.nonempty.2 hne
      simp [hb] at this
    obtain ⟨m2, g1, g2, g3, g4, g5⟩ := alloc_owns h2 (.list [m.next] o.vec.grown)
    have hgrown : 1 ≤ o.vec.grown := by unfold NameVec.grown; omega
    refine ⟨m2, ⟨⟨some m1.next, o.vec.grown, o.vec.length + 1⟩, o.entries ++ [m.next], o.names ++ [name]⟩, ?_, ?_,
      h3.mono (by sub) |>.trans (g3.mono (by sub)), h4.trans g4, ⟨?_, ?_, ?_, ?_, ?_, by simp⟩, ⟨_, rfl⟩, rfl, ?_, ?_⟩
    · simp [bind, CAct.bind, h1, NameVec.push, hb, allocList, hgrown, g1, pure]
    · simpa [Own.footprint, hb, he] using g2
    · simp [ho.length]
    · exact hnames (g3.mono (by unfold Own.footprint; sub))
    · rintro a ha
      cases ha
      simpa [he] using g5
    · simp
    · simp [he, hgrown]
    · exact .inr fun a ha => by rw [hb] at ha; cases ha
    · intro hlt
      rw [ho.empty hb] at hlt
      omega
  | some a =>
    have hload : loadList a m1 = some (m1, .ok (o.entries, o.vec.capacity)) := by
      simp [loadList, ho1.buffer a hb]
    have hfoot : o.footprint = a :: o.entries := by simp [Own.footprint, hb]
    have hp : (m.next :: (o.footprint ++ l)).Perm (a :: ((o.entries ++ [m.next]) ++ l)) := by
      rw [hfoot]
      simp only [List.cons_append, List.append_assoc]
      refine (List.Perm.swap _ _ _).trans (List.Perm.cons _ ?_)
      simpa using (List.perm_middle (a := m.next) (l₁ := o.entries) (l₂ := l)).symm
    have h2' := h2.perm hp
    by_cases hlt : o.vec.length < o.vec.capacity
    · obtain ⟨m2, g1, g2, g3, g4, g5⟩ := store_owns h2' (.list (o.entries ++ [m.next]) o.vec.capacity)
      have hcap : o.entries.length + 1 ≤ o.vec.capacity := by rw [← ho.length]; exact hlt
      refine ⟨m2, ⟨⟨some a, o.vec.capacity, o.vec.length + 1⟩, o.entries ++ [m.next], o.names ++ [name]⟩, ?_, ?_,
        h3.mono (by sub) |>.trans (g3.mono (by sub)), h4.trans g4, ⟨?_, ?_, ?_, ?_, ?_, by simp⟩, ⟨_, rfl⟩, rfl, ?_, ?_⟩
      · simp [bind, CAct.bind, h1, NameVec.push, hb, hload, hlt, storeList, hcap, g1, pure]
      · simpa [Own.footprint] using g2
      · simp [ho.length]
      · exact hnames (g3.mono (by sub))
      · rintro a' ha
        cases ha
        exact g5
      · simp
      · simpa using hcap
      · left; simp [hb]
      · simp [hb]
    · have hgrown : o.entries.length + 1 ≤ o.vec.grown := by
        rw [← ho.length]; unfold NameVec.grown; omega
      cases inPlace with
      | true =>
        obtain ⟨m2, g1, g2, g3, g4, g5⟩ := store_owns h2' (.list (o.entries ++ [m.next]) o.vec.grown)
        refine ⟨m2, ⟨⟨some a, o.vec.grown, o.vec.length + 1⟩, o.entries ++ [m.next], o.names ++ [name]⟩, ?_, ?_,
          h3.mono (by sub) |>.trans (g3.mono (by sub)), h4.trans g4, ⟨?_, ?_, ?_, ?_, ?_, by simp⟩, ⟨_, rfl⟩, rfl, ?_, ?_⟩
        · simp [bind, CAct.bind, h1, NameVec.push, hb, hload, hlt, storeList, hgrown, g1, pure]
        · simpa [Own.footprint] using g2
        · simp [ho.length]
        · exact hnames (g3.mono (by sub))
        · rintro a' ha
          cases ha
          exact g5
        · simp
        · simpa using hgrown
        · left; simp [hb]
        · exact fun h => absurd h hlt
      | false =>
        obtain ⟨m2, g1, g2, g3, g4, g5⟩ := alloc_owns h2' (.list (o.entries ++ [m.next]) o.vec.grown)
        obtain ⟨m3, k1, k2, k3, k4, k5⟩ := free_owns (g2.perm (List.Perm.swap _ _ _))
        refine ⟨m3, ⟨⟨some m1.next, o.vec.grown, o.vec.length + 1⟩, o.entries ++ [m.next], o.names ++ [name]⟩, ?_, ?_,
          h3.mono (by sub) |>.trans (g3.mono (by sub)) |>.trans (k3.mono (by sub)), (h4.trans g4).trans k4,
          ⟨?_, ?_, ?_, ?_, ?_, by simp⟩, ⟨_, rfl⟩, rfl, ?_, ?_⟩
        · simp [bind, CAct.bind, h1, NameVec.push, hb, hload, hlt, allocList, hgrown, g1, k1, pure]
        · simpa [Own.footprint] using k2
        · simp [ho.length]
        · exact hnames ((g3.mono (by sub)).trans (k3.mono (by sub)))
        · rintro a' ha
          cases ha
          rw [k3 _ (by simp)]
          exact g5
        · simp
        · simpa using hgrown
        · right
          intro a' ha
          rw [hb] at ha
          cases ha
          exact ⟨k5, Nat.lt_of_lt_of_le (h2'.fresh _ ((h2'.live _).2 (by simp))) (g4.trans k4).next⟩
        · exact fun h => absurd h hlt

theorem push_panic {name : String} (hn : ¬ CanBeName name) (v : NameVec) (inPlace : Bool) (m : Memory) :
    (newName name >>= fun a => v.push a inPlace) m = some (m, .panic "invalid C string") := by
  simp [bind, CAct.bind, newName_panic hn]

theorem clone_owns {m : Memory} {l : List Addr} {o : Own} (h : Owns m l) (ho : o.Shape m) (hl : o.footprint ⊆ l) :
    ∃ (m' : Memory) (o' : Own), o.vec.clone m = some (m', .ok o'.vec) ∧ Owns m' (o'.footprint ++ l) ∧ Agree m m' l ∧ Grows m m' ∧
      o'.Shape m' ∧ o'.names = o.names := by
  cases hb : o.vec.buffer with
  | none =>
    have he : o.entries = [] := by
      by_contra hne
      have := ho.nonempty.2 hne
      simp [hb] at this
    have hnm : o.names = [] := by
      have := ho.names.length_eq
      rw [he] at this
      exact List.length_eq_zero_iff.1 this.symm
    refine ⟨m, Own.empty, ?_, h, .refl _ _, .refl _, Own.shape_empty m, hnm.symm⟩
    simp [NameVec.clone, hb, pure, Own.empty]
  | some a =>
    have hload : loadList a m = some (m, .ok (o.entries, o.vec.capacity)) := by
      simp [loadList, ho.buffer a hb]
    obtain ⟨m1, new, h1, h2, h3, h4, h5⟩ :=
      cloneNames_owns h (fun x hx => hl (by simp [Own.footprint, hx])) ho.names
    obtain ⟨m2, v, g1, g2, g3, g4, g5⟩ := ofEntries_owns h2 h5
    refine ⟨m2, ⟨v, new, o.names⟩, ?_, g2, h3.trans g3, h4.trans g4, g5, rfl⟩
    simp [NameVec.clone, hb, bind, CAct.bind, hload, h1, g1]

theorem drop_owns {m : Memory} {l : List Addr} {o : Own} (h : Owns m (o.footprint ++ l)) (ho : o.Shape m) :
    ∃ m', o.vec.drop m = some (m', .ok ()) ∧ Owns m' l ∧ Agree m m' l ∧ Grows m m' := by
  cases hb : o.vec.buffer with
  | none =>
    have he : o.entries = [] := by
      by_contra hne
      have := ho.nonempty.2 hne
      simp [hb] at this
    refine ⟨m, by simp [NameVec.drop, hb, pure], by simpa [Own.footprint, hb, he] using h, .refl _ _, .refl _⟩
  | some a =>
    have hload : loadList a m = some (m, .ok (o.entries, o.vec.capacity)) := by
      simp [loadList, ho.buffer a hb]
    have hp : (o.footprint ++ l).Perm (o.entries ++ a :: l) := by
      simp only [Own.footprint, hb, Option.toList_some, List.cons_append, List.nil_append]
      exact List.perm_middle.symm
    obtain ⟨m1, h1, h2, h3, h4⟩ := dropNames_owns (h.perm hp) ho.names
    obtain ⟨m2, g1, g2, g3, g4, -⟩ := free_owns h2
    refine ⟨m2, ?_, g2, (h3.mono (by simp)).trans g3, h4.trans g4⟩
    simp [NameVec.drop, hb, bind, CAct.bind, hload, h1, g1]

/-! ### All blocks and labels -/

/-- The names of all blocks and labels. -/
abbrev Ghosts : Type := List (Option (Kind × Own))

/-- All their allocations. -/
def Ghosts.footprint (g : Ghosts) : List Addr := g.flatMap fun o => (o.map fun o => o.2.footprint).getD []

theorem Ghosts.footprint_append (g g' : Ghosts) : Ghosts.footprint (g ++ g') = g.footprint ++ g'.footprint := by
  simp [Ghosts.footprint]

theorem Ghosts.footprint_one (o : Kind × Own) : Ghosts.footprint [some o] = o.2.footprint := by
  simp [Ghosts.footprint]

theorem Ghosts.footprint_set {g : Ghosts} {i : Nat} (hi : i < g.length) (o : Option (Kind × Own)) :
    (Ghosts.footprint (g.set i o)).Perm ((o.map fun o => o.2.footprint).getD [] ++ Ghosts.footprint (g.set i none)) := by
  have h1 : ∀ o, g.set i o = g.take i ++ o :: g.drop (i + 1) := fun o => by rw [List.set_eq_take_append_cons_drop, if_pos hi]
  rw [h1, h1]
  simp only [Ghosts.footprint, List.flatMap_append, List.flatMap_cons]
  simp only [Option.map_none, Option.getD_none, List.nil_append]
  rw [← List.append_assoc, ← List.append_assoc]
  exact List.Perm.append_right _ List.perm_append_comm

theorem Ghosts.footprint_get {g : Ghosts} {i : Nat} {o : Kind × Own} (h : g[i]? = some (some o)) :
    g.footprint.Perm (o.2.footprint ++ Ghosts.footprint (g.set i none)) := by
  obtain ⟨hi, he⟩ := List.getElem?_eq_some_iff.1 h
  have := footprint_set hi (some o)
  rwa [show g.set i (some o) = g from by rw [← he]; exact List.set_getElem_self hi] at this

theorem Ghosts.footprint_mem {g : Ghosts} {i : Nat} {o : Kind × Own} (h : g[i]? = some (some o)) :
    o.2.footprint ⊆ g.footprint := fun _ hx => (footprint_get h).mem_iff.2 (List.mem_append_left _ hx)

/-- What is true after every call. -/
structure Inv (s : State) (content : Content) (g : Ghosts) : Prop where
  owners : s.owners = g.map (Option.map fun o => o.2.vec)
  content : content = g.map (Option.map fun o => (o.1, o.2.names))
  owns : Owns s.memory g.footprint
  shapes : ∀ (i : Nat) (o : Kind × Own), g[i]? = some (some o) → o.2.Shape s.memory

/-- How the names at `i` change in a call. -/
structure Follows (m' : Memory) (o o' : Own) : Prop where
  entries : o.entries <+: o'.entries
  names : o.names <+: o'.names
  buffer : o'.vec.buffer = o.vec.buffer ∨ ∀ a, o.vec.buffer = some a → m'.cells a = none ∧ a < m'.next

theorem Follows.refl (m' : Memory) (o : Own) : Follows m' o o := ⟨List.prefix_rfl, List.prefix_rfl, .inl rfl⟩

theorem Extends.follows {m' : Memory} {o o' : Own} {name : String} (h : Extends m' o o' name) : Follows m' o o' :=
  ⟨h.entries.elim fun _ ha => ha ▸ List.prefix_append _ _, h.names ▸ List.prefix_append _ _, h.buffer⟩

theorem Follows.trans {m m' : Memory} {o o' o'' : Own} (h : Follows m o o') (hm : Grows m m') (h' : Follows m' o' o'') :
    Follows m' o o'' := by
  refine ⟨h.entries.trans h'.entries, h.names.trans h'.names, ?_⟩
  have hdead : ∀ a, (m.cells a = none ∧ a < m.next) → m'.cells a = none ∧ a < m'.next := fun a ha =>
    ⟨hm.dead a ha.2 ha.1, Nat.lt_of_lt_of_le ha.2 hm.next⟩
  cases h.buffer with
  | inr hb => exact .inr fun a ha => hdead a (hb a ha)
  | inl hb =>
    cases h'.buffer with
    | inl hb' => exact .inl (hb'.trans hb)
    | inr hb' => exact .inr fun a ha => hb' a (hb.trans ha)

theorem Inv.append {s : State} {content : Content} {g : Ghosts} {m' : Memory} (h : Inv s content g) (o : Kind × Own)
    (ho : Owns m' (o.2.footprint ++ g.footprint)) (hm : Agree s.memory m' g.footprint) (hs : o.2.Shape m') :
    Inv ⟨m', s.owners ++ [some o.2.vec]⟩ (content ++ [some (o.1, o.2.names)]) (g ++ [some o]) where
  owners := by simp [h.owners]
  content := by simp [h.content]
  owns := by
    rw [Ghosts.footprint_append, Ghosts.footprint_one]
    exact ho.perm List.perm_append_comm
  shapes i o' ho' := by
    by_cases hi : i < g.length
    · rw [List.getElem?_append_left hi] at ho'
      exact (h.shapes i o' ho').agree hm (Ghosts.footprint_mem ho')
    · rw [List.getElem?_append_right (by omega)] at ho'
      have hlt := (List.getElem?_eq_some_iff.1 ho').1
      have : i - g.length = 0 := by simpa using hlt
      rw [this] at ho'
      cases ho'
      exact hs

/-- What an allowed call does. -/
structure Step (s s' : State) (content content' : Content) (g g' : Ghosts) (c : Call) : Prop where
  inv : Inv s' content' g'
  grows : Grows s.memory s'.memory
  same : ∀ (i : Nat) (o : Kind × Own), LeavesAlone i c → g[i]? = some (some o) → g'[i]? = some (some o)
  follows : ∀ (i : Nat) (o : Kind × Own), Keeps i c → g[i]? = some (some o) →
    ∃ o', g'[i]? = some (some (o.1, o')) ∧ Follows s'.memory o.2 o' ∧
      (o'.names.length ≤ o.2.vec.capacity → o'.vec.buffer = o.2.vec.buffer ∧ o'.vec.capacity = o.2.vec.capacity)

theorem Step.unchanged {s : State} {content : Content} {g g' : Ghosts} {c : Call} {s' : State} {content' : Content}
    (hi : Inv s' content' g') (hm : Grows s.memory s'.memory)
    (h : ∀ (i : Nat) (o : Kind × Own), Keeps i c → g[i]? = some (some o) → g'[i]? = some (some o)) :
    Step s s' content content' g g' c :=
  ⟨hi, hm, fun i o hc ho => h i o hc.1 ho, fun i o hc ho => ⟨o.2, h i o hc ho, .refl _ _, fun _ => ⟨rfl, rfl⟩⟩⟩

theorem getElem?_append_some {α : Type} {g g' : List (Option α)} {i : Nat} {o : α} (h : g[i]? = some (some o)) :
    (g ++ g')[i]? = some (some o) := by
  rw [List.getElem?_append_left (List.getElem?_eq_some_iff.1 h).1, h]

theorem Inv.get {s : State} {content : Content} {g : Ghosts} (h : Inv s content g) {i : Nat} {kind : Kind}
    {names : List String} (hc : content[i]? = some (some (kind, names))) :
    ∃ o : Own, g[i]? = some (some (kind, o)) ∧ o.names = names ∧ s.owners[i]? = some (some o.vec) := by
  rw [h.content, List.getElem?_map] at hc
  obtain ⟨o, ho, h1⟩ := Option.map_eq_some_iff.1 hc
  obtain ⟨o', rfl, h2⟩ := Option.map_eq_some_iff.1 h1
  obtain ⟨k, o'⟩ := o'
  simp only [Prod.mk.injEq] at h2
  refine ⟨o', ?_, h2.2, ?_⟩
  · rw [ho, h2.1]
  · rw [h.owners, List.getElem?_map, ho]; rfl

theorem names_isSome {content : Content} {i : Nat} (h : (content.names i).isSome) :
    ∃ kind names, content[i]? = some (some (kind, names)) := by
  unfold Content.names at h
  cases hc : content[i]? with
  | none => simp [hc] at h
  | some o =>
    cases o with
    | none => simp [hc] at h
    | some o => exact ⟨o.1, o.2, rfl⟩

theorem run_step {s : State} {content : Content} {g : Ghosts} (h : Inv s content g) {c : Call}
    (hc : Call.Allowed content c) :
    ∃ s' r g', c.run s = some (s', r) ∧ Step s s' content (content.after c) g g' c := by
  cases c with
  | block =>
    refine ⟨_, _, g ++ [some (.block, Own.empty)], rfl, .unchanged ?_ (.refl _) fun i o _ ho => getElem?_append_some ho⟩
    exact h.append (.block, Own.empty) h.owns (.refl _ _) (Own.shape_empty _)
  | labels names =>
    by_cases hn : ∀ s ∈ names, CanBeName s
    · obtain ⟨m1, new, h1, h2, h3, h4, h5⟩ := newNames_owns names h.owns hn
      obtain ⟨m2, v, g1, g2, g3, g4, g5⟩ := ofEntries_owns h2 h5
      refine ⟨⟨m2, s.owners ++ [some v]⟩, .ok (), g ++ [some (.labels, ⟨v, new, names⟩)], ?_,
        .unchanged ?_ (h4.trans g4) fun i o _ ho => getElem?_append_some ho⟩
      · simp [Call.run, State.step, bind, CAct.bind, h1, g1]
      · have := h.append (.labels, ⟨v, new, names⟩) g2 (h3.trans g3) g5
        rw [show Content.after (.labels names) content = _ from if_pos hn]
        exact this
    · obtain ⟨m1, h1, h2, h3, h4⟩ := newNames_panic names h.owns hn
      refine ⟨⟨m1, s.owners⟩, .panic "invalid C string", g, ?_, .unchanged ⟨h.owners, ?_, h2, fun i o ho => ?_⟩ h4 fun i o _ ho => ho⟩
      · simp [Call.run, State.step, bind, CAct.bind, h1]
      · simp [Content.after, hn, h.content]
      · exact (h.shapes i o ho).agree h3 (Ghosts.footprint_mem ho)
  | add i name inPlace =>
    obtain ⟨names, hc⟩ := hc
    obtain ⟨o, ho, rfl, hv⟩ := h.get hc
    have hlt := (List.getElem?_eq_some_iff.1 ho).1
    by_cases hn : CanBeName name
    · obtain ⟨m', o', h1, h2, h3, h4, h5, h6⟩ :=
        push_owns (h.owns.perm (Ghosts.footprint_get ho)) (h.shapes i _ ho) hn inPlace
      have hset : (g.set i (some (.block, o')))[i]? = some (some (.block, o')) := by simp [hlt]
      refine ⟨⟨m', s.owners.set i (some o'.vec)⟩, .ok (), g.set i (some (.block, o')), ?_, ⟨⟨?_, ?_, ?_, fun j p hp => ?_⟩, h4, fun j p hj hp => ?_, fun j p _ hp => ?_⟩⟩
      · simp only [Call.run, hv, State.step, h1]
      · simp [h.owners, List.map_set]
      · simp only [Content.after, hc, hn, if_true]
        rw [h.content, List.map_set, Option.map_some, h6.names]
      · exact h2.perm (Ghosts.footprint_set hlt (some (.block, o'))).symm
      · by_cases hij : i = j
        · subst hij
          rw [hset] at hp
          cases hp
          exact h5
        · rw [List.getElem?_set_ne hij] at hp
          refine (h.shapes j p hp).agree h3 ?_
          exact Ghosts.footprint_mem (g := g.set i none) (by rw [List.getElem?_set_ne hij]; exact hp)
      · have hij : i ≠ j := fun hij => hj.2 name inPlace (hij ▸ rfl)
        rw [List.getElem?_set_ne hij]
        exact hp
      · by_cases hij : i = j
        · subst hij
          rw [ho] at hp
          cases hp
          refine ⟨o', hset, h6.follows, fun hle => h6.same ?_⟩
          rw [(h.shapes i _ ho).length, (h.shapes i _ ho).names.length_eq]
          rw [h6.names, List.length_append] at hle
          exact hle
        · exact ⟨p.2, by rw [List.getElem?_set_ne hij]; exact hp, .refl _ _, fun _ => ⟨rfl, rfl⟩⟩
    · refine ⟨s, .panic "invalid C string", g, ?_, .unchanged ?_ (.refl _) fun i o _ ho => ho⟩
      · simp only [Call.run, hv, State.step, push_panic hn]
      · simpa [Content.after, hc, hn] using h
  | copy i =>
    obtain ⟨kind, names, hc⟩ := names_isSome hc
    obtain ⟨o, ho, rfl, hv⟩ := h.get hc
    obtain ⟨m', o', h1, h2, h3, h4, h5, h6⟩ := clone_owns h.owns (h.shapes i _ ho) (Ghosts.footprint_mem ho)
    refine ⟨⟨m', s.owners ++ [some o'.vec]⟩, .ok (), g ++ [some (kind, o')], ?_,
      .unchanged ?_ h4 fun i o _ ho => getElem?_append_some ho⟩
    · simp only [Call.run, hv, State.step, h1]
    · have := h.append (kind, o') h2 h3 h5
      simpa [Content.after, hc, h6] using this
  | drop i =>
    obtain ⟨kind, names, hc⟩ := names_isSome hc
    obtain ⟨o, ho, rfl, hv⟩ := h.get hc
    have hlt := (List.getElem?_eq_some_iff.1 ho).1
    obtain ⟨m', h1, h2, h3, h4⟩ := drop_owns (h.owns.perm (Ghosts.footprint_get ho)) (h.shapes i _ ho)
    refine ⟨⟨m', s.owners.set i none⟩, .ok (), g.set i none, ?_, .unchanged ⟨?_, ?_, h2, fun j p hp => ?_⟩ h4 fun j p hj hp => ?_⟩
    · simp only [Call.run, hv, State.step, h1]
    · simp [h.owners, List.map_set]
    · simp only [Content.after, h.content, List.map_set]
      rfl
    · exact (h.shapes j p (by
        by_cases hij : i = j
        · subst hij
          simp [hlt] at hp
        · rwa [List.getElem?_set_ne hij] at hp)).agree h3 (Ghosts.footprint_mem hp)
    · have hij : i ≠ j := fun hij => hj (hij ▸ rfl)
      rw [List.getElem?_set_ne hij]
      exact hp

theorem inv_run {s : State} {content : Content} (h : Run s content) : ∃ g, Inv s content g := by
  induction h with
  | start =>
    exact ⟨[], rfl, rfl, ⟨List.nodup_nil, by simp [State.start, Ghosts.footprint], by simp [State.start]⟩, by simp⟩
  | step _ hc hr ih =>
    obtain ⟨g, hg⟩ := ih
    obtain ⟨s', r, g', h1, h2⟩ := run_step hg hc
    rw [hr] at h1
    cases h1
    exact ⟨g', h2.inv⟩

end NamesMemory
end Equistore
