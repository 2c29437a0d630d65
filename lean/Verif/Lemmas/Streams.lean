import Verif.Lemmas.NpyFiles

/-! # Reading bytes from left to right -/

namespace Equistore

variable {α β : Type}

/-- What is read depends only on the bytes which are used, and all of them are needed. -/
def Streams (p : Bytes → Res (α × Bytes)) : Prop :=
  ∀ bytes a rest, p bytes = .ok (a, rest) → ∃ used, bytes = used ++ rest ∧
    (∀ more, p (used ++ more) = .ok (a, more)) ∧
    ∀ u, u <+: used → u ≠ used → ∃ message, p u = .err (.io message)

theorem streams_readExact (n : Nat) : Streams (readExact n) := by
  intro bytes a rest h
  unfold readExact at h
  split at h
  case isFalse => cases h
  case isTrue hle =>
    simp only [Res.ok.injEq, Prod.mk.injEq] at h
    obtain ⟨rfl, rfl⟩ := h
    have hl : (bytes.take n).length = n := by rw [List.length_take]; omega
    refine ⟨bytes.take n, (List.take_append_drop n bytes).symm, fun more => ?_, fun u hu hne => ?_⟩
    · unfold readExact
      rw [if_pos (by rw [List.length_append, hl]; omega), List.take_append_of_le_length (by omega),
        List.drop_append_of_le_length (by omega), List.take_of_length_le (by omega), List.drop_of_length_le (by omega),
        List.nil_append]
    · have : u.length < n := by
        rw [← hl]
        refine Nat.lt_of_le_of_ne hu.length_le fun he => hne ?_
        exact hu.eq_of_length he
      unfold readExact
      rw [if_neg (by omega)]
      exact ⟨_, rfl⟩

theorem Streams.pure (a : α) : Streams fun bytes => Res.ok (a, bytes) := by
  intro bytes b rest h
  simp only [Res.ok.injEq, Prod.mk.injEq] at h
  obtain ⟨rfl, rfl⟩ := h
  refine ⟨[], rfl, fun _ => rfl, fun u hu hne => absurd (List.prefix_nil.1 hu) hne⟩

theorem prefix_append_cases {u a b : Bytes} (h : u <+: a ++ b) (hne : u ≠ a ++ b) :
    (u <+: a ∧ u ≠ a) ∨ ∃ v, u = a ++ v ∧ v <+: b ∧ v ≠ b := by
  rcases Nat.lt_or_ge u.length a.length with hl | hl
  · left
    refine ⟨List.prefix_of_prefix_length_le h (List.prefix_append a b) (Nat.le_of_lt hl), fun he => ?_⟩
    rw [he] at hl
    omega
  · right
    obtain ⟨v, rfl⟩ := List.prefix_of_prefix_length_le (List.prefix_append a b) h hl
    refine ⟨v, rfl, (List.prefix_append_right_inj a).1 h, fun he => hne (by rw [he])⟩

theorem Streams.bind {p : Bytes → Res (α × Bytes)} {q : α × Bytes → Res (β × Bytes)} (hp : Streams p)
    (hq : ∀ a, Streams fun r => q (a, r)) : Streams fun bytes => p bytes >>= q := by
  intro bytes b rest h
  simp only [Res.bind_eq_ok] at h
  obtain ⟨⟨a, r⟩, h1, h2⟩ := h
  obtain ⟨used, rfl, h3, h4⟩ := hp bytes a r h1
  obtain ⟨used', rfl, h5, h6⟩ := hq a r b rest h2
  refine ⟨used ++ used', (List.append_assoc _ _ _).symm, fun more => ?_, fun u hu hne => ?_⟩
  · simp only [List.append_assoc, h3, Res.ok_bind, h5]
  · rcases prefix_append_cases hu hne with ⟨h7, h8⟩ | ⟨v, rfl, h7, h8⟩
    · obtain ⟨m, hm⟩ := h4 u h7 h8
      exact ⟨m, by simp only [hm, Res.err_bind]⟩
    · obtain ⟨m, hm⟩ := h6 v h7 h8
      exact ⟨m, by simp only [h3, Res.ok_bind, hm]⟩

theorem Streams.after {x : Res α} {q : α → Bytes → Res (β × Bytes)} (hq : ∀ a, x = .ok a → Streams (q a)) :
    Streams fun bytes => x >>= fun a => q a bytes := by
  cases x with
  | ok a => exact hq a rfl
  | err e => intro bytes b rest h; cases h
  | panic m => intro bytes b rest h; cases h

theorem streams_readHeaderLen (v : NpyVersion) : Streams v.readHeaderLen :=
  Streams.bind (streams_readExact _) fun _ => Streams.pure _

theorem streams_fromReader (py : PyLiteral) : Streams (NpyHeader.fromReader py) := by
  unfold NpyHeader.fromReader
  exact Streams.bind (streams_readExact _) fun buf => Streams.after fun _ _ =>
    Streams.bind (streams_readExact _) fun buf => Streams.after fun version _ =>
    Streams.bind (streams_readHeaderLen version) fun n =>
    Streams.bind (streams_readExact n) fun buf => Streams.after fun _ _ =>
    Streams.after fun _ _ => Streams.after fun _ _ => Streams.after fun _ _ => Streams.pure _

/-- Reading a whole entry: something is read, there must be nothing else, and the rest does not depend on the bytes. -/
theorem Streams.whole {p : Bytes → Res (α × Bytes)} (hp : Streams p) {k : α → Res β} {r : Bytes → Res β}
    (hr : ∀ bytes, r bytes = (p bytes >>= fun x => checkForExtraBytes x.2 >>= fun _ => k x.1)) {bytes : Bytes} {b : β}
    (h : r bytes = .ok b) :
    (∀ u, u <+: bytes → u ≠ bytes → ∃ message, r u = .err (.io message)) ∧
    ∀ extra, extra ≠ [] → ∃ message, r (bytes ++ extra) = .err (.serialization message) := by
  rw [hr] at h
  simp only [Res.bind_eq_ok] at h
  obtain ⟨⟨a, rest⟩, h1, _, h2, _⟩ := h
  have hrest : rest = [] := by
    cases rest with
    | nil => rfl
    | cons x l =>
      obtain ⟨m, hm⟩ := checkForExtraBytes_cons (List.cons_ne_nil x l)
      rw [hm] at h2
      cases h2
  subst hrest
  obtain ⟨used, he, h3, h4⟩ := hp bytes a [] h1
  rw [List.append_nil] at he
  subst he
  refine ⟨fun u hu hne => ?_, fun extra hne => ?_⟩
  · obtain ⟨m, hm⟩ := h4 u hu hne
    exact ⟨m, by rw [hr, hm]; rfl⟩
  · obtain ⟨m, hm⟩ := checkForExtraBytes_cons hne
    exact ⟨m, by rw [hr, h3]; simp only [Res.ok_bind, hm, Res.err_bind]⟩

variable {build : Build} {py : PyLiteral}

/-- An entry with labels which can be read can not be cut or continued. -/
theorem readNpyLabels_exact {bytes : Bytes} {l : Labels} (h : readNpyLabels build py bytes = .ok l) :
    (∀ u, u <+: bytes → u ≠ bytes → ∃ message, readNpyLabels build py u = .err (.io message)) ∧
    ∀ extra, extra ≠ [] → ∃ message, readNpyLabels build py (bytes ++ extra) = .err (.serialization message) := by
  refine Streams.whole (α := List String × Endian × Bytes)
    (p := fun bytes => NpyHeader.fromReader py bytes >>= fun x => (do
      Res.guardErr (!x.1.fortranOrder) (.serialization "Labels can not be loaded from fortran-order arrays")
      Res.guardErr (x.1.shape.length == 1) (.serialization "Expected a 1-D array when loading Labels")
      let y ← checkTypeDescriptor x.1.typeDescriptor
      let rows ← Res.expect x.1.shape[0]? "index out of bounds"
      let count ← usizeMul build rows y.1.length
      allocate count 4
      let z ← readExact (4 * count) x.2
      pure ((y.1, y.2, z.1), z.2)))
    (k := fun a => do
      let builder ← LabelsBuilder.new a.1
      let builder ← builder.addAll (chunksExact a.1.length ((decodeAll a.2.1 4 a.2.2).map fun n => Int32.ofNat n))
      builder.finish) ?_ (fun bytes => ?_) h
  · refine Streams.bind (streams_fromReader py) fun header => ?_
    dsimp only
    exact Streams.after fun _ _ => Streams.after fun _ _ => Streams.after fun y _ => Streams.after fun _ _ =>
      Streams.after fun count _ => Streams.after fun _ _ =>
      Streams.bind (streams_readExact (4 * count)) fun bytes => Streams.pure (y.1, y.2, bytes)
  · unfold readNpyLabels
    simp only [bind_assoc, Res.pure_eq, Res.ok_bind]

/-- The elements in `readData`. -/
def readElements (size : Nat) (typeDescriptor : PyValue) (reader : Bytes) : Res (List Elt × Bytes) :=
  match typeDescriptor with
  | .string s =>
    if s = "<f8".toList then
      readExact (8 * size) reader >>= fun x => .ok ((decodeAll .little 8 x.1).map (BitVec.ofNat 64), x.2)
    else if s = ">f8".toList then
      readExact (8 * size) reader >>= fun x => .ok ((decodeAll .big 8 x.1).map (BitVec.ofNat 64), x.2)
    else
      .err (.serialization "unknown type for data array, expected 64-bit floating points")
  | _ => .err (.serialization "unknown type for data array, expected 64-bit floating points")

theorem streams_readElements (size : Nat) (typeDescriptor : PyValue) : Streams (readElements size typeDescriptor) := by
  have hfail : ∀ e : Error, Streams fun _ : Bytes => (Res.err e : Res (List Elt × Bytes)) := by
    intro e bytes b rest h
    cases h
  unfold readElements
  split
  · split
    · exact Streams.bind (streams_readExact _) fun bytes => by dsimp only; exact Streams.pure _
    · split
      · exact Streams.bind (streams_readExact _) fun bytes => by dsimp only; exact Streams.pure _
      · exact hfail _
  · exact hfail _

/-- An entry with data which can be read can not be cut or continued. -/
theorem readData_exact {bytes : Bytes} {a : NdArray} (h : readData build py bytes = .ok a) :
    (∀ u, u <+: bytes → u ≠ bytes → ∃ message, readData build py u = .err (.io message)) ∧
    ∀ extra, extra ≠ [] → ∃ message, readData build py (bytes ++ extra) = .err (.serialization message) := by
  refine Streams.whole (α := List Nat × List Elt)
    (p := fun bytes => NpyHeader.fromReader py bytes >>= fun x =>
      Res.guardErr (!x.1.fortranOrder) (.serialization "data can not be loaded from fortran-order arrays") >>= fun _ =>
      dimensionSize build x.1.shape 1 >>= fun size => allocate size 8 >>= fun _ =>
      readElements size x.1.typeDescriptor x.2 >>= fun z => Res.ok ((x.1.shape, z.1), z.2))
    (k := fun a => Res.expect (fromShapeVec a.1 a.2) "invalid shape") ?_ (fun bytes => ?_) h
  · refine Streams.bind (streams_fromReader py) fun header => ?_
    dsimp only
    exact Streams.after fun _ _ => Streams.after fun size _ => Streams.after fun _ _ =>
      Streams.bind (streams_readElements size _) fun z => Streams.pure (header.shape, z)
  · unfold readData
    simp only [bind_assoc, Res.pure_eq, Res.ok_bind]
    refine bind_congr fun x => bind_congr fun _ => bind_congr fun size => bind_congr fun _ => ?_
    unfold readElements
    generalize x.1.typeDescriptor = d
    cases d with
    | string s =>
      dsimp only
      split
      next h => simp only [bind_assoc, Res.ok_bind]
      next h =>
        split
        next h' => simp only [bind_assoc, Res.ok_bind]
        next h' => rfl
    | _ => rfl

end Equistore
