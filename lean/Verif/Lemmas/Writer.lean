import Verif.Model.Files
import Verif.Lemmas.Archive

/-! What `saveTo` leaves in the archive. -/

namespace Equistore
open Spec

/-! ### Sequences of operations -/

theorem Act.bind_def {σ α β : Type} (x : Act σ α) (f : α → Act σ β) (s : σ) :
    (x >>= f) s = match x s with
      | (s', .ok a) => f a s'
      | (s', .err e) => (s', .err e)
      | (s', .panic m) => (s', .panic m) := rfl

theorem Act.bind_assoc {σ α β γ : Type} (x : Act σ α) (f : α → Act σ β) (g : β → Act σ γ) :
    (x >>= f) >>= g = x >>= fun a => f a >>= g := by
  funext s
  simp only [Act.bind_def]
  rcases x s with ⟨s', a | e | m⟩ <;> rfl

theorem Act.pure_bind {σ α β : Type} (a : α) (f : α → Act σ β) : (pure a : Act σ α) >>= f = f a := rfl

namespace ZipWriter

theorem entries_started {w : ZipWriter} {name : String} {left : Option Nat} :
    entries ⟨w.entries, some (name, []), left⟩ = w.entries ++ [(name, [])] := rfl

theorem writeAll_none {bytes content : Bytes} {finished : Archive} {name : String} :
    writeAll bytes ⟨finished, some (name, content), none⟩ = (⟨finished, some (name, content ++ bytes), none⟩, .ok ()) := by
  simp [writeAll, spend]

theorem writeAll_fits {bytes content : Bytes} {finished : Archive} {name : String} {n : Nat} (h : bytes.length ≤ n) :
    writeAll bytes ⟨finished, some (name, content), some n⟩ =
      (⟨finished, some (name, content ++ bytes), some (n - bytes.length)⟩, .ok ()) := by
  simp [writeAll, spend, Nat.min_eq_left h]

theorem writeAll_full {bytes content : Bytes} {finished : Archive} {name : String} {n : Nat} (h : n < bytes.length) :
    writeAll bytes ⟨finished, some (name, content), some n⟩ =
      (⟨finished, some (name, content ++ bytes.take n), some 0⟩, .err diskError) := by
  simp only [writeAll, spend, Nat.min_eq_right (Nat.le_of_lt h), if_pos h]
  rw [Nat.sub_eq_zero_of_le (Nat.le_of_lt h)]

/-- The action writes `bytes` to the current entry and ends with `r`, unless the disk fails. -/
def Emits (P : Act ZipWriter Unit) (bytes : Bytes) (r : Res Unit) : Prop :=
  ∀ w : ZipWriter, w.current.isSome = true → P w = (writeAll bytes >>= fun _ => Act.lift r) w

theorem writeAll_append (a b : Bytes) (w : ZipWriter) (hw : w.current.isSome = true) :
    writeAll (a ++ b) w = (writeAll a >>= fun _ => writeAll b) w := by
  obtain ⟨finished, current, left⟩ := w
  obtain _ | ⟨name, content⟩ := current
  · cases hw
  rw [Act.bind_def]
  cases left with
  | none => rw [writeAll_none, writeAll_none]; simp only [writeAll_none, List.append_assoc]
  | some n =>
    by_cases ha : a.length ≤ n
    · rw [writeAll_fits ha]
      simp only
      by_cases hb : b.length ≤ n - a.length
      · rw [writeAll_fits hb, writeAll_fits (by rw [List.length_append]; omega), List.length_append, List.append_assoc,
          Nat.sub_add_eq]
      · rw [writeAll_full (bytes := a ++ b) (by rw [List.length_append]; omega), writeAll_full (by omega), List.append_assoc,
          List.take_append, List.take_of_length_le ha]
    · rw [writeAll_full (bytes := a ++ b) (by rw [List.length_append]; omega), writeAll_full (by omega), List.take_append_of_le_length (by omega)]

theorem writeAll_current (bytes : Bytes) (w : ZipWriter) (hw : w.current.isSome = true) :
    (writeAll bytes w).1.current.isSome = true := by
  obtain ⟨finished, current, left⟩ := w
  obtain _ | ⟨name, content⟩ := current
  · cases hw
  cases left with
  | none => rw [writeAll_none]; rfl
  | some n =>
    by_cases h : bytes.length ≤ n
    · rw [writeAll_fits h]; rfl
    · rw [writeAll_full (by omega)]; rfl

theorem writeAll_nil (w : ZipWriter) (hw : w.current.isSome = true) : writeAll [] w = (w, .ok ()) := by
  obtain ⟨finished, current, left⟩ := w
  obtain _ | ⟨name, content⟩ := current
  · cases hw
  cases left with
  | none => rw [writeAll_none, List.append_nil]
  | some n => rw [writeAll_fits (Nat.zero_le _), List.append_nil]; rfl

theorem Emits.lift {α : Type} {x : Res α} {f : α → Act ZipWriter Unit} {bytes : Bytes} {r : Res Unit} {a : α} (hx : x = .ok a)
    (h : Emits (f a) bytes r) : Emits (Act.lift x >>= f) bytes r := by
  intro w hw
  rw [← h w hw, hx]
  rfl

theorem Emits.err {α : Type} {x : Res α} {f : α → Act ZipWriter Unit} {e : Error} (hx : x = .err e) :
    Emits (Act.lift x >>= f) [] (.err e) := by
  intro w hw
  rw [hx, Act.bind_def, Act.bind_def, writeAll_nil w hw]
  rfl

theorem Emits.panic {α : Type} {x : Res α} {f : α → Act ZipWriter Unit} {m : String} (hx : x = .panic m) :
    Emits (Act.lift x >>= f) [] (.panic m) := by
  intro w hw
  rw [hx, Act.bind_def, Act.bind_def, writeAll_nil w hw]
  rfl

theorem Emits.write {P : Act ZipWriter Unit} {a b : Bytes} {r : Res Unit} (h : Emits P b r) :
    Emits (writeAll a >>= fun _ => P) (a ++ b) r := by
  intro w hw
  rw [Act.bind_def, Act.bind_def, writeAll_append a b w hw, Act.bind_def]
  have hc := writeAll_current a w hw
  rcases h1 : writeAll a w with ⟨w', u | e | m⟩
  · rw [h1] at hc
    simp only
    rw [h w' hc]
    rfl
  · rfl
  · rfl

theorem Emits.writeAll (a : Bytes) : Emits (ZipWriter.writeAll a) a (.ok ()) := by
  intro w hw
  rw [Act.bind_def]
  rcases ZipWriter.writeAll a w with ⟨w', u | e | m⟩ <;> rfl

end ZipWriter

/-! ### Labels and data -/

open ZipWriter in
theorem writeNpyLabelsTo_emits (build : Build) (py : PyLiteral) (native : Endian) (l : Labels) :
    (∀ bytes, writeNpyLabels build py native l = .ok bytes → Emits (writeNpyLabelsTo build py native l) bytes (.ok ())) ∧
    ((∀ bytes, writeNpyLabels build py native l ≠ .ok bytes) →
      ∃ bytes r, r ≠ .ok () ∧ Emits (writeNpyLabelsTo build py native l) bytes r ∧
        ((∃ entries, l.iter = .ok entries) → bytes = [])) := by
  unfold writeNpyLabels writeNpyLabelsTo
  cases h1 : Res.expect (py.parse (labelsDescriptor native l.names)) "invalid dtype" with
  | err e =>
    exact ⟨fun _ h => by simp [Res.err_bind] at h, fun _ => ⟨[], _, by simp, .err rfl, fun _ => rfl⟩⟩
  | panic m =>
    exact ⟨fun _ h => by simp [Res.panic_bind] at h, fun _ => ⟨[], _, by simp, .panic rfl, fun _ => rfl⟩⟩
  | ok d =>
    simp only [Res.ok_bind]
    cases h2 : l.count with
    | err e =>
      exact ⟨fun _ h => by simp [Res.err_bind] at h, fun _ => ⟨[], _, by simp, .lift rfl (.err rfl), fun _ => rfl⟩⟩
    | panic m =>
      exact ⟨fun _ h => by simp [Res.panic_bind] at h, fun _ => ⟨[], _, by simp, .lift rfl (.panic rfl), fun _ => rfl⟩⟩
    | ok n =>
      simp only [Res.ok_bind]
      cases h3 : NpyHeader.toBytes build py { typeDescriptor := d, fortranOrder := false, shape := [n] } with
      | err e =>
        exact ⟨fun _ h => by simp [Res.err_bind] at h, fun _ => ⟨[], _, by simp, .lift rfl (.lift rfl (.err h3)), fun _ => rfl⟩⟩
      | panic m =>
        exact ⟨fun _ h => by simp [Res.panic_bind] at h,
          fun _ => ⟨[], _, by simp, .lift rfl (.lift rfl (.panic h3)), fun _ => rfl⟩⟩
      | ok header =>
        simp only [Res.ok_bind]
        cases h4 : l.iter with
        | err e =>
          exact ⟨fun _ h => by simp [Res.err_bind] at h, fun _ => ⟨_, _, by simp,
            .lift rfl (.lift rfl (.lift h3 (.write (.err rfl)))), fun ⟨_, h⟩ => by cases h⟩⟩
        | panic m =>
          exact ⟨fun _ h => by simp [Res.panic_bind] at h, fun _ => ⟨_, _, by simp,
            .lift rfl (.lift rfl (.lift h3 (.write (.panic rfl)))), fun ⟨_, h⟩ => by cases h⟩⟩
        | ok entries =>
          refine ⟨fun bytes h => ?_, fun h => absurd rfl (h _)⟩
          simp only [Res.ok_bind, Res.pure_eq, Res.ok.injEq] at h
          subst h
          exact .lift rfl (.lift rfl (.lift h3 (.write (.lift rfl (.writeAll _)))))

variable {A : Type} [ArrayLike A]

open ZipWriter in
theorem writeDataTo_emits (build : Build) (py : PyLiteral) (native : Endian) (a : A) :
    (∀ bytes, writeData build py native a = .ok bytes → Emits (writeDataTo build py native a) bytes (.ok ())) ∧
    ((∀ bytes, writeData build py native a ≠ .ok bytes) →
      ∃ bytes r, r ≠ .ok () ∧ Emits (writeDataTo build py native a) bytes r) := by
  unfold writeData writeDataTo
  cases h1 : Res.expect (py.parse ("'".toList ++ native.f8.toList ++ "'".toList)) "invalid dtype" with
  | err e =>
    exact ⟨fun _ h => by simp [Res.err_bind] at h, fun _ => ⟨[], _, by simp, .err rfl⟩⟩
  | panic m =>
    exact ⟨fun _ h => by simp [Res.panic_bind] at h, fun _ => ⟨[], _, by simp, .panic rfl⟩⟩
  | ok d =>
    simp only [Res.ok_bind]
    cases h2 : ArrayLike.shape a with
    | err e =>
      exact ⟨fun _ h => by simp [Res.err_bind] at h, fun _ => ⟨[], _, by simp, .lift rfl (.err rfl)⟩⟩
    | panic m =>
      exact ⟨fun _ h => by simp [Res.panic_bind] at h, fun _ => ⟨[], _, by simp, .lift rfl (.panic rfl)⟩⟩
    | ok shape =>
      simp only [Res.ok_bind]
      cases h3 : NpyHeader.toBytes build py { typeDescriptor := d, fortranOrder := false, shape := shape } with
      | err e =>
        exact ⟨fun _ h => by simp [Res.err_bind] at h, fun _ => ⟨[], _, by simp, .lift rfl (.lift rfl (.err h3))⟩⟩
      | panic m =>
        exact ⟨fun _ h => by simp [Res.panic_bind] at h, fun _ => ⟨[], _, by simp, .lift rfl (.lift rfl (.panic h3))⟩⟩
      | ok header =>
        simp only [Res.ok_bind]
        cases h4 : ArrayLike.data a with
        | err e =>
          exact ⟨fun _ h => by simp [Res.err_bind] at h,
            fun _ => ⟨_, _, by simp, .lift rfl (.lift rfl (.lift h3 (.write (.err rfl))))⟩⟩
        | panic m =>
          exact ⟨fun _ h => by simp [Res.panic_bind] at h,
            fun _ => ⟨_, _, by simp, .lift rfl (.lift rfl (.lift h3 (.write (.panic rfl))))⟩⟩
        | ok data =>
          refine ⟨fun bytes h => ?_, fun h => absurd rfl (h _)⟩
          simp only [Res.ok_bind, Res.pure_eq, Res.ok.injEq] at h
          subst h
          exact .lift rfl (.lift rfl (.lift h3 (.write (.lift rfl (.writeAll _)))))

/-! ### Parts -/

/-- What is written to an entry. -/
inductive SaveSource (A : Type) where
  | labels (l : Labels)
  | data (a : A)

/-- The bytes to write. -/
def SaveSource.write (build : Build) (py : PyLiteral) (native : Endian) : SaveSource A → Res Bytes
  | .labels l => writeNpyLabels build py native l
  | .data a => writeData build py native a

/-- Write to the current entry. -/
def SaveSource.writeTo (build : Build) (py : PyLiteral) (native : Endian) : SaveSource A → Act ZipWriter Unit
  | .labels l => writeNpyLabelsTo build py native l
  | .data a => writeDataTo build py native a

/-- The parts of components. -/
def componentParts (part : Nat → Part) (components : List Labels) (i : Nat) : List (Part × SaveSource A) :=
  (components.zipIdx i).map fun c => (part c.2, .labels c.1)

/-- The parts of a gradient. -/
def gradientParts (i : Nat) (gradient : String × BasicBlock A) : List (Part × SaveSource A) :=
  [(.gradient i gradient.1 .data, .data gradient.2.data),
   (.gradient i gradient.1 .samples, .labels gradient.2.samples)] ++
  componentParts (fun c => .gradient i gradient.1 (.component c)) gradient.2.components 0

/-- The parts of a block. -/
def blockParts (hash : HashOrder) (block : TensorBlock A × Nat) : List (Part × SaveSource A) :=
  [(.values block.2 .data, .data block.1.values.data),
   (.values block.2 .samples, .labels block.1.values.samples)] ++
  componentParts (fun c => .values block.2 (.component c)) block.1.values.components 0 ++
  [(.values block.2 .properties, .labels block.1.values.properties)] ++
  (hash.order block.1.gradients).flatMap (gradientParts block.2)

/-- The parts of a tensor map. -/
def tensorParts (hash : HashOrder) (t : TensorMap A) : List (Part × SaveSource A) :=
  (.keys, .labels t.keys) :: (t.blocks.zipIdx).flatMap (blockParts hash)

variable {build : Build} {py : PyLiteral} {native : Endian} {hash : HashOrder}

theorem componentItems_parts (part : Nat → Part) (components : List Labels) (i : Nat) :
    componentItems build py native part components i =
      (componentParts part components i : List (Part × SaveSource A)).map fun x => (x.1, x.2.write build py native) := by
  unfold componentItems componentParts
  rw [List.map_map]
  rfl

theorem gradientItems_parts (i : Nat) (g : String × BasicBlock A) :
    gradientItems build py native i g = (gradientParts i g).map fun x => (x.1, x.2.write build py native) := by
  unfold gradientItems gradientParts
  rw [List.map_append, ← componentItems_parts]
  rfl

theorem blockItems_parts (b : TensorBlock A × Nat) :
    blockItems build py native hash b = (blockParts hash b).map fun x => (x.1, x.2.write build py native) := by
  unfold blockItems blockParts
  rw [List.map_append, List.map_append, List.map_append, ← componentItems_parts, List.map_flatMap]
  simp only [← gradientItems_parts]
  rfl

theorem tensorItems_parts (t : TensorMap A) :
    tensorItems build py native hash t = (tensorParts hash t).map fun x => (x.1, x.2.write build py native) := by
  unfold tensorItems tensorParts
  rw [List.map_cons, List.map_flatMap]
  simp only [← blockItems_parts]
  rfl

/-- Write the given parts. -/
def writeParts (build : Build) (py : PyLiteral) (native : Endian) : List (Part × SaveSource A) → Act ZipWriter Unit
  | [] => pure ()
  | (part, source) :: parts => do
    ZipWriter.startFile part.name
    source.writeTo build py native
    writeParts build py native parts

theorem writeParts_append (a b : List (Part × SaveSource A)) :
    writeParts build py native (a ++ b) = (writeParts build py native a >>= fun _ => writeParts build py native b) := by
  induction a with
  | nil => rfl
  | cons x a ih =>
    rw [List.cons_append, writeParts, writeParts, ih]
    simp only [Act.bind_assoc]

theorem saveComponentsTo_eq {path : Nat → String} {part : Nat → Part} (hp : ∀ i, path i = (part i).name)
    (components : List Labels) (i : Nat) :
    saveComponentsTo build py native path components i =
      writeParts build py native (componentParts part components i : List (Part × SaveSource A)) := by
  induction components generalizing i with
  | nil => rfl
  | cons c components ih =>
    unfold saveComponentsTo
    rw [ih, show (componentParts part (c :: components) i : List (Part × SaveSource A)) =
      (part i, .labels c) :: componentParts part components (i + 1) from by simp [componentParts, List.zipIdx_cons],
      writeParts, hp]
    rfl

theorem saveGradientsTo_eq (i : Nat) (gradients : List (String × BasicBlock A)) :
    saveGradientsTo build py native i gradients =
      writeParts build py native (gradients.flatMap (gradientParts i)) := by
  induction gradients with
  | nil => rfl
  | cons g gradients ih =>
    obtain ⟨p, g⟩ := g
    unfold saveGradientsTo
    rw [ih, saveComponentsTo_eq (A := A) (componentsPath_gradient i p), List.flatMap_cons, gradientParts]
    rw [show gradientPath i p "data" = (Part.gradient i p .data).name from gradientPath_eq i p .data,
      show gradientPath i p "samples" = (Part.gradient i p .samples).name from gradientPath_eq i p .samples]
    rw [writeParts_append, List.cons_append, List.cons_append, List.nil_append, writeParts, writeParts]
    simp only [Act.bind_assoc]
    rfl

theorem saveBlocksTo_eq (blocks : List (TensorBlock A)) (i : Nat) :
    saveBlocksTo build py native hash blocks i =
      writeParts build py native ((blocks.zipIdx i).flatMap (blockParts hash)) := by
  induction blocks generalizing i with
  | nil => rfl
  | cons b blocks ih =>
    unfold saveBlocksTo
    rw [ih, saveComponentsTo_eq (A := A) (componentsPath_values i), saveGradientsTo_eq, List.zipIdx_cons,
      List.flatMap_cons, blockParts]
    rw [show valuesPath i "data" = (Part.values i .data).name from valuesPath_eq i .data,
      show valuesPath i "samples" = (Part.values i .samples).name from valuesPath_eq i .samples,
      show valuesPath i "properties" = (Part.values i .properties).name from valuesPath_eq i .properties]
    simp only [writeParts_append, List.cons_append, List.nil_append, writeParts, Act.bind_assoc, Act.pure_bind]
    rfl

theorem saveTo_eq (t : TensorMap A) :
    saveTo build py native hash t = (writeParts build py native (tensorParts hash t) >>= fun _ => ZipWriter.finish) := by
  unfold saveTo
  rw [saveBlocksTo_eq, tensorParts, writeParts]
  simp only [Act.bind_assoc]
  rfl

/-! ### Outcomes -/

/-- The entries of parts which can be written. -/
def Written (build : Build) (py : PyLiteral) (native : Endian) (parts : List (Part × SaveSource A)) (archive : Archive) : Prop :=
  List.Forall₂ (fun x entry => ∃ bytes, x.2.write build py native = .ok bytes ∧ entry = (x.1.name, bytes)) parts archive

/-- What can be in the entry of a part after a failure while it was written. -/
def Incomplete (build : Build) (py : PyLiteral) (native : Endian) (source : SaveSource A) (content : Bytes) : Prop :=
  (∀ bytes, source.write build py native = .ok bytes → content <+: bytes ∧ content ≠ bytes) ∧
  (∀ l entries, source = .labels l → l.iter = .ok entries → (∀ bytes, source.write build py native ≠ .ok bytes) →
    content = [])

theorem source_emits (source : SaveSource A) :
    (∀ bytes, source.write build py native = .ok bytes → ZipWriter.Emits (source.writeTo build py native) bytes (.ok ())) ∧
    ((∀ bytes, source.write build py native ≠ .ok bytes) →
      ∃ bytes r, r ≠ .ok () ∧ ZipWriter.Emits (source.writeTo build py native) bytes r ∧
        ∀ l entries, source = .labels l → l.iter = .ok entries → bytes = []) := by
  cases source with
  | labels l =>
    refine ⟨(writeNpyLabelsTo_emits build py native l).1, fun h => ?_⟩
    obtain ⟨bytes, r, h1, h2, h3⟩ := (writeNpyLabelsTo_emits build py native l).2 h
    refine ⟨bytes, r, h1, h2, fun l' entries he hi => h3 ⟨entries, ?_⟩⟩
    cases he
    exact hi
  | data a =>
    refine ⟨(writeDataTo_emits build py native a).1, fun h => ?_⟩
    obtain ⟨bytes, r, h1, h2⟩ := (writeDataTo_emits build py native a).2 h
    exact ⟨bytes, r, h1, h2, fun l entries he => by cases he⟩

/-- Writing one part. -/
theorem writeTo_result (source : SaveSource A) {finished : Archive} {name : String} {left : Option Nat} {w' : ZipWriter}
    {r : Res Unit} (h : source.writeTo build py native ⟨finished, some (name, []), left⟩ = (w', r)) :
    (r = .ok () ∧ ∃ bytes, source.write build py native = .ok bytes ∧ w'.finished = finished ∧
      w'.current = some (name, bytes) ∧ (left = none → w'.left = none)) ∨
    (r ≠ .ok () ∧ ∃ content, Incomplete build py native source content ∧ w'.finished = finished ∧
      w'.current = some (name, content) ∧ (left = none → w'.left = none) ∧
      (w'.left = some 0 ∨ ∀ bytes, source.write build py native ≠ .ok bytes)) := by
  by_cases hok : ∃ bytes, source.write build py native = .ok bytes
  · obtain ⟨bytes, hb⟩ := hok
    rw [(source_emits source).1 bytes hb _ rfl, Act.bind_def] at h
    cases left with
    | none =>
      rw [ZipWriter.writeAll_none] at h
      cases h
      exact .inl ⟨rfl, bytes, hb, rfl, rfl, fun _ => rfl⟩
    | some n =>
      by_cases hn : bytes.length ≤ n
      · rw [ZipWriter.writeAll_fits hn] at h
        cases h
        exact .inl ⟨rfl, bytes, hb, rfl, rfl, fun h => by cases h⟩
      · rw [ZipWriter.writeAll_full (by omega)] at h
        cases h
        refine .inr ⟨by simp, bytes.take n, ⟨fun b hb' => ?_, fun l _ _ _ hne => absurd hb (hne _)⟩, rfl, rfl,
          fun h => (by cases h), .inl rfl⟩
        rw [hb, Res.ok.injEq] at hb'
        subst hb'
        refine ⟨List.take_prefix _ _, fun he => ?_⟩
        have := congrArg List.length he
        rw [List.length_take] at this
        omega
  · have hne : ∀ bytes, source.write build py native ≠ .ok bytes := fun b hb => hok ⟨b, hb⟩
    obtain ⟨bytes, r', hr, he, hl⟩ := (source_emits source).2 hne
    rw [he _ rfl, Act.bind_def] at h
    have hinc : ∀ content, content <+: bytes → Incomplete build py native source content := by
      intro content hc
      refine ⟨fun b hb => absurd hb (hne b), fun l entries h1 h2 _ => ?_⟩
      rw [hl l entries h1 h2] at hc
      exact List.prefix_nil.1 hc
    cases left with
    | none =>
      rw [ZipWriter.writeAll_none] at h
      cases h
      exact .inr ⟨hr, bytes, hinc _ (List.prefix_refl _), rfl, rfl, fun _ => rfl, .inr hne⟩
    | some n =>
      by_cases hn : bytes.length ≤ n
      · rw [ZipWriter.writeAll_fits hn] at h
        cases h
        exact .inr ⟨hr, bytes, hinc _ (List.prefix_refl _), rfl, rfl, fun h => (by cases h), .inr hne⟩
      · rw [ZipWriter.writeAll_full (by omega)] at h
        cases h
        exact .inr ⟨by simp, bytes.take n, hinc _ (List.take_prefix _ _), rfl, rfl, fun h => (by cases h), .inl rfl⟩

/-- What is in the archive after writing parts. -/
theorem writeParts_result {parts : List (Part × SaveSource A)} {w w' : ZipWriter} {r : Res Unit}
    (h : writeParts build py native parts w = (w', r)) :
    (w.left = none → w'.left = none) ∧
    ((r = .ok () ∧ ∃ archive, Written build py native parts archive ∧ w'.entries = w.entries ++ archive) ∨
     (r ≠ .ok () ∧ ∃ before part source after archive, parts = before ++ (part, source) :: after ∧
      Written build py native before archive ∧
      ((w'.entries = w.entries ++ archive ∧ w'.left = some 0) ∨
       ∃ content, Incomplete build py native source content ∧
        w'.entries = w.entries ++ archive ++ [(part.name, content)] ∧
        (w'.left = some 0 ∨ ∀ bytes, source.write build py native ≠ .ok bytes)))) := by
  induction parts generalizing w with
  | nil =>
    cases h
    exact ⟨id, .inl ⟨rfl, [], .nil, by rw [List.append_nil]⟩⟩
  | cons x parts ih =>
    obtain ⟨part, source⟩ := x
    rw [writeParts, Act.bind_def] at h
    unfold ZipWriter.startFile at h
    by_cases hl : w.left = some 0
    · rw [if_pos hl] at h
      cases h
      exact ⟨id,
        .inr ⟨by simp, [], part, source, parts, [], rfl, .nil, .inl ⟨by rw [List.append_nil], hl⟩⟩⟩
    · rw [if_neg hl] at h
      simp only [Act.bind_def] at h
      rcases h1 : source.writeTo build py native ⟨w.entries, some (part.name, []), w.left.map (· - 1)⟩ with ⟨w1, r1⟩
      rw [h1] at h
      have hleft : w.left = none → w.left.map (· - 1) = none := fun h => by rw [h]; rfl
      rcases writeTo_result source h1 with ⟨hr, bytes, hb, hf, hc, hn⟩ | ⟨hr, content, hi, hf, hc, hn, ho⟩
      · subst hr
        simp only at h
        have he : w1.entries = w.entries ++ [(part.name, bytes)] := by
          unfold ZipWriter.entries at *
          rw [hf, hc]
          rfl
        obtain ⟨hn', ih⟩ := ih h
        refine ⟨fun h => hn' (hn (hleft h)), ?_⟩
        rcases ih with ⟨hr, archive, hw, hent⟩ | ⟨hr, before, part', source', after, archive, hp, hw, hent⟩
        · refine .inl ⟨hr, (part.name, bytes) :: archive, .cons ⟨bytes, hb, rfl⟩ hw, ?_⟩
          rw [hent, he, List.append_assoc]
          rfl
        · refine .inr ⟨hr, (part, source) :: before, part', source', after, (part.name, bytes) :: archive, by rw [hp]; rfl,
            .cons ⟨bytes, hb, rfl⟩ hw, ?_⟩
          rw [he] at hent
          simpa [List.append_assoc] using hent
      · refine ⟨?_, .inr ⟨?_, [], part, source, parts, [], rfl, .nil, .inr ⟨content, hi, ?_, ?_⟩⟩⟩
        · intro hnone
          cases r1 with
          | ok u => exact absurd rfl hr
          | err e => cases h; exact hn (hleft hnone)
          | panic m => cases h; exact hn (hleft hnone)
        · cases r1 with
          | ok u => exact absurd rfl hr
          | err e => cases h; simp
          | panic m => cases h; simp
        · have he : w1.entries = w.entries ++ [(part.name, content)] := by
            unfold ZipWriter.entries at *
            rw [hf, hc]
            rfl
          cases r1 with
          | ok u => exact absurd rfl hr
          | err e => cases h; rw [he, List.append_nil]
          | panic m => cases h; rw [he, List.append_nil]
        · cases r1 with
          | ok u => exact absurd rfl hr
          | err e => cases h; exact ho
          | panic m => cases h; exact ho

end Equistore
