import Verif.Lemmas.Loaded
import Verif.Spec.Damaged

/-! # Loading files with a damaged entry -/

namespace Equistore
open Spec

variable {build : Build} {py : PyLiteral} {archive archive' : Archive} {f : Failed} {α β : Type}

/-- The same outcome, or this failure. -/
def OrFailed (f : Failed) (r r' : Res α) : Prop := r' = r ∨ r' = f.outcome

theorem Spec.Failed.bind (f : Failed) (k : α → Res β) : ((f.outcome : Res α) >>= k) = f.outcome := by
  cases f <;> rfl

theorem OrFailed.refl (r : Res α) : OrFailed f r r := .inl rfl

theorem OrFailed.bind {r r' : Res α} {k k' : α → Res β} (h : OrFailed f r r') (hk : ∀ a, OrFailed f (k a) (k' a)) :
    OrFailed f (r >>= k) (r' >>= k') := by
  rcases h with rfl | rfl
  · cases r' with
    | ok a => exact hk a
    | err e => exact .inl rfl
    | panic m => exact .inl rfl
  · exact .inr (f.bind _)

theorem OrFailed.mapM {f' g' : α → Res β} (h : ∀ a, OrFailed f (f' a) (g' a)) (l : List α) :
    OrFailed f (l.mapM f') (l.mapM g') := by
  induction l with
  | nil => exact .inl rfl
  | cons a l ih =>
    rw [List.mapM_cons, List.mapM_cons]
    exact (h a).bind fun _ => ih.bind fun _ => .refl _

/-- Whether data is stored for a part. -/
def isDataPart : Part → Bool
  | .values _ .data => true
  | .gradient _ _ .data => true
  | _ => false

/-- Two files with the same entries except for one part, which can not be read in the second file. -/
structure OneDamaged (build : Build) (py : PyLiteral) (archive archive' : Archive) (part : Part) (f : Failed) : Prop where
  same : SameExcept part.name archive archive'
  labels : isDataPart part = false → (archive'.byName part.name >>= readNpyLabels build py) = f.outcome
  data : isDataPart part = true → (archive'.byName part.name >>= readData build py) = f.outcome

variable {part : Part}

theorem OneDamaged.readLabels (h : OneDamaged build py archive archive' part f) (p : Part) (hp : isDataPart p = false)
    {k k' : Labels → Res β} (hk : ∀ l, OrFailed f (k l) (k' l)) :
    OrFailed f (archive.byName p.name >>= fun file => readNpyLabels build py file >>= k)
      (archive'.byName p.name >>= fun file => readNpyLabels build py file >>= k') := by
  rw [← bind_assoc, ← bind_assoc]
  by_cases he : p = part
  · subst he
    rw [h.labels hp]
    exact .inr (f.bind _)
  · rw [h.same p.name (fun hn => he (Part.name_injective hn))]
    exact (OrFailed.refl _).bind hk

theorem OneDamaged.readData (h : OneDamaged build py archive archive' part f) (p : Part) (hp : isDataPart p = true)
    {k k' : NdArray → Res β} (hk : ∀ l, OrFailed f (k l) (k' l)) :
    OrFailed f (archive.byName p.name >>= fun file => Equistore.readData build py file >>= k)
      (archive'.byName p.name >>= fun file => Equistore.readData build py file >>= k') := by
  rw [← bind_assoc, ← bind_assoc]
  by_cases he : p = part
  · subst he
    rw [h.data hp]
    exact .inr (f.bind _)
  · rw [h.same p.name (fun hn => he (Part.name_injective hn))]
    exact (OrFailed.refl _).bind hk

theorem OneDamaged.loadComponents (h : OneDamaged build py archive archive' part f) {path : Nat → String} {p : Nat → Part}
    (hp : ∀ c, path c = (p c).name ∧ isDataPart (p c) = false) (n i : Nat) :
    OrFailed f (Equistore.loadComponents build py archive path n i) (Equistore.loadComponents build py archive' path n i) := by
  induction n generalizing i with
  | zero => exact .refl _
  | succ n ih =>
    unfold Equistore.loadComponents
    rw [(hp i).1]
    exact h.readLabels _ (hp i).2 fun l => (ih (i + 1)).bind fun _ => .refl _

theorem OneDamaged.loadGradients (h : OneDamaged build py archive archive' part f) (i : Nat) (ps : List String)
    (b : TensorBlock NdArray) :
    OrFailed f (Equistore.loadGradients build py archive i ps b) (Equistore.loadGradients build py archive' i ps b) := by
  induction ps generalizing b with
  | nil => exact .refl _
  | cons q ps ih =>
    unfold Equistore.loadGradients
    rw [show gradientPath i q "data" = (Part.gradient i q .data).name from gradientPath_eq i q .data,
      show gradientPath i q "samples" = (Part.gradient i q .samples).name from gradientPath_eq i q .samples]
    refine h.readData _ rfl fun data => h.readLabels _ rfl fun samples => (OrFailed.refl _).bind fun n =>
      (h.loadComponents (p := fun c => .gradient i q (.component c)) (fun c => ⟨componentsPath_gradient i q c, rfl⟩) n 0).bind
      fun components => ?_
    rcases b.addGradient q data samples components with ⟨b', u | e | m⟩
    · exact ih b'
    · exact .refl _
    · exact .refl _

theorem OneDamaged.loadBlock (h : OneDamaged build py archive archive' part f) (ps : List String) (i : Nat) :
    OrFailed f (Equistore.loadBlock build py archive ps i) (Equistore.loadBlock build py archive' ps i) := by
  unfold Equistore.loadBlock
  rw [show valuesPath i "data" = (Part.values i .data).name from valuesPath_eq i .data,
    show valuesPath i "samples" = (Part.values i .samples).name from valuesPath_eq i .samples,
    show valuesPath i "properties" = (Part.values i .properties).name from valuesPath_eq i .properties]
  exact h.readData _ rfl fun data => h.readLabels _ rfl fun samples => (OrFailed.refl _).bind fun n =>
    (h.loadComponents (p := fun c => .values i (.component c)) (fun c => ⟨componentsPath_values i c, rfl⟩) n 0).bind
    fun components => h.readLabels _ rfl fun properties => (OrFailed.refl _).bind fun b => h.loadGradients i ps b

theorem OneDamaged.loadRest (h : OneDamaged build py archive archive' part f) (hash' : HashOrder) (ps : List String) :
    OrFailed f (Equistore.loadRest build py hash' archive ps) (Equistore.loadRest build py hash' archive' ps) := by
  unfold Equistore.loadRest
  exact h.readLabels _ rfl fun keys => (OrFailed.refl _).bind fun count =>
    (OrFailed.mapM (fun i => h.loadBlock ps i) _).bind fun blocks => .refl _

theorem stored_isData {t : TensorMap NdArray} {part : Part} {s : Stored} (h : Part.stored t part = some s) :
    match s with
    | .labels _ => isDataPart part = false
    | .data _ => isDataPart part = true := by
  have key : ∀ (w : What) (b : BasicBlock NdArray), w.stored b = some s →
      match s with
      | .labels _ => w ≠ .data
      | .data _ => w = .data := by
    intro w b hw
    cases w <;> simp [What.stored] at hw
    · subst hw; rfl
    · subst hw; simp
    · obtain ⟨l, -, rfl⟩ := hw; simp
    · subst hw; simp
  cases part with
  | keys =>
    simp only [Part.stored, Option.some.injEq] at h
    subst h
    rfl
  | values i w =>
    simp only [Part.stored, Option.bind_eq_some_iff] at h
    obtain ⟨b, -, h⟩ := h
    have := key w _ h
    cases s with
    | labels l => cases w <;> simp_all [isDataPart]
    | data a => cases w <;> simp_all [isDataPart]
  | gradient i p w =>
    simp only [Part.stored] at h
    split at h
    · cases h
    · simp only [Option.bind_eq_some_iff] at h
      obtain ⟨b, -, h⟩ := h
      have := key w _ h
      cases s with
      | labels l => cases w <;> simp_all [isDataPart]
      | data a => cases w <;> simp_all [isDataPart]

theorem hasEntry_iff {name : String} : HasEntry archive name ↔ ∃ bytes, archive.byName name = .ok bytes := by
  unfold HasEntry Archive.byName
  rw [← List.mem_reverse, ← List.map_reverse]
  cases h : archive.reverse.lookup name with
  | none =>
    refine ⟨fun hm => absurd hm (lookup_eq_none_iff_not_mem.1 h), fun ⟨_, hb⟩ => by cases hb⟩
  | some bytes =>
    have : name ∈ archive.reverse.map Prod.fst :=
      Classical.byContradiction fun hn => by rw [lookup_eq_none_iff_not_mem.2 hn] at h; cases h
    exact ⟨fun _ => ⟨bytes, rfl⟩, fun _ => this⟩

theorem sameContent_stored {t t' : TensorMap NdArray} (h : SameTensor t t') (part : Part) :
    Part.stored t' part = Part.stored t part := by
  have hb : ∀ i : Nat, Option.Rel SameBlock t.blocks[i]? t'.blocks[i]? := by
    intro i
    have := h.blocks
    generalize t.blocks = l at this ⊢
    generalize t'.blocks = l' at this ⊢
    induction this generalizing i with
    | nil => exact .none
    | cons hab _ ih =>
      cases i with
      | zero => exact .some hab
      | succ i => exact ih i
  cases part with
  | keys => simp only [Part.stored, h.keys]
  | values i w =>
    have := hb i
    simp only [Part.stored]
    generalize t.blocks[i]? = x at this ⊢
    generalize t'.blocks[i]? = y at this ⊢
    cases this with
    | none => rfl
    | some h => simp only [Option.bind_some, h.values]
  | gradient i p w =>
    have := hb i
    simp only [Part.stored]
    generalize t.blocks[i]? = x at this ⊢
    generalize t'.blocks[i]? = y at this ⊢
    cases this with
    | none => rfl
    | some h => simp only [Option.bind_some, h.gradients p]

theorem damaged_not_says {name : String} {s : Stored} (h : Damaged build py archive name s f) :
    ¬ Says build py archive name s := by
  intro hs
  cases s with
  | labels l =>
    obtain ⟨bytes, h1, h2⟩ := hs
    unfold Damaged at h
    rw [h1] at h
    change readNpyLabels build py bytes = _ at h
    rw [h2] at h
    cases f <;> cases h
  | data a =>
    obtain ⟨bytes, h1, h2⟩ := hs
    unfold Damaged at h
    rw [h1] at h
    change readData build py bytes = _ at h
    rw [h2] at h
    cases f <;> cases h

end Equistore
