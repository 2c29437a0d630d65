import Verif.Model.Res
import Mathlib.Data.List.Forall2

/-! Basic lemmas on outcomes. -/

namespace Equistore
namespace Res

variable {α β : Type}

@[simp] theorem pure_eq (a : α) : (pure a : Res α) = .ok a := rfl
@[simp] theorem ok_bind (a : α) (f : α → Res β) : (Res.ok a >>= f) = f a := rfl
@[simp] theorem err_bind (e : Error) (f : α → Res β) : (Res.err e >>= f) = .err e := rfl
@[simp] theorem panic_bind (m : String) (f : α → Res β) : (Res.panic m >>= f) = .panic m := rfl

theorem bind_eq_ok {x : Res α} {f : α → Res β} {b : β} :
    (x >>= f) = .ok b ↔ ∃ a, x = .ok a ∧ f a = .ok b := by
  cases x <;> simp

theorem bind_eq_err {x : Res α} {f : α → Res β} {e : Error} :
    (x >>= f) = .err e ↔ x = .err e ∨ ∃ a, x = .ok a ∧ f a = .err e := by
  cases x <;> simp

theorem bind_eq_panic {x : Res α} {f : α → Res β} {m : String} :
    (x >>= f) = .panic m ↔ x = .panic m ∨ ∃ a, x = .ok a ∧ f a = .panic m := by
  cases x <;> simp

instance : LawfulMonad Res := LawfulMonad.mk'
  (id_map := by intro α x; cases x <;> rfl)
  (pure_bind := by intros; rfl)
  (bind_assoc := by intro α β γ x f g; cases x <;> rfl)

@[simp] theorem assert_eq_ok {c : Bool} {m : String} {u : Unit} :
    Res.assert c m = .ok u ↔ c = true := by
  unfold Res.assert; cases c <;> simp

@[simp] theorem assert_true {m : String} : Res.assert true m = .ok () := rfl

@[simp] theorem assert_eq_err {c : Bool} {m : String} {e : Error} :
    Res.assert c m = .err e ↔ False := by
  unfold Res.assert; cases c <;> simp

@[simp] theorem assert_eq_panic {c : Bool} {m m' : String} :
    Res.assert c m = .panic m' ↔ c = false ∧ m = m' := by
  unfold Res.assert; cases c <;> simp

@[simp] theorem guardErr_eq_ok {c : Bool} {e : Error} {u : Unit} :
    Res.guardErr c e = .ok u ↔ c = true := by
  unfold Res.guardErr; cases c <;> simp

@[simp] theorem guardErr_true {e : Error} : Res.guardErr true e = .ok () := rfl

@[simp] theorem guardErr_eq_panic {c : Bool} {m : String} {e : Error} :
    Res.guardErr c e = .panic m ↔ False := by
  unfold Res.guardErr; cases c <;> simp

@[simp] theorem guardErr_eq_err {c : Bool} {e e' : Error} :
    Res.guardErr c e = .err e' ↔ c = false ∧ e = e' := by
  unfold Res.guardErr; cases c <;> simp

@[simp] theorem expect_eq_ok {x : Option α} {m : String} {a : α} :
    Res.expect x m = .ok a ↔ x = some a := by
  unfold Res.expect; cases x <;> simp

@[simp] theorem expect_some {m : String} {a : α} : Res.expect (some a) m = .ok a := rfl

@[simp] theorem expect_eq_err {x : Option α} {m : String} {e : Error} :
    Res.expect x m = .err e ↔ False := by
  unfold Res.expect; cases x <;> simp

@[simp] theorem expectOk_eq_ok {x : Res α} {m : String} {a : α} :
    Res.expectOk x m = .ok a ↔ x = .ok a := by
  unfold Res.expectOk; cases x <;> simp

@[simp] theorem expectOk_eq_err {x : Res α} {m : String} {e : Error} :
    Res.expectOk x m = .err e ↔ False := by
  unfold Res.expectOk; cases x <;> simp

@[simp] theorem okOr_eq_ok {x : Option α} {e : Error} {a : α} :
    Res.okOr x e = .ok a ↔ x = some a := by
  unfold Res.okOr; cases x <;> simp

@[simp] theorem okOr_eq_panic {x : Option α} {e : Error} {m : String} :
    Res.okOr x e = .panic m ↔ False := by
  unfold Res.okOr; cases x <;> simp

end Res

@[simp] theorem Build.debugAssert_eq_ok {b : Build} {c : Bool} {m : String} {u : Unit} :
    b.debugAssert c m = .ok u ↔ (b.debug = true → c = true) := by
  unfold Build.debugAssert; cases b.debug <;> simp

@[simp] theorem Build.debugAssert_true {b : Build} {m : String} :
    b.debugAssert true m = .ok () := by
  unfold Build.debugAssert; cases b.debug <;> simp

/-- `mapM` succeeds iff it succeeds on every element, in order. -/
theorem mapM_eq_ok {α β : Type} {f : α → Res β} {l : List α} {r : List β} :
    l.mapM f = .ok r ↔ List.Forall₂ (fun a b => f a = .ok b) l r := by
  induction l generalizing r with
  | nil =>
    simp only [List.mapM_nil, Res.pure_eq, Res.ok.injEq, List.forall₂_nil_left_iff]
    exact eq_comm
  | cons a l ih =>
    rw [List.mapM_cons, Res.bind_eq_ok]
    constructor
    · rintro ⟨b, hb, h⟩
      rw [Res.bind_eq_ok] at h
      obtain ⟨bs, hbs, h⟩ := h
      simp only [Res.pure_eq, Res.ok.injEq] at h
      subst h
      exact .cons hb (ih.1 hbs)
    · intro h
      cases h with
      | cons hb hl => exact ⟨_, hb, by rw [Res.bind_eq_ok]; exact ⟨_, ih.2 hl, rfl⟩⟩

end Equistore
