import Verif.Model.Act
import Verif.Lemmas.Res

namespace Equistore
namespace Act
variable {σ τ α β : Type}

theorem bind_apply (x : Act σ α) (f : α → Act σ β) (s : σ) :
    (x >>= f) s = match x s with
      | (s', .ok a) => f a s'
      | (s', .err e) => (s', .err e)
      | (s', .panic m) => (s', .panic m) := rfl

@[simp] theorem pure_apply (a : α) (s : σ) : (pure a : Act σ α) s = (s, .ok a) := rfl
@[simp] theorem lift_apply (x : Res α) (s : σ) : (lift x : Act σ α) s = (s, x) := rfl
@[simp] theorem get_apply (s : σ) : (get : Act σ σ) s = (s, .ok s) := rfl
@[simp] theorem set_apply (s s' : σ) : (set s' : Act σ Unit) s = (s', .ok ()) := rfl

@[simp] theorem get_bind (f : σ → Act σ β) (s : σ) : (get >>= f) s = f s s := rfl
@[simp] theorem set_bind (t : σ) (f : Unit → Act σ β) (s : σ) : (set t >>= f) s = f () t := rfl
@[simp] theorem pure_bind' (a : α) (f : α → Act σ β) (s : σ) : (pure a >>= f) s = f a s := rfl

theorem lift_bind (x : Res α) (f : α → Act σ β) (s : σ) :
    (lift x >>= f) s = match x with
      | .ok a => f a s
      | .err e => (s, .err e)
      | .panic m => (s, .panic m) := by
  cases x <;> rfl

theorem focus_apply (r : σ → τ) (w : τ → σ → σ) (x : Act τ α) (s : σ) :
    focus r w x s = (w (x (r s)).1 s, (x (r s)).2) := rfl

theorem bind_eq_ok {x : Act σ α} {f : α → Act σ β} {s s'' : σ} {b : β} :
    (x >>= f) s = (s'', .ok b) ↔ ∃ s' a, x s = (s', .ok a) ∧ f a s' = (s'', .ok b) := by
  rw [bind_apply]
  rcases x s with ⟨s', a | e | m⟩ <;> simp

theorem bind_ok_of {x : Act σ α} {f : α → Act σ β} {s s' : σ} {a : α} (h : x s = (s', .ok a)) :
    (x >>= f) s = f a s' := by
  rw [bind_apply, h]

end Act
end Equistore
