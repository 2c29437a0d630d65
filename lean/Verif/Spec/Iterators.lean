import Verif.Model.Iterators

/-!
# What it means for an iterator to know how many items are left
-/

namespace Equistore.Spec

variable {σ α : Type}

/-- `Reaches it s k s'`: calling `next` `k` times on the iterator in state `s`,
without a panic, leaves it in state `s'`. -/
inductive Reaches (it : RustIter σ α) : σ → Nat → σ → Prop
  | here (s : σ) : Reaches it s 0 s
  | step {s s' s'' : σ} {k : Nat} {item : Option α} :
      it.next s = (s', .ok item) → Reaches it s' k s'' → Reaches it s (k + 1) s''

/-- `Gives it s items`: a `for` loop over the iterator in state `s` runs for exactly
these items, in this order. -/
inductive Gives (it : RustIter σ α) : σ → List α → Prop
  | done {s s' : σ} : it.next s = (s', .ok none) → Gives it s []
  | item {s s' : σ} {x : α} {items : List α} :
      it.next s = (s', .ok (some x)) → Gives it s' items → Gives it s (x :: items)

/-- The bounds given by `size_hint` are true of this number of items. -/
def HintAllows (hint : Nat × Option Nat) (n : Nat) : Prop :=
  hint.1 ≤ n ∧ ∀ upper, hint.2 = some upper → n ≤ upper

/-- The iterator visits these items, and it knows how many are left at all times:
after `k` calls to `next` it still gives all items except the first `k`, and `len`
is their number. -/
def KnowsItsLength (it : RustIter σ α) (s : σ) (items : List α) : Prop :=
  ∀ k s', Reaches it s k s' →
    Gives it s' (items.drop k) ∧ it.len s' = .ok (items.drop k).length ∧
    HintAllows (it.sizeHint s') (items.drop k).length

end Equistore.Spec
