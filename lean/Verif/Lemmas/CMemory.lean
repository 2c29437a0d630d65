import Verif.Model.CMemory

/-!
# C strings and actions on the memory of the caller
-/

namespace Equistore

private theorem ofNat_ne_zero {n : Nat} (h : 0 < n) (h' : n < 256) : (0 : UInt8) ≠ UInt8.ofNat n := by
  intro h0
  have := congrArg UInt8.toNat h0
  simp at this
  omega

/-- A byte of the encoding of a character is 0 only for NUL. -/
theorem zero_mem_utf8EncodeChar {c : Char} (h : (0 : UInt8) ∈ String.utf8EncodeChar c) : c = '\x00' := by
  unfold String.utf8EncodeChar at h
  simp only at h
  split at h
  · rename_i hle
    simp only [List.mem_singleton] at h
    by_cases h0 : c.val.toNat = 0
    · apply Char.ext
      apply UInt32.toNat_inj.1
      rw [h0]
      rfl
    · exact absurd h (ofNat_ne_zero (by omega) (by omega))
  · exfalso
    split at h
    · simp only [List.mem_cons, List.not_mem_nil, or_false] at h
      rcases h with h | h <;> exact ofNat_ne_zero (by omega) (by omega) h
    · split at h
      · simp only [List.mem_cons, List.not_mem_nil, or_false] at h
        rcases h with h | h | h <;> exact ofNat_ne_zero (by omega) (by omega) h
      · simp only [List.mem_cons, List.not_mem_nil, or_false] at h
        rcases h with h | h | h | h <;> exact ofNat_ne_zero (by omega) (by omega) h

theorem utf8Bytes_eq (s : String) : utf8Bytes s = s.toList.flatMap String.utf8EncodeChar := by
  unfold utf8Bytes String.toUTF8
  rw [← String.utf8Encode_toList]
  simp [List.utf8Encode, List.data_toByteArray]

/-- The encoding of a string without NUL contains no byte 0. -/
theorem utf8Bytes_no_zero {s : String} (h : '\x00' ∉ s.toList) : (0 : UInt8) ∉ utf8Bytes s := by
  rw [utf8Bytes_eq]
  intro h0
  obtain ⟨c, hc, h1⟩ := List.mem_flatMap.1 h0
  exact h (zero_mem_utf8EncodeChar h1 ▸ hc)

theorem takeWhile_ne_zero {l rest : Bytes} (h : (0 : UInt8) ∉ l) :
    (l ++ 0 :: rest).takeWhile (· != 0) = l := by
  induction l with
  | nil => simp
  | cons b l ih =>
    simp only [List.mem_cons, not_or] at h
    have hb : (b != 0) = true := by
      simp only [bne_iff_ne, ne_eq]
      exact fun hb => h.1 hb.symm
    simp [hb, ih h.2]

/-- A string written with a NUL after it is read back. -/
theorem cstrStr_append {s : String} (h : '\x00' ∉ s.toList) (rest : Bytes) :
    cstrStr (utf8Bytes s ++ 0 :: rest) = some s := by
  unfold cstrStr cstrBytes
  rw [takeWhile_ne_zero (utf8Bytes_no_zero h)]
  have : (⟨(utf8Bytes s).toArray⟩ : ByteArray) = s.toByteArray := by
    unfold utf8Bytes String.toUTF8
    simp
  rw [this]
  unfold String.fromUTF8?
  have hv := s.isValidUTF8
  simp [hv, String.fromUTF8]

theorem cstrStr_cstring {s : String} (h : '\x00' ∉ s.toList) : cstrStr (cstring s) = some s :=
  cstrStr_append h []

/-- Numbers in messages contain no NUL. -/
theorem toString_nat_no_nul (n : Nat) : '\x00' ∉ (toString n).toList := by
  intro h
  rw [Nat.toString_eq_repr, Nat.repr_eq_ofList_toDigits, String.toList_ofList] at h
  have := Nat.isDigit_of_mem_toDigits (by decide) (by decide) h
  revert this
  decide

namespace CAct
variable {σ α β : Type}

@[simp] theorem pure_apply (a : α) (s : σ) : (pure a : CAct σ α) s = some (s, .ok a) := rfl
@[simp] theorem lift_apply (x : Res α) (s : σ) : (lift x : CAct σ α) s = some (s, x) := rfl
@[simp] theorem get_apply (s : σ) : (get : CAct σ σ) s = some (s, .ok s) := rfl
@[simp] theorem set_apply (s s' : σ) : (set s : CAct σ Unit) s' = some (s, .ok ()) := rfl
@[simp] theorem undefined_apply (s : σ) : (undefined : CAct σ α) s = none := rfl
@[simp] theorem require_some (a : α) (s : σ) : (require (some a) : CAct σ α) s = some (s, .ok a) := rfl
@[simp] theorem require_none (s : σ) : (require (none : Option α) : CAct σ α) s = none := rfl

theorem bind_apply (x : CAct σ α) (f : α → CAct σ β) (s : σ) :
    (x >>= f) s = match x s with
      | none => none
      | some (s', .ok a) => f a s'
      | some (s', .err e) => some (s', .err e)
      | some (s', .panic m) => some (s', .panic m) := rfl

theorem bind_ok {x : CAct σ α} {f : α → CAct σ β} {s s' : σ} {a : α} (h : x s = some (s', .ok a)) :
    (x >>= f) s = f a s' := by
  rw [bind_apply, h]

@[simp] theorem lift_ok_bind (a : α) (f : α → CAct σ β) (s : σ) : (lift (.ok a) >>= f) s = f a s := rfl
@[simp] theorem lift_err_bind (e : Error) (f : α → CAct σ β) (s : σ) :
    (lift (.err e) >>= f) s = some (s, .err e) := rfl
@[simp] theorem lift_panic_bind (m : String) (f : α → CAct σ β) (s : σ) :
    (lift (.panic m) >>= f) s = some (s, .panic m) := rfl
@[simp] theorem pure_bind (a : α) (f : α → CAct σ β) (s : σ) : ((pure a : CAct σ α) >>= f) s = f a s := rfl
@[simp] theorem get_bind (f : σ → CAct σ β) (s : σ) : (get >>= f) s = f s s := rfl
@[simp] theorem set_bind (f : Unit → CAct σ β) (s s' : σ) : (set s >>= f) s' = f () s := rfl
@[simp] theorem require_some_bind (a : α) (f : α → CAct σ β) (s : σ) :
    (require (some a) >>= f) s = f a s := rfl
@[simp] theorem require_none_bind (f : α → CAct σ β) (s : σ) :
    ((require (none : Option α) : CAct σ α) >>= f) s = none := rfl

end CAct

theorem writeAt_some {α : Type} {buffer bytes : List α} {i : Nat} (h : i + bytes.length ≤ buffer.length) :
    writeAt buffer i bytes = some (buffer.take i ++ bytes ++ buffer.drop (i + bytes.length)) := if_pos h

theorem writeAt_length {α : Type} {buffer bytes buffer' : List α} {i : Nat}
    (h : writeAt buffer i bytes = some buffer') : buffer'.length = buffer.length := by
  unfold writeAt at h
  split at h
  · cases h
    simp
    omega
  · cases h

end Equistore
