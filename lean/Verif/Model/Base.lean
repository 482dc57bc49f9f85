/-!
# Base definitions shared by every model module

Outcomes of Go functions, byte slices, and Go's bounds-checked accesses.
-/

namespace Verif

/-- A Go `[]byte` that the modelled code only reads (or whose new value it returns). -/
abbrev Bytes := List UInt8

/-- Outcome of a Go function that returns `(value, error)`: a value, an error, or a run-time panic
(index out of range, nil dereference, integer divide by zero, negative `make`). -/
inductive Res (α : Type _) where
  | ok (a : α)
  | err (e : String)
  | panic
  deriving Repr, DecidableEq

namespace Res

/-- Sequencing: `if err != nil { return err }`, and panics propagate. -/
@[inline] def bind {α β} (x : Res α) (f : α → Res β) : Res β :=
  match x with
  | ok a => f a
  | err e => err e
  | panic => panic

instance : Monad Res where
  pure := ok
  bind := bind

@[simp] theorem bind_ok {α β} (a : α) (f : α → Res β) : (ok a >>= f) = f a := rfl
@[simp] theorem bind_err {α β} (e : String) (f : α → Res β) : (err e >>= f) = err e := rfl
@[simp] theorem bind_panic {α β} (f : α → Res β) : ((panic : Res α) >>= f) = panic := rfl
@[simp] theorem pure_eq {α} (a : α) : (pure a : Res α) = ok a := rfl
@[simp] theorem map_ok {α β} (f : α → β) (a : α) : (f <$> (ok a : Res α)) = ok (f a) := rfl
@[simp] theorem map_err {α β} (f : α → β) (e : String) : (f <$> (err e : Res α)) = err e := rfl
@[simp] theorem map_panic {α β} (f : α → β) : (f <$> (panic : Res α)) = panic := rfl

instance : LawfulMonad Res := LawfulMonad.mk'
  (id_map := by intro α x; cases x <;> rfl)
  (pure_bind := by intros; rfl)
  (bind_assoc := by intro α β γ x f g; cases x <;> rfl)

/-- The call returns (a value or an error) instead of panicking. -/
def NoPanic {α} (x : Res α) : Prop := x ≠ panic

/-- The call succeeds. -/
def isOk {α} : Res α → Bool
  | ok _ => true
  | _ => false

theorem bind_eq_ok {α β} {x : Res α} {f : α → Res β} {b : β} :
    (x >>= f) = ok b ↔ ∃ a, x = ok a ∧ f a = ok b := by
  cases x <;> simp

theorem noPanic_bind {α β} {x : Res α} {f : α → Res β}
    (hx : x.NoPanic) (hf : ∀ a, x = ok a → (f a).NoPanic) : (x >>= f).NoPanic := by
  cases x with
  | ok a => exact hf a rfl
  | err e => simp [NoPanic]
  | panic => exact absurd rfl hx

@[simp] theorem noPanic_ok {α} (a : α) : (ok a : Res α).NoPanic := by simp [NoPanic]
@[simp] theorem noPanic_err {α} (e : String) : (err e : Res α).NoPanic := by simp [NoPanic]
@[simp] theorem not_noPanic_panic {α} : ¬ (panic : Res α).NoPanic := by simp [NoPanic]

end Res

/-- `buf[i]` with Go's bounds check. -/
def idx {α} (buf : List α) (i : Nat) : Res α :=
  match buf[i]? with
  | some b => .ok b
  | none => .panic

/-- `buf[i:j]` with Go's bounds check (capacity taken equal to length). -/
def slice {α} (buf : List α) (i j : Nat) : Res (List α) :=
  if i ≤ j ∧ j ≤ buf.length then .ok ((buf.drop i).take (j - i)) else .panic

/-- `buf[i:]` with Go's bounds check. -/
def sliceFrom {α} (buf : List α) (i : Nat) : Res (List α) :=
  if i ≤ buf.length then .ok (buf.drop i) else .panic

theorem idx_of_lt {α} {buf : List α} {i : Nat} (h : i < buf.length) : idx buf i = .ok buf[i] := by
  simp [idx, h]

theorem idx_of_ge {α} {buf : List α} {i : Nat} (h : buf.length ≤ i) : idx buf i = .panic := by
  simp [idx, h]

@[simp] theorem idx_zero_cons {α} (a : α) (l : List α) : idx (a :: l) 0 = .ok a := rfl
@[simp] theorem idx_succ_cons {α} (a : α) (l : List α) (i : Nat) : idx (a :: l) (i+1) = idx l i := by
  simp [idx]

theorem slice_ok {α} {buf : List α} {i j : Nat} (h1 : i ≤ j) (h2 : j ≤ buf.length) :
    slice buf i j = .ok ((buf.drop i).take (j - i)) := by simp [slice, h1, h2]

theorem sliceFrom_ok {α} {buf : List α} {i : Nat} (h1 : i ≤ buf.length) :
    sliceFrom buf i = .ok (buf.drop i) := by simp [sliceFrom, h1]

end Verif
