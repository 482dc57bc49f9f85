/-!
# Specification of rounding to float64

Rational numbers are pairs of natural numbers. IEEE 754-2019, 4.3.1: roundTiesToEven delivers the floating-point number nearest to the
infinitely precise result; if the two nearest are equally near, the one with an even least significant digit.
-/

namespace Verif.Spec.Float64

/-- The distance of two numbers. -/
def gap (a b : Nat) : Nat := (a - b) + (b - a)

/-- `a / b` has at most 53 binary digits, `± m * 2^e`. -/
def IsFloat (a b : Nat) : Prop := 0 < b ∧ ∃ m i j, m < 2 ^ 53 ∧ a * 2 ^ i = m * 2 ^ j * b

/-- `m / 2^k` is the float64 for `p / q`: `m` has 53 binary digits; no number of 53 digits is nearer; if another one is as near, `m` is
even. -/
structure Nearest (p q m k : Nat) : Prop where
  lo : 2 ^ 52 ≤ m
  hi : m < 2 ^ 53
  best : ∀ a b, IsFloat a b → gap (p * 2 ^ k) (m * q) * b ≤ gap (p * b) (a * q) * 2 ^ k
  even : ∀ a b, IsFloat a b → gap (p * 2 ^ k) (m * q) * b = gap (p * b) (a * q) * 2 ^ k → a * 2 ^ k = m * b ∨ m % 2 = 0

end Verif.Spec.Float64
