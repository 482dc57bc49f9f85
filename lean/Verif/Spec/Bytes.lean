import Verif.Spec.BitList

/-!
# Specification: big-endian numbers
-/

namespace Verif.Spec

/-- `v` in `k` big-endian bytes. -/
def beBytes : Nat → Nat → Bytes
  | 0, _ => []
  | k + 1, v => UInt8.ofNat (v / 256 ^ k) :: beBytes k v

/-- The buffer (of bytes or bits) is one item after the other. -/
def Tiles {α γ : Type} (frame : α → List γ → Prop) : List α → List γ → Prop
  | [], buf => buf = []
  | a :: l, buf => ∃ bs rest, buf = bs ++ rest ∧ frame a bs ∧ Tiles frame l rest

/-- Two lists of the same length and a buffer that is one item for each pair after the other. -/
def Tiles2 {α β γ : Type} (frame : α → β → List γ → Prop) : List α → List β → List γ → Prop
  | [], [], buf => buf = []
  | a :: l, b :: r, buf => ∃ x y, buf = x ++ y ∧ frame a b x ∧ Tiles2 frame l r y
  | _, _, _ => False

end Verif.Spec
