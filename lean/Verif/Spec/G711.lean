import Verif.Model.Base

/-!
# Specification: quantization of G711

`dec` maps each code to a sample.
-/

namespace Verif.Spec.G711

/-- The value of a 16-bit sample in two's complement. -/
def value (w : Nat) : Int := if w < 32768 then w else (w : Int) - 65536

/-- The value of a 16-bit sample, most significant byte first. -/
def sample (h l : UInt8) : Int := value (h.toNat * 256 + l.toNat)

/-- No code is closer to `x` than `c`, by more than `d`. -/
def Nearest (dec : UInt8 → Int) (x : Int) (c : UInt8) (d : Nat) : Prop :=
  ∀ c', (dec c - x).natAbs ≤ (dec c' - x).natAbs + d

/-- The multiple of four at or below `x`. -/
def down (x : Int) : Int := 4 * (x / 4)

end Verif.Spec.G711
