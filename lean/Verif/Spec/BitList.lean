import Verif.Model.Base

/-!
# Specification: a byte string as a list of bits, most significant bit first

Independent of the model in `Verif.Model.Bits`: no shifts, masks or byte indexes.
-/

namespace Verif.Spec

/-- The unsigned number written by a list of bits, most significant first. -/
def natOfBits : List Bool → Nat
  | [] => 0
  | b :: bs => b.toNat * 2 ^ bs.length + natOfBits bs

/-- The `n`-bit big-endian form of `v` (its low `n` bits). -/
def bitsOfNat : Nat → Nat → List Bool
  | 0, _ => []
  | n + 1, v => decide (v / 2 ^ n % 2 = 1) :: bitsOfNat n v

/-- The eight bits of a byte, most significant first. -/
def byteBits (b : UInt8) : List Bool := bitsOfNat 8 b.toNat

/-- All bits of a byte string. -/
def bitsOf (buf : Bytes) : List Bool := buf.flatMap byteBits

/-- Unsigned Exp-Golomb code word (ITU-T H.264 9.1): with `k = ⌊log2 (v+1)⌋`, `k` zeros, a one, and
the `k` low bits of `v + 1`. -/
def golombBits (v : Nat) : List Bool :=
  List.replicate (Nat.log2 (v + 1)) false ++ true :: bitsOfNat (Nat.log2 (v + 1)) (v + 1)

/-- Signed Exp-Golomb mapping (ITU-T H.264 9.1.1): `k > 0 ↦ 2k-1`, `k ≤ 0 ↦ -2k`. -/
def golombOfInt (k : Int) : Nat := if 0 < k then (2 * k - 1).toNat else (-2 * k).toNat

end Verif.Spec
