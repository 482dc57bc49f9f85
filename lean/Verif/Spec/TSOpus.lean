import Verif.Spec.BitList

/-!
# Specification: Opus in MPEG-TS (ETSI TS Opus 0.1.3-draft)
-/

namespace Verif.Spec

/-- The payload size: 255 as often as it fits, then the remainder. -/
def opusSizeBytes (n : Nat) : Bytes := List.replicate (n / 255) 255 ++ [UInt8.ofNat (n % 255)]

/-- An optional trim: three reserved bits and 13 bits. -/
def trimBits (reserved : Nat) : Option Nat → List Bool
  | none => []
  | some v => bitsOfNat 3 reserved ++ bitsOfNat 13 v

/-- An optional control extension: one length byte and the reserved bytes. -/
def extBits : Option Bytes → List Bool
  | none => []
  | some b => bitsOfNat 8 b.length ++ bitsOf b

/-- `opus_control_header()` (table 6-7) with given reserved bits. -/
def controlHeaderBits (size : Nat) (start stop : Option Nat) (ext : Option Bytes) (r r1 r2 : Nat) : List Bool :=
  bitsOfNat 11 0x3ff ++ ([start.isSome] ++ ([stop.isSome] ++ ([ext.isSome] ++ (bitsOfNat 2 r ++
    (bitsOf (opusSizeBytes size) ++ (trimBits r1 start ++ (trimBits r2 stop ++ extBits ext)))))))

/-- Width of a field that holds `n` different values. -/
def IsWidth (n w : Nat) : Prop := n ≤ 2 ^ w ∧ ∀ k, n ≤ 2 ^ k → w ≤ k

/-- The bit-packed part of an explicit channel configuration (table 4-2): `stream_count_minus_one`,
`coupled_stream_count` and one mapping code per channel, in fields of `w1`, `w2` and `w3` bits. -/
def opusMappingBits (w1 w2 w3 streams coupled : Nat) (codes : List Nat) : List Bool :=
  bitsOfNat w1 (streams - 1) ++ (bitsOfNat w2 coupled ++ codes.flatMap (bitsOfNat w3))

/-- The field widths for a number of channels, streams and coupled streams. -/
def OpusWidths (channels streams coupled w1 w2 w3 : Nat) : Prop :=
  IsWidth channels w1 ∧ IsWidth (streams + 1) w2 ∧ IsWidth (streams + coupled + 1) w3

/-- The values fit in their fields, and there is one code per channel. -/
def OpusFits (channels streams coupled : Nat) (codes : List Nat) (w1 w2 w3 : Nat) : Prop :=
  1 ≤ streams ∧ streams ≤ 2 ^ w1 ∧ coupled < 2 ^ w2 ∧ codes.length = channels ∧ ∀ v ∈ codes, v < 2 ^ w3

end Verif.Spec
