import Verif.Model.Base

/-!
# Specification: coded video in parts

What an application hands to the muxer and expects back from the demuxer.
-/

namespace Verif.Spec.Media

inductive Codec where
  | h264 | h265 | av1
  deriving Repr, DecidableEq

/-- An access unit (temporal unit of AV1), as NAL units or OBUs. -/
structure Frame where
  duration : Nat := 0
  ptsOffset : Int := 0
  units : List Bytes := []
  deriving Repr, DecidableEq

structure Track where
  id : Nat := 0
  codec : Codec
  baseTime : Nat := 0
  frames : List Frame := []
  deriving Repr, DecidableEq

structure Part where
  sequenceNumber : Nat := 0
  tracks : List Track := []
  deriving Repr, DecidableEq

/-- A unit at which decoding can start: IDR slices of H264 (7.4.1.2.4), IDR and CRA pictures of H265 (7.4.2.2), sequence headers of AV1. -/
def starts : Codec → UInt8 → Bool
  | .h264, b => b.toNat % 32 = 5
  | .h265, b => b.toNat / 2 % 64 = 19 ∨ b.toNat / 2 % 64 = 20 ∨ b.toNat / 2 % 64 = 21
  | .av1, b => b.toNat / 8 % 16 = 1

/-- A frame at which decoding can start. -/
def Frame.isKey (c : Codec) (f : Frame) : Bool := f.units.any fun u => u.head?.any (starts c)

/-- Two lists agree element by element. -/
def Agree {α β : Type} (R : α → β → Prop) : List α → List β → Prop
  | [], [] => True
  | a :: l, b :: m => R a b ∧ Agree R l m
  | _, _ => False

end Verif.Spec.Media
