import Verif.Model.Base

/-!
# Specification: sequences of access units and the timestamps returned for them
-/

namespace Verif.Spec.DTS

/-- The values that were returned without an error. -/
def returned (l : List (Res Int)) : List Int :=
  l.filterMap fun
    | .ok v => some v
    | _ => none

/-- All NAL units of a sequence of access units, each given with its PTS. -/
def units (l : List (List Bytes × Int)) : List Bytes := (l.map (·.1)).flatten

/-- The number of calls that returned a DTS greater than the PTS they were given. -/
def exceeding : List (Res Int) → List (List Bytes × Int) → Nat
  | .ok v :: rs, a :: l => (if v > a.2 then 1 else 0) + exceeding rs l
  | _ :: rs, _ :: l => exceeding rs l
  | _, _ => 0

/-- `nal_unit_type` of H264 (ITU-T H.264 7.3.1): the 5 low bits of the first byte. -/
def type264 (n : Bytes) : Option Nat := n.head?.map (·.toNat % 32)

/-- `nal_unit_type` of H265 (ITU-T H.265 7.3.1.2): the 6 bits after the first one. -/
def type265 (n : Bytes) : Option Nat := n.head?.map (·.toNat / 2 % 64)

end Verif.Spec.DTS
