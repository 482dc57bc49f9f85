import Verif.Model.Base

/-!
# Specification of an MPEG-4 part 2 configuration

A configuration is the visual object sequence start code, some bytes, and then units: a start code prefix, a code and
bytes in which no prefix occurs (ISO 14496-2 6.2.1, table 6-3).
-/

namespace Verif.Spec

/-- Bytes in which no start code prefix occurs. -/
def Clean (seg : Bytes) : Prop := ¬ [0, 0, 1] <:+: seg

/-- The bytes of a list of units. -/
def unitBytes (units : List (UInt8 × Bytes)) : Bytes := units.flatMap fun u => [0, 0, 1, u.1] ++ u.2

def isVideoObject (c : UInt8) : Prop := c.toNat ≤ 31
def isVideoObjectLayer (c : UInt8) : Prop := 32 ≤ c.toNat ∧ c.toNat ≤ 47
/-- The start codes a configuration may contain after the first: video object, video object layer, visual object
(0xB5) and user data (0xB2). -/
def allowed (c : UInt8) : Prop := isVideoObject c ∨ isVideoObjectLayer c ∨ c = 0xB5 ∨ c = 0xB2

end Verif.Spec
