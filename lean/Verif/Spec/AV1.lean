import Verif.Model.Base

/-!
# Specifications for AV1 LEB128 and low-overhead bitstream format (AV1 4.10.5, 5.2, 5.3)
-/

namespace Verif.Spec

/-- Little-endian base-128 number of the low seven bits of each byte. -/
def lebVal : Bytes → Nat
  | [] => 0
  | b :: bs => b.toNat % 128 + 128 * lebVal bs

/-- Shortest LEB128 encoding. -/
def lebBytes (v : Nat) : Bytes :=
  if v < 128 then [UInt8.ofNat v] else UInt8.ofNat (v % 128 + 128) :: lebBytes (v / 128)
termination_by v

/-- `pre ++ [last]` is one LEB128 field of at most eight bytes: all bytes but the last have the
continuation bit; the last does not, unless it is the eighth. -/
def IsLeb (pre : Bytes) (last : UInt8) : Prop :=
  pre.length ≤ 7 ∧ (∀ b ∈ pre, 128 ≤ b.toNat) ∧ (last.toNat < 128 ∨ pre.length = 7)

/-- `r` is the serialised form of the OBU `obu` (header byte without size flag, then payload): the
header has forbidden bit and extension flag clear and the size flag set, followed by a LEB128 field
with the payload size and by the payload. -/
def IsObuRecord (r obu : Bytes) : Prop :=
  ∃ (h : UInt8) (pre : Bytes) (last : UInt8) (payload : Bytes),
    h.toNat / 128 = 0 ∧ h.toNat / 4 % 2 = 0 ∧ h.toNat / 2 % 2 = 1 ∧
    IsLeb pre last ∧ lebVal (pre ++ [last]) % 2 ^ 32 = payload.length ∧
    r = h :: (pre ++ last :: payload) ∧ obu = UInt8.ofNat (h.toNat - 2) :: payload

/-- `buf` is the concatenation of the records of `obus`. -/
inductive IsObuStream : Bytes → List Bytes → Prop
  | nil : IsObuStream [] []
  | cons {r obu buf obus} : IsObuRecord r obu → IsObuStream buf obus → IsObuStream (r ++ buf) (obu :: obus)

end Verif.Spec
