import Verif.Model.Base

/-!
# Specifications for NALU containers

Independent of the model: grammars and encoders written as plain list functions.
-/

namespace Verif.Spec

/-- Emulation-prevention insertion, ITU-T H.264 7.3.1 / 7.4.1: `z` is the number of zero bytes just
emitted; a byte `≤ 3` after two zeros is preceded by `03`. -/
def epInsert (z : Nat) : Bytes → Bytes
  | [] => []
  | b :: bs =>
    if 2 ≤ z ∧ b.toNat ≤ 3 then 3 :: b :: epInsert (if b = 0 then 1 else 0) bs
    else b :: epInsert (if b = 0 then z + 1 else 0) bs

/-- The decoder of 7.3.1: `03` after two zero bytes is discarded. -/
def epRemove (z : Nat) : Bytes → Bytes
  | [] => []
  | b :: bs =>
    if 2 ≤ z ∧ b = 3 then epRemove 0 bs
    else b :: epRemove (if b = 0 then z + 1 else 0) bs

/-- Big-endian 32-bit number. -/
def be32 (n : Nat) : Bytes :=
  [UInt8.ofNat (n / 2 ^ 24), UInt8.ofNat (n / 2 ^ 16), UInt8.ofNat (n / 2 ^ 8), UInt8.ofNat n]

/-- ISO 14496-15 length-prefixed records. -/
def avccRecords (l : List Bytes) : Bytes := l.flatMap (fun x => be32 x.length ++ x)

/-- Total size of the NALUs of an access unit. -/
def auBytes (l : List Bytes) : Nat := (l.map List.length).sum

/-- A byte string contains an Annex-B start code. -/
def hasStartCode (l : Bytes) : Prop := [0, 0, 1] <:+: l

/-- A start code: four bytes if `true`, three bytes if `false`. -/
def startCode : Bool → Bytes
  | true => [0, 0, 0, 1]
  | false => [0, 0, 1]

/-- Annex-B byte stream with a chosen start code before every NALU. -/
def annexbStream (l : List (Bool × Bytes)) : Bytes := l.flatMap (fun x => startCode x.1 ++ x.2)

/-- Before a three-byte start code the preceding NALU must not end with a zero byte (otherwise the
stream is ambiguous: that byte also reads as the first byte of a four-byte start code). -/
def annexbSeparable : List (Bool × Bytes) → Prop
  | x :: y :: l => (y.1 = false → x.2.getLast? ≠ some 0) ∧ annexbSeparable (y :: l)
  | _ => True

end Verif.Spec
