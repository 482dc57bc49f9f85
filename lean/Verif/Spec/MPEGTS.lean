import Verif.Spec.Bytes

/-!
# Transport stream packets and PES headers (ISO/IEC 13818-1, 2.4.3)
-/

namespace Verif.Spec

/-- 2.4.3.6: a timestamp of 33 bits, cut into three parts with a marker bit behind each of them, after a prefix of four bits. -/
def ptsField (pre pts m1 m2 m3 : Nat) : Bytes :=
  beBytes 5 (pre * 2 ^ 36 + pts / 2 ^ 30 * 2 ^ 33 + m1 * 2 ^ 32 + pts / 2 ^ 15 % 2 ^ 15 * 2 ^ 17 + m2 * 2 ^ 16 + pts % 2 ^ 15 * 2 + m3)

/-- The timestamp in a number of 40 bits. -/
def ptsOfField (n : Nat) : Nat := n / 2 ^ 33 % 8 * 2 ^ 30 + n / 2 ^ 17 % 2 ^ 15 * 2 ^ 15 + n / 2 % 2 ^ 15

/-- 2.4.3.6: the timestamp of a PES header that is complete up to its timestamp. The optional fields are missing for padding and
private_stream_2 (the code, like `astits`, knows of these two only). -/
def pesTimestamp : Bytes → Option Nat
  | b0 :: b1 :: b2 :: streamID :: _ :: _ :: _ :: flags :: _ :: c0 :: c1 :: c2 :: c3 :: c4 :: _ =>
    if [b0, b1, b2] = [0, 0, 1] ∧ streamID ≠ 0xBE ∧ streamID ≠ 0xBF ∧ 2 ≤ flags.toNat / 64 then
      some (ptsOfField (c0.toNat * 2 ^ 32 + c1.toNat * 2 ^ 24 + c2.toNat * 2 ^ 16 + c3.toNat * 2 ^ 8 + c4.toNat))
    else none
  | _ => none

/-- 2.4.3.2, 2.4.3.4: the payload of a packet in which a unit starts. -/
def startPayload : Bytes → Option Bytes
  | sync :: b1 :: _ :: b3 :: rest =>
    if sync = 0x47 ∧ b1.toNat / 64 % 2 = 1 ∧ b3.toNat / 16 % 2 = 1 then
      if b3.toNat / 32 % 2 = 1 then
        match rest with
        | n :: rest => some (rest.drop n.toNat)
        | [] => none
      else some rest
    else none
  | _ => none

/-- The timestamp that a packet carries. -/
def packetTimestamp (p : Bytes) : Option Nat := (startPayload p).bind pesTimestamp

/-- The last value in a list of optional ones. -/
def lastSome {α : Type} : List (Option α) → Option α → Option α
  | [], d => d
  | x :: l, d => lastSome l (x.or d)

end Verif.Spec
