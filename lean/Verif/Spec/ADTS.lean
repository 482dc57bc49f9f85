import Verif.Model.ADTS
import Verif.Spec.BitList
import Verif.Spec.Bytes

/-!
# ADTS frames and AudioSyncStream (ISO 14496-3, Tables 1.A.5 - 1.A.7, 1.18, 1.36)

The layouts are written as bits in transmission order. Only the record types come from the model.
-/

namespace Verif.Spec
open Verif.MPEG4Audio (ADTSPacket)

/-- Table 1.18: the sampling frequencies with an index. -/
def rateOfIndex : Nat → Option Nat
  | 0 => some 96000 | 1 => some 88200 | 2 => some 64000 | 3 => some 48000 | 4 => some 44100 | 5 => some 32000
  | 6 => some 24000 | 7 => some 22050 | 8 => some 16000 | 9 => some 12000 | 10 => some 11025 | 11 => some 8000
  | 12 => some 7350 | _ => none

/-- Table 1.19: the number of channels of a channel configuration; configuration 0 leaves it to the payload. -/
def channelsOfConfig (c : Nat) : Nat := if c = 7 then 8 else c

/-- The header fields of which the packet keeps nothing. -/
structure AdtsRest where
  id : Bool
  layer : Nat
  privateBit : Bool
  /-- original/copy, home, copyright identification bit and start. -/
  copyright : Nat
  fullness : Nat

/-- They fit their fields. -/
def AdtsRest.Fits (o : AdtsRest) : Prop := o.layer < 4 ∧ o.copyright < 16 ∧ o.fullness < 2 ^ 11

/-- Tables 1.A.6 and 1.A.7 without CRC, one raw data block: object type `t`, rate index `i`, channel configuration `c`,
frame length `n` in bytes with the header. -/
def adtsHeaderBits (t i c n : Nat) (o : AdtsRest) : List Bool :=
  bitsOfNat 12 0xFFF ++ ([o.id] ++ (bitsOfNat 2 o.layer ++ ([true] ++ (bitsOfNat 2 (t - 1) ++ (bitsOfNat 4 i ++
  ([o.privateBit] ++ (bitsOfNat 3 c ++ (bitsOfNat 4 o.copyright ++ (bitsOfNat 13 n ++ (bitsOfNat 11 o.fullness ++
  bitsOfNat 2 0))))))))))

/-- `bs` is an ADTS frame that carries the packet. -/
structure IsAdtsFrame (p : ADTSPacket) (bs : Bytes) : Prop where
  type : 1 ≤ p.type ∧ p.type ≤ 4
  config : p.channelConfig.toNat < 8
  count : p.channelCount = channelsOfConfig p.channelConfig.toNat
  nonempty : 1 ≤ p.au.length
  size : p.au.length ≤ 5120
  layout : ∃ hdr i o, rateOfIndex i = some p.sampleRate ∧ AdtsRest.Fits o ∧ bs = hdr ++ p.au ∧ hdr.length = 7 ∧
    bitsOf hdr = adtsHeaderBits p.type i p.channelConfig.toNat (7 + p.au.length) o

/-- Table 1.36: sync word, 13-bit length, element. -/
def IsSyncFrame (el bs : Bytes) : Prop :=
  el.length < 2 ^ 13 ∧ ∃ hdr, hdr.length = 3 ∧ bs = hdr ++ el ∧ bitsOf hdr = bitsOfNat 11 0x2B7 ++ bitsOfNat 13 el.length

end Verif.Spec
