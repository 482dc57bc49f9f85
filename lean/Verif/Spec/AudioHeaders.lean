import Verif.Spec.BitList

/-!
# Specification of AC-3, E-AC-3 and MPEG-1/2 audio headers

Numbers from ATSC A/52 tables 5.6, 5.8 and 5.18, ETSI TS 102 366 Annex E, ISO 11172-3 and ISO 13818-3, stated as
formulas where the standards derive them.
-/

namespace Verif.Spec

/-- A/52 table 5.18: nominal bit rates in kbit/s; every rate has two consecutive frame size codes. -/
def ac3Kbps : List Nat := [32, 40, 48, 56, 64, 80, 96, 112, 128, 160, 192, 224, 256, 320, 384, 448, 512, 576, 640]

/-- A/52 table 5.6. -/
def ac3Rate (fscod : Nat) : Nat := match fscod with | 0 => 48000 | 1 => 44100 | _ => 32000

/-- Bytes of a syncframe of 1536 samples at the nominal bit rate: a whole number of 16-bit words, where at 44.1 kHz
the odd code has one word more than the even one. -/
def ac3FrameBytes (fscod code : Nat) : Nat :=
  2 * (ac3Kbps.getD (code / 2) 0 * 1000 * 1536 / (ac3Rate fscod * 16) + (if fscod = 1 then code % 2 else 0))

/-- A/52 table 5.8: full-bandwidth channels of an audio coding mode. -/
def acmodChannels (acmod : Nat) : Nat :=
  match acmod with
  | 0 => 1 + 1 | 1 => 1 | 2 => 2 | 3 => 3 | 4 => 2 + 1 | 5 => 3 + 1 | 6 => 2 + 2 | _ => 3 + 2

/-- A/52 5.4.2.3: bits between `acmod` and `lfeon`: centre mix level for three front channels, surround mix level when
a surround channel exists, surround mode for 2/0. -/
def ac3MixBits (acmod : Nat) : Nat :=
  (if acmod = 3 ∨ acmod = 5 ∨ acmod = 7 then 2 else 0) + (if 4 ≤ acmod then 2 else 0) + (if acmod = 2 then 2 else 0)

/-- A/52 table 5.2, the beginning of `bsi()`. -/
def bsiBits (bsid bsmod acmod : Nat) (mix : List Bool) (lfe : Bool) : List Bool :=
  bitsOfNat 5 bsid ++ (bitsOfNat 3 bsmod ++ (bitsOfNat 3 acmod ++ (mix ++ [lfe])))

/-- TS 102 366 table E.1.2, the beginning of a syncframe; `blk` is `numblkscod`, or `fscod2` when `fscod` is 3. -/
def eac3Bits (strmtyp substreamid frmsiz fscod blk acmod : Nat) (lfe : Bool) (bsid : Nat) : List Bool :=
  bitsOfNat 16 0x0B77 ++ (bitsOfNat 2 strmtyp ++ (bitsOfNat 3 substreamid ++ (bitsOfNat 11 frmsiz ++
  (bitsOfNat 2 fscod ++ (bitsOfNat 2 blk ++ (bitsOfNat 3 acmod ++ (lfe :: bitsOfNat 5 bsid)))))))

/-- ISO 11172-3 2.4.2.3 and ISO 13818-3: bit rate in kbit/s of index 1 to 14. -/
def mpaKbps (mpeg2 : Bool) (layer : Nat) (i : Nat) : Nat :=
  match mpeg2, layer with
  | false, 2 => [32, 48, 56, 64, 80, 96, 112, 128, 160, 192, 224, 256, 320, 384].getD (i - 1) 0
  | false, _ => [32, 40, 48, 56, 64, 80, 96, 112, 128, 160, 192, 224, 256, 320].getD (i - 1) 0
  | true, _ => [8, 16, 24, 32, 40, 48, 56, 64, 80, 96, 112, 128, 144, 160].getD (i - 1) 0

/-- Sampling rate of index 0 to 2; MPEG-2 halves it. -/
def mpaRate (mpeg2 : Bool) (i : Nat) : Nat :=
  (match i with | 0 => 44100 | 1 => 48000 | _ => 32000) / (if mpeg2 then 2 else 1)

/-- Samples in a frame of layer II or III. -/
def mpaSamples (mpeg2 : Bool) (layer : Nat) : Nat := if mpeg2 ∧ layer = 3 then 576 else 1152

/-- Bytes of a frame: the samples at the bit rate, rounded down, and the padding byte. -/
def mpaFrameBytes (mpeg2 : Bool) (layer bitrate rate : Nat) (padding : Bool) : Nat :=
  mpaSamples mpeg2 layer / 8 * bitrate / rate + padding.toNat

/-- ISO 11172-3 2.4.1.3: the 32-bit header; `id` is 1 for MPEG-1, the layer code is `4 - layer`. -/
def mpaBits (mpeg2 : Bool) (layer : Nat) (protection : Bool) (bitrateIndex rateIndex : Nat) (padding priv : Bool)
    (mode tail : Nat) : List Bool :=
  bitsOfNat 12 0xFFF ++ ((!mpeg2) :: (bitsOfNat 2 (4 - layer) ++ (protection :: (bitsOfNat 4 bitrateIndex ++
  (bitsOfNat 2 rateIndex ++ (padding :: priv :: (bitsOfNat 2 mode ++ bitsOfNat 6 tail)))))))

end Verif.Spec
