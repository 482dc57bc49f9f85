import Verif.Spec.BitList

/-!
# Specification of the FLAC STREAMINFO block and of Opus TOC bytes

Bit layouts and numbers taken from RFC 9639 section 8.2 and RFC 6716 section 3.1, independent of the model.
-/

namespace Verif.Spec

/-- RFC 9639 section 8.2: the fields of STREAMINFO, in order, with their widths in bits. -/
def streamInfoBits (minBlock maxBlock minFrame maxFrame rate channels depth total : Nat) (md5 : Bytes) :
    List Bool :=
  bitsOfNat 16 minBlock ++ (bitsOfNat 16 maxBlock ++ (bitsOfNat 24 minFrame ++ (bitsOfNat 24 maxFrame ++
  (bitsOfNat 20 rate ++ (bitsOfNat 3 (channels - 1) ++ (bitsOfNat 5 (depth - 1) ++ (bitsOfNat 36 total ++
  bitsOf md5)))))))

/-- RFC 6716 table 2: frame duration, in samples at 48 kHz, of the 32 TOC configurations.
SILK (0-11): 10, 20, 40, 60 ms. Hybrid (12-15): 10, 20 ms. CELT (16-31): 2.5, 5, 10, 20 ms. -/
def opusFrameSamples (config : Nat) : Nat :=
  if config < 12 then (match config % 4 with | 0 => 10 | 1 => 20 | 2 => 40 | _ => 60) * 48
  else if config < 16 then (config % 2 + 1) * 10 * 48
  else 120 * 2 ^ (config % 4)

/-- RFC 6716 section 3.2: frames in a packet, from the two low bits of the TOC byte and the frame count byte. -/
def opusFrameCount (code : Nat) (second : Option UInt8) : Nat :=
  match code with
  | 0 => 1
  | 1 => 2
  | 2 => 2
  | _ => match second with
    | some b => b.toNat % 64
    | none => 0

end Verif.Spec
