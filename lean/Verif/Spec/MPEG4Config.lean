import Verif.Model.MPEG4Config
import Verif.Spec.ADTS

/-!
# AudioSpecificConfig and StreamMuxConfig (ISO 14496-3, 1.6.2.1 and Table 1.42)

The layouts are relations between records and bits, in transmission order: the standard leaves freedom (a rate by index or
in full, a length with leading zero groups). Only the record types come from the model.
-/

namespace Verif.Spec
open Verif.MPEG4Audio (ASC Layer StreamMuxConfig)

/-! ## AudioSpecificConfig -/

/-- Sampling frequency: an index, or 15 and the frequency in 24 bits. -/
def IsRate (r : Nat) (bits : List Bool) : Prop :=
  (∃ i, rateOfIndex i = some r ∧ bits = bitsOfNat 4 i) ∨ (r < 2 ^ 24 ∧ bits = bitsOfNat 4 15 ++ bitsOfNat 24 r)

/-- GASpecificConfig without extension. -/
def gaBits (c : ASC) : List Bool :=
  [c.frameLengthFlag] ++ ([c.dependsOnCoreCoder] ++
    ((if c.dependsOnCoreCoder then bitsOfNat 14 c.coreCoderDelay else []) ++ [false]))

/-- An AAC-LC configuration without an extension, or with the hierarchical signalling of SBR (5) or PS (29). -/
structure IsASC (c : ASC) (bits : List Bool) : Prop where
  type : c.type = 2
  config : c.channelConfig ≤ 7
  count : c.channelCount = channelsOfConfig c.channelConfig
  delay : c.coreCoderDelay < 2 ^ 14
  noDelay : c.dependsOnCoreCoder = false → c.coreCoderDelay = 0
  layout : ∃ rb, IsRate c.sampleRate rb ∧
    ((c.extensionType = 0 ∧ c.extensionSampleRate = 0 ∧
        bits = bitsOfNat 5 2 ++ (rb ++ (bitsOfNat 4 c.channelConfig ++ gaBits c))) ∨
     ((c.extensionType = 5 ∨ c.extensionType = 29) ∧ ∃ eb, IsRate c.extensionSampleRate eb ∧
        bits = bitsOfNat 5 c.extensionType ++ (rb ++ (bitsOfNat 4 c.channelConfig ++
          (eb ++ (bitsOfNat 5 2 ++ gaBits c))))))

/-! ## StreamMuxConfig -/

/-- Only the field that belongs to the frame length type is used, and it fits. -/
structure FrameInfoFits (l : Layer) : Prop where
  type : l.frameLengthType < 8
  latm : l.latmBufferFullness < 2 ^ 8
  noLatm : l.frameLengthType ≠ 0 → l.latmBufferFullness = 0
  len : l.frameLength < 2 ^ 9
  noLen : l.frameLengthType ≠ 1 → l.frameLength = 0
  celp : l.celpIndex < 2 ^ 6
  noCelp : l.frameLengthType < 3 ∨ 5 < l.frameLengthType → l.celpIndex = 0
  noHvxc : l.frameLengthType < 6 → l.hvxcIndex = false

/-- The field that belongs to the frame length type. -/
def frameFieldBits (l : Layer) : List Bool :=
  match l.frameLengthType with
  | 0 => bitsOfNat 8 l.latmBufferFullness
  | 1 => bitsOfNat 9 l.frameLength
  | 3 => bitsOfNat 6 l.celpIndex
  | 4 => bitsOfNat 6 l.celpIndex
  | 5 => bitsOfNat 6 l.celpIndex
  | 6 => [l.hvxcIndex]
  | 7 => [l.hvxcIndex]
  | _ => []

/-- An optional configuration. -/
def IsOptASC : Option ASC → List Bool → Prop
  | none, b => b = []
  | some c, b => IsASC c b

/-- The start of a layer: a flag that says whether it has no configuration of its own (left out for the very first
layer, which has one), and the configuration. -/
def IsLayerHead (first : Bool) (asc : Option ASC) (bits : List Bool) : Prop :=
  (first = true → asc ≠ none) ∧
  ∃ b, IsOptASC asc b ∧ bits = (if first then [] else [asc.isNone]) ++ b

/-- A layer. -/
def IsLayer (first : Bool) (l : Layer) (bits : List Bool) : Prop :=
  FrameInfoFits l ∧ ∃ hb, IsLayerHead first l.asc hb ∧ bits = hb ++ (bitsOfNat 3 l.frameLengthType ++ frameFieldBits l)

/-- A layer cut before its frame length type: taken for type 0 with fullness 255. -/
def IsCutLayer (first : Bool) (l : Layer) (bits : List Bool) : Prop :=
  l = { asc := l.asc, frameLengthType := 0, latmBufferFullness := 255, frameLength := 0, celpIndex := 0, hvxcIndex := false } ∧
  IsLayerHead first l.asc bits

/-- Layers, of which only the first may be the very first one. -/
def IsLayers : Bool → List Layer → List Bool → Prop
  | _, [], bits => bits = []
  | first, l :: ls, bits => ∃ a b, IsLayer first l a ∧ IsLayers false ls b ∧ bits = a ++ b

/-- Layers of which the last one is cut. -/
def IsCutLayers : Bool → List Layer → List Bool → Prop
  | _, [], _ => False
  | first, l :: ls, bits => (ls = [] ∧ IsCutLayer first l bits) ∨
      ∃ a b, IsLayer first l a ∧ IsCutLayers false ls b ∧ bits = a ++ b

/-- A program: the number of its layers and them. -/
def IsProgram (first : Bool) (p : List Layer) (bits : List Bool) : Prop :=
  1 ≤ p.length ∧ p.length ≤ 8 ∧ ∃ b, IsLayers first p b ∧ bits = bitsOfNat 3 (p.length - 1) ++ b

/-- A program that is cut; the announced number of layers is at least the number of those that are there. -/
def IsCutProgram (first : Bool) (p : List Layer) (bits : List Bool) : Prop :=
  ∃ n b, p.length ≤ n ∧ 1 ≤ n ∧ n ≤ 8 ∧ IsCutLayers first p b ∧ bits = bitsOfNat 3 (n - 1) ++ b

/-- Programs. -/
def IsPrograms : Bool → List (List Layer) → List Bool → Prop
  | _, [], bits => bits = []
  | first, p :: ps, bits => ∃ a b, IsProgram first p a ∧ IsPrograms false ps b ∧ bits = a ++ b

/-- Programs of which the last one is cut. -/
def IsCutPrograms : Bool → List (List Layer) → List Bool → Prop
  | _, [], _ => False
  | first, p :: ps, bits => (ps = [] ∧ IsCutProgram first p bits) ∨
      ∃ a b, IsProgram first p a ∧ IsCutPrograms false ps b ∧ bits = a ++ b

/-- A length in base 256, most significant digit first: all groups but the last have the escape flag. Digits beyond 32
bits are lost. -/
def IsOtherData (v : Nat) (bits : List Bool) : Prop :=
  ∃ (ds : Bytes) (d : UInt8),
    v = (ds.foldl (fun a x => a * 256 + x.toNat) 0 * 256 + d.toNat) % 2 ^ 32 ∧
    bits = ds.flatMap (fun x => true :: byteBits x) ++ false :: byteBits d

/-- The other data length and the checksum, both optional. -/
def IsMuxTail (c : StreamMuxConfig) (bits : List Bool) : Prop :=
  c.crcCheckSum < 2 ^ 8 ∧ (c.otherDataPresent = false → c.otherDataLenBits = 0) ∧
  (c.crcCheckPresent = false → c.crcCheckSum = 0) ∧
  ∃ ob, (if c.otherDataPresent then IsOtherData c.otherDataLenBits ob else ob = []) ∧
    bits = [c.otherDataPresent] ++ (ob ++ ([c.crcCheckPresent] ++
      (if c.crcCheckPresent then bitsOfNat 8 c.crcCheckSum else [])))

/-- Table 1.42 with audioMuxVersion 0 and allStreamsSameTimeFraming 1. -/
def IsMux (c : StreamMuxConfig) (bits : List Bool) : Prop :=
  c.numSubFrames < 2 ^ 6 ∧ 1 ≤ c.programs.length ∧ c.programs.length ≤ 16 ∧
  ∃ pb tb, IsPrograms true c.programs pb ∧ IsMuxTail c tb ∧
    bits = [false] ++ ([true] ++ (bitsOfNat 6 c.numSubFrames ++ (bitsOfNat 4 (c.programs.length - 1) ++ (pb ++ tb))))

/-- The same, cut before the frame length type of a layer; nothing follows. -/
def IsCutMux (c : StreamMuxConfig) (bits : List Bool) : Prop :=
  c = { numSubFrames := c.numSubFrames, programs := c.programs, otherDataPresent := false, otherDataLenBits := 0,
        crcCheckPresent := false, crcCheckSum := 0 } ∧
  c.numSubFrames < 2 ^ 6 ∧
  ∃ n pb, c.programs.length ≤ n ∧ 1 ≤ n ∧ n ≤ 16 ∧ IsCutPrograms true c.programs pb ∧
    bits = [false] ++ ([true] ++ (bitsOfNat 6 c.numSubFrames ++ (bitsOfNat 4 (n - 1) ++ pb)))

end Verif.Spec
