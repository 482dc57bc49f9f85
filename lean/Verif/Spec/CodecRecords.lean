import Verif.Spec.BitList
import Verif.Spec.H264
import Verif.Spec.AV1
import Verif.Spec.FlacOpus

/-!
# Specification of the sample entries and of the configuration records of the codecs

From ISO 14496-12, 14496-14, 14496-15, 14496-1, the bindings of AV1, VP9, Opus and FLAC to ISO media files, ETSI TS 102 366 annex F and
ISO 23003-5; independent of the model. A record is a list of fields, each with its width in bits and its value.
-/

namespace Verif.Spec.Records

/-- Fields (width in bits, value), from the first to the last. -/
abbrev Fields := List (Nat × Nat)

/-- Bytes as fields. -/
def bytes (b : Bytes) : Fields := b.map fun x => (8, x.toNat)

def flagValue (f : Bool) : Nat := if f then 1 else 0

/-- `b` consists of the fields, from the most significant bit, and every value fits its field. -/
def Carries (b : Bytes) (fs : Fields) : Prop :=
  (∀ f ∈ fs, f.2 < 2 ^ f.1) ∧ bitsOf b = fs.flatMap fun f => bitsOfNat f.1 f.2

/-- The four characters of a box type. -/
def fourcc (a b c d : Char) : Bytes := [a, b, c, d].map fun x => UInt8.ofNat x.toNat

/-- The number in `n` bits at bit `pos`. -/
def field (b : Bytes) (pos n : Nat) : Nat := natOfBits (((bitsOf b).drop pos).take n)

/-! ## Sample entries (ISO 14496-12 8.5.2, 12.1.3, 12.2.3) -/

/-- `VisualSampleEntry`: reserved, data_reference_index, pre_defined, reserved, pre_defined, width, height, resolutions of 72 dpi, reserved,
frame_count, compressorname, depth, pre_defined. -/
def visual (width height : Nat) : Fields :=
  [(48, 0), (16, 1), (16, 0), (16, 0), (96, 0), (16, width), (16, height), (32, 0x00480000), (32, 0x00480000), (32, 0), (16, 1), (256, 0),
    (16, 0x0018), (16, 0xFFFF)]

/-- `AudioSampleEntry`: reserved, data_reference_index, reserved, channelcount, samplesize, pre_defined, reserved, samplerate (16.16). -/
def audio (channels size rate : Nat) : Fields :=
  [(48, 0), (16, 1), (64, 0), (16, channels), (16, size), (16, 0), (16, 0), (16, rate), (16, 0)]

/-! ## H264 (ISO 14496-15 5.3.3.1) -/

/-- The fields of the high profiles: chroma_format, bit_depth_luma_minus8, bit_depth_chroma_minus8 and the SPS extensions. -/
structure AvcHigh where
  chroma : Nat
  luma8 : Nat
  chroma8 : Nat
  ext : List Bytes

/-- `AVCDecoderConfigurationRecord`. -/
structure Avc where
  profile : Nat
  compatibility : Nat
  level : Nat
  lengthSizeMinusOne : Nat
  sps : List Bytes
  pps : List Bytes
  high : Option AvcHigh

/-- A parameter set after its length in 16 bits. -/
def sized (b : Bytes) : Fields := (16, b.length) :: bytes b

def AvcHigh.fields (h : AvcHigh) : Fields :=
  [(6, 0x3F), (2, h.chroma), (5, 0x1F), (3, h.luma8), (5, 0x1F), (3, h.chroma8), (8, h.ext.length)] ++ h.ext.flatMap sized

def Avc.fields (r : Avc) : Fields :=
  [(8, 1), (8, r.profile), (8, r.compatibility), (8, r.level), (6, 0x3F), (2, r.lengthSizeMinusOne), (3, 7), (5, r.sps.length)] ++
    r.sps.flatMap sized ++ [(8, r.pps.length)] ++ r.pps.flatMap sized ++ (match r.high with | none => [] | some h => h.fields)

/-- The profiles whose record has the additional fields. -/
def highProfiles : List Nat := [100, 110, 122, 144]

/-- The bytes of the SPS after its header, without emulation prevention. -/
def avcRbsp (sps : Bytes) : Bytes := epRemove 0 (sps.drop 1)

/-- The record describes a stream with this SPS and PPS, whose NAL units have lengths of four bytes. -/
structure Avc.Describes (r : Avc) (sps pps : Bytes) : Prop where
  profile : r.profile = field (avcRbsp sps) 0 8
  compatibility : r.compatibility = field (avcRbsp sps) 8 8
  level : r.level = field (avcRbsp sps) 16 8
  lengthSize : r.lengthSizeMinusOne = 3
  spsList : r.sps = [sps]
  ppsList : r.pps = [pps]
  high : r.high.isSome = true ↔ r.profile ∈ highProfiles

/-! ## H265 (ISO 14496-15 8.3.3.1) -/

/-- An array of NAL units of a type; `complete` is array_completeness. -/
structure HevcArray where
  complete : Nat
  type : Nat
  nalus : List Bytes
  deriving DecidableEq

/-- `HEVCDecoderConfigurationRecord`. -/
structure Hevc where
  profileSpace : Nat
  tier : Nat
  profile : Nat
  compatibility : Nat
  constraints : Nat
  level : Nat
  minSpatialSegmentation : Nat
  parallelism : Nat
  chroma : Nat
  luma8 : Nat
  chroma8 : Nat
  avgFrameRate : Nat
  constantFrameRate : Nat
  numTemporalLayers : Nat
  temporalIdNested : Nat
  lengthSizeMinusOne : Nat
  arrays : List HevcArray

def HevcArray.fields (a : HevcArray) : Fields := [(1, a.complete), (1, 0), (6, a.type), (16, a.nalus.length)] ++ a.nalus.flatMap sized

def Hevc.head (r : Hevc) : Fields :=
  [(8, 1), (2, r.profileSpace), (1, r.tier), (5, r.profile), (32, r.compatibility), (48, r.constraints), (8, r.level), (4, 0xF),
    (12, r.minSpatialSegmentation), (6, 0x3F), (2, r.parallelism), (6, 0x3F), (2, r.chroma), (5, 0x1F), (3, r.luma8), (5, 0x1F),
    (3, r.chroma8), (16, r.avgFrameRate), (2, r.constantFrameRate), (3, r.numTemporalLayers), (1, r.temporalIdNested),
    (2, r.lengthSizeMinusOne), (8, r.arrays.length)]

def Hevc.fields (r : Hevc) : Fields := r.head ++ r.arrays.flatMap HevcArray.fields

/-- The bytes of the SPS after its header, without emulation prevention. sps_video_parameter_set_id has the first 4 bits,
sps_max_sub_layers_minus1 the next 3; profile_tier_level( ) starts at bit 8. -/
def hevcRbsp (sps : Bytes) : Bytes := (epRemove 0 (sps.drop 1)).drop 1

/-- The fields of profile_tier_level( ) whose values the record gets right. -/
structure Hevc.DescribesProfile (r : Hevc) (sps : Bytes) : Prop where
  profile : r.profile = field (hevcRbsp sps) 11 5
  compatibility : r.compatibility = field (hevcRbsp sps) 16 32
  level : r.level = field (hevcRbsp sps) 96 8

/-- The record describes a stream with these parameter sets. `chroma`, `luma8` and `chroma8` are those of the SPS. In a sample entry of type
`hvc1` the arrays of parameter sets are complete. numTemporalLayers is 0 when it is not known. -/
structure Hevc.Describes (r : Hevc) (chroma luma8 chroma8 : Nat) (vps sps pps : Bytes) : Prop where
  profileSpace : r.profileSpace = field (hevcRbsp sps) 8 2
  tier : r.tier = field (hevcRbsp sps) 10 1
  profile : r.DescribesProfile sps
  constraints : r.constraints = field (hevcRbsp sps) 48 48
  format : r.chroma = chroma ∧ r.luma8 = luma8 ∧ r.chroma8 = chroma8
  layers : r.numTemporalLayers = 0 ∨ r.numTemporalLayers = field (hevcRbsp sps) 4 3 + 1
  lengthSize : r.lengthSizeMinusOne = 3
  arrays : r.arrays = [⟨1, 32, [vps]⟩, ⟨1, 33, [sps]⟩, ⟨1, 34, [pps]⟩]

/-! ## AV1 (AV1 codec ISO media file format binding, 2.3.3) -/

/-- `AV1CodecConfigurationRecord` without initial_presentation_delay, before configOBUs. -/
def av1Head (profile level tier highBitdepth twelveBit monochrome subX subY position : Nat) : Fields :=
  [(1, 1), (7, 1), (3, profile), (5, level), (1, tier), (1, highBitdepth), (1, twelveBit), (1, monochrome), (1, subX), (1, subY),
    (2, position), (3, 0), (1, 0), (4, 0)]

/-! ## VP9 (VP codec ISO media file format binding, 1.0) -/

/-- `VPCodecConfigurationRecord`. -/
structure Vpc where
  profile : Nat
  level : Nat
  bitDepth : Nat
  chromaSubsampling : Nat
  fullRange : Nat
  colourPrimaries : Nat
  transfer : Nat
  matrix : Nat

def Vpc.fields (r : Vpc) : Fields :=
  [(8, 1), (24, 0), (8, r.profile), (8, r.level), (4, r.bitDepth), (3, r.chromaSubsampling), (1, r.fullRange), (8, r.colourPrimaries),
    (8, r.transfer), (8, r.matrix), (16, 0)]

/-- The levels of VP9, with the largest pictures in luma samples. -/
def vp9Levels : List (Nat × Nat) :=
  [(10, 36864), (11, 73728), (20, 122880), (21, 245760), (30, 552960), (31, 983040), (40, 2228224), (41, 2228224), (50, 8912896),
    (51, 8912896), (52, 8912896), (60, 35651584), (61, 35651584), (62, 35651584)]

/-- Pictures of this size are within the level. -/
def Vpc.LevelFits (r : Vpc) (width height : Nat) : Prop := ∃ l ∈ vp9Levels, l.1 = r.level ∧ width * height ≤ l.2

/-- Matrix 0 is RGB, which has no chroma subsampling; colour primaries 0 and transfer characteristics 0 are reserved. -/
def Vpc.ColourValid (r : Vpc) : Prop := r.colourPrimaries ≠ 0 ∧ r.transfer ≠ 0 ∧ (r.matrix = 0 → r.chromaSubsampling = 3)

/-! ## Descriptors (ISO 14496-1 7.2.6, 8.3.3; ISO 14496-14 5.6) -/

/-- A size: up to four bytes of seven bits; all of them but the last have their first bit set. -/
def IsSize (b : Bytes) (n : Nat) : Prop :=
  ∃ pre last, b = pre ++ [last] ∧ pre.length ≤ 3 ∧ (∀ x ∈ pre, 128 ≤ x.toNat) ∧ last.toNat < 128 ∧
    n = b.foldl (fun a x => a * 128 + x.toNat % 128) 0

def IsDescriptor (tag : UInt8) (payload b : Bytes) : Prop := ∃ size, IsSize size payload.length ∧ b = tag :: (size ++ payload)

/-- ISO 14496-12 8.5.2.2, `BitRateBox`: bufferSizeDB, maxBitrate, avgBitrate. -/
def bitRateFields (max avg : Nat) : Fields := [(32, 0), (32, max), (32, avg)]

/-- `esds`: an ES_Descriptor with a DecoderConfigDescriptor, with or without DecoderSpecificInfo, and an SLConfigDescriptor with the
predefined value for files (2). -/
structure Esds where
  id : Nat
  objectType : Nat
  streamType : Nat
  bufferSize : Nat
  maxBitrate : Nat
  avgBitrate : Nat
  info : Option Bytes

def IsEsds (b : Bytes) (r : Esds) : Prop :=
  ∃ head conf info dc sl es, Carries head [(16, r.id), (1, 0), (1, 0), (1, 0), (5, 0)] ∧
    Carries conf [(8, r.objectType), (6, r.streamType), (1, 0), (1, 1), (24, r.bufferSize), (32, r.maxBitrate), (32, r.avgBitrate)] ∧
    (match r.info with | none => info = [] | some i => IsDescriptor 5 i info) ∧
    IsDescriptor 4 (conf ++ info) dc ∧ IsDescriptor 6 [2] sl ∧ IsDescriptor 3 (head ++ (dc ++ sl)) es ∧ b = [0, 0, 0, 0] ++ es

/-- VisualStream and AudioStream. -/
def visualStream : Nat := 4
def audioStream : Nat := 5

/-- objectTypeIndication: ISO 14496-2, ISO 14496-3, ISO 10918-1. -/
def mpeg4VideoType : Nat := 0x20
def mpeg4AudioType : Nat := 0x40
def jpegType : Nat := 0x6C

/-- objectTypeIndication of MPEG-1 and MPEG-2 audio layers: ISO 11172-3 for the rates of MPEG-1, ISO 13818-3 for the lower ones. -/
def mpegAudioType (rate : Int) : Option Nat :=
  if rate = 32000 ∨ rate = 44100 ∨ rate = 48000 then some 0x6B
  else if rate = 16000 ∨ rate = 22050 ∨ rate = 24000 then some 0x69
  else none

/-- The profile (the number of profile_identification) of the sequence extension of a configuration, if there is one. -/
def sequenceProfile : Bytes → Option Nat
  | a :: b :: c :: d :: x :: l =>
    if a = 0 ∧ b = 0 ∧ c = 1 ∧ d = 0xB5 ∧ x.toNat / 16 = 1 then some (x.toNat % 8) else sequenceProfile (b :: c :: d :: x :: l)
  | _ => none

/-- objectTypeIndication of MPEG-1 and MPEG-2 video: ISO 11172-2 if there is no sequence extension, otherwise ISO 13818-2 with a profile:
simple (5), main (4), SNR (3), spatial (2), high (1). -/
def mpegVideoType (config : Bytes) : Option Nat :=
  match sequenceProfile config with
  | none => some 0x6A
  | some 5 => some 0x60
  | some 4 => some 0x61
  | some 3 => some 0x62
  | some 2 => some 0x63
  | some 1 => some 0x64
  | some _ => none

/-- Channels of a channelConfiguration (ISO 14496-3 table 1.19). -/
def channelsOf (config : Nat) : Option Nat :=
  match config with
  | 1 => some 1
  | 2 => some 2
  | 3 => some 3
  | 4 => some 4
  | 5 => some 5
  | 6 => some 6
  | 7 => some 8
  | _ => none

/-! ## Opus (Opus in ISO BMFF 4.3.2) -/

/-- The channel mapping table: streams, coupled streams, mapping. -/
structure OpusTable where
  streams : Nat
  coupled : Nat
  mapping : Bytes

/-- `OpusSpecificBox`. -/
structure DOps where
  channels : Nat
  preSkip : Nat
  inputRate : Nat
  gain : Nat
  family : Nat
  table : Option OpusTable

def DOps.fields (r : DOps) : Fields :=
  [(8, 0), (8, r.channels), (16, r.preSkip), (32, r.inputRate), (16, r.gain), (8, r.family)] ++
    (match r.table with | none => [] | some t => [(8, t.streams), (8, t.coupled)] ++ bytes t.mapping)

/-- Family 0 has one or two channels and no table; the other families have a table with as many entries as channels. -/
def DOps.Valid (r : DOps) : Prop :=
  match r.table with
  | none => r.family = 0 ∧ 1 ≤ r.channels ∧ r.channels ≤ 2
  | some t => r.family ≠ 0 ∧ t.mapping.length = r.channels

/-! ## FLAC (FLAC in ISO BMFF 3.3.2), AC-3, E-AC-3 (ETSI TS 102 366 F.4, F.6), PCM (ISO 23003-5) -/

/-- `FLACSpecificBox` up to the data of its only block: version and flags, the last-block flag, type STREAMINFO, length. -/
def flacHead : Fields := [(8, 0), (24, 0), (1, 1), (7, 0), (24, 34)]

/-- fscod. -/
def sampleRateCode (rate : Int) : Option Nat :=
  if rate = 48000 then some 0 else if rate = 44100 then some 1 else if rate = 32000 then some 2 else none

/-- `AC3SpecificBox`. -/
def dac3 (fscod bsid bsmod acmod lfeon bitRateCode : Nat) : Fields :=
  [(2, fscod), (5, bsid), (3, bsmod), (3, acmod), (1, lfeon), (5, bitRateCode), (5, 0)]

/-- `EC3SpecificBox` with one independent substream; bsid is 16. -/
def dec3 (dataRate fscod asvc bsmod acmod lfeon numDepSub chanLoc : Nat) : Fields :=
  [(13, dataRate), (3, 0), (2, fscod), (5, 16), (1, 0), (1, asvc), (3, bsmod), (3, acmod), (1, lfeon), (3, 0), (4, numDepSub)] ++
    (if numDepSub = 0 then [(1, 0)] else [(9, chanLoc)])

/-- `PCMConfig`: format_flags, whose last bit is set if samples are little-endian, and PCM_sample_size. -/
def pcm (littleEndian size : Nat) : Fields := [(8, 0), (24, 0), (7, 0), (1, littleEndian), (8, size)]

end Verif.Spec.Records
