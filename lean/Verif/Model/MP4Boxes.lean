import Verif.Model.FMP4

/-!
# Model: payloads of the boxes of an initialization segment

The boxes are structures of `go-mp4`, which is not part of the repository. A structure of `go-mp4` is a sequence of fields with a width in
bits, that come one after the other from the most significant bit, and that is what is modelled of it: `pack` and `unpack`. The widths are
those of ISO 14496-12, 14496-14, 14496-15 and of the specifications of the codecs; they were compared with the byte strings in
/repo/pkg/formats/fmp4/init_test.go (Props/FMP4InitSamples.lean). A structure is decoded as far as the code looks at it: the rest of the
payload, that `go-mp4` decodes too and could refuse, is ignored.
-/

namespace Verif.MP4Box
open Spec (beBytes)
open FMP4 (takeBE u32)

/-- Fields (width, value) after the number `acc`. -/
def packNat : List (Nat × Nat) → Nat → Nat
  | [], acc => acc
  | (w, v) :: l, acc => packNat l (acc * 2 ^ w + v % 2 ^ w)

/-- Fields (width, value), whose widths sum up to whole bytes. -/
def pack (fs : List (Nat × Nat)) : Bytes := beBytes ((fs.map (·.1)).sum / 8) (packNat fs 0)

def unpackNat : List Nat → Nat → List Nat
  | [], _ => []
  | w :: l, n => n / 2 ^ l.sum % 2 ^ w :: unpackNat l n

/-- Fields with the given widths, and what is after them. -/
def unpack (ws : List Nat) (b : Bytes) : Res (List Nat × Bytes) := do
  let (n, b) ← takeBE (ws.sum / 8) b
  .ok (unpackNat ws n, b)

/-- A number of bytes. -/
def takeBytes (k : Nat) (b : Bytes) : Res (Bytes × Bytes) := if b.length < k then .err "EOF" else .ok (b.take k, b.drop k)

/-- `uint16(v)`. -/
def u16 (v : Int) : Nat := (v % 2 ^ 16).toNat

/-- `uint8(v)`. -/
def u8 (v : Int) : Nat := (v % 2 ^ 8).toNat

/-- codec_boxes.go:19-24 (`boolToUint8`). -/
def bit (v : Bool) : Nat := if v then 1 else 0

/-! ## Sample entries -/

/-- `amp4.VisualSampleEntry`, as filled by every video codec (codec_boxes.go:657-672 and so on). -/
def encodeVisual (width height : Nat) : Bytes :=
  pack [(48, 0), (16, 1), (16, 0), (16, 0), (96, 0), (16, width), (16, height), (32, 4718592), (32, 4718592), (32, 0), (16, 1), (256, 0),
    (16, 24), (16, 0xFFFF)]

/-- `Width` and `Height` of `amp4.VisualSampleEntry`. -/
def decodeVisual (b : Bytes) : Res (Nat × Nat) := do
  let (f, _) ← unpack [48, 16, 16, 16, 96, 16, 16, 32, 32, 32, 16, 256, 16, 16] b
  .ok (f.getD 5 0, f.getD 6 0)

/-- `amp4.AudioSampleEntry`. -/
def encodeAudio (channelCount sampleSize sampleRate : Nat) : Bytes :=
  pack [(48, 0), (16, 1), (16, 0), (48, 0), (16, channelCount), (16, sampleSize), (16, 0), (16, 0), (32, sampleRate)]

/-- `ChannelCount` and `SampleRate` of `amp4.AudioSampleEntry`. -/
def decodeAudio (b : Bytes) : Res (Nat × Nat) := do
  let (f, _) ← unpack [48, 16, 16, 48, 16, 16, 16, 16, 32] b
  .ok (f.getD 4 0, f.getD 8 0)

/-! ## Configuration boxes -/

/-- `amp4.Av1C`. -/
def encodeAv1C (seqProfile seqLevelIdx0 seqTier0 highBitdepth twelveBit monochrome subX subY samplePosition : Nat) (obus : Bytes) : Bytes :=
  pack [(1, 1), (7, 1), (3, seqProfile), (5, seqLevelIdx0), (1, seqTier0), (1, highBitdepth), (1, twelveBit), (1, monochrome), (1, subX),
    (1, subY), (2, samplePosition), (3, 0), (1, 0), (4, 0)] ++ obus

/-- `ConfigOBUs` of `amp4.Av1C`. -/
def decodeAv1C (b : Bytes) : Res Bytes := do
  let (_, obus) ← unpack [32] b
  .ok obus

/-- `amp4.VpcC`, version 1, level 1. -/
def encodeVpcC (profile bitDepth chromaSubsampling fullRange : Nat) : Bytes :=
  pack [(8, 1), (24, 0), (8, profile), (8, 10), (4, bitDepth), (3, chromaSubsampling), (1, fullRange), (8, 0), (8, 0), (8, 0), (16, 0)]

/-- `Profile`, `BitDepth`, `ChromaSubsampling` and `VideoFullRangeFlag` of `amp4.VpcC`. -/
def decodeVpcC (b : Bytes) : Res (Nat × Nat × Nat × Nat) := do
  let (f, _) ← unpack [8, 24, 8, 8, 4, 3, 1, 8, 8, 8, 16] b
  .ok (f.getD 2 0, f.getD 4 0, f.getD 5 0, f.getD 6 0)

/-- `amp4.AVCParameterSet` and `amp4.HEVCNalu` whose `Length` is `uint16(len(nalu))`. -/
def encodeSet (nalu : Bytes) : Bytes := pack [(16, nalu.length)] ++ nalu

def decodeSets : Nat → Bytes → Res (List Bytes × Bytes)
  | 0, b => .ok ([], b)
  | n + 1, b => do
    let (f, b) ← unpack [16] b
    let (nalu, b) ← takeBytes (f.getD 0 0) b
    let (l, b) ← decodeSets n b
    .ok (nalu :: l, b)

/-- `amp4.AVCDecoderConfiguration` with one SPS and one PPS and without the fields of the high profiles. -/
def encodeAvcC (profile compatibility level : Nat) (sps pps : Bytes) : Bytes :=
  pack [(8, 1), (8, profile), (8, compatibility), (8, level), (6, 0x3F), (2, 3), (3, 7), (5, 1)] ++ encodeSet sps ++ pack [(8, 1)] ++
    encodeSet pps

/-- `SequenceParameterSets` and `PictureParameterSets` of `amp4.AVCDecoderConfiguration`. -/
def decodeAvcC (b : Bytes) : Res (List Bytes × List Bytes) := do
  let (f, b) ← unpack [8, 8, 8, 8, 6, 2, 3, 5] b
  let (sps, b) ← decodeSets (f.getD 7 0) b
  let (g, b) ← unpack [8] b
  let (pps, _) ← decodeSets (g.getD 0 0) b
  .ok (sps, pps)

/-- `amp4.HEVCNaluArray`. -/
structure NaluArray where
  naluType : Nat
  numNalus : Nat
  nalus : List Bytes
  deriving Repr, DecidableEq

/-- `amp4.HEVCNaluArray` with one unit. -/
def encodeArray (typ : Nat) (nalu : Bytes) : Bytes := pack [(1, 0), (1, 0), (6, typ), (16, 1)] ++ encodeSet nalu

def decodeArrays : Nat → Bytes → Res (List NaluArray)
  | 0, _ => .ok []
  | n + 1, b => do
    let (f, b) ← unpack [1, 1, 6, 16] b
    let (nalus, b) ← decodeSets (f.getD 3 0) b
    let l ← decodeArrays n b
    .ok (⟨f.getD 2 0, f.getD 3 0, nalus⟩ :: l)

/-- `amp4.HvcC` with one array for each of VPS, SPS and PPS (codec_boxes.go:754-802). In `go-mp4`, the fields `ConstantFrameRate`,
`NumTemporalLayers`, `TemporalIdNested` and `LengthSizeMinusOne` have 2 bits each. -/
def encodeHvcC (profileIdc : Nat) (compatibility : List Bool) (constraint : Bytes) (levelIdc chroma luma8 chroma8 : Nat)
    (vps sps pps : Bytes) : Bytes :=
  pack ([(8, 1), (2, 0), (1, 0), (5, profileIdc)] ++ compatibility.map (fun c => (1, bit c)) ++ constraint.map (fun c => (8, c.toNat)) ++
    [(8, levelIdc), (4, 0xF), (12, 0), (6, 0x3F), (2, 0), (6, 0x3F), (2, chroma), (5, 0x1F), (3, luma8), (5, 0x1F), (3, chroma8),
      (16, 0), (2, 0), (2, 1), (2, 0), (2, 3), (8, 3)]) ++
    (encodeArray 32 vps ++ encodeArray 33 sps ++ encodeArray 34 pps)

/-- `NaluArrays` of `amp4.HvcC`. -/
def decodeHvcC (b : Bytes) : Res (List NaluArray) := do
  let (f, b) ← unpack [176, 8] b
  decodeArrays (f.getD 1 0) b

/-- The size of a descriptor, always in 4 bytes of 7 bits. -/
def encodeSize (n : Nat) : Bytes := pack [(1, 1), (7, n / 2 ^ 21), (1, 1), (7, n / 2 ^ 14), (1, 1), (7, n / 2 ^ 7), (1, 0), (7, n)]

/-- `amp4.ESDescriptor` without its optional fields. -/
def encodeES (size id : Nat) : Bytes := pack [(8, 3)] ++ encodeSize size ++ pack [(16, id), (8, 0)]

/-- `amp4.DecoderConfigDescriptor`. -/
def encodeDecoderConf (size objectType streamType maxBitrate avgBitrate : Nat) : Bytes :=
  pack [(8, 4)] ++ encodeSize size ++
    pack [(8, objectType), (6, streamType), (1, 0), (1, 1), (24, 0), (32, maxBitrate), (32, avgBitrate)]

/-- A descriptor with data: `DecSpecificInfoTag` is 5, `SLConfigDescrTag` is 6. -/
def encodeData (tag size : Nat) (data : Bytes) : Bytes := pack [(8, tag)] ++ encodeSize size ++ data

/-- `amp4.Esds` with a decoder specific info (codec_boxes.go:880-914 and so on). -/
def encodeEsds (trackID objectType streamType maxBitrate avgBitrate : Nat) (info : Bytes) : Bytes :=
  pack [(8, 0), (24, 0)] ++ encodeES ((32 + info.length) % 2 ^ 32) trackID ++
    encodeDecoderConf ((18 + info.length) % 2 ^ 32) objectType streamType maxBitrate avgBitrate ++
    encodeData 5 (info.length % 2 ^ 32) info ++ encodeData 6 1 [2]

/-- `amp4.Esds` without decoder specific info (codec_boxes.go:992-1021 and so on). -/
def encodeEsdsBare (trackID objectType streamType maxBitrate avgBitrate : Nat) : Bytes :=
  pack [(8, 0), (24, 0)] ++ encodeES 27 trackID ++ encodeDecoderConf 13 objectType streamType maxBitrate avgBitrate ++ encodeData 6 1 [2]

/-- The size of a descriptor: bytes of 7 bits, until one whose first bit is 0. -/
def decodeSize : Nat → Bytes → Nat → Res (Nat × Bytes)
  | 0, _, _ => .err "EOF"
  | n + 1, b, acc => do
    let (f, b) ← unpack [1, 7] b
    if f.getD 0 0 = 0 then .ok (acc * 2 ^ 7 + f.getD 1 0, b) else decodeSize n b (acc * 2 ^ 7 + f.getD 1 0)

/-- `amp4.Descriptor`: what the code looks at. -/
inductive Descriptor where
  | es
  | decoderConf (objectType : Nat)
  | data (tag : Nat) (data : Bytes)
  deriving Repr, DecidableEq

/-- The fields of `amp4.ESDescriptor` after its flags: `DependsOnESID`, the URL and `OCRESID`. -/
def skipES (dep url ocr : Nat) (b : Bytes) : Res Bytes := do
  let (_, b) ← takeBytes (if dep = 0 then 0 else 2) b
  let (f, b) ← unpack [if url = 0 then 0 else 8] b
  let (_, b) ← takeBytes (f.getD 0 0) b
  let (_, b) ← takeBytes (if ocr = 0 then 0 else 2) b
  .ok b

/-- `amp4.ESDescriptor`. -/
def decodeES (b : Bytes) : Res Bytes := do
  let (f, b) ← unpack [16, 1, 1, 1, 5] b
  skipES (f.getD 1 0) (f.getD 2 0) (f.getD 3 0) b

/-- One descriptor after its tag and size. A nested descriptor is not skipped: its children come next in the list. -/
def decodeDescriptor (tag size : Nat) (b : Bytes) : Res (Descriptor × Bytes) :=
  if tag = 3 then do
    let b ← decodeES b
    .ok (.es, b)
  else if tag = 4 then do
    let (f, b) ← unpack [8, 6, 1, 1, 24, 32, 32] b
    .ok (.decoderConf (f.getD 0 0), b)
  else do
    let (data, b) ← takeBytes size b
    .ok (.data tag data, b)

def decodeDescriptors : Nat → Bytes → Res (List Descriptor)
  | 0, b => if b.length = 0 then .ok [] else .err "EOF"
  | n + 1, b =>
    if b.length = 0 then .ok []
    else do
      let (f, b) ← unpack [8] b
      let (size, b) ← decodeSize (b.length + 1) b 0
      let (d, b) ← decodeDescriptor (f.getD 0 0) size b
      let l ← decodeDescriptors n b
      .ok (d :: l)

/-- `Descriptors` of `amp4.Esds`. Every descriptor takes at least one byte. -/
def decodeEsds (b : Bytes) : Res (List Descriptor) := do
  let (_, b) ← unpack [8, 24] b
  decodeDescriptors b.length b

/-- `amp4.DOps` (codec_boxes.go:1039-1043). -/
def encodeDOps (channelCount : Nat) : Bytes := pack [(8, 0), (8, channelCount), (16, 312), (32, 48000), (16, 0), (8, 0)]

/-- `OutputChannelCount` of `amp4.DOps`. -/
def decodeDOps (b : Bytes) : Res Nat := do
  let (f, _) ← unpack [8, 8, 16, 32, 16, 8] b
  .ok (f.getD 1 0)

/-- `amp4.DfLa`. -/
def encodeDfLa (blocks : Bytes) : Bytes := pack [(8, 0), (24, 0)] ++ blocks

/-- `Blocks` of `amp4.DfLa`. -/
def decodeDfLa (b : Bytes) : Res Bytes := do
  let (_, b) ← unpack [8, 24] b
  .ok b

/-- `amp4.Dac3`. -/
def encodeDac3 (fscod bsid bsmod acmod lfeOn bitRateCode : Nat) : Bytes :=
  pack [(2, fscod), (5, bsid), (3, bsmod), (3, acmod), (1, lfeOn), (5, bitRateCode), (5, 0)]

/-- `amp4.Dac3`: its fields. -/
def decodeDac3 (b : Bytes) : Res (List Nat) := do
  let (f, _) ← unpack [2, 5, 3, 3, 1, 5, 5] b
  .ok f

/-- `amp4.Dec3IndSub`. -/
structure IndSub where
  asvc : Nat
  bsmod : Nat
  acmod : Nat
  lfeOn : Nat
  numDepSub : Nat
  chanLoc : Nat
  deriving Repr, DecidableEq

/-- The end of `amp4.Dec3IndSub`: a channel location if there are dependent substreams, a reserved bit otherwise. -/
def encodeDec3 (dataRate fscod asvc bsmod acmod lfeOn numDepSub chanLoc : Nat) : Bytes :=
  pack ([(13, dataRate), (3, 0), (2, fscod), (5, 16), (1, 0), (1, asvc), (3, bsmod), (3, acmod), (1, lfeOn), (3, 0), (4, numDepSub)] ++
    (if numDepSub = 0 then [(1, 0)] else [(9, chanLoc)]))

/-- `ChanLoc`. The 23 bits before it and its first bit are in the bytes that were read; `low` is the last of them. -/
def decodeChanLoc (numDepSub low : Nat) (b : Bytes) : Res (Nat × Bytes) :=
  if numDepSub = 0 then .ok (0, b)
  else do
    let (f, b) ← unpack [8] b
    .ok (low * 2 ^ 8 + f.getD 0 0, b)

def decodeIndSubs : Nat → Bytes → Res (List IndSub)
  | 0, _ => .ok []
  | n + 1, b => do
    let (f, b) ← unpack [2, 5, 1, 1, 3, 3, 1, 3, 4, 1] b
    let (loc, b) ← decodeChanLoc (f.getD 8 0) (f.getD 9 0) b
    let l ← decodeIndSubs n b
    .ok (⟨f.getD 3 0, f.getD 4 0, f.getD 5 0, f.getD 6 0, f.getD 8 0, loc⟩ :: l)

/-- `DataRate`, `NumIndSub` and `IndSubs` of `amp4.Dec3`. There are `NumIndSub + 1` substreams. -/
def decodeDec3 (b : Bytes) : Res (Nat × Nat × List IndSub) := do
  let (f, b) ← unpack [13, 3] b
  let l ← decodeIndSubs (f.getD 1 0 + 1) b
  .ok (f.getD 0 0, f.getD 1 0, l)

/-- `amp4.PcmC`. -/
def encodePcmC (flags size : Nat) : Bytes := pack [(8, 0), (24, 0), (8, flags), (8, size)]

/-- `FormatFlags` and `PCMSampleSize` of `amp4.PcmC`. -/
def decodePcmC (b : Bytes) : Res (Nat × Nat) := do
  let (f, _) ← unpack [8, 24, 8, 8] b
  .ok (f.getD 2 0, f.getD 3 0)

/-- `amp4.Btrt`. -/
def encodeBtrt (maxBitrate avgBitrate : Nat) : Bytes := pack [(32, 0), (32, maxBitrate), (32, avgBitrate)]

/-! ## Boxes of a track -/

/-- The matrix that is written in every header. -/
def unity : List (Nat × Nat) := [(32, 0x10000), (32, 0), (32, 0), (32, 0), (32, 0x10000), (32, 0), (32, 0), (32, 0), (32, 0x40000000)]

/-- `amp4.Mvhd` (init.go:226-232). -/
def encodeMvhd : Bytes :=
  pack ([(8, 0), (24, 0), (32, 0), (32, 0), (32, 1000), (32, 0), (32, 65536), (16, 256), (16, 0), (64, 0)] ++ unity ++
    [(192, 0), (32, 4294967295)])

/-- `amp4.Tkhd`, version 0, flags 3. -/
def encodeTkhd (trackID alternateGroup volume width height : Nat) : Bytes :=
  pack ([(8, 0), (24, 3), (32, 0), (32, 0), (32, trackID), (32, 0), (32, 0), (64, 0), (16, 0), (16, alternateGroup), (16, volume),
    (16, 0)] ++ unity ++ [(32, width), (32, height)])

/-- Widths of the times and of the duration: 64 bits in version 1, 32 bits in version 0. -/
def timeWidth (b : Bytes) : Nat := if b.head? = some 0 then 32 else 64

/-- `TrackID` of `amp4.Tkhd`. -/
def decodeTkhd (b : Bytes) : Res Nat := do
  let w := timeWidth b
  let (f, _) ← unpack [8, 24, w, w, 32, 32, w, 64, 16, 16, 16, 16, 288, 32, 32] b
  .ok (f.getD 4 0)

/-- `amp4.Mdhd`, version 0, language "und". -/
def encodeMdhd (timescale : Nat) : Bytes :=
  pack [(8, 0), (24, 0), (32, 0), (32, 0), (32, timescale), (32, 0), (1, 0), (5, 21), (5, 14), (5, 4), (16, 0)]

/-- `Timescale` of `amp4.Mdhd`. -/
def decodeMdhd (b : Bytes) : Res Nat := do
  let w := timeWidth b
  let (f, _) ← unpack [8, 24, w, w, 32, w, 1, 5, 5, 5, 16] b
  .ok (f.getD 4 0)

/-- `amp4.Hdlr`; the name is a C string. -/
def encodeHdlr (handler : Nat) (name : Bytes) : Bytes := pack [(8, 0), (24, 0), (32, 0), (32, handler), (96, 0)] ++ name ++ [0]

/-- "VideoHandler". -/
def videoHandler : Bytes := [0x56, 0x69, 0x64, 0x65, 0x6F, 0x48, 0x61, 0x6E, 0x64, 0x6C, 0x65, 0x72]

/-- "SoundHandler". -/
def soundHandler : Bytes := [0x53, 0x6F, 0x75, 0x6E, 0x64, 0x48, 0x61, 0x6E, 0x64, 0x6C, 0x65, 0x72]

/-- `amp4.Vmhd`, flags 1. -/
def encodeVmhd : Bytes := pack [(8, 0), (24, 1), (16, 0), (48, 0)]

/-- `amp4.Smhd`. -/
def encodeSmhd : Bytes := pack [(8, 0), (24, 0), (16, 0), (16, 0)]

/-- `amp4.Dref`, `amp4.Stsd`, `amp4.Stts`, `amp4.Stsc` and `amp4.Stco`: a number of entries. -/
def encodeCount (n : Nat) : Bytes := pack [(8, 0), (24, 0), (32, n)]

/-- `amp4.Url`, flags 1. -/
def encodeUrl : Bytes := pack [(8, 0), (24, 1)]

/-- `amp4.Stsz` without samples. -/
def encodeStsz : Bytes := pack [(8, 0), (24, 0), (32, 0), (32, 0)]

/-- `amp4.Trex` (init.go:250-253). -/
def encodeTrex (trackID : Nat) : Bytes := pack [(8, 0), (24, 0), (32, trackID), (32, 1), (32, 0), (32, 0), (32, 0)]

/-- `amp4.Ftyp` (init.go:207-216): mp42, 1, mp41, mp42, isom, hlsf. -/
def encodeFtyp : Bytes := pack [(32, 0x6D703432), (32, 1), (32, 0x6D703431), (32, 0x6D703432), (32, 0x69736F6D), (32, 0x686C7366)]

end Verif.MP4Box
