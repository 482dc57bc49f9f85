import Verif.Model.Bits

/-!
# AC-3, E-AC-3 and MPEG-1/2 audio headers (pkg/codecs/ac3, pkg/codecs/eac3, pkg/codecs/mpeg1audio)
-/

namespace Verif.AC3

/-- pkg/codecs/ac3/sync_info.go:8-47 (`frameSizes`). -/
def frameSizes : List (List Nat) :=
  [[64, 69, 96],
   [64, 70, 96],
   [80, 87, 120],
   [80, 88, 120],
   [96, 104, 144],
   [96, 105, 144],
   [112, 121, 168],
   [112, 122, 168],
   [128, 139, 192],
   [128, 140, 192],
   [160, 174, 240],
   [160, 175, 240],
   [192, 208, 288],
   [192, 209, 288],
   [224, 243, 336],
   [224, 244, 336],
   [256, 278, 384],
   [256, 279, 384],
   [320, 348, 480],
   [320, 349, 480],
   [384, 417, 576],
   [384, 418, 576],
   [448, 487, 672],
   [448, 488, 672],
   [512, 557, 768],
   [512, 558, 768],
   [640, 696, 960],
   [640, 697, 960],
   [768, 835, 1152],
   [768, 836, 1152],
   [896, 975, 1344],
   [896, 976, 1344],
   [1024, 1114, 1536],
   [1024, 1115, 1536],
   [1152, 1253, 1728],
   [1152, 1254, 1728],
   [1280, 1393, 1920],
   [1280, 1394, 1920]]

/-- pkg/codecs/ac3/sync_info.go:51-54 (`SyncInfo`). -/
structure SyncInfo where
  fscod : UInt8
  frmsizecod : UInt8
  deriving Repr, DecidableEq

/-- pkg/codecs/ac3/sync_info.go:57-77 (`SyncInfo.Unmarshal`). -/
def SyncInfo.unmarshal (frame : Bytes) : Res SyncInfo := do
  if frame.length < 5 then .err "not enough bits" else
  let f0 ← idx frame 0
  let f1 ← idx frame 1
  if f0 ≠ 0x0B ∨ f1 ≠ 0x77 then .err "invalid sync word" else
  let f4 ← idx frame 4
  if f4 >>> 6 ≥ 3 then .err "invalid fscod" else
  if f4 &&& 0x3f ≥ 38 then .err "invalid frmsizecod" else
  .ok ⟨f4 >>> 6, f4 &&& 0x3f⟩

/-- pkg/codecs/ac3/sync_info.go:80-82 (`FrameSize`). -/
def SyncInfo.frameSize (s : SyncInfo) : Res Nat := do
  let row ← idx frameSizes s.frmsizecod.toNat
  let v ← idx row s.fscod.toNat
  .ok (v * 2)

/-- pkg/codecs/ac3/sync_info.go:85-94 (`SampleRate`). -/
def SyncInfo.sampleRate (s : SyncInfo) : Nat :=
  if s.fscod = 0 then 48000 else if s.fscod = 1 then 44100 else 32000

/-- pkg/codecs/ac3/bsi.go:11-16 (`BSI`). -/
structure BSI where
  bsid : UInt8
  bsmod : UInt8
  acmod : UInt8
  lfeOn : Bool
  deriving Repr, DecidableEq

/-- `if cond { bits.ReadBitsUnsafe(buf, &pos, 2) }` of pkg/codecs/ac3/bsi.go:36-46: the new position. -/
def skip2 (cond : Bool) (buf : Bytes) (pos : Nat) : Res Nat :=
  if cond then do
    let (_, pos) ← Bits.readBitsUnsafe buf pos 2
    .ok pos
  else .ok pos

/-- pkg/codecs/ac3/bsi.go:19-51 (`BSI.Unmarshal`). -/
def BSI.unmarshal (buf : Bytes) : Res BSI := do
  if buf.length < 2 then .err "not enough bits" else
  let b0 ← idx buf 0
  if b0 >>> 3 > 8 then .err "unsupported bsid" else
  let buf ← sliceFrom buf 1
  let (tmp, pos) ← Bits.readBitsUnsafe buf 0 3
  let acmod := UInt8.ofNat tmp
  let pos ← skip2 (acmod &&& 0x1 ≠ 0 ∧ acmod ≠ 0x1) buf pos
  let pos ← skip2 (acmod &&& 0x4 ≠ 0) buf pos
  let pos ← skip2 (acmod = 0x2) buf pos
  let (lfeOn, _) ← Bits.readFlagUnsafe buf pos
  .ok { bsid := b0 >>> 3, bsmod := b0 &&& 0b111, acmod := acmod, lfeOn := lfeOn }

/-- pkg/codecs/ac3/bsi.go:54-74 (`ChannelCount`). -/
def BSI.channelCount (b : BSI) : Nat :=
  let n :=
    if b.acmod = 1 then 1
    else if b.acmod = 2 ∨ b.acmod = 0 then 2
    else if b.acmod = 3 ∨ b.acmod = 4 then 3
    else if b.acmod = 5 ∨ b.acmod = 6 then 4
    else 5
  if b.lfeOn then n + 1 else n

end Verif.AC3

namespace Verif.EAC3

/-- pkg/codecs/eac3/sync_info.go:11 (`sampleRates`). -/
def sampleRates : List Nat := [48000, 44100, 32000]
/-- pkg/codecs/eac3/sync_info.go:14 (`sampleRates2`). -/
def sampleRates2 : List Nat := [24000, 22050, 16000]
/-- pkg/codecs/eac3/sync_info.go:18-27 (`acmodChannels`). -/
def acmodChannels : List Nat := [2, 1, 2, 3, 3, 4, 4, 5]

/-- pkg/codecs/eac3/sync_info.go:31-50 (`SyncInfo`). -/
structure SyncInfo where
  strmtyp : UInt8
  substreamid : UInt8
  frmsiz : Nat
  fscod : UInt8
  fscod2 : UInt8
  numblkscod : UInt8
  acmod : UInt8
  lfeon : Bool
  bsid : UInt8
  deriving Repr, DecidableEq

/-- pkg/codecs/eac3/sync_info.go:82-94: `fscod2` and `numblkscod` (and the new position). When `fscod ≠ 3` the
field `Fscod2` keeps its previous value, 0 for a fresh struct. -/
def readBlks (frame : Bytes) (pos : Nat) (fscod : UInt8) : Res (UInt8 × UInt8 × Nat) :=
  if fscod = 3 then do
    let (v, pos) ← Bits.readBitsUnsafe frame pos 2
    if UInt8.ofNat v = 3 then .err "invalid fscod2" else .ok (UInt8.ofNat v, 3, pos)
  else do
    let (v, pos) ← Bits.readBitsUnsafe frame pos 2
    .ok (0, UInt8.ofNat v, pos)

/-- pkg/codecs/eac3/sync_info.go:53-109 (`SyncInfo.Unmarshal`), on a fresh struct. -/
def SyncInfo.unmarshal (frame : Bytes) : Res SyncInfo := do
  if frame.length < 8 then .err "not enough bytes" else
  let f0 ← idx frame 0
  let f1 ← idx frame 1
  if f0 ≠ 0x0B ∨ f1 ≠ 0x77 then .err "invalid sync word" else
  let (strmtyp, pos) ← Bits.readBitsUnsafe frame 16 2
  let (substreamid, pos) ← Bits.readBitsUnsafe frame pos 3
  let (frmsiz, pos) ← Bits.readBitsUnsafe frame pos 11
  let (fscod, pos) ← Bits.readBitsUnsafe frame pos 2
  let (fscod2, numblkscod, pos) ← readBlks frame pos (UInt8.ofNat fscod)
  let (acmod, pos) ← Bits.readBitsUnsafe frame pos 3
  let (lfeon, pos) ← Bits.readFlagUnsafe frame pos
  let (bsid, _) ← Bits.readBitsUnsafe frame pos 5
  if UInt8.ofNat bsid ≠ 16 then .err "invalid bsid for E-AC-3" else
  .ok
    { strmtyp := UInt8.ofNat strmtyp, substreamid := UInt8.ofNat substreamid, frmsiz := frmsiz % 2 ^ 16,
      fscod := UInt8.ofNat fscod, fscod2 := fscod2, numblkscod := numblkscod, acmod := UInt8.ofNat acmod,
      lfeon := lfeon, bsid := UInt8.ofNat bsid }

/-- pkg/codecs/eac3/sync_info.go:112-115 (`FrameSize`). -/
def SyncInfo.frameSize (s : SyncInfo) : Nat := (s.frmsiz + 1) * 2

/-- pkg/codecs/eac3/sync_info.go:118-129 (`SampleRate`). -/
def SyncInfo.sampleRate (s : SyncInfo) : Res Nat :=
  if s.fscod = 3 then
    if s.fscod2.toNat < sampleRates2.length then idx sampleRates2 s.fscod2.toNat else .ok 0
  else if s.fscod.toNat < sampleRates.length then idx sampleRates s.fscod.toNat
  else .ok 0

/-- pkg/codecs/eac3/sync_info.go:132-141 (`ChannelCount`). -/
def SyncInfo.channelCount (s : SyncInfo) : Nat :=
  let channels := if s.acmod.toNat < acmodChannels.length then acmodChannels.getD s.acmod.toNat 0 else 0
  if s.lfeon then channels + 1 else channels

/-- pkg/codecs/eac3/sync_info.go:145-156 (`NumBlocks`). -/
def SyncInfo.numBlocks (s : SyncInfo) : Nat :=
  if s.numblkscod = 0 then 1 else if s.numblkscod = 1 then 2 else if s.numblkscod = 2 then 3 else 6

end Verif.EAC3

namespace Verif.MPEG1Audio

/-- pkg/codecs/mpeg1audio/frame_header.go:8-85 (`bitrates`). -/
def bitrates : List (List (List Nat)) :=
  [[[],
    [32000, 48000, 56000, 64000, 80000, 96000, 112000, 128000, 160000, 192000, 224000, 256000, 320000, 384000],
    [32000, 40000, 48000, 56000, 64000, 80000, 96000, 112000, 128000, 160000, 192000, 224000, 256000, 320000]],
   [[],
    [8000, 16000, 24000, 32000, 40000, 48000, 56000, 64000, 80000, 96000, 112000, 128000, 144000, 160000],
    [8000, 16000, 24000, 32000, 40000, 48000, 56000, 64000, 80000, 96000, 112000, 128000, 144000, 160000]]]

/-- pkg/codecs/mpeg1audio/frame_header.go:87-100 (`sampleRates`). -/
def sampleRates : List (List Nat) := [[44100, 48000, 32000], [22050, 24000, 16000]]

/-- pkg/codecs/mpeg1audio/frame_header.go:102-115 (`samplesPerFrame`). -/
def samplesPerFrame : List (List Nat) := [[384, 1152, 1152], [384, 1152, 576]]

/-- pkg/codecs/mpeg1audio/frame_header.go:130-137 (`FrameHeader`). -/
structure FrameHeader where
  mpeg2 : Bool
  layer : UInt8
  bitrate : Nat
  sampleRate : Nat
  padding : Bool
  channelMode : UInt8
  deriving Repr, DecidableEq

/-- The `mpegIndex` of pkg/codecs/mpeg1audio/frame_header.go:152-157. -/
def mpegIndex (mpeg2 : Bool) : Nat := if mpeg2 then 1 else 0

/-- pkg/codecs/mpeg1audio/frame_header.go:140-182 (`FrameHeader.Unmarshal`). -/
def FrameHeader.unmarshal (buf : Bytes) : Res FrameHeader := do
  if buf.length < 5 then .err "not enough bytes" else
  let b0 ← idx buf 0
  let b1 ← idx buf 1
  if b0.toUInt16 <<< 4 ||| b1.toUInt16 >>> 4 ≠ 0x0FFF then .err "sync word not found" else
  let mpeg2 : Bool := (b1 >>> 3) &&& 0x01 = 0
  let layer : UInt8 := (4 : UInt8) - ((b1 >>> 1) &&& 0b11)
  if layer ≤ 1 ∨ layer ≥ 4 then .err "unsupported MPEG layer" else
  let b2 ← idx buf 2
  let bitrateIndex := b2 >>> 4
  if bitrateIndex = 0 ∨ bitrateIndex ≥ 15 then .err "invalid bitrate" else
  let t ← idx bitrates (mpegIndex mpeg2)
  let t ← idx t (layer - 1).toNat
  let bitrate ← idx t (bitrateIndex - 1).toNat
  let sampleRateIndex := (b2 >>> 2) &&& 0b11
  if sampleRateIndex ≥ 3 then .err "invalid sample rate" else
  let t ← idx sampleRates (mpegIndex mpeg2)
  let sampleRate ← idx t sampleRateIndex.toNat
  let b3 ← idx buf 3
  .ok
    { mpeg2 := mpeg2, layer := layer, bitrate := bitrate, sampleRate := sampleRate,
      padding := (b2 >>> 1) &&& 0b1 ≠ 0, channelMode := b3 >>> 6 }

/-- pkg/codecs/mpeg1audio/frame_header.go:185-190 (`FrameLen`), with Go's divide-by-zero panic. -/
def FrameHeader.frameLen (h : FrameHeader) : Res Nat :=
  if h.sampleRate = 0 then .panic
  else if h.padding then .ok (144 * h.bitrate / h.sampleRate + 1)
  else .ok (144 * h.bitrate / h.sampleRate)

/-- pkg/codecs/mpeg1audio/frame_header.go:193-202 (`SampleCount`). -/
def FrameHeader.sampleCount (h : FrameHeader) : Res Nat := do
  let t ← idx samplesPerFrame (mpegIndex h.mpeg2)
  idx t (h.layer - 1).toNat

/-- pkg/formats/mpegts/reader.go:385-404 (the loop of `OnDataMPEG1Audio`). Errors stand for `r.onDecodeError(err);
return nil`. The fuel bounds the number of iterations; running out of it stands for the endless loop of a
zero-length frame and is reported as a panic. -/
def splitLoop : Nat → Bytes → List Bytes → Res (List Bytes)
  | 0, data, frames => if data.length = 0 then .ok frames else .panic
  | fuel + 1, data, frames =>
    if data.length = 0 then .ok frames else do
      let h ← FrameHeader.unmarshal data
      let fl ← h.frameLen
      if data.length < fl then .err "buffer is too short" else
      let frame ← slice data 0 fl
      let data ← sliceFrom data fl
      splitLoop fuel data (frames ++ [frame])

/-- pkg/formats/mpegts/reader.go:383-406: frames handed to the callback. -/
def split (data : Bytes) : Res (List Bytes) := splitLoop data.length data []

end Verif.MPEG1Audio
