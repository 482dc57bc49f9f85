import Verif.Model.MP4Boxes
import Verif.Model.AV1Seq
import Verif.Model.H264SPS
import Verif.Model.H265SPS
import Verif.Model.MPEG4Config
import Verif.Model.FlacOpus

/-!
# Model: internal/mp4/codec_info.go, internal/mp4/codec_boxes.go

Codecs of /repo/pkg/formats/mp4/codecs. `int` fields are integers, `uint8` and `uint16` fields natural numbers, that are truncated when
they are written.
-/

namespace Verif.MP4Codec
open MP4Box
open MP4Writer
open FMP4 (u32)
open Readers (SBuf)

/-- codecs/ac3.go. -/
structure AC3 where
  sampleRate : Int
  channelCount : Int
  fscod : Nat
  bsid : Nat
  bsmod : Nat
  acmod : Nat
  lfeOn : Bool
  bitRateCode : Nat
  deriving Repr, DecidableEq

/-- codecs/eac3.go. -/
structure EAC3 where
  sampleRate : Int
  channelCount : Int
  dataRate : Nat
  asvc : Bool
  bsmod : Nat
  acmod : Nat
  lfeOn : Bool
  numDepSub : Nat
  chanLoc : Nat
  deriving Repr, DecidableEq

/-- codecs/vp9.go. -/
structure VP9 where
  width : Int
  height : Int
  profile : Nat
  bitDepth : Nat
  chromaSubsampling : Nat
  colorRange : Bool
  deriving Repr, DecidableEq

/-- codecs/lpcm.go. -/
structure LPCM where
  littleEndian : Bool
  bitDepth : Int
  sampleRate : Int
  channelCount : Int
  deriving Repr, DecidableEq

/-- codecs/codec.go: the types that implement `Codec`. -/
inductive Codec where
  | av1 (sequenceHeader : Bytes)
  | vp9 (c : VP9)
  | h265 (vps sps pps : Bytes)
  | h264 (sps pps : Bytes)
  | mpeg4Video (config : Bytes)
  | mpeg1Video (config : Bytes)
  | mjpeg (width height : Int)
  | opus (channelCount : Int)
  | flac (streamInfo : Option Flac.StreamInfo)
  | mpeg4Audio (config : MPEG4Audio.ASC)
  | mpeg1Audio (sampleRate channelCount : Int)
  | ac3 (c : AC3)
  | eac3 (c : EAC3)
  | lpcm (c : LPCM)
  deriving Repr, DecidableEq

/-- `IsVideo` of the codecs. -/
def Codec.isVideo : Codec → Bool
  | .av1 _ | .vp9 _ | .h265 .. | .h264 .. | .mpeg4Video _ | .mpeg1Video _ | .mjpeg .. => true
  | _ => false

/-! ## CodecInfo -/

/-- codec_info.go:13-19 (`CodecInfo`); `none` is a nil pointer. -/
structure CodecInfo where
  width : Int := 0
  height : Int := 0
  av1 : Option AV1.SequenceHeader := none
  h265 : Option H265.SPS := none
  h264 : Option H264.SPS := none
  deriving Repr, DecidableEq

/-- codec_info.go:22-113 (`CodecInfo.Fill`), on an empty receiver; `none` is a nil interface. -/
def fill : Option Codec → Res CodecInfo
  | none => .err "unsupported codec"
  | some (.av1 sh) => do
    let h ← ({} : AV1.SequenceHeader).unmarshal sh
    .ok { width := h.width, height := h.height, av1 := some h }
  | some (.vp9 c) => if c.width = 0 then .err "VP9 parameters not provided" else .ok { width := c.width, height := c.height }
  | some (.h265 vps sps pps) =>
    if vps.length = 0 ∨ sps.length = 0 ∨ pps.length = 0 then .err "H265 parameters not provided"
    else do
      let s ← ({} : H265.SPS).unmarshal sps
      let w ← s.width
      let h ← s.height
      .ok { width := w, height := h, h265 := some s }
  | some (.h264 sps pps) =>
    if sps.length = 0 ∨ pps.length = 0 then .err "H264 parameters not provided"
    else do
      let s ← ({} : H264.SPS).unmarshal sps
      .ok { width := s.width, height := s.height, h264 := some s }
  | some (.mpeg4Video config) => if config.length = 0 then .err "config not provided" else .ok { width := 800, height := 600 }
  | some (.mpeg1Video config) => if config.length = 0 then .err "config not provided" else .ok { width := 800, height := 600 }
  | some (.mjpeg w h) => if w = 0 then .err "M-JPEG parameters not provided" else .ok { width := w, height := h }
  | some _ => .ok {}

/-! ## Writing -/

def typAv01 : Bytes := [0x61, 0x76, 0x30, 0x31]
def typAv1C : Bytes := [0x61, 0x76, 0x31, 0x43]
def typVp09 : Bytes := [0x76, 0x70, 0x30, 0x39]
def typVpcC : Bytes := [0x76, 0x70, 0x63, 0x43]
def typHvc1 : Bytes := [0x68, 0x76, 0x63, 0x31]
def typHev1 : Bytes := [0x68, 0x65, 0x76, 0x31]
def typHvcC : Bytes := [0x68, 0x76, 0x63, 0x43]
def typAvc1 : Bytes := [0x61, 0x76, 0x63, 0x31]
def typAvcC : Bytes := [0x61, 0x76, 0x63, 0x43]
def typMp4v : Bytes := [0x6D, 0x70, 0x34, 0x76]
def typMp4a : Bytes := [0x6D, 0x70, 0x34, 0x61]
def typEsds : Bytes := [0x65, 0x73, 0x64, 0x73]
def typOpus : Bytes := [0x4F, 0x70, 0x75, 0x73]
def typDOps : Bytes := [0x64, 0x4F, 0x70, 0x73]
def typFlac : Bytes := [0x66, 0x4C, 0x61, 0x43]
def typDfLa : Bytes := [0x64, 0x66, 0x4C, 0x61]
def typAc3 : Bytes := [0x61, 0x63, 0x2D, 0x33]
def typDac3 : Bytes := [0x64, 0x61, 0x63, 0x33]
def typEc3 : Bytes := [0x65, 0x63, 0x2D, 0x33]
def typDec3 : Bytes := [0x64, 0x65, 0x63, 0x33]
def typIpcm : Bytes := [0x69, 0x70, 0x63, 0x6D]
def typPcmC : Bytes := [0x70, 0x63, 0x6D, 0x43]
def typC608 : Bytes := [0x63, 0x36, 0x30, 0x38]

/-- A nil pointer is dereferenced. -/
def deref {α : Type} : Option α → Res α
  | none => .panic
  | some a => .ok a

/-- codec_boxes.go:1086-1101: the channel count of MPEG-4 audio, a `uint16`. -/
def ascChannels (c : MPEG4Audio.ASC) : Res Nat :=
  if c.channelCount ≠ 0 then .ok (c.channelCount % 2 ^ 16)
  else if c.channelConfig ≥ 1 ∧ c.channelConfig ≤ 6 then .ok c.channelConfig
  else if c.channelConfig = 7 then .ok 8
  else .err "MPEG-4 audio channelConfig = 0 is not supported (yet)"

/-- codec_boxes.go:655-1308: type and payload of the sample entry. -/
def sampleEntry (info : CodecInfo) : Codec → Res (Bytes × Bytes)
  | .av1 _ => .ok (typAv01, encodeVisual (u16 info.width) (u16 info.height))
  | .vp9 _ => .ok (typVp09, encodeVisual (u16 info.width) (u16 info.height))
  | .h265 .. => .ok (typHvc1, encodeVisual (u16 info.width) (u16 info.height))
  | .h264 .. => .ok (typAvc1, encodeVisual (u16 info.width) (u16 info.height))
  | .mpeg4Video _ => .ok (typMp4v, encodeVisual (u16 info.width) (u16 info.height))
  | .mpeg1Video _ => .ok (typMp4v, encodeVisual (u16 info.width) (u16 info.height))
  | .mjpeg .. => .ok (typMp4v, encodeVisual (u16 info.width) (u16 info.height))
  | .opus cc => .ok (typOpus, encodeAudio (u16 cc) 16 (48000 * 65536))
  | .flac si => do
    let si ← deref si
    .ok (typFlac, encodeAudio si.channelCount.toNat si.bitDepth.toNat (si.sampleRate * 65536 % 2 ^ 32))
  | .mpeg4Audio c => do
    let cc ← ascChannels c
    .ok (typMp4a, encodeAudio cc 16 (c.sampleRate * 65536 % 2 ^ 32))
  | .mpeg1Audio rate cc => .ok (typMp4a, encodeAudio (u16 cc) 16 (u32 (rate * 65536)))
  | .ac3 c => .ok (typAc3, encodeAudio (u16 c.channelCount) 16 (u32 (c.sampleRate * 65536)))
  | .eac3 c => .ok (typEc3, encodeAudio (u16 c.channelCount) 16 (u32 (c.sampleRate * 65536)))
  | .lpcm c => .ok (typIpcm, encodeAudio (u16 c.channelCount) (u16 c.bitDepth) (u32 (c.sampleRate * 65536)))

/-- codec_boxes.go:682-695: `av1C`. -/
def av1Config (h : AV1.SequenceHeader) (obus : Bytes) : Res Bytes := do
  let level ← idx h.seqLevelIdx 0
  let tier ← idx h.seqTier 0
  let c := h.colorConfig
  .ok (encodeAv1C h.seqProfile level (bit tier) (bit c.highBitDepth) (bit c.twelveBit) (bit c.monoChrome) (bit c.subsamplingX)
    (bit c.subsamplingY) c.chromaSamplePosition obus)

/-- codec_boxes.go:758-761: the constraint indicators, which are bytes of the SPS as it is. -/
def constraintBytes (sps : Bytes) : Res Bytes := do
  let b7 ← idx sps 7
  let b8 ← idx sps 8
  let b9 ← idx sps 9
  let b10 ← idx sps 10
  let b11 ← idx sps 11
  let b12 ← idx sps 12
  .ok [b7, b8, b9, b10, b11, b12]

/-- codec_boxes.go:754-802: `hvcC`. -/
def h265Config (s : H265.SPS) (vps sps pps : Bytes) : Res Bytes := do
  let constraint ← constraintBytes sps
  .ok (encodeHvcC s.profileTierLevel.generalProfileIdc s.profileTierLevel.generalProfileCompatibilityFlag constraint
    s.profileTierLevel.generalLevelIdc s.chromaFormatIdc s.bitDepthLumaMinus8 s.bitDepthChromaMinus8 vps sps pps)

/-- codec_boxes.go:830-857: `avcC`. -/
def h264Config (s : H264.SPS) (sps pps : Bytes) : Res Bytes := do
  let b2 ← idx sps 2
  .ok (encodeAvcC s.profileIdc b2.toNat s.levelIdc sps pps)

/-- codec_boxes.go:1064-1080: `dfLa`. The block header says: last block, STREAMINFO, length. -/
def flacConfig (si : Flac.StreamInfo) : Bytes :=
  encodeDfLa (pack [(8, 0x80), (24, (Flac.marshal si).length)] ++ Flac.marshal si)

/-- codec_boxes.go:1118: the error of `Marshal` is ignored. -/
def ascBytes (c : MPEG4Audio.ASC) : Res Bytes :=
  match c.marshal with
  | .ok b => .ok b
  | .err _ => .ok []
  | .panic => .panic

/-- codec_boxes.go:1219-1229, 1264-1274: `fscod`. -/
def fscodOf (rate : Int) : Res Nat :=
  if rate = 48000 then .ok 0
  else if rate = 44100 then .ok 1
  else if rate = 32000 then .ok 2
  else .err "unsupported sample rate"

/-- codec_boxes.go:655-1321: type and payload of the configuration box. Object types and stream types are those of
internal/mp4/object_type_indication.go and stream_type.go. -/
def configBox (trackID : Int) (info : CodecInfo) (avgBitrate maxBitrate : Nat) : Codec → Res (Bytes × Bytes)
  | .av1 sh => do
    let obus ← AV1.bitstreamMarshal [sh]
    let h ← deref info.av1
    let p ← av1Config h obus
    .ok (typAv1C, p)
  | .vp9 c => .ok (typVpcC, encodeVpcC c.profile c.bitDepth c.chromaSubsampling (bit c.colorRange))
  | .h265 vps sps pps => do
    let s ← deref info.h265
    let p ← h265Config s vps sps pps
    .ok (typHvcC, p)
  | .h264 sps pps => do
    let s ← deref info.h264
    let p ← h264Config s sps pps
    .ok (typAvcC, p)
  | .mpeg4Video config => .ok (typEsds, encodeEsds (u16 trackID) 0x20 4 maxBitrate avgBitrate config)
  | .mpeg1Video config => .ok (typEsds, encodeEsds (u16 trackID) 0x61 4 maxBitrate avgBitrate config)
  | .mjpeg .. => .ok (typEsds, encodeEsdsBare (u16 trackID) 0x6C 4 maxBitrate avgBitrate)
  | .opus cc => .ok (typDOps, encodeDOps (u8 cc))
  | .flac si => do
    let si ← deref si
    .ok (typDfLa, flacConfig si)
  | .mpeg4Audio c => do
    let enc ← ascBytes c
    .ok (typEsds, encodeEsds (u16 trackID) 0x40 5 maxBitrate avgBitrate enc)
  | .mpeg1Audio .. => .ok (typEsds, encodeEsdsBare (u16 trackID) 0x6B 5 maxBitrate avgBitrate)
  | .ac3 c => do
    let fscod ← fscodOf c.sampleRate
    .ok (typDac3, encodeDac3 fscod c.bsid c.bsmod c.acmod (bit c.lfeOn) c.bitRateCode)
  | .eac3 c => do
    let fscod ← fscodOf c.sampleRate
    .ok (typDec3, encodeDec3 c.dataRate fscod (bit c.asvc) c.bsmod c.acmod (bit c.lfeOn) c.numDepSub c.chanLoc)
  | .lpcm c => .ok (typPcmC, encodePcmC (bit c.littleEndian) (u8 c.bitDepth))

/-- codec_boxes.go:628-1328 (`WriteCodecBoxes`): the sample entry is left open; its position and type are returned. -/
def writeCodecBoxes (f : SBuf) (codec : Codec) (trackID : Int) (info : CodecInfo) (avgBitrate maxBitrate : Nat) :
    Res (Int × Bytes × SBuf) := do
  let (typ, entry) ← sampleEntry info codec
  let (off, f) ← writeBoxStart f typ entry
  let (ctyp, config) ← configBox trackID info avgBitrate maxBitrate codec
  let (_, f) ← writeBox f ctyp config
  .ok (off, typ, f)

/-! ## Reading -/

/-- The error of a call is returned, with a text in front of it in some cases; what is in the text is not modelled. -/
def orError {α : Type} (text : String) : Res α → Res α
  | .ok a => .ok a
  | .err _ => .err text
  | .panic => .panic

/-- codec_boxes.go:33-47: the loop of `av1FindSequenceHeader`. -/
def firstSequenceHeader : List Bytes → Res Bytes
  | [] => .err "AV1 sequence header not found"
  | obu :: l => do
    let b ← idx obu 0
    if (b >>> 3) &&& 0b1111 = 1 then do
      let _ ← orError "invalid AV1 sequence header" (({} : AV1.SequenceHeader).unmarshal obu)
      .ok obu
    else firstSequenceHeader l

/-- codec_boxes.go:26-48 (`av1FindSequenceHeader`). -/
def av1FindSequenceHeader (buf : Bytes) : Res Bytes := do
  let tu ← orError "invalid AV1 bitstream" (AV1.bitstreamUnmarshal buf)
  firstSequenceHeader tu

/-- codec_boxes.go:50-77 (`h264FindParams`). -/
def h264FindParams (sps pps : List Bytes) : Res (Bytes × Bytes) :=
  if sps.length = 0 then .err "H264 SPS not provided"
  else if sps.length > 1 then .err "multiple H264 SPS are not supported"
  else if pps.length = 0 then .err "H264 PPS not provided"
  else if pps.length > 1 then .err "multiple H264 PPS are not supported"
  else do
    let s ← idx sps 0
    let _ ← orError "unable to parse H264 SPS" (({} : H264.SPS).unmarshal s)
    let p ← idx pps 0
    if p.length = 0 then .err "invalid H264 PPS" else .ok (s, p)

/-- codec_boxes.go:84-109: one array of the loop of `h265FindParams`; the parameters found so far. -/
def h265Array (arr : NaluArray) (vps sps pps : Bytes) : Res (Bytes × Bytes × Bytes) :=
  if arr.naluType = 32 ∨ arr.naluType = 33 ∨ arr.naluType = 34 then
    if arr.numNalus ≠ 1 then .err "multiple H265 VPS/SPS/PPS are not supported"
    else do
      let n ← idx arr.nalus 0
      if arr.naluType = 32 then .ok (n, sps, pps)
      else if arr.naluType = 33 then do
        let _ ← orError "unable to parse H265 SPS" (({} : H265.SPS).unmarshal n)
        .ok (vps, n, pps)
      else .ok (vps, sps, n)
  else .ok (vps, sps, pps)

def h265Arrays : List NaluArray → Bytes → Bytes → Bytes → Res (Bytes × Bytes × Bytes)
  | [], vps, sps, pps => .ok (vps, sps, pps)
  | arr :: l, vps, sps, pps => do
    let (vps, sps, pps) ← h265Array arr vps sps pps
    h265Arrays l vps sps pps

/-- codec_boxes.go:79-123 (`h265FindParams`). -/
def h265FindParams (params : List NaluArray) : Res (Bytes × Bytes × Bytes) := do
  let (vps, sps, pps) ← h265Arrays params [] [] []
  if vps.length = 0 then .err "H265 VPS not provided"
  else if sps.length = 0 then .err "H265 SPS not provided"
  else if pps.length = 0 then .err "H265 PPS not provided"
  else .ok (vps, sps, pps)

/-- codec_boxes.go:125-132 (`esdsFindDecoderConf`). -/
def esdsFindDecoderConf : List Descriptor → Option Nat
  | [] => none
  | .decoderConf t :: _ => some t
  | _ :: l => esdsFindDecoderConf l

/-- codec_boxes.go:134-141 (`esdsFindDecoderSpecificInfo`); the empty list when there is none. -/
def esdsFindDecoderSpecificInfo : List Descriptor → Bytes
  | [] => []
  | .data tag d :: l => if tag = 5 then d else esdsFindDecoderSpecificInfo l
  | _ :: l => esdsFindDecoderSpecificInfo l

/-- codec_boxes.go:143-159 (`readState`). -/
inductive RState where
  | initial | waitingAv1C | waitingVpcC | waitingHvcC | waitingAvcC | waitingVideoEsds | waitingAudioEsds | waitingDOps | waitingDac3
  | waitingDec3 | waitingPcmC | waitingDfLa | waitingAdditional
  deriving Repr, DecidableEq

/-- codec_boxes.go:162-170 (`CodecBoxesReader`). -/
structure CodecReader where
  codec : Option Codec := none
  state : RState := .initial
  width : Nat := 0
  height : Nat := 0
  sampleRate : Nat := 0
  channelCount : Nat := 0
  deriving Repr, DecidableEq

/-- What `Read` does besides failing: `ErrReadEnded`, return, or `return h.Expand()`. -/
inductive Action where
  | ended
  | done (r : CodecReader)
  | expand (r : CodecReader)
  deriving Repr, DecidableEq

/-- A video sample entry that is only expanded (`avc1`, `hvc1`, `hev1`, `av01`), and `Opus`. -/
def CodecReader.enter (r : CodecReader) (next : RState) : Res Action :=
  if r.state ≠ .initial then .err "unexpected box" else .ok (.expand { r with state := next })

/-- codec_boxes.go:221-239: `vp09`. -/
def CodecReader.enterVp09 (r : CodecReader) (payload : Bytes) : Res Action :=
  if r.state ≠ .initial then .err "unexpected box"
  else do
    let (w, h) ← decodeVisual payload
    if w = 0 ∨ h = 0 then .err "VP9 parameters not provided"
    else .ok (.expand { r with width := w, height := h, state := .waitingVpcC })

/-- codec_boxes.go:404-418: `mp4v`. -/
def CodecReader.enterMp4v (r : CodecReader) (payload : Bytes) : Res Action :=
  if r.state ≠ .initial then .err "unexpected box"
  else do
    let (w, h) ← decodeVisual payload
    .ok (.expand { r with width := w, height := h, state := .waitingVideoEsds })

/-- An audio sample entry: `mp4a`, `fLaC`, `ac-3`, `ec-3`, `ipcm`. -/
def CodecReader.enterAudio (r : CodecReader) (payload : Bytes) (next : RState) : Res Action :=
  if r.state ≠ .initial then .err "unexpected box"
  else do
    let (cc, rate) ← decodeAudio payload
    .ok (.expand { r with sampleRate := rate / 65536, channelCount := cc, state := next })

/-- The codec is known. -/
def CodecReader.found (r : CodecReader) (c : Codec) : Res Action := .ok (.done { r with codec := some c, state := .waitingAdditional })

/-- codec_boxes.go:432-470: `esds` of a video track. -/
def CodecReader.videoEsds (r : CodecReader) (objectType : Nat) (spec : Bytes) : Res Action :=
  if objectType = 0x20 then
    if spec.length = 0 then .err "unable to find decoder specific info" else r.found (.mpeg4Video spec)
  else if objectType = 0x61 then
    if spec.length = 0 then .err "unable to find decoder specific info" else r.found (.mpeg1Video spec)
  else if objectType = 0x6C then
    if r.width = 0 ∨ r.height = 0 then .err "M-JPEG parameters not provided" else r.found (.mjpeg r.width r.height)
  else .err "unsupported object type indication"

/-- codec_boxes.go:472-500: `esds` of an audio track. -/
def CodecReader.audioEsds (r : CodecReader) (objectType : Nat) (spec : Bytes) : Res Action :=
  if objectType = 0x40 then
    if spec.length = 0 then .err "unable to find decoder specific info"
    else do
      let c ← orError "invalid MPEG-4 Audio configuration" (MPEG4Audio.ASC.unmarshal spec)
      r.found (.mpeg4Audio c)
  else if objectType = 0x6B then r.found (.mpeg1Audio r.sampleRate r.channelCount)
  else .err "unsupported object type indication"

/-- codec_boxes.go:420-504: `esds`. -/
def CodecReader.readEsds (r : CodecReader) (payload : Bytes) : Res Action := do
  let l ← decodeEsds payload
  match esdsFindDecoderConf l with
  | none => .err "unable to find decoder config"
  | some objectType =>
    match r.state with
    | .waitingVideoEsds => r.videoEsds objectType (esdsFindDecoderSpecificInfo l)
    | .waitingAudioEsds => r.audioEsds objectType (esdsFindDecoderSpecificInfo l)
    | _ => .err "unexpected box"

/-- codec_boxes.go:199-219: `avcC`. -/
def CodecReader.readAvcC (r : CodecReader) (payload : Bytes) : Res Action :=
  if r.state ≠ .waitingAvcC then .err "unexpected box"
  else do
    let (s, p) ← decodeAvcC payload
    let (sps, pps) ← h264FindParams s p
    r.found (.h264 sps pps)

/-- codec_boxes.go:241-260: `vpcC`. -/
def CodecReader.readVpcC (r : CodecReader) (payload : Bytes) : Res Action :=
  if r.state ≠ .waitingVpcC then .err "unexpected box"
  else do
    let (profile, depth, chroma, range) ← decodeVpcC payload
    r.found (.vp9 ⟨r.width, r.height, profile, depth, chroma, range ≠ 0⟩)

/-- codec_boxes.go:270-291: `hvcC`. -/
def CodecReader.readHvcC (r : CodecReader) (payload : Bytes) : Res Action :=
  if r.state ≠ .waitingHvcC then .err "unexpected box"
  else do
    let l ← decodeHvcC payload
    let (vps, sps, pps) ← h265FindParams l
    r.found (.h265 vps sps pps)

/-- codec_boxes.go:317-336: `av1C`. -/
def CodecReader.readAv1C (r : CodecReader) (payload : Bytes) : Res Action :=
  if r.state ≠ .waitingAv1C then .err "unexpected box"
  else do
    let obus ← decodeAv1C payload
    let sh ← av1FindSequenceHeader obus
    r.found (.av1 sh)

/-- codec_boxes.go:346-360: `dOps`. -/
def CodecReader.readDOps (r : CodecReader) (payload : Bytes) : Res Action :=
  if r.state ≠ .waitingDOps then .err "unexpected box"
  else do
    let cc ← decodeDOps payload
    r.found (.opus cc)

/-- codec_boxes.go:378-402: `dfLa`. -/
def CodecReader.readDfLa (r : CodecReader) (payload : Bytes) : Res Action :=
  if r.state ≠ .waitingDfLa then .err "unexpected box"
  else do
    let blocks ← decodeDfLa payload
    if blocks.length < 4 then .err "FLAC dfLa box is too short"
    else do
      let block ← sliceFrom blocks 4
      let si ← orError "invalid FLAC stream info" (Flac.unmarshal block)
      r.found (.flac (some si))

/-- codec_boxes.go:522-543: `dac3`. -/
def CodecReader.readDac3 (r : CodecReader) (payload : Bytes) : Res Action :=
  if r.state ≠ .waitingDac3 then .err "unexpected box"
  else do
    let f ← decodeDac3 payload
    r.found (.ac3 ⟨r.sampleRate, r.channelCount, f.getD 0 0, f.getD 1 0, f.getD 2 0, f.getD 3 0, f.getD 4 0 ≠ 0, f.getD 5 0⟩)

/-- codec_boxes.go:561-587: `dec3`. -/
def CodecReader.readDec3 (r : CodecReader) (payload : Bytes) : Res Action :=
  if r.state ≠ .waitingDec3 then .err "unexpected box"
  else do
    let (rate, num, subs) ← decodeDec3 payload
    if num ≠ 0 then .err "multi-substream E-AC-3 content is not supported"
    else do
      let s ← idx subs 0
      r.found (.eac3 ⟨r.sampleRate, r.channelCount, rate, s.asvc ≠ 0, s.bsmod, s.acmod, s.lfeOn ≠ 0, s.numDepSub, s.chanLoc⟩)

/-- codec_boxes.go:605-622: `pcmC`. -/
def CodecReader.readPcmC (r : CodecReader) (payload : Bytes) : Res Action :=
  if r.state ≠ .waitingPcmC then .err "unexpected box"
  else do
    let (flags, size) ← decodePcmC payload
    r.found (.lpcm ⟨flags % 2 = 1, size, r.sampleRate, r.channelCount⟩)

/-- codec_boxes.go:182-623: the `switch` on the type of the box. -/
def CodecReader.readBox (r : CodecReader) (typ payload : Bytes) : Res Action :=
  if typ = typC608 then (if r.state ≠ .initial then .err "unexpected box" else .ok (.done { r with state := .waitingAdditional }))
  else if typ = typAvc1 then r.enter .waitingAvcC
  else if typ = typAvcC then r.readAvcC payload
  else if typ = typVp09 then r.enterVp09 payload
  else if typ = typVpcC then r.readVpcC payload
  else if typ = typHvc1 ∨ typ = typHev1 then r.enter .waitingHvcC
  else if typ = typHvcC then r.readHvcC payload
  else if typ = typMp4a then r.enterAudio payload .waitingAudioEsds
  else if typ = typAv01 then r.enter .waitingAv1C
  else if typ = typAv1C then r.readAv1C payload
  else if typ = typOpus then r.enter .waitingDOps
  else if typ = typDOps then r.readDOps payload
  else if typ = typFlac then r.enterAudio payload .waitingDfLa
  else if typ = typDfLa then r.readDfLa payload
  else if typ = typMp4v then r.enterMp4v payload
  else if typ = typEsds then r.readEsds payload
  else if typ = typAc3 then r.enterAudio payload .waitingDac3
  else if typ = typDac3 then r.readDac3 payload
  else if typ = typEc3 then r.enterAudio payload .waitingDec3
  else if typ = typDec3 then r.readDec3 payload
  else if typ = typIpcm then r.enterAudio payload .waitingPcmC
  else if typ = typPcmC then r.readPcmC payload
  else .ok (.done r)

/-- codec_boxes.go:172-626 (`CodecBoxesReader.Read`); `depth` is `len(h.Path)`. -/
def CodecReader.read (r : CodecReader) (depth : Nat) (typ payload : Bytes) : Res Action :=
  if depth < 7 then (if r.state ≠ .waitingAdditional then .err "codec information not found" else .ok .ended)
  else r.readBox typ payload

end Verif.MP4Codec
