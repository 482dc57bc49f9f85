import Verif.Model.MPEG4Config
import Verif.Model.StepM
import Verif.Model.AV1
import Verif.Model.TSMetadata
import Verif.Model.TSOpus
import Verif.Model.AudioHeaders

/-!
# Decoding into a value that has been used before

The other model files decode into fresh values. Here are the same functions on a value `old`, for the types with fields that are not always
assigned, and for the types that append to what they hold. H264 and H265 SPS, VP9 headers and AV1 sequence headers are modelled in this way
in their own files.

What a structure holds after an error is not modelled, except for the types that append.
-/

namespace Verif.MPEG4Audio
open Verif.BitM

/-- pkg/codecs/mpeg4audio/audio_specific_config.go:58-186 (`AudioSpecificConfig.unmarshalBits`): `ExtensionType` and `ExtensionSampleRate` are
assigned in lines 119-141 only, `CoreCoderDelay` in lines 167-173 only. -/
def ASC.unmarshalBitsInto (old : ASC) : BitM ASC := do
  let t ← readBits 5
  if ¬ (t = 2 ∨ t = 5 ∨ t = 29) then fail "unsupported object type" else do
  let rate ← readRate
  let cfg ← readBits 4
  let count ← lift (ascChannelCount cfg)
  let ext ← cond (t == 5 || t == 29) readExtension old.extensionSampleRate
  let frameLengthFlag ← readFlag
  let dep ← readFlag
  let delay ← cond dep (readBits 14) old.coreCoderDelay
  let extensionFlag ← readFlag
  if extensionFlag then fail "extensionFlag is unsupported" else
  pure { type := 2, sampleRate := rate, channelConfig := cfg, channelCount := count,
         extensionType := if t = 5 ∨ t = 29 then t else old.extensionType, extensionSampleRate := ext,
         frameLengthFlag := frameLengthFlag, dependsOnCoreCoder := dep, coreCoderDelay := delay }

/-- pkg/codecs/mpeg4audio/audio_specific_config.go:40-48 (`AudioSpecificConfig.Unmarshal`). -/
def ASC.unmarshalInto (old : ASC) (buf : Bytes) : Res ASC := do
  let r ← old.unmarshalBitsInto buf 0
  .ok r.1

/-- stream_mux_config.go:163-180: `c.OtherDataLenBits` is not set to zero before the loop. -/
def readOtherDataInto (old : Nat) : BitM Nat := do
  let n ← bufLen
  otherDataLoop (n + 1) old

/-- stream_mux_config.go:158-195: the fields after the programs. -/
def readMuxTailInto (old : StreamMuxConfig) (numSubFrames : Nat) (programs : List (List Layer)) : BitM StreamMuxConfig := do
  let otherDataPresent ← readFlag
  let otherDataLenBits ← cond otherDataPresent (readOtherDataInto old.otherDataLenBits) old.otherDataLenBits
  let crcCheckPresent ← readFlag
  let crcCheckSum ← cond crcCheckPresent (readBits 8) old.crcCheckSum
  pure { numSubFrames := numSubFrames, programs := programs, otherDataPresent := otherDataPresent,
         otherDataLenBits := otherDataLenBits, crcCheckPresent := crcCheckPresent, crcCheckSum := crcCheckSum }

/-- pkg/codecs/mpeg4audio/stream_mux_config.go:56-196 (`StreamMuxConfig.unmarshalBits`). A configuration that is cut short (lines 113-119)
leaves the fields after the programs as they were. -/
def StreamMuxConfig.unmarshalBitsInto (old : StreamMuxConfig) : BitM StreamMuxConfig := do
  hasSpace 12
  let audioMuxVersion ← readFlagU
  if audioMuxVersion then fail "audioMuxVersion = 1 is not supported" else do
  let allStreamsSameTimeFraming ← readFlagU
  if !allStreamsSameTimeFraming then fail "allStreamsSameTimeFraming = 0 is not supported" else do
  let numSubFrames ← readBitsU 6
  let numProgram ← readBitsU 4
  let r ← readPrograms true (numProgram + 1)
  if r.2 then pure { old with numSubFrames := numSubFrames, programs := r.1 }
  else readMuxTailInto old numSubFrames r.1

/-- pkg/codecs/mpeg4audio/stream_mux_config.go:36-53 (`StreamMuxConfig.Unmarshal`). -/
def StreamMuxConfig.unmarshalInto (old : StreamMuxConfig) (buf : Bytes) : Res StreamMuxConfig := do
  let r ← old.unmarshalBitsInto buf 0
  if ceil8 r.2 ≠ buf.length then .err "detected unread bytes" else .ok r.1

end Verif.MPEG4Audio

namespace Verif

/-- A loop that reads an element at the position, appends it to the receiver and ends at the end of the buffer. The fuel bounds the number of
iterations; running out of it is reported as a panic. -/
def appendUntilEnd {α} (p : BitM α) : Nat → Bytes → Nat → StepM (List α) Unit
  | 0, _, _ => StepM.lift .panic
  | fuel + 1, buf, pos => do
    let r ← StepM.lift (p buf pos)
    StepM.modify (· ++ [r.1])
    if buf.length - r.2 = 0 then pure () else appendUntilEnd p fuel buf r.2

/-- pkg/codecs/mpeg4audio/adts.go:29-119 (`ADTSPackets.Unmarshal`): packets are appended in line 112. -/
def MPEG4Audio.ADTSPackets.unmarshalInto (buf : Bytes) : StepM (List ADTSPacket) Unit :=
  appendUntilEnd ADTSPacket.unmarshal (buf.length + 1) buf 0

/-- pkg/codecs/mpeg4audio/audio_sync_stream.go:12-38 (`AudioSyncStream.Unmarshal`): elements are appended in line 32. -/
def MPEG4Audio.AudioSyncStream.unmarshalInto (buf : Bytes) : StepM (List Bytes) Unit :=
  appendUntilEnd audioMuxElementRaw (buf.length + 1) buf 0

/-- pkg/codecs/av1/bitstream.go:12-49: the loop of `Bitstream.Unmarshal`; OBUs are appended in line 41. -/
def AV1.bitstreamLoopInto : Nat → Bytes → StepM (List Bytes) Unit
  | 0, _ => StepM.lift .panic
  | fuel + 1, buf => do
    let r ← StepM.lift (AV1.bitstreamStep buf)
    StepM.modify (· ++ [r.1])
    if r.2.length = 0 then pure () else bitstreamLoopInto fuel r.2

/-- pkg/codecs/av1/bitstream.go:12-49 (`Bitstream.Unmarshal`). -/
def AV1.bitstreamUnmarshalInto (buf : Bytes) : StepM (List Bytes) Unit := bitstreamLoopInto (buf.length + 1) buf

end Verif

namespace Verif.TSOpus
open BitM

/-- pkg/formats/mpegts/substructs/opus_control_header.go:51-112 (`OpusControlHeader.unmarshal`): the last three fields are assigned when their
flag is set only. -/
def ControlHeader.unmarshalInto (old : ControlHeader) : BitM ControlHeader := do
  hasSpace 16
  let pfx ← readBitsU 11
  if pfx ≠ 0x3ff then fail "invalid prefix" else do
  let s ← readFlagU
  let e ← readFlagU
  let c ← readFlagU
  skip 2
  let payloadSize ← unmarshalPayloadSize
  let startTrim ← cond s readTrim old.startTrim
  let endTrim ← cond e readTrim old.endTrim
  let ext ← cond c readExt old.controlExtensionLength
  pure { payloadSize, startTrimFlag := s, endTrimFlag := e, controlExtensionFlag := c, startTrim, endTrim,
         controlExtensionLength := ext }

/-- pkg/formats/mpegts/substructs/opus_access_unit.go:15-29 (`OpusAccessUnit.Unmarshal`). -/
def AccessUnit.unmarshalInto (old : AccessUnit) (buf : Bytes) : Res (AccessUnit × Nat) := do
  let r ← old.controlHeader.unmarshalInto buf 0
  let n := r.2 / 8
  let buf ← sliceFrom buf n
  if buf.length < r.1.payloadSize then .err "buffer is too small" else
  let packet ← slice buf 0 r.1.payloadSize
  .ok (⟨r.1, packet⟩, n + r.1.payloadSize)

/-- pkg/formats/mpegts/substructs/opus_audio_descriptor.go:63-129 (`Unmarshal`): the explicit fields are assigned with code 0x81 only, the last
three with a mapping family that is not zero only. -/
def Descriptor.unmarshalInto (old : Descriptor) (buf : Bytes) : Res Descriptor := do
  if buf.length < 1 then .err "buffer is too short" else
  let code ← idx buf 0
  if code = 0x81 then
    if buf.length < 3 then .err "buffer is too short" else do
    let channels ← idx buf 1
    if channels.toNat = 0 then .err "channel_count must not be zero" else do
    let family ← idx buf 2
    let buf ← sliceFrom buf 3
    if family.toNat = 0 then
      if channels.toNat = 1 ∨ channels.toNat = 2 then
        .ok { old with channelConfigCode := code, explicitChannelCount := channels.toNat, mappingFamily := 0 }
      else .err "unsupported channel_count for mapping_family 0"
    else do
      let r ← readMapping channels.toNat buf 0
      .ok ⟨code, channels.toNat, family.toNat, r.1.1, r.1.2.1, r.1.2.2⟩
  else if (channelConfigTable.lookup code).isNone then .err "unsupported channel_config_code"
  else .ok { old with channelConfigCode := code }

end Verif.TSOpus

namespace Verif.TSMetadata
open BitM ByteR

/-- pkg/formats/mpegts/substructs/metadata_descriptor.go:50-159 (`Unmarshal`): six fields are assigned when they are present only. -/
def Descriptor.unmarshalIntoM (old : Descriptor) : BitM Descriptor := do
  need 2
  let applicationFormat ← be16
  let applicationFormatIdentifier ← cond (applicationFormat == 0xFFFF) readIdentifier old.applicationFormatIdentifier
  need 1
  let format ← byte
  let formatIdentifier ← cond (format == 0xFF) readIdentifier old.formatIdentifier
  need 2
  let serviceID ← byte
  let flags ← byte
  let decoderConfigFlags := flags >>> 5
  let dsmccFlag := ((flags >>> 4) &&& 1) != 0
  let serviceIdentification ← cond dsmccFlag readPrefixed old.serviceIdentification
  let decoderConfig ← cond (decoderConfigFlags == 0b001) readPrefixed old.decoderConfig
  let decConfigIdentification ← cond (decoderConfigFlags == 0b011) readPrefixed old.decConfigIdentification
  let decoderConfigServiceID ← cond (decoderConfigFlags == 0b100) readServiceID old.decoderConfigServiceID
  if decoderConfigFlags = 0b101 ∨ decoderConfigFlags = 0b110 then fail "DecoderConfigFlags is unsupported" else do
  let privateData ← rest
  pure ⟨applicationFormat, applicationFormatIdentifier, format, formatIdentifier, serviceID, decoderConfigFlags, dsmccFlag,
    serviceIdentification, decoderConfig, decConfigIdentification, decoderConfigServiceID, privateData⟩

/-- `Unmarshal` changes only the struct. -/
def Descriptor.unmarshalInto (old : Descriptor) (buf : Bytes) : Res Descriptor := old.unmarshalIntoM buf 0 >>= fun r => .ok r.1

end Verif.TSMetadata

namespace Verif.EAC3

/-- pkg/codecs/eac3/sync_info.go:82-94: `fscod2` and `numblkscod`; the first one is assigned with `fscod` 3 only. -/
def readBlksInto (old : UInt8) (frame : Bytes) (pos : Nat) (fscod : UInt8) : Res (UInt8 × UInt8 × Nat) :=
  if fscod = 3 then do
    let (v, pos) ← Bits.readBitsUnsafe frame pos 2
    if UInt8.ofNat v = 3 then .err "invalid fscod2" else .ok (UInt8.ofNat v, 3, pos)
  else do
    let (v, pos) ← Bits.readBitsUnsafe frame pos 2
    .ok (old, UInt8.ofNat v, pos)

/-- pkg/codecs/eac3/sync_info.go:53-109 (`SyncInfo.Unmarshal`). -/
def SyncInfo.unmarshalInto (old : SyncInfo) (frame : Bytes) : Res SyncInfo := do
  if frame.length < 8 then .err "not enough bytes" else
  let f0 ← idx frame 0
  let f1 ← idx frame 1
  if f0 ≠ 0x0B ∨ f1 ≠ 0x77 then .err "invalid sync word" else
  let (strmtyp, pos) ← Bits.readBitsUnsafe frame 16 2
  let (substreamid, pos) ← Bits.readBitsUnsafe frame pos 3
  let (frmsiz, pos) ← Bits.readBitsUnsafe frame pos 11
  let (fscod, pos) ← Bits.readBitsUnsafe frame pos 2
  let (fscod2, numblkscod, pos) ← readBlksInto old.fscod2 frame pos (UInt8.ofNat fscod)
  let (acmod, pos) ← Bits.readBitsUnsafe frame pos 3
  let (lfeon, pos) ← Bits.readFlagUnsafe frame pos
  let (bsid, _) ← Bits.readBitsUnsafe frame pos 5
  if UInt8.ofNat bsid ≠ 16 then .err "invalid bsid for E-AC-3" else
  .ok
    { strmtyp := UInt8.ofNat strmtyp, substreamid := UInt8.ofNat substreamid, frmsiz := frmsiz % 2 ^ 16,
      fscod := UInt8.ofNat fscod, fscod2 := fscod2, numblkscod := numblkscod, acmod := UInt8.ofNat acmod,
      lfeon := lfeon, bsid := UInt8.ofNat bsid }

end Verif.EAC3
