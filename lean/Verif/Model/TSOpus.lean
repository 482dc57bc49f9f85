import Verif.Model.ByteW

/-!
# Opus in MPEG-TS (pkg/formats/mpegts/substructs/opus_*.go, reader and writer loops)
-/

namespace Verif.TSOpus
open BitM

/-- pkg/formats/mpegts/substructs/opus_control_header.go:41-49 (`OpusControlHeader`). -/
structure ControlHeader where
  payloadSize : Nat
  startTrimFlag : Bool
  endTrimFlag : Bool
  controlExtensionFlag : Bool
  startTrim : Nat
  endTrim : Nat
  controlExtensionLength : Nat
  deriving Repr, DecidableEq

/-- pkg/formats/mpegts/substructs/opus_control_header.go:9-26 (`unmarshalPayloadSize`). The fuel bounds the number of
iterations; running out of it is reported as a panic. -/
def payloadSizeLoop : Nat → Nat → BitM Nat
  | 0, _ => lift .panic
  | fuel + 1, res => do
    let next ← readBits 8
    if next ≠ 255 then pure (res + next) else payloadSizeLoop fuel (res + next)

/-- pkg/formats/mpegts/substructs/opus_control_header.go:9-26 (`unmarshalPayloadSize`): more rounds than bytes. -/
def unmarshalPayloadSize : BitM Nat := do
  let n ← bufLen
  payloadSizeLoop (n + 1) 0

/-- The trim fields, opus_control_header.go:76-84 and :86-94. -/
def readTrim : BitM Nat := do
  hasSpace 16
  skip 3
  let v ← readBitsU 13
  pure (v % 2 ^ 16)

/-- The control extension, opus_control_header.go:96-110. -/
def readExt : BitM Nat := do
  let v ← readBits 8
  hasSpace (8 * (v % 2 ^ 8))
  skip (8 * (v % 2 ^ 8))
  pure (v % 2 ^ 8)

/-- pkg/formats/mpegts/substructs/opus_control_header.go:51-112 (`OpusControlHeader.unmarshal`) on a fresh struct. The
new position stands for the returned `pos / 8`. -/
def ControlHeader.unmarshal : BitM ControlHeader := do
  hasSpace 16
  let pfx ← readBitsU 11
  if pfx ≠ 0x3ff then fail "invalid prefix" else do
  let s ← readFlagU
  let e ← readFlagU
  let c ← readFlagU
  skip 2
  let payloadSize ← unmarshalPayloadSize
  let startTrim ← cond s readTrim 0
  let endTrim ← cond e readTrim 0
  let ext ← cond c readExt 0
  pure { payloadSize, startTrimFlag := s, endTrimFlag := e, controlExtensionFlag := c, startTrim, endTrim,
         controlExtensionLength := ext }

/-- pkg/formats/mpegts/substructs/opus_control_header.go:28-30 (`marshalPayloadSizeSize`). -/
def marshalPayloadSizeSize (v : Nat) : Nat := v / 255 + 1

/-- pkg/formats/mpegts/substructs/opus_control_header.go:32-37 (`marshalPayloadSize`): the bytes assigned. -/
def marshalPayloadSize (v ss : Nat) : Bytes := List.replicate (ss - 1) 255 ++ [UInt8.ofNat (v % 255)]

/-- pkg/formats/mpegts/substructs/opus_control_header.go:115-128 (`marshalSize`). -/
def ControlHeader.marshalSize (h : ControlHeader) : Nat :=
  2 + marshalPayloadSizeSize h.payloadSize + (if h.startTrimFlag then 2 else 0) + (if h.endTrimFlag then 2 else 0) +
  (if h.controlExtensionFlag then 1 + h.controlExtensionLength else 0)

/-- The second byte, opus_control_header.go:133-142. -/
def ControlHeader.flags (h : ControlHeader) : UInt8 :=
  UInt8.ofNat ((0b111 <<< 5 ||| (if h.startTrimFlag then 1 <<< 4 else 0) ||| (if h.endTrimFlag then 1 <<< 3 else 0)) |||
    (if h.controlExtensionFlag then 1 <<< 2 else 0))

/-- pkg/formats/mpegts/substructs/opus_control_header.go:130-167 (`marshalTo`). The control extension bytes are skipped,
not written. -/
def ControlHeader.marshalTo (h : ControlHeader) : BitW :=
  BitW.all
    [ByteW.put [0b01111111], ByteW.put [h.flags],
     ByteW.put (marshalPayloadSize h.payloadSize (marshalPayloadSizeSize h.payloadSize)),
     if h.startTrimFlag then ByteW.put [UInt8.ofNat (h.startTrim >>> 8), UInt8.ofNat h.startTrim] else BitW.nop,
     if h.endTrimFlag then ByteW.put [UInt8.ofNat (h.endTrim >>> 8), UInt8.ofNat h.endTrim] else BitW.nop,
     if h.controlExtensionFlag then
       BitW.seq (ByteW.put [UInt8.ofNat h.controlExtensionLength]) (BitW.skip h.controlExtensionLength)
     else BitW.nop]

/-- pkg/formats/mpegts/substructs/opus_access_unit.go:9-12 (`OpusAccessUnit`). -/
structure AccessUnit where
  controlHeader : ControlHeader
  packet : Bytes
  deriving Repr, DecidableEq

/-- pkg/formats/mpegts/substructs/opus_access_unit.go:15-29 (`OpusAccessUnit.Unmarshal`). -/
def AccessUnit.unmarshal (buf : Bytes) : Res (AccessUnit × Nat) := do
  let r ← ControlHeader.unmarshal buf 0
  let n := r.2 / 8
  let buf ← sliceFrom buf n
  if buf.length < r.1.payloadSize then .err "buffer is too small" else
  let packet ← slice buf 0 r.1.payloadSize
  .ok (⟨r.1, packet⟩, n + r.1.payloadSize)

/-- pkg/formats/mpegts/substructs/opus_access_unit.go:32-34 (`MarshalSize`). -/
def AccessUnit.marshalSize (au : AccessUnit) : Nat := au.controlHeader.marshalSize + au.controlHeader.payloadSize

/-- pkg/formats/mpegts/substructs/opus_access_unit.go:37-50 (`MarshalTo`), at an offset in the buffer. -/
def AccessUnit.marshalTo (au : AccessUnit) : BitW :=
  if au.controlHeader.payloadSize ≠ au.packet.length then BitW.fail "invalid packet"
  else BitW.seq au.controlHeader.marshalTo (ByteW.copy au.packet)

/-- The access unit made for a packet, pkg/formats/mpegts/writer.go:34-39 and :205-210. -/
def auOf (packet : Bytes) : AccessUnit := ⟨⟨packet.length, false, false, false, 0, 0, 0⟩, packet⟩

/-- pkg/formats/mpegts/writer.go:31-43 (`opusMarshalSize`). -/
def opusMarshalSize (packets : List Bytes) : Nat := (packets.map fun p => (auOf p).marshalSize).sum

/-- pkg/formats/mpegts/writer.go:202-217 (`WriteOpus`): the PES payload. -/
def writeOpus (packets : List Bytes) : Res Bytes := do
  let r ← BitW.all (packets.map fun p => (auOf p).marshalTo) (makeBytes (opusMarshalSize packets)) 0
  .ok r.1

/-- pkg/formats/mpegts/reader.go:312-327 (the loop of `OnDataOpus`). Errors stand for `r.onDecodeError(err); return nil`.
The fuel bounds the number of iterations; running out of it is reported as a panic. -/
def splitLoop : Nat → Bytes → Nat → List Bytes → Res (List Bytes)
  | 0, _, _, _ => .panic
  | fuel + 1, data, pos, packets => do
    let rest ← sliceFrom data pos
    let r ← AccessUnit.unmarshal rest
    let pos := pos + r.2
    let packets := packets ++ [r.1.packet]
    let rest ← sliceFrom data pos
    if rest.length = 0 then .ok packets else splitLoop fuel data pos packets

/-- pkg/formats/mpegts/reader.go:309-329: packets handed to the callback. -/
def readOpus (data : Bytes) : Res (List Bytes) := splitLoop (data.length + 1) data 0 []

/-- pkg/formats/mpegts/substructs/opus_audio_descriptor.go:14-19: the loop of `ceilLog2`. -/
def bitLenLoop (v result : Nat) : Nat := if h : v > 0 then bitLenLoop (v >>> 1) (result + 1) else result
termination_by v
decreasing_by rw [Nat.shiftRight_eq_div_pow]; omega

/-- pkg/formats/mpegts/substructs/opus_audio_descriptor.go:9-20 (`ceilLog2`). -/
def ceilLog2 (n : Nat) : Nat := if n ≤ 1 then 0 else bitLenLoop (n - 1) 0

/-- pkg/formats/mpegts/substructs/opus_audio_descriptor.go:24-45 (`channelConfigTable`). -/
def channelConfigTable : List (UInt8 × Nat) :=
  [(0x00, 2), (0x01, 1), (0x02, 2), (0x03, 3), (0x04, 4), (0x05, 5), (0x06, 6), (0x07, 7), (0x08, 8), (0x80, 2),
   (0x82, 1), (0x83, 2), (0x84, 3), (0x85, 4), (0x86, 5), (0x87, 6), (0x88, 7)]

/-- pkg/formats/mpegts/substructs/opus_audio_descriptor.go:49-60 (`OpusAudioDescriptor`); the `int` fields are taken
non-negative. -/
structure Descriptor where
  channelConfigCode : UInt8
  explicitChannelCount : Nat
  mappingFamily : Nat
  streamCount : Nat
  coupledStreamCount : Nat
  channelMapping : Bytes
  deriving Repr, DecidableEq

/-- opus_audio_descriptor.go:94-102: the stream count. -/
def readStreamCount (channels : Nat) : BitM Nat :=
  if channels = 1 then pure 1 else readBits (ceilLog2 channels) >>= fun v => pure (v + 1)

/-- opus_audio_descriptor.go:93-116: the bit-packed part, for `channels` channels. -/
def readMapping (channels : Nat) : BitM (Nat × Nat × Bytes) := do
  let streamCount ← readStreamCount channels
  let coupled ← readBits (ceilLog2 (streamCount + 1))
  let mapping ← times (readBits (ceilLog2 (streamCount + coupled + 1))) channels
  pure (streamCount, coupled, mapping.map UInt8.ofNat)

/-- pkg/formats/mpegts/substructs/opus_audio_descriptor.go:63-129 (`Unmarshal`) on a fresh struct. -/
def Descriptor.unmarshal (buf : Bytes) : Res Descriptor := do
  if buf.length < 1 then .err "buffer is too short" else
  let code ← idx buf 0
  if code = 0x81 then
    if buf.length < 3 then .err "buffer is too short" else do
    let channels ← idx buf 1
    if channels.toNat = 0 then .err "channel_count must not be zero" else do
    let family ← idx buf 2
    let buf ← sliceFrom buf 3
    if family.toNat = 0 then
      if channels.toNat = 1 ∨ channels.toNat = 2 then .ok ⟨code, channels.toNat, 0, 0, 0, []⟩
      else .err "unsupported channel_count for mapping_family 0"
    else do
      let r ← readMapping channels.toNat buf 0
      .ok ⟨code, channels.toNat, family.toNat, r.1.1, r.1.2.1, r.1.2.2⟩
  else if (channelConfigTable.lookup code).isNone then .err "unsupported channel_config_code"
  else .ok ⟨code, 0, 0, 0, 0, []⟩

/-- opus_audio_descriptor.go:142-145: size of the bit-packed part. -/
def Descriptor.totalBits (d : Descriptor) : Nat :=
  ceilLog2 d.explicitChannelCount + ceilLog2 (d.streamCount + 1) +
    d.explicitChannelCount * ceilLog2 (d.streamCount + d.coupledStreamCount + 1)

/-- opus_audio_descriptor.go:188-192: `ChannelMapping[i]` is indexed up to the channel count. -/
def mappingW (w : Nat) : Nat → Bytes → BitW
  | 0, _ => BitW.nop
  | _ + 1, [] => fun _ _ => .panic
  | n + 1, v :: l => BitW.seq (if w > 0 then BitW.bits v.toNat w else BitW.nop) (mappingW w n l)

/-- pkg/formats/mpegts/substructs/opus_audio_descriptor.go:131-199 (`marshalSize` and `Marshal`). The three header bytes
and the bit-packed slice `out[3:]` are separate here. `uint64(d.StreamCount-1)` wraps for 0. -/
def Descriptor.marshal (d : Descriptor) : Res Bytes :=
  if d.channelConfigCode = 0x81 then
    let hdr : Bytes := [0x81, UInt8.ofNat d.explicitChannelCount, UInt8.ofNat d.mappingFamily]
    if d.mappingFamily = 0 then .ok hdr
    else if d.explicitChannelCount = 1 then .ok (hdr ++ [0])
    else do
      let w1 := ceilLog2 d.explicitChannelCount
      let w2 := ceilLog2 (d.streamCount + 1)
      let w3 := ceilLog2 (d.streamCount + d.coupledStreamCount + 1)
      let r ← BitW.all
        [if w1 > 0 then BitW.bits ((d.streamCount + (2 ^ 64 - 1)) % 2 ^ 64) w1 else BitW.nop,
         if w2 > 0 then BitW.bits d.coupledStreamCount w2 else BitW.nop,
         mappingW w3 d.explicitChannelCount d.channelMapping] (makeBytes ((d.totalBits + 7) / 8)) 0
      .ok (hdr ++ r.1)
  else .ok [d.channelConfigCode]

/-- pkg/formats/mpegts/substructs/opus_audio_descriptor.go:202-212 (`ChannelCount`). -/
def Descriptor.channelCount (d : Descriptor) : Nat :=
  if d.channelConfigCode = 0x81 then d.explicitChannelCount
  else (channelConfigTable.lookup d.channelConfigCode).getD 0

end Verif.TSOpus
