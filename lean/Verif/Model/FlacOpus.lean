import Verif.Model.Base

/-!
# FLAC STREAMINFO (pkg/codecs/flac) and Opus headers (pkg/codecs/opus)

Fields wider than a byte are natural numbers; `byte(x)` is `UInt8.ofNat x` (which truncates).
-/

namespace Verif.Flac

/-- pkg/codecs/flac/stream_info.go:10-20 (`StreamInfo`). `MD5 [16]byte` is a list of 16 bytes. -/
structure StreamInfo where
  minBlockSize : Nat
  maxBlockSize : Nat
  minFrameSize : Nat
  maxFrameSize : Nat
  sampleRate : Nat
  channelCount : UInt8
  bitDepth : UInt8
  totalSamples : Nat
  md5 : Bytes
  deriving Repr, DecidableEq

/-- pkg/codecs/flac/stream_info.go:23-41 (`StreamInfo.Unmarshal`). -/
def unmarshal (buf : Bytes) : Res StreamInfo := do
  if buf.length < 34 then .err "not enough bytes" else
  let b0 ← idx buf 0
  let b1 ← idx buf 1
  let b2 ← idx buf 2
  let b3 ← idx buf 3
  let b4 ← idx buf 4
  let b5 ← idx buf 5
  let b6 ← idx buf 6
  let b7 ← idx buf 7
  let b8 ← idx buf 8
  let b9 ← idx buf 9
  let b10 ← idx buf 10
  let b11 ← idx buf 11
  let b12 ← idx buf 12
  let b13 ← idx buf 13
  let b14 ← idx buf 14
  let b15 ← idx buf 15
  let b16 ← idx buf 16
  let b17 ← idx buf 17
  let md5 ← slice buf 18 34
  .ok
    { minBlockSize := b0.toNat <<< 8 ||| b1.toNat
      maxBlockSize := b2.toNat <<< 8 ||| b3.toNat
      minFrameSize := b4.toNat <<< 16 ||| b5.toNat <<< 8 ||| b6.toNat
      maxFrameSize := b7.toNat <<< 16 ||| b8.toNat <<< 8 ||| b9.toNat
      sampleRate := b10.toNat <<< 12 ||| b11.toNat <<< 4 ||| b12.toNat >>> 4
      channelCount := ((b12 >>> 1) &&& 0x7) + 1
      bitDepth := ((b12 &&& 0x1) <<< 4 ||| b13 >>> 4) + 1
      totalSamples := (b13 &&& 0xF).toNat <<< 32 ||| b14.toNat <<< 24 |||
        b15.toNat <<< 16 ||| b16.toNat <<< 8 ||| b17.toNat
      md5 := md5 }

/-- pkg/codecs/flac/stream_info.go:43-78 (`marshalSize`, `marshalTo`, `Marshal`). The buffer has the constant
size 34, so the constant-index assignments cannot panic and are written as one list. -/
def marshal (s : StreamInfo) : Bytes :=
  [UInt8.ofNat (s.minBlockSize >>> 8), UInt8.ofNat s.minBlockSize,
   UInt8.ofNat (s.maxBlockSize >>> 8), UInt8.ofNat s.maxBlockSize,
   UInt8.ofNat (s.minFrameSize >>> 16), UInt8.ofNat (s.minFrameSize >>> 8), UInt8.ofNat s.minFrameSize,
   UInt8.ofNat (s.maxFrameSize >>> 16), UInt8.ofNat (s.maxFrameSize >>> 8), UInt8.ofNat s.maxFrameSize,
   UInt8.ofNat (s.sampleRate >>> 12), UInt8.ofNat (s.sampleRate >>> 4),
   UInt8.ofNat (s.sampleRate &&& 0xF) <<< 4 ||| (s.channelCount - 1) <<< 1 ||| (s.bitDepth - 1) >>> 4,
   ((s.bitDepth - 1) &&& 0xF) <<< 4 ||| UInt8.ofNat (s.totalSamples >>> 32) &&& 0xF,
   UInt8.ofNat (s.totalSamples >>> 24), UInt8.ofNat (s.totalSamples >>> 16),
   UInt8.ofNat (s.totalSamples >>> 8), UInt8.ofNat s.totalSamples] ++ s.md5

end Verif.Flac

namespace Verif.Opus

/-- pkg/codecs/opus/id_header.go:8 (`magicSignature`), the bytes of "OpusHead". -/
def magicSignature : Bytes := [0x4F, 0x70, 0x75, 0x73, 0x48, 0x65, 0x61, 0x64]

/-- pkg/codecs/opus/id_header.go:12-20 (`IDHeader`). -/
structure IDHeader where
  version : UInt8
  channelCount : UInt8
  preSkip : Nat
  inputSampleRate : Nat
  outputGain : Nat
  channelMappingFamily : UInt8
  channelMappingTable : Bytes
  deriving Repr, DecidableEq

/-- pkg/codecs/opus/id_header.go:23-45 (`IDHeader.Unmarshal`). -/
def IDHeader.unmarshal (buf : Bytes) : Res IDHeader := do
  if buf.length < 19 then .err "not enough bytes" else
  let sig ← slice buf 0 8
  if sig ≠ magicSignature then .err "magic signature not corresponds" else
  let version ← idx buf 8
  if version ≠ 1 then .err "invalid version" else
  let b9 ← idx buf 9
  let b10 ← idx buf 10
  let b11 ← idx buf 11
  let b12 ← idx buf 12
  let b13 ← idx buf 13
  let b14 ← idx buf 14
  let b15 ← idx buf 15
  let b16 ← idx buf 16
  let b17 ← idx buf 17
  let b18 ← idx buf 18
  let table ← sliceFrom buf 19
  .ok
    { version := version
      channelCount := b9
      preSkip := b10.toNat <<< 8 ||| b11.toNat
      inputSampleRate := b12.toNat <<< 24 ||| b13.toNat <<< 16 ||| b14.toNat <<< 8 ||| b15.toNat
      outputGain := b16.toNat <<< 8 ||| b17.toNat
      channelMappingFamily := b18
      channelMappingTable := table }

/-- pkg/codecs/opus/id_header.go:47-78 (`marshalSize`, `marshalTo`, `Marshal`). The buffer is allocated with
exactly `19 + len(table)` bytes, so the assignments and the final `copy` fill it; written as one list.
The version field is ignored and 1 is written. -/
def IDHeader.marshal (h : IDHeader) : Bytes :=
  magicSignature ++
  [1, h.channelCount,
   UInt8.ofNat (h.preSkip >>> 8), UInt8.ofNat h.preSkip,
   UInt8.ofNat (h.inputSampleRate >>> 24), UInt8.ofNat (h.inputSampleRate >>> 16),
   UInt8.ofNat (h.inputSampleRate >>> 8), UInt8.ofNat h.inputSampleRate,
   UInt8.ofNat (h.outputGain >>> 8), UInt8.ofNat h.outputGain,
   h.channelMappingFamily] ++ h.channelMappingTable

/-- pkg/codecs/opus/packet_duration.go:7-17 (`frameSizes`). -/
def frameSizes : List Nat :=
  [480, 960, 1920, 2880,
   480, 960, 1920, 2880,
   480, 960, 1920, 2880,
   480, 960,
   480, 960,
   120, 240, 480, 960,
   120, 240, 480, 960,
   120, 240, 480, 960,
   120, 240, 480, 960]

/-- pkg/codecs/opus/packet_duration.go:28-51 (`PacketDuration2`). -/
def packetDuration2 (pkt : Bytes) : Res Nat := do
  if pkt.length = 0 then .ok 0 else
  let b0 ← idx pkt 0
  let frameDuration ← idx frameSizes (b0 >>> 3).toNat
  if b0 &&& 3 = 0 then .ok (frameDuration * 1)
  else if b0 &&& 3 = 1 then .ok (frameDuration * 2)
  else if b0 &&& 3 = 2 then .ok (frameDuration * 2)
  else if pkt.length < 2 then .ok 0
  else do
    let b1 ← idx pkt 1
    .ok (frameDuration * (b1 &&& 63).toNat)

end Verif.Opus
