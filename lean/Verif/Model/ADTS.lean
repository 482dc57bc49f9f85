import Verif.Model.ByteR
import Verif.Model.ByteW

/-!
# ADTS and AudioSyncStream (pkg/codecs/mpeg4audio/adts.go, audio_sync_stream.go, sample_rates.go)

`Type`, `SampleRate` and `ChannelCount` are Go `int`s; the model takes them non-negative. Both decoders append to the list
they are called on; the model starts from the empty list. An access unit is a subslice of the input in the Go code and a
list of bytes here.
-/

namespace Verif.MPEG4Audio

/-- pkg/codecs/mpeg4audio/mpeg4_audio.go:6 (`MaxAccessUnitSize`). -/
def maxAccessUnitSize : Nat := 5 * 1024

/-- pkg/codecs/mpeg4audio/sample_rates.go:3-17 (`sampleRates`). -/
def sampleRates : List Nat :=
  [96000, 88200, 64000, 48000, 44100, 32000, 24000, 22050, 16000, 12000, 11025, 8000, 7350]

/-- pkg/codecs/mpeg4audio/sample_rates.go:19-33 (`reverseSampleRates`). -/
def reverseSampleRates : List (Nat × Nat) :=
  [(96000, 0), (88200, 1), (64000, 2), (48000, 3), (44100, 4), (32000, 5), (24000, 6), (22050, 7), (16000, 8), (12000, 9),
   (11025, 10), (8000, 11), (7350, 12)]

/-- Go indexing `sampleRates[i]`. -/
def sampleRateAt (i : Nat) : Res Nat :=
  match sampleRates[i]? with
  | some r => .ok r
  | none => .panic

/-- pkg/codecs/mpeg4audio/adts.go:9-23 (`ADTSPacket`). -/
structure ADTSPacket where
  type : Nat
  sampleRate : Nat
  channelConfig : UInt8
  channelCount : Nat
  au : Bytes
  deriving Repr, DecidableEq

/-- adts.go:65-89: the `switch` on the channel configuration. -/
def adtsChannelCount (c : UInt8) : Res Nat :=
  if c ≥ 1 ∧ c ≤ 6 then .ok c.toNat
  else if c = 7 then .ok 8
  else if c = 0 then .ok 0
  else .err "unsupported channel configuration"

/-- adts.go:34-109: one iteration of the loop of `ADTSPackets.Unmarshal`. The seven header bytes, which the Go code
indexes where it needs them, are read at the start, after the check that there are at least eight bytes left. -/
def ADTSPacket.unmarshal : BitM ADTSPacket := do
  ByteR.need 8
  let b0 ← ByteR.byte
  let b1 ← ByteR.byte
  let b2 ← ByteR.byte
  let b3 ← ByteR.byte
  let b4 ← ByteR.byte
  let b5 ← ByteR.byte
  let b6 ← ByteR.byte
  let syncWord := (b0.toNat <<< 4) ||| (b1.toNat >>> 4)
  if syncWord ≠ 0xfff then BitM.fail "invalid syncword" else
  if b1 &&& 0x01 ≠ 1 then BitM.fail "CRC is not supported" else
  let sampleRateIndex := (b2 >>> 2) &&& 0x0F
  if ¬ (sampleRateIndex ≤ 12) then BitM.fail "invalid sample rate index" else do
  let sampleRate ← BitM.lift (sampleRateAt sampleRateIndex.toNat)
  let channelConfig := ((b2 &&& 0x01) <<< 2) ||| ((b3 >>> 6) &&& 0x03)
  let channelCount ← BitM.lift (adtsChannelCount channelConfig)
  let frameLen : Int := (((b3.toNat &&& 0x03) <<< 11 ||| b4.toNat <<< 3 ||| ((b5.toNat >>> 5) &&& 0x07) : Nat) : Int) - 7
  if frameLen ≤ 0 then BitM.fail "invalid FrameLen" else
  if frameLen > maxAccessUnitSize then BitM.fail "access unit size is too big" else
  if b6 &&& 0x03 ≠ 0 then BitM.fail "frame count greater than 1 is not supported" else do
  ByteR.need frameLen.toNat
  let au ← ByteR.take frameLen.toNat
  pure { type := ((b2 >>> 6) + 1).toNat, sampleRate := sampleRate, channelConfig := channelConfig,
         channelCount := channelCount, au := au }

/-- pkg/codecs/mpeg4audio/adts.go:29-119 (`ADTSPackets.Unmarshal`). -/
def ADTSPackets.unmarshal (buf : Bytes) : Res (List ADTSPacket) := do
  let r ← ByteR.untilEnd ADTSPacket.unmarshal (buf.length + 1) buf 0
  .ok r.1

/-- adts.go:121-127 (`marshalSize`). -/
def ADTSPackets.marshalSize (ps : List ADTSPacket) : Nat := (ps.map fun p => 7 + p.au.length).sum

/-- adts.go:145-159: the channel configuration that is written. -/
def adtsConfig (p : ADTSPacket) : Option UInt8 :=
  if p.channelConfig = 0 then
    if p.channelCount = 0 then some 0
    else if p.channelCount ≥ 1 ∧ p.channelCount ≤ 6 then some (UInt8.ofNat p.channelCount)
    else if p.channelCount = 8 then some 7
    else none
  else some p.channelConfig

/-- adts.go:134-176: one iteration of the loop of `ADTSPackets.Marshal`. The Go code also stores the channel
configuration it has chosen in the packet, which the model leaves as it is. -/
def ADTSPacket.marshal (p : ADTSPacket) : BitW :=
  if p.type < 1 ∨ p.type > 4 then BitW.fail "ADTS only supports ObjectType 1-4" else
  match reverseSampleRates.lookup p.sampleRate with
  | none => BitW.fail "invalid sample rate"
  | some sampleRateIndex =>
    match adtsConfig p with
    | none => BitW.fail "invalid channel count"
    | some cfg =>
      let frameLen := p.au.length + 7
      let fullness := 0x07FF
      BitW.seq
        (ByteW.put [0xFF, 0xF1,
          UInt8.ofNat (p.type - 1) <<< 6 ||| UInt8.ofNat sampleRateIndex <<< 2 ||| (cfg >>> 2),
          (cfg &&& 0x03) <<< 6 ||| UInt8.ofNat (frameLen >>> 11),
          UInt8.ofNat (frameLen >>> 3),
          UInt8.ofNat (frameLen &&& 0x07) <<< 5 ||| UInt8.ofNat (fullness >>> 6),
          UInt8.ofNat (fullness &&& 0x3F) <<< 2])
        (ByteW.copy p.au)

/-- pkg/codecs/mpeg4audio/adts.go:130-179 (`ADTSPackets.Marshal`). -/
def ADTSPackets.marshal (ps : List ADTSPacket) : Res Bytes := do
  let r ← BitW.all (ps.map ADTSPacket.marshal) (makeBytes (ADTSPackets.marshalSize ps)) 0
  .ok r.1

/-- pkg/codecs/mpeg4audio/audio_sync_stream.go:14-31: one iteration of the loop of `AudioSyncStream.Unmarshal`. The Go
code drops what it has read from the front of `buf`; the model moves a position. `3 + le` is computed in `uint16`, which
cannot overflow for a 13-bit `le`. -/
def audioMuxElementRaw : BitM Bytes := do
  ByteR.need 3
  let b0 ← ByteR.byte
  let b1 ← ByteR.byte
  let b2 ← ByteR.byte
  if ((b0.toNat <<< 8 ||| b1.toNat) >>> 5) ≠ 0x2B7 then BitM.fail "invalid syncword" else do
  let le := (b1.toNat <<< 8 ||| b2.toNat) &&& 0b1111111111111
  ByteR.need le
  ByteR.take le

/-- pkg/codecs/mpeg4audio/audio_sync_stream.go:12-38 (`AudioSyncStream.Unmarshal`). -/
def AudioSyncStream.unmarshal (buf : Bytes) : Res (List Bytes) := do
  let r ← ByteR.untilEnd audioMuxElementRaw (buf.length + 1) buf 0
  .ok r.1

/-- audio_sync_stream.go:40-46 (`marshalSize`). -/
def AudioSyncStream.marshalSize (els : List Bytes) : Nat := 3 * els.length + (els.map List.length).sum

/-- audio_sync_stream.go:53-62: one iteration of the loop of `AudioSyncStream.Marshal`. -/
def syncElementW (el : Bytes) : BitW :=
  let shiftedSyncWord := 0x2B7 <<< 5
  let le := el.length
  BitW.seq
    (ByteW.put [UInt8.ofNat (shiftedSyncWord >>> 8), UInt8.ofNat shiftedSyncWord ||| UInt8.ofNat (le >>> 8), UInt8.ofNat le])
    (ByteW.copy el)

/-- pkg/codecs/mpeg4audio/audio_sync_stream.go:49-65 (`AudioSyncStream.Marshal`). -/
def AudioSyncStream.marshal (els : List Bytes) : Res Bytes := do
  let r ← BitW.all (els.map syncElementW) (makeBytes (AudioSyncStream.marshalSize els)) 0
  .ok r.1

end Verif.MPEG4Audio
