import Verif.Model.ADTS

/-!
# AudioSpecificConfig, StreamMuxConfig, AudioMuxElement (pkg/codecs/mpeg4audio)

`int` and `uint` fields are natural numbers (negative values are not modelled); `uint32` arithmetic is reduced explicitly.
-/

namespace Verif.MPEG4Audio
open Verif.BitM

/-! ## AudioSpecificConfig -/

/-- pkg/codecs/mpeg4audio/audio_specific_config.go:16-37 (`AudioSpecificConfig`). -/
structure ASC where
  type : Nat
  sampleRate : Nat
  channelConfig : Nat
  channelCount : Nat
  extensionType : Nat
  extensionSampleRate : Nat
  frameLengthFlag : Bool
  dependsOnCoreCoder : Bool
  coreCoderDelay : Nat
  deriving Repr, DecidableEq

/-- audio_specific_config.go:71-90 and :123-141: a sample rate, as an index or in 24 bits. -/
def readRate : BitM Nat := do
  let i ← readBits 4
  if i ≤ 12 then lift (sampleRateAt i)
  else if i = 0x0F then readBits 24
  else fail "invalid sample rate index"

/-- audio_specific_config.go:98-117: the `switch` on the channel configuration. -/
def ascChannelCount (c : Nat) : Res Nat :=
  if c ≥ 1 ∧ c ≤ 6 then .ok c
  else if c = 7 then .ok 8
  else if c = 0 then .ok 0
  else .err "unsupported channel configuration"

/-- audio_specific_config.go:119-152: the fields of an SBR or PS extension. The object type must be AAC-LC. -/
def readExtension : BitM Nat := do
  let rate ← readRate
  let t ← readBits 5
  if t ≠ 2 then fail "unsupported object type" else pure rate

/-- pkg/codecs/mpeg4audio/audio_specific_config.go:58-186 (`AudioSpecificConfig.unmarshalBits`). After an extension the
object type is 2, which `readExtension` has checked. -/
def ASC.unmarshalBits : BitM ASC := do
  let t ← readBits 5
  if ¬ (t = 2 ∨ t = 5 ∨ t = 29) then fail "unsupported object type" else do
  let rate ← readRate
  let cfg ← readBits 4
  let count ← lift (ascChannelCount cfg)
  let ext ← cond (t == 5 || t == 29) readExtension 0
  let frameLengthFlag ← readFlag
  let dep ← readFlag
  let delay ← cond dep (readBits 14) 0
  let extensionFlag ← readFlag
  if extensionFlag then fail "extensionFlag is unsupported" else
  pure { type := 2, sampleRate := rate, channelConfig := cfg, channelCount := count,
         extensionType := if t = 5 ∨ t = 29 then t else 0, extensionSampleRate := ext,
         frameLengthFlag := frameLengthFlag, dependsOnCoreCoder := dep, coreCoderDelay := delay }

/-- pkg/codecs/mpeg4audio/audio_specific_config.go:40-48 (`AudioSpecificConfig.Unmarshal`). -/
def ASC.unmarshal (buf : Bytes) : Res ASC := do
  let r ← ASC.unmarshalBits buf 0
  .ok r.1

/-- audio_specific_config.go:191-196 and :199-204: the bits of a sample rate. -/
def rateSize (r : Nat) : Nat :=
  match reverseSampleRates.lookup r with
  | none => 28
  | some _ => 4

/-- audio_specific_config.go:188-214 (`marshalSizeBits`). -/
def ASC.marshalSizeBits (c : ASC) : Nat :=
  5 + 4 + 2 + 1 + rateSize c.sampleRate +
  (if c.extensionType = 5 ∨ c.extensionType = 29 then rateSize c.extensionSampleRate + 5 else 0) +
  (if c.dependsOnCoreCoder then 14 else 0)

/-- audio_specific_config.go:246-252 and :275-281: a sample rate is written. -/
def rateW (r : Nat) : BitW :=
  match reverseSampleRates.lookup r with
  | none => BitW.seq (BitW.bits 15 4) (BitW.bits r 24)
  | some i => BitW.bits i 4

/-- audio_specific_config.go:254-270: the channel configuration is written; a channel count takes precedence. -/
def configW (c : ASC) : BitW :=
  if c.channelCount ≠ 0 then
    if c.channelCount ≥ 1 ∧ c.channelCount ≤ 6 then BitW.bits c.channelCount 4
    else if c.channelCount = 8 then BitW.bits 7 4
    else BitW.fail "invalid channel count"
  else BitW.bits c.channelConfig 4

/-- pkg/codecs/mpeg4audio/audio_specific_config.go:239-292 (`marshalToBits`). -/
def ASC.marshalW (c : ASC) : BitW :=
  BitW.all [
    BitW.bits (if c.extensionType = 5 ∨ c.extensionType = 29 then c.extensionType else c.type) 5,
    rateW c.sampleRate,
    configW c,
    if c.extensionType = 5 ∨ c.extensionType = 29 then BitW.seq (rateW c.extensionSampleRate) (BitW.bits c.type 5)
    else BitW.nop,
    BitW.flag c.frameLengthFlag,
    BitW.flag c.dependsOnCoreCoder,
    if c.dependsOnCoreCoder then BitW.bits c.coreCoderDelay 14 else BitW.nop,
    BitW.skip 1]

/-- audio_specific_config.go:216-225 (`marshalSize`): `n / 8`, plus one if `n % 8 != 0`. -/
def ceil8 (n : Nat) : Nat := if n % 8 ≠ 0 then n / 8 + 1 else n / 8

/-- pkg/codecs/mpeg4audio/audio_specific_config.go:228-237 (`AudioSpecificConfig.Marshal`). -/
def ASC.marshal (c : ASC) : Res Bytes := do
  let r ← c.marshalW (makeBytes (ceil8 c.marshalSizeBits)) 0
  .ok r.1

/-! ## StreamMuxConfig -/

/-- pkg/codecs/mpeg4audio/stream_mux_config.go:10-17 (`StreamMuxConfigLayer`); `none` is a nil config. -/
structure Layer where
  asc : Option ASC
  frameLengthType : Nat
  latmBufferFullness : Nat
  frameLength : Nat
  celpIndex : Nat
  hvxcIndex : Bool
  deriving Repr, DecidableEq

/-- pkg/codecs/mpeg4audio/stream_mux_config.go:26-33 (`StreamMuxConfig`); a program is its list of layers. -/
structure StreamMuxConfig where
  numSubFrames : Nat
  programs : List (List Layer)
  otherDataPresent : Bool
  otherDataLenBits : Nat
  crcCheckPresent : Bool
  crcCheckSum : Nat
  deriving Repr, DecidableEq

/-- stream_mux_config.go:103-110: an AudioSpecificConfig of a layer. -/
def readLayerASC : BitM (Option ASC) := do
  let c ← ASC.unmarshalBits
  pure (some c)

/-- stream_mux_config.go:124-154: the `switch` on the frame length type, one conditional read per field. -/
def readFrameInfo (asc : Option ASC) (t : Nat) : BitM Layer := do
  let latm ← cond (t == 0) (readBits 8) 0
  let fl ← cond (t == 1) (readBits 9) 0
  let celp ← cond (t == 4 || t == 5 || t == 3) (readBits 6) 0
  let hvxc ← cond (t == 6 || t == 7) readFlag false
  pure { asc := asc, frameLengthType := t, latmBufferFullness := latm, frameLength := fl, celpIndex := celp, hvxcIndex := hvxc }

/-- stream_mux_config.go:88-155: one layer, and whether the configuration is cut short after it (lines 113-119). `first`
is `prog == 0 && lay == 0`. -/
def readLayer (first : Bool) : BitM (Layer × Bool) := do
  let same ← cond (!first) readFlag false
  let asc ← cond (!same) readLayerASC none
  let t ← tryBits 3
  match t with
  | none => pure ({ asc := asc, frameLengthType := 0, latmBufferFullness := 255, frameLength := 0, celpIndex := 0,
                    hvxcIndex := false }, true)
  | some t => do
    let l ← readFrameInfo asc t
    pure (l, false)

/-- stream_mux_config.go:88-155: the loop over the layers, left when the configuration is cut short. -/
def readLayers : Bool → Nat → BitM (List Layer × Bool)
  | _, 0 => pure ([], false)
  | first, n + 1 => do
    let r ← readLayer first
    if r.2 then pure ([r.1], true) else do
    let rs ← readLayers false n
    pure (r.1 :: rs.1, rs.2)

/-- stream_mux_config.go:76-86: one program. -/
def readProgram (first : Bool) : BitM (List Layer × Bool) := do
  let numLayer ← readBits 3
  readLayers first (numLayer + 1)

/-- stream_mux_config.go:76-156: the loop over the programs, left when the configuration is cut short. -/
def readPrograms : Bool → Nat → BitM (List (List Layer) × Bool)
  | _, 0 => pure ([], false)
  | first, n + 1 => do
    let r ← readProgram first
    if r.2 then pure ([r.1], true) else do
    let rs ← readPrograms false n
    pure (r.1 :: rs.1, rs.2)

/-- stream_mux_config.go:164-179: the loop that reads the length of the other data. The fuel bounds the number of
iterations; running out of it is reported as a panic. -/
def otherDataLoop : Nat → Nat → BitM Nat
  | 0, _ => lift .panic
  | fuel + 1, v => do
    hasSpace 9
    let esc ← readFlagU
    let tmp ← readBitsU 8
    let v := (v * 256 % 2 ^ 32 + tmp) % 2 ^ 32
    if !esc then pure v else otherDataLoop fuel v

/-- stream_mux_config.go:163-180: more rounds than bytes. -/
def readOtherData : BitM Nat := do
  let n ← bufLen
  otherDataLoop (n + 1) 0

/-- stream_mux_config.go:158-195: the fields after the programs. -/
def readMuxTail (numSubFrames : Nat) (programs : List (List Layer)) : BitM StreamMuxConfig := do
  let otherDataPresent ← readFlag
  let otherDataLenBits ← cond otherDataPresent readOtherData 0
  let crcCheckPresent ← readFlag
  let crcCheckSum ← cond crcCheckPresent (readBits 8) 0
  pure { numSubFrames := numSubFrames, programs := programs, otherDataPresent := otherDataPresent,
         otherDataLenBits := otherDataLenBits, crcCheckPresent := crcCheckPresent, crcCheckSum := crcCheckSum }

/-- pkg/codecs/mpeg4audio/stream_mux_config.go:56-196 (`StreamMuxConfig.unmarshalBits`), on an empty `StreamMuxConfig`. -/
def StreamMuxConfig.unmarshalBits : BitM StreamMuxConfig := do
  hasSpace 12
  let audioMuxVersion ← readFlagU
  if audioMuxVersion then fail "audioMuxVersion = 1 is not supported" else do
  let allStreamsSameTimeFraming ← readFlagU
  if !allStreamsSameTimeFraming then fail "allStreamsSameTimeFraming = 0 is not supported" else do
  let numSubFrames ← readBitsU 6
  let numProgram ← readBitsU 4
  let r ← readPrograms true (numProgram + 1)
  if r.2 then pure { numSubFrames := numSubFrames, programs := r.1, otherDataPresent := false, otherDataLenBits := 0,
                     crcCheckPresent := false, crcCheckSum := 0 }
  else readMuxTail numSubFrames r.1

/-- pkg/codecs/mpeg4audio/stream_mux_config.go:36-53 (`StreamMuxConfig.Unmarshal`). -/
def StreamMuxConfig.unmarshal (buf : Bytes) : Res StreamMuxConfig := do
  let r ← StreamMuxConfig.unmarshalBits buf 0
  if ceil8 r.2 ≠ buf.length then .err "detected unread bytes" else .ok r.1

/-- stream_mux_config.go:206-229: the bits of a layer. -/
def layerSize (first : Bool) (l : Layer) : Nat :=
  (if !first then 1 else 0) + (match l.asc with | some c => c.marshalSizeBits | none => 0) + 3 +
  (if l.frameLengthType = 0 then 8
   else if l.frameLengthType = 1 then 9
   else if l.frameLengthType = 4 ∨ l.frameLengthType = 5 ∨ l.frameLengthType = 3 then 6
   else if l.frameLengthType = 6 ∨ l.frameLengthType = 7 then 1
   else 0)

/-- stream_mux_config.go:206-230: the loop over the layers of a program. -/
def layersSize : Bool → List Layer → Nat
  | _, [] => 0
  | first, l :: ls => layerSize first l + layersSize false ls

/-- stream_mux_config.go:201-231: the loop over the programs. -/
def programsSize : Bool → List (List Layer) → Nat
  | _, [] => 0
  | first, p :: ps => 3 + layersSize first p + programsSize false ps

/-- stream_mux_config.go:236-245: the bits of the other data length; `tmp` is a `uint32`. -/
def otherDataSize (tmp : Nat) : Nat :=
  if h : tmp / 256 = 0 then 9 else 9 + otherDataSize (tmp / 256)
termination_by tmp
decreasing_by omega

/-- pkg/codecs/mpeg4audio/stream_mux_config.go:198-255 (`marshalSizeBits`). -/
def StreamMuxConfig.marshalSizeBits (c : StreamMuxConfig) : Nat :=
  12 + programsSize true c.programs + 1 + (if c.otherDataPresent then otherDataSize c.otherDataLenBits else 0) + 1 +
  (if c.crcCheckPresent then 8 else 0)

/-- `uint64(len(x)-1)`. -/
def predU64 (n : Nat) : Nat := if n = 0 then 2 ^ 64 - 1 else n - 1

/-- stream_mux_config.go:286-315: a layer is written. -/
def layerW (first : Bool) (l : Layer) : BitW :=
  BitW.all [
    if !first then BitW.flag l.asc.isNone else BitW.nop,
    match l.asc with | some c => c.marshalW | none => BitW.nop,
    BitW.bits l.frameLengthType 3,
    if l.frameLengthType = 0 then BitW.bits l.latmBufferFullness 8
    else if l.frameLengthType = 1 then BitW.bits l.frameLength 9
    else if l.frameLengthType = 4 ∨ l.frameLengthType = 5 ∨ l.frameLengthType = 3 then BitW.bits l.celpIndex 6
    else if l.frameLengthType = 6 ∨ l.frameLengthType = 7 then BitW.flag l.hvxcIndex
    else BitW.nop]

/-- stream_mux_config.go:286-315: the loop over the layers of a program. -/
def layersW : Bool → List Layer → BitW
  | _, [] => BitW.nop
  | first, l :: ls => BitW.seq (layerW first l) (layersW false ls)

/-- stream_mux_config.go:283-316: the loop over the programs. -/
def programsW : Bool → List (List Layer) → BitW
  | _, [] => BitW.nop
  | first, p :: ps => BitW.seq (BitW.seq (BitW.bits (predU64 p.length) 3) (layersW first p)) (programsW false ps)

/-- stream_mux_config.go:321-333: `lenBytes`, least significant first. -/
def lenBytes (tmp : Nat) : List Nat :=
  if h : tmp / 256 = 0 then [tmp % 256] else tmp % 256 :: lenBytes (tmp / 256)
termination_by tmp
decreasing_by omega

/-- stream_mux_config.go:335-341: `lenBytes` written from its end; only the last group written has no escape flag. -/
def lenBytesW : List Nat → BitW
  | [] => BitW.nop
  | b :: bs => BitW.seq (BitW.all (bs.reverse.map fun x => BitW.seq (BitW.flag true) (BitW.bits x 8)))
      (BitW.seq (BitW.flag false) (BitW.bits b 8))

/-- pkg/codecs/mpeg4audio/stream_mux_config.go:276-344 (`marshalToBits`). -/
def StreamMuxConfig.marshalW (c : StreamMuxConfig) : BitW :=
  BitW.all [
    BitW.flag false,
    BitW.flag true,
    BitW.bits c.numSubFrames 6,
    BitW.bits (predU64 c.programs.length) 4,
    programsW true c.programs,
    if c.otherDataPresent then BitW.seq (BitW.flag true) (lenBytesW (lenBytes c.otherDataLenBits)) else BitW.flag false,
    BitW.flag c.crcCheckPresent,
    if c.crcCheckPresent then BitW.bits c.crcCheckSum 8 else BitW.nop]

/-- pkg/codecs/mpeg4audio/stream_mux_config.go:257-274 (`StreamMuxConfig.Marshal`). -/
def StreamMuxConfig.marshal (c : StreamMuxConfig) : Res Bytes := do
  let r ← c.marshalW (makeBytes (ceil8 c.marshalSizeBits)) 0
  .ok r.1

/-! ## AudioMuxElement -/

/-- pkg/codecs/mpeg4audio/payload_length_info.go:9-12 (`payloadLengthInfoLayer`). -/
structure Slot where
  lengthBytes : Nat
  lengthCoded : Nat
  deriving Repr, DecidableEq

/-- payload_length_info.go:40-50: the loop that adds up a length. The fuel bounds the number of iterations; running out of
it is reported as a panic. -/
def slotLoop : Nat → Nat → BitM Nat
  | 0, _ => lift .panic
  | fuel + 1, res => do
    let tmp ← readBits 8
    if tmp ≠ 255 then pure (res + tmp) else slotLoop fuel (res + tmp)

/-- payload_length_info.go:38-50: more rounds than bytes. -/
def readSlotLength : BitM Nat := do
  let n ← bufLen
  slotLoop (n + 1) 0

/-- payload_length_info.go:36-59: one layer. -/
def readSlot (l : Layer) : BitM Slot := do
  let b ← cond (l.frameLengthType == 0) readSlotLength 0
  let c ← cond (l.frameLengthType == 5 || l.frameLengthType == 7 || l.frameLengthType == 3) (readBits 2) 0
  pure { lengthBytes := b, lengthCoded := c }

/-- pkg/codecs/mpeg4audio/payload_length_info.go:27-64 (`payloadLengthInfo.unmarshalBits`). -/
def readLengthInfo (programs : List (List Layer)) : BitM (List (List Slot)) := each (each readSlot) programs

/-- payload_mux.go:26-44: the payload of one layer; `payloadLength` (payload_length_info.go:113-123) only knows frame
length type 0. -/
def readPayload (x : Layer × Slot) : BitM Bytes := do
  if x.1.frameLengthType ≠ 0 then fail "unsupported frameLengthType" else do
  let bs ← times (readBits 8) x.2.lengthBytes
  pure (bs.map UInt8.ofNat)

/-- pkg/codecs/mpeg4audio/payload_mux.go:15-48 (`payloadMux.unmarshalBits`). The length info was built from the same
programs, so the Go code indexes both by the same indexes; the model pairs them up. -/
def readPayloadMux (programs : List (List Layer)) (li : List (List Slot)) : BitM (List (List Bytes)) :=
  each (fun x : List Layer × List Slot => each readPayload (x.1.zip x.2)) (programs.zip li)

/-- audio_mux_element.go:56-71: one subframe. -/
def readSubFrame (programs : List (List Layer)) : BitM (List (List Bytes)) := do
  let li ← readLengthInfo programs
  readPayloadMux programs li

/-- The element without the fields the caller fills in (audio_mux_element.go:11-25). -/
structure MuxElement where
  useSameStreamMux : Bool
  config : Option StreamMuxConfig
  payloads : List (List (List Bytes))
  deriving Repr, DecidableEq

/-- audio_mux_element.go:37-43. -/
def readElementConfig : BitM (Option StreamMuxConfig) := do
  let c ← StreamMuxConfig.unmarshalBits
  pure (some c)

/-- audio_mux_element.go:28-76: `Unmarshal` up to the check for unread bytes. `present` and `config` are the fields
`MuxConfigPresent` and `StreamMuxConfig` filled in by the caller. -/
def MuxElement.unmarshalBits (present : Bool) (config : Option StreamMuxConfig) : BitM MuxElement := do
  let same ← cond present readFlag false
  let config ← cond (present && !same) readElementConfig config
  match config with
  | none => fail "no StreamMuxConfig available"
  | some c => do
    let payloads ← times (readSubFrame c.programs) (c.numSubFrames + 1)
    if c.otherDataPresent then fail "OtherDataPresent is not supported (yet)" else
    pure { useSameStreamMux := same, config := some c, payloads := payloads }

/-- pkg/codecs/mpeg4audio/audio_mux_element.go:28-87 (`AudioMuxElement.Unmarshal`). -/
def MuxElement.unmarshal (present : Bool) (config : Option StreamMuxConfig) (buf : Bytes) : Res MuxElement := do
  let r ← MuxElement.unmarshalBits present config buf 0
  if ceil8 r.2 ≠ buf.length then .err "detected unread bytes" else .ok r.1

/-- Go indexing of a slice. -/
def sliceAt {α} (l : List α) (i : Nat) : Res α :=
  match l[i]? with
  | some a => .ok a
  | none => .panic

/-- audio_mux_element.go:106-111 and :151-156: the loop over the layers from index `lay`; `setPayloadLength`
(payload_length_info.go:125-137) only knows frame length type 0. -/
def layerLengths (payloads : List (List Bytes)) (prog : Nat) : Nat → List Layer → Res (List Nat)
  | _, [] => .ok []
  | lay, l :: ls => do
    let p ← sliceAt payloads prog
    let b ← sliceAt p lay
    if l.frameLengthType ≠ 0 then .err "unsupported frameLengthType" else do
    let r ← layerLengths payloads prog (lay + 1) ls
    .ok (b.length :: r)

/-- audio_mux_element.go:103-112 and :148-157: the loop over the programs from index `prog`. -/
def programLengths (payloads : List (List Bytes)) : Nat → List (List Layer) → Res (List (List Nat))
  | _, [] => .ok []
  | prog, p :: ps => do
    let a ← layerLengths payloads prog 0 p
    let r ← programLengths payloads (prog + 1) ps
    .ok (a :: r)

/-- audio_mux_element.go:98-116: the loop of `marshalSize` over the subframes from index `i`; `k` subframes are left. All
the layers have frame length type 0 when the lengths are known, so `payloadLengthInfo.marshalSizeBits`
(payload_length_info.go:66-84) is the sum of `(length/255+1)*8`. -/
def subFramesSize (c : StreamMuxConfig) (payloads : List (List (List Bytes))) : Nat → Nat → Res Nat
  | _, 0 => .ok 0
  | i, k + 1 => do
    let sub ← sliceAt payloads i
    let ls ← programLengths sub 0 c.programs
    let r ← subFramesSize c payloads (i + 1) k
    .ok ((ls.map fun p => (p.map fun n => (n / 255 + 1) * 8).sum).sum + (sub.map fun p => (p.map fun b => b.length * 8).sum).sum + r)

/-- pkg/codecs/mpeg4audio/audio_mux_element.go:89-127 (`marshalSize`): 0 when a payload length cannot be set. -/
def MuxElement.marshalSize (present : Bool) (e : MuxElement) (c : StreamMuxConfig) : Res Nat :=
  match subFramesSize c e.payloads 0 (c.numSubFrames + 1) with
  | .ok n => .ok (ceil8 ((if present then 1 + (if !e.useSameStreamMux then c.marshalSizeBits else 0) else 0) + n))
  | .err _ => .ok 0
  | .panic => .panic

/-- payload_length_info.go:94-103: a length is written. -/
def slotW (v : Nat) : BitW :=
  if h : 255 ≤ v then BitW.seq (BitW.bits 255 8) (slotW (v - 255)) else BitW.bits v 8
termination_by v
decreasing_by omega

/-- Writes that need a computation first. -/
def withRes {α} (x : Res α) (f : α → BitW) : BitW := fun buf pos => Res.bind x fun a => f a buf pos

/-- audio_mux_element.go:142-166: one subframe is written: lengths, then payloads (payload_mux.go:60-68). -/
def subFrameW (c : StreamMuxConfig) (sub : List (List Bytes)) : BitW :=
  withRes (programLengths sub 0 c.programs) fun ls =>
    BitW.seq (BitW.all (ls.map fun p => BitW.all (p.map slotW)))
      (BitW.all (sub.map fun p => BitW.all (p.map fun b => BitW.all (b.map fun x => BitW.bits x.toNat 8))))

/-- audio_mux_element.go:142-167: the loop over the subframes from index `i`; `k` subframes are left. -/
def subFramesW (c : StreamMuxConfig) (payloads : List (List (List Bytes))) : Nat → Nat → BitW
  | _, 0 => BitW.nop
  | i, k + 1 => BitW.seq (withRes (sliceAt payloads i) (subFrameW c)) (subFramesW c payloads (i + 1) k)

/-- pkg/codecs/mpeg4audio/audio_mux_element.go:130-172 (`AudioMuxElement.Marshal`). A nil `StreamMuxConfig` is
dereferenced. -/
def MuxElement.marshal (present : Bool) (e : MuxElement) : Res Bytes :=
  match e.config with
  | none => .panic
  | some c => do
    let n ← e.marshalSize present c
    let r ← BitW.all [
      if present then BitW.seq (BitW.flag e.useSameStreamMux) (if !e.useSameStreamMux then c.marshalW else BitW.nop) else BitW.nop,
      subFramesW c e.payloads 0 (c.numSubFrames + 1)] (makeBytes n) 0
    .ok r.1

end Verif.MPEG4Audio
