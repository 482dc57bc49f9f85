import Verif.Model.ADTS
import Verif.Model.AudioHeaders
import Verif.Model.H264
import Verif.Model.MPEG4Config
import Verif.Model.TSMetadata
import Verif.Model.TSOpus
import Verif.Model.TSWriter

/-!
# MPEG-TS tracks, reader and writer (pkg/formats/mpegts)

The third-party multiplexer and demultiplexer (`astits`) are outside the model. What the demultiplexer delivers is a list of
`Data`; a call of the writer is the `Request` that it makes to the multiplexer. Descriptors are values; `astits` encodes a
descriptor by its tag and decodes it into the field that belongs to the tag. `demux` says which PES packet is assumed to come
out for a request.
-/

namespace Verif.MPEGTS
open MPEG4Audio (ASC ADTSPacket ADTSPackets.marshal ADTSPackets.unmarshal AudioSyncStream.marshal AudioSyncStream.unmarshal)

/-! ## Values of `astits` -/

/-- `astits.DescriptorSubtitlingItem`. -/
structure SubtitlingItem where
  language : Bytes
  type : Nat
  compositionPageID : Nat
  ancillaryPageID : Nat
  deriving Repr, DecidableEq

/-- `astits.Descriptor`, the ones that the library looks at. A list of subtitling items without items is the `nil` slice. -/
inductive Desc where
  | registration (id : Nat)
  | extension (tag : Nat) (unknown : Option Bytes)
  | unknown (tag : Nat) (content : Bytes)
  | subtitling (items : List SubtitlingItem)
  | language (language : Bytes)
  | ac3 (componentType bsid : Nat)
  | enhancedAC3 (componentType bsid : Nat)
  | other
  deriving Repr, DecidableEq

/-- `astits.PMTElementaryStream`. -/
structure ES where
  pid : Nat
  streamType : Nat
  descriptors : List Desc := []
  deriving Repr, DecidableEq

/-- `astits.PESOptionalHeader`: the indicator and the two clock references, which are pointers. -/
structure OptHeader where
  indicator : Nat
  pts : Option Int
  dts : Option Int
  deriving Repr, DecidableEq

/-- `astits.PESData`. -/
structure PES where
  streamID : Nat
  optional : Option OptHeader
  data : Bytes
  deriving Repr, DecidableEq

/-- pkg/formats/mpegts/robust_demuxer.go:116-121 (`robustDemuxerData`). -/
structure Data where
  pid : Nat
  lastPTS : Option Int := none
  pmt : Option (List ES) := none
  pes : Option PES := none
  deriving Repr, DecidableEq

/-- What is left to demultiplex. After the last item `nextData` (robust_demuxer.go:145-178) fails with `io.EOF`; a failure of
the underlying reader ends the list in the same way. -/
abbrev Dem := List Data

/-! ## Stream types and tags of `astits` -/

def stMPEG1Video : Nat := 0x01
def stMPEG2Video : Nat := 0x02
def stMPEG1Audio : Nat := 0x03
def stPrivateData : Nat := 0x06
def stAACAudio : Nat := 0x0F
def stMPEG4Video : Nat := 0x10
def stAACLATMAudio : Nat := 0x11
def stMetadata : Nat := 0x15
def stH264Video : Nat := 0x1B
def stH265Video : Nat := 0x24
def stAC3Audio : Nat := 0x81
def stEAC3Audio : Nat := 0x87

/-- pkg/formats/mpegts/track.go:16. -/
def opusIdentifier : Nat := 0x4F707573
/-- pkg/formats/mpegts/track.go:17. -/
def klvaIdentifier : Nat := 0x4B4C5641
/-- pkg/formats/mpegts/substructs/metadata_descriptor.go, `DescriptorTagMetadata`. -/
def tagMetadata : Nat := 0x26
/-- pkg/formats/mpegts/substructs/metadata_std_descriptor.go, `DescriptorTagMetadataSTD`. -/
def tagMetadataSTD : Nat := 0x27

/-! ## Tracks -/

/-- pkg/formats/mpegts/codecs. -/
inductive Codec where
  | h265
  | h264
  | mpeg4Video
  | mpeg1Video
  | opus (desc : Option TSOpus.Descriptor) (channelCount : Int)
  | mpeg4Audio (c : ASC)
  | latm
  | mpeg1Audio
  | ac3 (sampleRate : Nat) (channelCount : Int)
  | eac3 (sampleRate : Nat) (channelCount : Int)
  | klv (synchronous : Bool)
  | dvbSubtitle (items : List SubtitlingItem)
  | unsupported
  deriving Repr, DecidableEq

/-- pkg/formats/mpegts/track.go:324-336 (`Track`), without the two flags of the writer. The language is a string. -/
structure Track where
  pid : Nat := 0
  language : Bytes := []
  codec : Codec
  deriving Repr, DecidableEq

/-- The loops that look for the first PES packet of a track, track.go:28-101, up to the use of its payload. -/
def findPES (pid : Nat) : Dem → Res (Bytes × Dem)
  | [] => .err "EOF"
  | d :: dem =>
    match d.pes with
    | none => findPES pid dem
    | some p => if d.pid ≠ pid then findPES pid dem else .ok (p.data, dem)

/-- pkg/formats/mpegts/track.go:28-53 (`findMPEG4AudioConfig`). -/
def findMPEG4AudioConfig (dem : Dem) (pid : Nat) : Res (ASC × Dem) := do
  let (data, dem) ← findPES pid dem
  let pkts ← ADTSPackets.unmarshal data
  let pkt ← idx pkts 0
  .ok (⟨pkt.type, pkt.sampleRate, pkt.channelConfig.toNat, pkt.channelCount, 0, 0, false, false, 0⟩, dem)

/-- pkg/formats/mpegts/track.go:55-80 (`findAC3Parameters`). -/
def findAC3Parameters (dem : Dem) (pid : Nat) : Res ((Nat × Nat) × Dem) := do
  let (data, dem) ← findPES pid dem
  let s ← AC3.SyncInfo.unmarshal data
  let rest ← sliceFrom data 5
  let b ← AC3.BSI.unmarshal rest
  .ok ((s.sampleRate, b.channelCount), dem)

/-- pkg/formats/mpegts/track.go:82-101 (`findEAC3Parameters`). -/
def findEAC3Parameters (dem : Dem) (pid : Nat) : Res ((Nat × Nat) × Dem) := do
  let (data, dem) ← findPES pid dem
  let s ← EAC3.SyncInfo.unmarshal data
  let rate ← s.sampleRate
  .ok ((rate, s.channelCount), dem)

/-- The loop of track.go:106-114: the identifier so far is 0 if there is none. -/
def registrationLoop : List Desc → Nat → Option Nat
  | [], ret => some ret
  | .registration id :: l, ret => if ret ≠ 0 then none else registrationLoop l id
  | _ :: l, ret => registrationLoop l ret

/-- pkg/formats/mpegts/track.go:103-121 (`findRegistrationIdentifier`). -/
def findRegistrationIdentifier (l : List Desc) : Option Nat :=
  match registrationLoop l 0 with
  | none => none
  | some ret => if ret = 0 then none else some ret

/-- The loop of track.go:125-143. -/
def metadataLoop : List Desc → Option TSMetadata.Descriptor → Option TSMetadata.Descriptor
  | [], ret => ret
  | .unknown tag content :: l, ret =>
    if tag = tagMetadata then
      match TSMetadata.Descriptor.unmarshal content with
      | .ok dm => if dm.formatIdentifier = klvaIdentifier then (if ret.isSome then none else metadataLoop l (some dm)) else metadataLoop l ret
      | _ => metadataLoop l ret
    else metadataLoop l ret
  | _ :: l, ret => metadataLoop l ret

/-- pkg/formats/mpegts/track.go:123-145 (`findKLVMetadataDescriptor`). A panic of `Unmarshal`, which C42 excludes, is treated as
an error here. -/
def findKLVMetadataDescriptor (l : List Desc) : Option TSMetadata.Descriptor := metadataLoop l none

/-- pkg/formats/mpegts/track.go:147-154 (`findDVBSubtitlingDescriptor`). -/
def findDVBSubtitlingDescriptor : List Desc → List SubtitlingItem
  | [] => []
  | .subtitling items :: _ => items
  | _ :: l => findDVBSubtitlingDescriptor l

/-- pkg/formats/mpegts/track.go:156-169 (`findOpusAudioDescriptor`). -/
def findOpusAudioDescriptor : List Desc → Res TSOpus.Descriptor
  | [] => .err "opus audio descriptor not found"
  | .extension tag (some b) :: l => if tag = 0x80 then TSOpus.Descriptor.unmarshal b else findOpusAudioDescriptor l
  | _ :: l => findOpusAudioDescriptor l

/-- track.go:229-255: the cases of private data. -/
def findPrivate (es : ES) : Res Codec :=
  match findRegistrationIdentifier es.descriptors with
  | some id =>
    if id = opusIdentifier then do
      let desc ← findOpusAudioDescriptor es.descriptors
      .ok (.opus (some desc) desc.channelCount)
    else if id = klvaIdentifier then .ok (.klv false)
    else .ok .unsupported
  | none =>
    let items := findDVBSubtitlingDescriptor es.descriptors
    if items ≠ [] then .ok (.dvbSubtitle items) else .ok .unsupported

/-- pkg/formats/mpegts/track.go:171-264 (`findCodec`). -/
def findCodec (dem : Dem) (es : ES) : Res (Codec × Dem) :=
  if es.streamType = stH265Video then .ok (.h265, dem)
  else if es.streamType = stH264Video then .ok (.h264, dem)
  else if es.streamType = stMPEG4Video then .ok (.mpeg4Video, dem)
  else if es.streamType = stMPEG2Video ∨ es.streamType = stMPEG1Video then .ok (.mpeg1Video, dem)
  else if es.streamType = stAACAudio then do
    let (c, dem) ← findMPEG4AudioConfig dem es.pid
    .ok (.mpeg4Audio c, dem)
  else if es.streamType = stAACLATMAudio then .ok (.latm, dem)
  else if es.streamType = stMPEG1Audio then .ok (.mpeg1Audio, dem)
  else if es.streamType = stAC3Audio then do
    let (r, dem) ← findAC3Parameters dem es.pid
    .ok (.ac3 r.1 r.2, dem)
  else if es.streamType = stEAC3Audio then do
    let (r, dem) ← findEAC3Parameters dem es.pid
    .ok (.eac3 r.1 r.2, dem)
  else if es.streamType = stPrivateData then do
    let c ← findPrivate es
    .ok (c, dem)
  else if es.streamType = stMetadata then
    if (findKLVMetadataDescriptor es.descriptors).isSome then .ok (.klv true, dem) else .ok (.unsupported, dem)
  else .ok (.unsupported, dem)

/-- track.go:341-348: the first language descriptor of at least three bytes. -/
def findLanguage : List Desc → Bytes
  | [] => []
  | .language lang :: l => if lang.length ≥ 3 then lang.take 3 else findLanguage l
  | _ :: l => findLanguage l

/-- pkg/formats/mpegts/track.go:338-357 (`Track.unmarshal`). -/
def Track.unmarshal (dem : Dem) (es : ES) : Res (Track × Dem) := do
  let (codec, dem) ← findCodec dem es
  .ok ({ pid := es.pid, language := findLanguage es.descriptors, codec }, dem)

/-- pkg/formats/mpegts/track.go:268-287 (`ac3ComponentType`) and :299-321 (`eac3ComponentType`), which agree. -/
def componentType (channels : Int) (fullService : Bool) : Nat :=
  (if fullService then 1 else 0) ||| (if channels ≤ 2 then 0x02 <<< 1 else if channels ≤ 4 then 0x05 <<< 1 else 0x06 <<< 1)

/-- track.go:385-424: the descriptors of Opus. -/
def opusDescriptors (desc : Option TSOpus.Descriptor) (channelCount : Int) : Res (List Desc) := do
  let desc := desc.getD ⟨UInt8.ofNat (channelCount % 256).toNat, 0, 0, 0, 0, []⟩
  let enc ← desc.marshal
  .ok [.registration opusIdentifier, .extension 0x80 (some enc)]

/-- track.go:487-533: the descriptors of synchronous KLV. -/
def klvDescriptors : Res (List Desc) := do
  let m ← TSMetadata.Descriptor.marshal ⟨0x0100, 0, 0xFF, klvaIdentifier, 0, 0, false, [], [], [], 0, []⟩
  let s ← TSMetadata.STDDescriptor.marshal ⟨0, 0, 0⟩
  .ok [.unknown tagMetadata m, .unknown tagMetadataSTD s]

/-- track.go:362-578: stream type and descriptors of a codec. -/
def Codec.marshal : Codec → Res (Nat × List Desc)
  | .h265 => .ok (stH265Video, [])
  | .h264 => .ok (stH264Video, [])
  | .mpeg4Video => .ok (stMPEG4Video, [])
  | .mpeg1Video => .ok (stMPEG2Video, [])
  | .opus desc channelCount => do
    let l ← opusDescriptors desc channelCount
    .ok (stPrivateData, l)
  | .ac3 _ channelCount => .ok (stAC3Audio, [.ac3 (componentType channelCount true) 8])
  | .eac3 _ channelCount => .ok (stEAC3Audio, [.enhancedAC3 (componentType channelCount true) 16])
  | .mpeg4Audio _ => .ok (stAACAudio, [])
  | .latm => .ok (stAACLATMAudio, [])
  | .mpeg1Audio => .ok (stMPEG1Audio, [])
  | .klv true => do
    let l ← klvDescriptors
    .ok (stMetadata, l)
  | .klv false => .ok (stPrivateData, [.registration klvaIdentifier])
  | .dvbSubtitle items => .ok (stPrivateData, [.subtitling items])
  | .unsupported => .panic

/-- pkg/formats/mpegts/track.go:359-592 (`Track.marshal`). -/
def Track.marshal (t : Track) : Res ES := do
  let (streamType, l) ← t.codec.marshal
  .ok { pid := t.pid, streamType, descriptors := if t.language ≠ [] then l ++ [.language t.language] else l }

/-! ## Reader -/

/-- pkg/formats/mpegts/reader.go:56-67 (`findPMT`). -/
def findPMT : Dem → Res (List ES × Dem)
  | [] => .err "EOF"
  | d :: dem =>
    match d.pmt with
    | none => findPMT dem
    | some l => .ok (l, dem)

/-- reader.go:204-214: the tracks, each one found after the data that the previous one needed. -/
def unmarshalTracks : List ES → Dem → Res (List Track)
  | [], _ => .ok []
  | es :: l, dem => do
    let (t, dem) ← Track.unmarshal dem es
    let ts ← unmarshalTracks l dem
    .ok (t :: ts)

/-- pkg/formats/mpegts/reader.go:190-233 (`Reader.Initialize`): the tracks. Afterwards the stream is read again from its start. -/
def readTracks (dem : Dem) : Res (List Track) := do
  let (pmt, dem) ← findPMT dem
  unmarshalTracks pmt dem

/-- What a call of `Read` ends in: a callback of the client with timestamps and units, or the callback for decode errors. -/
inductive Event where
  | nalus (pts dts : Int) (au : List Bytes)
  | units (pts : Int) (units : List Bytes)
  | unit (pts : Int) (unit : Bytes)
  | decodeError (text : String)
  deriving Repr, DecidableEq

/-- The functions that the client can register for a track. -/
inductive Callback where
  | h265
  | h264
  | mpegxVideo
  | opus
  | mpeg4Audio
  | latm
  | mpeg1Audio
  | ac3
  | eac3
  | klv (synchronous : Bool)
  | dvbSubtitle
  deriving Repr, DecidableEq

/-- `r.onDecodeError(err); return nil`. -/
def orDecodeError {α : Type} (x : Res α) (f : α → Res Event) : Res Event :=
  match x with
  | .ok a => f a
  | .err e => .ok (.decodeError e)
  | .panic => .panic

/-- The check of reader.go:304-307 and the other audio callbacks. -/
def samePTS (pts dts : Int) (x : Res Event) : Res Event := if pts ≠ dts then .ok (.decodeError "PTS is not equal to DTS") else x

/-- reader.go:267-269 and :285-287: the delimiter in front of an access unit is dropped. -/
def dropDelimiter (delimiter : UInt8) (au : List Bytes) : Res (List Bytes) := do
  let first ← idx au 0
  let b ← idx first 0
  if b = delimiter then sliceFrom au 1 else .ok au

/-- pkg/formats/mpegts/reader.go:259-488 (`OnData*`): the function stored for a track. -/
def onData (cb : Callback) (pts dts : Int) (data : Bytes) : Res Event :=
  match cb with
  | .h265 => orDecodeError (H264.annexbUnmarshal data) fun au => do
    let au ← dropDelimiter 0x46 au
    .ok (.nalus pts dts au)
  | .h264 => orDecodeError (H264.annexbUnmarshal data) fun au => do
    let au ← dropDelimiter 9 au
    .ok (.nalus pts dts au)
  | .mpegxVideo => .ok (.unit pts data)
  | .opus => samePTS pts dts (orDecodeError (TSOpus.readOpus data) fun l => .ok (.units pts l))
  | .mpeg4Audio => samePTS pts dts (orDecodeError (ADTSPackets.unmarshal data) fun l => .ok (.units pts (l.map ADTSPacket.au)))
  | .latm => samePTS pts dts (orDecodeError (AudioSyncStream.unmarshal data) fun l => .ok (.units pts l))
  | .mpeg1Audio => samePTS pts dts (orDecodeError (MPEG1Audio.split data) fun l => .ok (.units pts l))
  | .ac3 => samePTS pts dts (orDecodeError (AC3.SyncInfo.unmarshal data) fun s => do
    let size ← s.frameSize
    if size ≠ data.length then .ok (.decodeError "unexpected frame size") else .ok (.unit pts data))
  | .eac3 => samePTS pts dts (orDecodeError (EAC3.SyncInfo.unmarshal data) fun _ => .ok (.unit pts data))
  | .klv true => orDecodeError (TSMetadata.readWrapper data) fun out => .ok (.unit pts out)
  | .klv false => .ok (.unit pts data)
  | .dvbSubtitle => .ok (.unit pts data)

/-- The parts of `Reader` (reader.go:178-187) that `Read` uses. -/
structure Reader where
  tracks : List Track
  onData : Nat → Option Callback

/-- reader.go:218-221: a map from PIDs to tracks, in which the last track with a PID wins. -/
def findTrack (tracks : List Track) (pid : Nat) : Option Track := tracks.reverse.find? fun t => t.pid == pid

/-- Go dereference. -/
def deref {α : Type} : Option α → Res α
  | some a => .ok a
  | none => .panic

/-- reader.go:523-539: both timestamps of a PES packet. -/
def timestamps (h : OptHeader) : Res (Int × Int) := do
  let pts ← deref h.pts
  if h.indicator = 3 then do
    let dts ← deref h.dts
    .ok (pts, dts)
  else .ok (pts, pts)

/-- reader.go:534-539: the callback, if one is registered. -/
def Reader.deliver (r : Reader) (pid : Nat) (pts dts : Int) (data : Bytes) : Res (Option Event) :=
  match r.onData pid with
  | none => .ok none
  | some cb => do
    let e ← MPEGTS.onData cb pts dts data
    .ok (some e)

/-- pkg/formats/mpegts/reader.go:491-539 (`Reader.Read`), on what the demultiplexer has delivered. -/
def Reader.read (r : Reader) (d : Data) : Res (Option Event) :=
  match d.pes with
  | none => .ok none
  | some pes =>
    match findTrack r.tracks d.pid with
    | none => .ok (some (.decodeError "received data from undeclared track"))
    | some track =>
      if track.codec = .klv false then
        match d.lastPTS with
        | none => .ok none
        | some pts => r.deliver d.pid pts 0 pes.data
      else
        match pes.optional with
        | none => .ok (some (.decodeError "PTS is missing"))
        | some h =>
          if h.indicator = 0 ∨ h.indicator = 1 then .ok (some (.decodeError "PTS is missing")) else do
          let (pts, dts) ← timestamps h
          r.deliver d.pid pts dts pes.data

/-! ## Writer -/

/-- A call of `mux.WriteData`: what `TSWriter` says about clocks, with stream ID and payload. -/
structure Request where
  unit : TSWriter.TSUnit
  streamID : Nat
  data : Bytes
  deriving Repr, DecidableEq

/-- The state of `Writer` and the flags `mp3Checked` of its tracks. Tracks are identified by their PIDs. -/
structure Writer where
  clock : TSWriter.Writer := {}
  mp3Checked : Nat → Bool := fun _ => false

/-- The payloads that a client can write. -/
inductive Call where
  | h265 (pts dts : Int) (au : List Bytes)
  | h264 (pts dts : Int) (au : List Bytes)
  | mpeg4Video (pts : Int) (frame : Bytes)
  | mpeg1Video (pts : Int) (frame : Bytes)
  | opus (pts : Int) (packets : List Bytes)
  | mpeg4Audio (pts : Int) (aus : List Bytes)
  | latm (pts : Int) (els : List Bytes)
  | mpeg1Audio (pts : Int) (frames : List Bytes)
  | ac3 (pts : Int) (frame : Bytes)
  | eac3 (pts : Int) (frame : Bytes)
  | klv (pts : Int) (unit : Bytes)
  | dvbSubtitle (pts : Int) (data : Bytes)
  deriving Repr, DecidableEq

/-- `bytes.Contains`. -/
def containsBytes (p : Bytes) : Bytes → Bool
  | [] => p.isEmpty
  | b :: l => p.isPrefixOf (b :: l) || containsBytes p l

/-- pkg/formats/mpegts/writer.go:341-398 (`writeVideo`). -/
def Writer.writeVideo (w : Writer) (pid : Nat) (pts dts : Int) (randomAccess : Bool) (data : Bytes) : Request × Writer :=
  let r := w.clock.writeVideo pid pts dts randomAccess
  (⟨r.1, 224, data⟩, { w with clock := r.2 })

/-- pkg/formats/mpegts/writer.go:400-436 (`writeAudio`) and :438-481 (`writeData`). -/
def Writer.writeOther (w : Writer) (pid : Nat) (hasPTS : Bool) (pts : Int) (streamID : Nat) (data : Bytes) : Request × Writer :=
  let r := w.clock.writeOther pid hasPTS pts
  (⟨r.1, streamID, data⟩, { w with clock := r.2 })

/-- writer.go:134-138 and :158-162: an access unit delimiter is put in front, unless there is one. -/
def addDelimiter (first : UInt8) (delimiter : Bytes) (au : List Bytes) : Res (List Bytes) := do
  let nalu ← idx au 0
  let b ← idx nalu 0
  if b ≠ first then .ok (delimiter :: au) else .ok au

/-- writer.go:233-241: an ADTS packet with the configuration of the track. -/
def adtsOf (c : ASC) (au : Bytes) : ADTSPacket := ⟨c.type, c.sampleRate, UInt8.ofNat c.channelConfig, c.channelCount, au⟩

/-- writer.go:271-283: the first frame of a track is checked. -/
def checkMP3 (w : Writer) (pid : Nat) (frames : List Bytes) : Res Writer :=
  if w.mp3Checked pid then .ok w else do
    let first ← idx frames 0
    let h ← MPEG1Audio.FrameHeader.unmarshal first
    if h.mpeg2 then .err "only MPEG-1 audio is supported" else
    .ok { w with mp3Checked := fun p => if p = pid then true else w.mp3Checked p }

/-- pkg/formats/mpegts/writer.go:127-339 (`Write*`). -/
def Writer.write (w : Writer) (t : Track) : Call → Res (Request × Writer)
  | .h265 pts dts au => do
    let au ← addDelimiter 0x46 [0x46, 1, 0x50] au
    let enc ← H264.annexbMarshal au
    let randomAccess ← H264.isRandomAccess265 au
    .ok (w.writeVideo t.pid pts dts randomAccess enc)
  | .h264 pts dts au => do
    let au ← addDelimiter 9 [9, 240] au
    let enc ← H264.annexbMarshal au
    let randomAccess ← H264.isRandomAccess au
    .ok (w.writeVideo t.pid pts dts randomAccess enc)
  | .mpeg4Video pts frame => .ok (w.writeVideo t.pid pts pts (containsBytes [0, 0, 1, 0xB3] frame) frame)
  | .mpeg1Video pts frame => .ok (w.writeVideo t.pid pts pts (containsBytes [0, 0, 1, 0xB8] frame) frame)
  | .opus pts packets => do
    let enc ← TSOpus.writeOpus packets
    .ok (w.writeOther t.pid true pts 192 enc)
  | .mpeg4Audio pts aus =>
    match t.codec with
    | .mpeg4Audio c => do
      let enc ← ADTSPackets.marshal (aus.map (adtsOf c))
      .ok (w.writeOther t.pid true pts 192 enc)
    | _ => .panic
  | .latm pts els => do
    let enc ← AudioSyncStream.marshal els
    .ok (w.writeOther t.pid true pts 192 enc)
  | .mpeg1Audio pts frames => do
    let w ← checkMP3 w t.pid frames
    .ok (w.writeOther t.pid true pts 192 frames.flatten)
  | .ac3 pts frame => .ok (w.writeOther t.pid true pts 192 frame)
  | .eac3 pts frame => .ok (w.writeOther t.pid true pts 192 frame)
  | .klv pts unit =>
    match t.codec with
    | .klv true => do
      let out ← TSMetadata.writeWrapper unit
      .ok (w.writeOther t.pid true pts 0xFC out)
    | .klv false => .ok (w.writeOther t.pid false 0 0xBD unit)
    | _ => .panic
  | .dvbSubtitle pts data => .ok (w.writeOther t.pid true pts 0xBD data)

/-- The timestamps of a PES header have 33 bits. -/
def clock33 (t : Int) : Int := t % 2 ^ 33

/-- What `astits` is assumed to deliver for a request: the PES packet with the same payload, whose clock references have lost
everything beyond 33 bits. -/
def demux (r : Request) (lastPTS : Option Int) : Data :=
  { pid := r.unit.track, lastPTS,
    pes := some ⟨r.streamID, some ⟨if r.unit.pts.isNone then 0 else if r.unit.dts.isNone then 2 else 3, r.unit.pts.map clock33,
      r.unit.dts.map clock33⟩, r.data⟩ }

/-- pkg/formats/mpegts/writer.go:65-93 (`Writer.Initialize`): PIDs are assigned to tracks without one. `astits` refuses a PID that it
already has. -/
def assignPIDs : List Track → Nat → List ES → Res (List Track × List ES)
  | [], _, streams => .ok ([], streams)
  | t :: l, next, streams => do
    let t' := if t.pid = 0 then { t with pid := next } else t
    let es ← t'.marshal
    if streams.any fun s => s.pid == es.pid then .err "PID already exists" else do
    let (ts, streams) ← assignPIDs l (if t.pid = 0 then (next + 1) % 2 ^ 16 else next) (streams ++ [es])
    .ok (t' :: ts, streams)

/-- pkg/formats/mpegts/writer.go:65-93 (`Writer.Initialize`): the tracks with their PIDs and the PMT. -/
def Writer.start (tracks : List Track) : Res (List Track × List ES) := assignPIDs tracks 256 []

/-! ## Last timestamp -/

/-- pkg/formats/mpegts/robust_demuxer.go:22-24 (`isPESPayload`). -/
def isPESPayload (b : Bytes) : Res Bool := do
  let b0 ← idx b 0
  let b1 ← idx b 1
  let b2 ← idx b 2
  .ok (b0.toNat <<< 16 ||| b1.toNat <<< 8 ||| b2.toNat == 1)

/-- pkg/formats/mpegts/robust_demuxer.go:27-29 (`hasPESOptionalHeader`). -/
def hasPESOptionalHeader (streamID : UInt8) : Bool := streamID != 0xBE && streamID != 0xBF

/-- pkg/formats/mpegts/robust_demuxer.go:31-34 (`parseClock`). -/
def parseClock (b : Bytes) : Res Nat := do
  let b0 ← idx b 0
  let b1 ← idx b 1
  let b2 ← idx b 2
  let b3 ← idx b 3
  let b4 ← idx b 4
  .ok (((b0.toNat >>> 1) &&& 0x7) <<< 30 ||| b1.toNat <<< 22 ||| ((b2.toNat >>> 1) &&& 0x7f) <<< 15 ||| b3.toNat <<< 7 |||
    ((b4.toNat >>> 1) &&& 0x7f))

/-- robust_demuxer.go:93-107: the timestamp in the header of a PES packet. -/
def pesPTS (payload : Bytes) (last : Option Nat) : Res (Option Nat) := do
  let isPES ← isPESPayload payload
  if ¬ isPES then .ok last else do
  let streamID ← idx payload 3
  if ¬ hasPESOptionalHeader streamID then .ok last else do
  let b7 ← idx payload 7
  let indicator := (b7 >>> 6) &&& 0x03
  if indicator = 2 ∨ indicator = 3 then do
    let c ← slice payload 9 14
    let v ← parseClock c
    .ok (some v)
  else .ok last

/-- pkg/formats/mpegts/robust_demuxer.go:69-114 (`ptsInterceptor.Read`), on a packet of 188 bytes that has been read: the new last
timestamp, `none` for `hasLastPTS = false`. -/
def intercept (p : Bytes) (last : Option Nat) : Res (Option Nat) := do
  let b0 ← idx p 0
  if b0 ≠ 0x47 then .ok last else do
  let b3 ← idx p 3
  let b1 ← idx p 1
  if ¬ (b1 &&& 0x40 > 0 ∧ b3 &&& 0x10 > 0) then .ok last else do
  let pos ← (if b3 &&& 0x20 > 0 then do
    let len ← idx p 4
    .ok (4 + (1 + len.toNat)) else .ok 4 : Res Nat)
  if pos ≤ 188 - 14 then do
    let payload ← sliceFrom p pos
    pesPTS payload last
  else .ok last

/-- The last timestamp after a sequence of packets. -/
def interceptAll : List Bytes → Option Nat → Res (Option Nat)
  | [], last => .ok last
  | p :: l, last => do
    let last ← intercept p last
    interceptAll l last

end Verif.MPEGTS
