import Verif.Model.PMP4
import Verif.Model.FMP4Init

/-!
# Model: pkg/formats/pmp4 (files)

`Presentation.Marshal` and `Presentation.Unmarshal` on bytes, codecs included. Model/PMP4.lean has the sample tables and the layout of the
media data; Model/MP4Codec.lean the boxes of the codecs; Model/FMP4Init.lean the tree of boxes. The structures of `go-mp4` are sequences of
fields, as in Model/MP4Boxes.lean.

Simplifications: `ID` is an `int` that is not negative. When a box is not expected, the error does not depend on its payload: here the payload
is decoded before the state is checked, which may give another error. Versions of a table that `go-mp4` does not know are not refused here.
-/

namespace Verif.PMP4File
open MP4Box MP4Codec MP4Writer FMP4Init
open FMP4 (u32 BoxInfo)
open Readers (SBuf)
open PMP4 (Run StscEntry ElstEntry Event RTrack PReader readEvent)
open Bits (toInt32)

/-- track.go:31-37 (`Track`); `none` is a nil codec. -/
structure Track extends PMP4.Track where
  codec : Option Codec := none
  deriving Repr, DecidableEq

def typElst : Bytes := [0x65, 0x6C, 0x73, 0x74]
def typStss : Bytes := [0x73, 0x74, 0x73, 0x73]
def typCtts : Bytes := [0x63, 0x74, 0x74, 0x73]

/-! ## Boxes -/

/-- `amp4.Ftyp` (presentation.go:472-481): isom, 1, isom, iso2, mp41, mp42. -/
def encodeFtyp : Bytes := pack [(32, 0x69736F6D), (32, 1), (32, 0x69736F6D), (32, 0x69736F32), (32, 0x6D703431), (32, 0x6D703432)]

/-- `amp4.Mvhd` (presentation.go:491-497). -/
def encodeMvhd (duration nextTrackID : Nat) : Bytes :=
  pack ([(8, 0), (24, 0), (32, 0), (32, 0), (32, 1000), (32, duration), (32, 65536), (16, 256), (16, 0), (64, 0)] ++ unity ++
    [(192, 0), (32, nextTrackID)])

/-- `amp4.Tkhd`, version 0, flags 3. -/
def encodeTkhd (trackID duration alternateGroup volume width height : Nat) : Bytes :=
  pack ([(8, 0), (24, 3), (32, 0), (32, 0), (32, trackID), (32, 0), (32, duration), (64, 0), (16, 0), (16, alternateGroup), (16, volume),
    (16, 0)] ++ unity ++ [(32, width), (32, height)])

/-- `amp4.Mdhd`, version 0, language "und". -/
def encodeMdhd (timescale duration : Nat) : Bytes :=
  pack [(8, 0), (24, 0), (32, 0), (32, 0), (32, timescale), (32, duration), (1, 0), (5, 21), (5, 14), (5, 4), (16, 0)]

/-- `Timescale` and `DurationV0` of `amp4.Mdhd`; the latter is not filled in version 1. -/
def decodeMdhd (b : Bytes) : Res (Nat × Nat) := do
  let w := timeWidth b
  let (f, _) ← unpack [8, 24, w, w, 32, w, 1, 5, 5, 5, 16] b
  .ok (f.getD 4 0, if w = 32 then f.getD 5 0 else 0)

/-- Entries of a table: the fields of each of them. -/
def encodeEntries (l : List (List (Nat × Nat))) : Bytes := l.flatMap pack

/-- `n` entries with fields of the given widths. -/
def decodeEntries (ws : List Nat) : Nat → Bytes → Res (List (List Nat))
  | 0, _ => .ok []
  | n + 1, b => do
    let (f, b) ← unpack ws b
    let l ← decodeEntries ws n b
    .ok (f :: l)

/-- A table: version, flags, number of entries, entries. -/
def encodeTable (version : Nat) (l : List (List (Nat × Nat))) : Bytes := pack [(8, version), (24, 0), (32, l.length)] ++ encodeEntries l

/-- The version of a table and its entries. -/
def decodeTable (ws : List Nat) (b : Bytes) : Res (Nat × List (List Nat)) := do
  let (f, b) ← unpack [8, 24, 32] b
  let l ← decodeEntries ws (f.getD 2 0) b
  .ok (f.getD 0 0, l)

/-- `amp4.Elst`, version 0; the rate is 1. -/
def encodeElst (l : List ElstEntry) : Bytes :=
  encodeTable 0 (l.map fun e => [(32, e.segmentDuration), (32, u32 e.mediaTime), (16, 1), (16, 0)])

/-- `amp4.Stts`. -/
def encodeStts (l : List (Run Nat)) : Bytes := encodeTable 0 (l.map fun e => [(32, e.count), (32, e.value)])

/-- `Entries` of `amp4.Stts`. -/
def decodeStts (b : Bytes) : Res (List (Run Nat)) := do
  let (_, l) ← decodeTable [32, 32] b
  .ok (l.map fun f => ⟨f.getD 0 0, f.getD 1 0⟩)

/-- `amp4.Stss`. -/
def encodeStss (l : List Nat) : Bytes := encodeTable 0 (l.map fun n => [(32, n)])

/-- `SampleNumber` of `amp4.Stss`, and `ChunkOffset` of `amp4.Stco`. -/
def decodeWords (b : Bytes) : Res (List Nat) := do
  let (_, l) ← decodeTable [32] b
  .ok (l.map fun f => f.getD 0 0)

/-- `amp4.Ctts`, version 1. -/
def encodeCtts (l : List (Run Int)) : Bytes := encodeTable 1 (l.map fun e => [(32, e.count), (32, u32 e.value)])

/-- `Entries` of `amp4.Ctts`, with the values of `GetSampleOffset`: offsets are signed, except in version 0. -/
def decodeCtts (b : Bytes) : Res (List (Run Int)) := do
  let (version, l) ← decodeTable [32, 32] b
  .ok (l.map fun f => ⟨f.getD 0 0, if version = 0 then (f.getD 1 0 : Int) else toInt32 (f.getD 1 0)⟩)

/-- `amp4.Stsc`; the sample description index is 1. -/
def encodeStsc (l : List StscEntry) : Bytes := encodeTable 0 (l.map fun e => [(32, e.firstChunk), (32, e.samplesPerChunk), (32, 1)])

/-- `Entries` of `amp4.Stsc`. -/
def decodeStsc (b : Bytes) : Res (List StscEntry) := do
  let (_, l) ← decodeTable [32, 32, 32] b
  .ok (l.map fun f => ⟨f.getD 0 0, f.getD 1 0⟩)

/-- `amp4.Stsz` with `SampleSize` 0. -/
def encodeStsz (l : List Nat) : Bytes := pack [(8, 0), (24, 0), (32, 0), (32, l.length)] ++ encodeEntries (l.map fun n => [(32, n)])

/-- `EntrySize` of `amp4.Stsz`, which is empty when `SampleSize` is not 0. -/
def decodeStsz (b : Bytes) : Res (List Nat) := do
  let (f, b) ← unpack [8, 24, 32, 32] b
  let l ← decodeEntries [32] (if f.getD 2 0 = 0 then f.getD 3 0 else 0) b
  .ok (l.map fun f => f.getD 0 0)

/-- `amp4.Stco`. -/
def encodeStco (l : List Nat) : Bytes := encodeTable 0 (l.map fun n => [(32, n)])

/-! ## Writing -/

/-- track.go:84-113: the payload of `tkhd`. -/
def tkhdPayload (id duration : Nat) (c : Codec) (info : CodecInfo) : Bytes :=
  if c.isVideo then encodeTkhd id duration 0 0 (u32 (info.width * 65536)) (u32 (info.height * 65536))
  else encodeTkhd id duration 1 256 0 0

/-- track.go:115-128: `edts`. -/
def writeEdts (f : SBuf) (t : PMP4.Track) : Res SBuf := do
  let (edts, f) ← writeBoxStart f typEdts []
  let elst ← PMP4.marshalELST t
  let (_, f) ← writeBox f typElst (encodeElst elst)
  writeBoxEnd f edts typEdts

/-- track.go:217-252: `stsd`. The bit rates are those of fMP4 tracks that do not tell their own. -/
def writeStsd (f : SBuf) (id : Nat) (c : Codec) (info : CodecInfo) : Res SBuf := do
  let (stsd, f) ← writeBoxStart f typStsd (encodeCount 1)
  let (entry, etyp, f) ← writeCodecBoxes f c id info (defaultBitrate c) (defaultBitrate c)
  let f ← writeBoxEnd f entry etyp
  writeBoxEnd f stsd typStsd

/-- track.go:374-394: `stss`, if there is one. -/
def writeStss (f : SBuf) (samples : List PMP4.Sample) : Res SBuf :=
  match PMP4.marshalSTSS samples with
  | none => .ok f
  | some l => do
    let (_, f) ← writeBox f typStss (encodeStss l)
    .ok f

/-- track.go:254-282: the tables. Returns the position of `stco`. -/
def writeTables (f : SBuf) (samples : List PMP4.Sample) : Res (Int × SBuf) := do
  let stts ← PMP4.marshalSTTS samples
  let (_, f) ← writeBox f typStts (encodeStts stts)
  let f ← writeStss f samples
  let ctts ← PMP4.marshalCTTS samples
  let (_, f) ← writeBox f typCtts (encodeCtts ctts)
  let stsc ← PMP4.marshalSTSC samples
  let (_, f) ← writeBox f typStsc (encodeStsc stsc)
  let (_, f) ← writeBox f typStsz (encodeStsz (PMP4.marshalSTSZ samples))
  writeBox f typStco (encodeStco (PMP4.marshalSTCO samples))

/-- track.go:212-287: `stbl`. -/
def writeStbl (f : SBuf) (t : Track) (c : Codec) (info : CodecInfo) : Res (Int × SBuf) := do
  let (stbl, f) ← writeBoxStart f typStbl []
  let f ← writeStsd f t.id c info
  let (stco, f) ← writeTables f t.samples
  let f ← writeBoxEnd f stbl typStbl
  .ok (stco, f)

/-- track.go:24-28 (`headerTrackMarshalResult`). -/
structure Marshaled where
  stco : List Nat
  stcoOffset : Int
  presentationDuration : Nat
  deriving Repr, DecidableEq

/-- track.go:39-309 (`Track.marshal`). -/
def marshalTrack (f : SBuf) (t : Track) : Res (Marshaled × SBuf) := do
  let (trak, f) ← writeBoxStart f typTrak []
  let info ← fill t.codec
  let c ← deref t.codec
  let duration ← PMP4.presentationDuration t.toTrack
  let (_, f) ← writeBox f typTkhd (tkhdPayload t.id duration c info)
  let f ← writeEdts f t.toTrack
  let (mdia, f) ← writeBoxStart f typMdia []
  let (_, f) ← writeBox f typMdhd (encodeMdhd t.timeScale (PMP4.mediaDuration t.toTrack))
  let (_, f) ← writeBox f typHdlr (hdlrPayload c)
  let (minf, f) ← writeBoxStart f typMinf []
  let (_, f) ← writeMediaHeader f c
  let f ← writeDinf f
  let (stco, f) ← writeStbl f t c info
  let f ← writeBoxEnd f minf typMinf
  let f ← writeBoxEnd f mdia typMdia
  let f ← writeBoxEnd f trak typTrak
  .ok (⟨PMP4.marshalSTCO t.samples, stco, duration⟩, f)

/-- presentation.go:506-519. -/
def marshalTracks : List Track → SBuf → Res (List Marshaled × SBuf)
  | [], f => .ok ([], f)
  | t :: l, f => do
    let (m, f) ← marshalTrack f t
    let (ms, f) ← marshalTracks l f
    .ok (m :: ms, f)

/-- presentation.go:516-518: the duration of the presentation. -/
def maxDuration : List Marshaled → Nat → Nat
  | [], d => d
  | m :: l, d => maxDuration l (if m.presentationDuration > d then m.presentationDuration else d)

/-- presentation.go:537-546. -/
def rewriteStcos (dataOffset : Int) : List Marshaled → SBuf → Res SBuf
  | [], f => .ok f
  | m :: l, f => do
    let f ← rewriteBox f m.stcoOffset typStco (encodeStco (PMP4.shiftChunks dataOffset.toNat m.stco))
    rewriteStcos dataOffset l f

/-- presentation.go:467-551 (`marshalFtypAndMoov`). -/
def marshalFtypAndMoov (ts : List Track) : Res Bytes := do
  let (_, f) ← writeBox ⟨[], 0⟩ typFtyp encodeFtyp
  let (moov, f) ← writeBoxStart f typMoov []
  let (mvhd, f) ← writeBox f typMvhd (encodeMvhd 0 (ts.length + 1))
  let (ms, f) ← marshalTracks ts f
  let f ← rewriteBox f mvhd typMvhd (encodeMvhd (maxDuration ms 0) (ts.length + 1))
  let f ← writeBoxEnd f moov typMoov
  let f ← rewriteStcos (f.pos + 8) ms f
  .ok f.buf

/-- `sortSamples` writes the offsets into the samples of the tracks. -/
def placed (ts : List Track) (l : List PMP4.Track) : List Track := List.zipWith (fun t u => { toTrack := u, codec := t.codec }) ts l

/-- presentation.go:398-417 (`Presentation.Marshal`). -/
def marshal (ts : List Track) : Res Bytes := do
  let layout ← PMP4.sortSamples (ts.map (·.toTrack))
  let header ← marshalFtypAndMoov (placed ts layout.tracks)
  .ok (header ++ PMP4.marshalMdat layout.dataSize layout.sorted)

/-! ## Reading -/

/-- presentation.go:85-378: what a box is for the function, with its payload. -/
def decodeEvent (typ payload : Bytes) : Res Event :=
  if typ = typFtyp then .ok .ftyp
  else if typ = typMoov then .ok .moov
  else if typ = typMvhd then .ok .mvhd
  else if typ = typTrak then .ok .trak
  else if typ = typTkhd then do
    let id ← decodeTkhd payload
    .ok (.tkhd id)
  else if typ = typEdts then .ok .edts
  else if typ = typElst then .ok .elst
  else if typ = typMdia then .ok .mdia
  else if typ = typMdhd then do
    let (timeScale, duration) ← decodeMdhd payload
    .ok (.mdhd timeScale duration)
  else if typ = typMinf then .ok .minf
  else if typ = typStbl then .ok .stbl
  else if typ = typStsd then .ok .stsd
  else if typ = typStts then do
    let l ← decodeStts payload
    .ok (.table (.stts l))
  else if typ = typStss then do
    let l ← decodeWords payload
    .ok (.table (.stss l))
  else if typ = typCtts then do
    let l ← decodeCtts payload
    .ok (.table (.ctts l))
  else if typ = typStsc then do
    let l ← decodeStsc payload
    .ok (.table (.stsc l))
  else if typ = typStsz then do
    let l ← decodeStsz payload
    .ok (.table (.stsz l))
  else if typ = typStco then do
    let l ← decodeWords payload
    .ok (.table (.stco l))
  else .ok .other

/-- The boxes for which the function returns `h.Expand()`. -/
def expands : Event → Bool
  | .moov | .mvhd | .trak | .edts | .mdia | .minf | .stbl | .stsd => true
  | _ => false

/-- The variables of `Presentation.Unmarshal`: those of Model/PMP4.lean and the codecs. `codec` is that of the current track, `codecs` are
those of the tracks before it in `p.Tracks`. -/
structure Reader where
  base : PReader := {}
  codecReader : Option CodecReader := none
  codec : Option Codec := none
  codecs : List (Option Codec) := []
  deriving Repr, DecidableEq

/-- The codecs of `p.Tracks`. -/
def Reader.allCodecs (r : Reader) : List (Option Codec) :=
  match r.base.cur with
  | some _ => if r.base.listed then r.codecs ++ [r.codec] else r.codecs
  | none => r.codecs

/-- presentation.go:85-381: what a box does to the variables. -/
def Reader.step (r : Reader) (e : Event) : Res Reader := do
  let p ← readEvent r.base e
  match e with
  | .trak => .ok { r with base := p, codec := none, codecs := r.allCodecs }
  | .stsd => .ok { r with base := p, codecReader := some {} }
  | _ => .ok { r with base := p }

/-- presentation.go:85-381: a box. -/
def Reader.readBox (r : Reader) (typ payload : Bytes) (expand : Reader → Res Reader) : Res Reader := do
  let e ← decodeEvent typ payload
  let r ← r.step e
  if expands e then expand r else .ok r

/-- presentation.go:69-75: the end of the codec boxes. -/
def Reader.codecEnded (r : Reader) (c : CodecReader) : Res Reader := do
  let p ← readEvent r.base (.codec c.codec.isSome)
  .ok { r with base := p, codec := if c.codec.isSome then c.codec else r.codec,
               codecs := if c.codec.isSome || r.base.listed then r.codecs else r.codecs.dropLast }

/-- presentation.go:67-83: what the reader of the codec boxes returned. -/
def Reader.afterCodec (r : Reader) (c : CodecReader) (typ payload : Bytes) (expand : Reader → Res Reader) : Action → Res Reader
  | .ended => do
    let r ← r.codecEnded c
    r.readBox typ payload expand
  | .done c => .ok { r with codecReader := some c }
  | .expand c => expand { r with codecReader := some c }

/-- presentation.go:64-381: the handler. -/
def handle : Handler Reader := fun bi depth payload expand r =>
  if r.base.state = .readingCodec then do
    let c ← deref r.codecReader
    let a ← c.read depth bi.typ payload
    r.afterCodec c bi.typ payload expand a
  else r.readBox bi.typ payload expand

/-- presentation.go:34-395 (`Presentation.Unmarshal`), on an empty receiver: the tracks and their codecs. -/
def unmarshal (fields : Fields) (b : Bytes) : Res (List (RTrack × Option Codec)) := do
  let r ← readTree fields handle (b.length + 1) b 0 none 1 {}
  if r.base.state ≠ .waitingTrak ∧ r.base.state ≠ .waitingSampleProps then .err "parse error"
  else if r.base.all = [] then .err "no tracks found"
  else .ok (r.base.all.zip r.allCodecs)

end Verif.PMP4File
