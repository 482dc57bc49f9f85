import Verif.Model.MP4Codec

/-!
# Model: pkg/formats/fmp4/init.go, pkg/formats/fmp4/init_track.go

`amp4.ReadBoxStructure` is modelled on bytes. A box is expanded by decoding its fields and reading the boxes after them: how many bytes the
fields of a box take is a parameter (`none` when they cannot be decoded), because it depends on tables of `go-mp4` and on the brands of the
file; `isoFields` is what ISO 14496-12 says. The depth of a box is the length of its path. Boxes of user data are values of `go-mp4`; here
they are a type and a payload. `ftyp` at the top, that `go-mp4` decodes to look for the brand of QuickTime, is not decoded here.
-/

namespace Verif.FMP4Init
open MP4Box MP4Codec MP4Writer
open FMP4 (u32 BoxInfo readBoxInfo)
open Readers (SBuf)

/-! ## Boxes -/

/-- Bytes of the fields of a box with the given type and payload. -/
abbrev Fields := Bytes → Bytes → Option Nat

/-- A handler: the box, its depth, its payload, `h.Expand`, the state. -/
abbrev Handler (σ : Type) := BoxInfo → Nat → Bytes → (σ → Res σ) → σ → Res σ

/-- `h.Expand`: `read` reads the boxes of another level. -/
def expandBox {σ : Type} (fields : Fields) (read : Nat → Option Nat → Nat → σ → Res σ) (b : Bytes) (bi : BoxInfo) (depth : Nat) (r : σ) :
    Res σ :=
  match fields bi.typ (bi.payload b) with
  | none => .err "cannot decode box"
  | some n =>
    if (bi.payload b).length < n then .err "EOF"
    else read (bi.offset + bi.headerSize + n) (some (bi.size - bi.headerSize - n)) (depth + 1) r

/-- `amp4.ReadBoxStructure`: the boxes from `pos`. `left` is what is left of the parent, `none` at the top. -/
def readTree {σ : Type} (fields : Fields) (h : Handler σ) : Nat → Bytes → Nat → Option Nat → Nat → σ → Res σ
  | 0, _, _, _, _, _ => .err "out of fuel"
  | n + 1, b, pos, left, depth, r =>
    if left.any (· < 8) then (if left = some 0 then .ok r else .err "Unexpected EOF")
    else do
      match ← readBoxInfo b pos with
      | none => if left.isNone then .ok r else .err "EOF"
      | some bi =>
        if left.any (· < bi.size) then .err "too large box size"
        else do
          let r ← h bi depth (bi.payload b) (expandBox fields (readTree fields h n b) b bi depth) r
          readTree fields h n b (bi.offset + bi.size) (left.map (· - bi.size)) depth r

/-! ## Init -/

/-- init_track.go:16-34 (`InitTrack`); `none` is a nil codec. -/
structure InitTrack where
  id : Int := 0
  timeScale : Nat := 0
  avgBitrate : Nat := 0
  maxBitrate : Nat := 0
  codec : Option Codec := none
  deriving Repr, DecidableEq

/-- init.go:14-17 (`Init`). -/
structure Init where
  tracks : List InitTrack := []
  userData : List (Bytes × Bytes) := []
  deriving Repr, DecidableEq

def typFtyp : Bytes := [0x66, 0x74, 0x79, 0x70]
def typMoov : Bytes := [0x6D, 0x6F, 0x6F, 0x76]
def typUdta : Bytes := [0x75, 0x64, 0x74, 0x61]
def typMvhd : Bytes := [0x6D, 0x76, 0x68, 0x64]
def typTrak : Bytes := [0x74, 0x72, 0x61, 0x6B]
def typTkhd : Bytes := [0x74, 0x6B, 0x68, 0x64]
def typEdts : Bytes := [0x65, 0x64, 0x74, 0x73]
def typMdia : Bytes := [0x6D, 0x64, 0x69, 0x61]
def typMdhd : Bytes := [0x6D, 0x64, 0x68, 0x64]
def typHdlr : Bytes := [0x68, 0x64, 0x6C, 0x72]
def typMinf : Bytes := [0x6D, 0x69, 0x6E, 0x66]
def typVmhd : Bytes := [0x76, 0x6D, 0x68, 0x64]
def typSmhd : Bytes := [0x73, 0x6D, 0x68, 0x64]
def typDinf : Bytes := [0x64, 0x69, 0x6E, 0x66]
def typDref : Bytes := [0x64, 0x72, 0x65, 0x66]
def typUrl : Bytes := [0x75, 0x72, 0x6C, 0x20]
def typStbl : Bytes := [0x73, 0x74, 0x62, 0x6C]
def typStsd : Bytes := [0x73, 0x74, 0x73, 0x64]
def typBtrt : Bytes := [0x62, 0x74, 0x72, 0x74]
def typStts : Bytes := [0x73, 0x74, 0x74, 0x73]
def typStsc : Bytes := [0x73, 0x74, 0x73, 0x63]
def typStsz : Bytes := [0x73, 0x74, 0x73, 0x7A]
def typStco : Bytes := [0x73, 0x74, 0x63, 0x6F]
def typMvex : Bytes := [0x6D, 0x76, 0x65, 0x78]
def typTrex : Bytes := [0x74, 0x72, 0x65, 0x78]

/-! ## Writing -/

/-- init_track.go:11-14. -/
def defaultBitrate (c : Codec) : Nat := if c.isVideo then 1000000 else 128825

/-- init_track.go:70-96: the payload of `tkhd`. -/
def tkhdPayload (id : Int) (c : Codec) (info : CodecInfo) : Bytes :=
  if c.isVideo then encodeTkhd (u32 id) 0 0 (u32 (info.width * 65536)) (u32 (info.height * 65536))
  else encodeTkhd (u32 id) 1 256 0 0

/-- init_track.go:111-127: the payload of `hdlr`. -/
def hdlrPayload (c : Codec) : Bytes :=
  if c.isVideo then encodeHdlr 0x76696465 videoHandler else encodeHdlr 0x736F756E soundHandler

/-- init_track.go:134-148: `vmhd` or `smhd`. -/
def writeMediaHeader (f : SBuf) (c : Codec) : Res (Int × SBuf) :=
  if c.isVideo then writeBox f typVmhd encodeVmhd else writeBox f typSmhd encodeSmhd

/-- init_track.go:150-179: `dinf`. -/
def writeDinf (f : SBuf) : Res SBuf := do
  let (dinf, f) ← writeBoxStart f typDinf []
  let (dref, f) ← writeBoxStart f typDref (encodeCount 1)
  let (_, f) ← writeBox f typUrl encodeUrl
  let f ← writeBoxEnd f dref typDref
  writeBoxEnd f dinf typDinf

/-- init_track.go:186-232: `stsd`. -/
def writeStsd (f : SBuf) (it : InitTrack) (c : Codec) (info : CodecInfo) : Res SBuf := do
  let (stsd, f) ← writeBoxStart f typStsd (encodeCount 1)
  let avg := if it.avgBitrate = 0 then defaultBitrate c else it.avgBitrate
  let max := if it.maxBitrate = 0 then defaultBitrate c else it.maxBitrate
  let (entry, etyp, f) ← writeCodecBoxes f c it.id info avg max
  let (_, f) ← writeBox f typBtrt (encodeBtrt max avg)
  let f ← writeBoxEnd f entry etyp
  writeBoxEnd f stsd typStsd

/-- init_track.go:181-261: `stbl`. -/
def writeStbl (f : SBuf) (it : InitTrack) (c : Codec) (info : CodecInfo) : Res SBuf := do
  let (stbl, f) ← writeBoxStart f typStbl []
  let f ← writeStsd f it c info
  let (_, f) ← writeBox f typStts (encodeCount 0)
  let (_, f) ← writeBox f typStsc (encodeCount 0)
  let (_, f) ← writeBox f typStsz encodeStsz
  let (_, f) ← writeBox f typStco (encodeCount 0)
  writeBoxEnd f stbl typStbl

/-- init_track.go:35-279 (`InitTrack.marshal`). `it.Codec.IsVideo()` is called after `Fill` has accepted the codec. -/
def marshalTrack (f : SBuf) (it : InitTrack) : Res SBuf := do
  let (trak, f) ← writeBoxStart f typTrak []
  let info ← fill it.codec
  let c ← deref it.codec
  let (_, f) ← writeBox f typTkhd (tkhdPayload it.id c info)
  let (mdia, f) ← writeBoxStart f typMdia []
  let (_, f) ← writeBox f typMdhd (encodeMdhd it.timeScale)
  let (_, f) ← writeBox f typHdlr (hdlrPayload c)
  let (minf, f) ← writeBoxStart f typMinf []
  let (_, f) ← writeMediaHeader f c
  let f ← writeDinf f
  let f ← writeStbl f it c info
  let f ← writeBoxEnd f minf typMinf
  let f ← writeBoxEnd f mdia typMdia
  writeBoxEnd f trak typTrak

/-- init.go:237-242. -/
def marshalTracks : List InitTrack → SBuf → Res SBuf
  | [], f => .ok f
  | it :: l, f => do
    let f ← marshalTrack f it
    marshalTracks l f

/-- init.go:249-257. -/
def writeTrexs : List InitTrack → SBuf → Res SBuf
  | [], f => .ok f
  | it :: l, f => do
    let (_, f) ← writeBox f typTrex (encodeTrex (u32 it.id))
    writeTrexs l f

/-- init.go:270-275. -/
def writeAll : List (Bytes × Bytes) → SBuf → Res SBuf
  | [], f => .ok f
  | (typ, payload) :: l, f => do
    let (_, f) ← writeBox f typ payload
    writeAll l f

/-- init.go:264-281: `udta`. -/
def writeUserData (l : List (Bytes × Bytes)) (f : SBuf) : Res SBuf :=
  if l.length ≠ 0 then do
    let (udta, f) ← writeBoxStart f typUdta []
    let f ← writeAll l f
    writeBoxEnd f udta typUdta
  else .ok f

/-- init.go:187-289 (`Init.Marshal`). -/
def marshal (f : SBuf) (i : Init) : Res SBuf := do
  let (_, f) ← writeBox f typFtyp encodeFtyp
  let (moov, f) ← writeBoxStart f typMoov []
  let (_, f) ← writeBox f typMvhd encodeMvhd
  let f ← marshalTracks i.tracks f
  let (mvex, f) ← writeBoxStart f typMvex []
  let f ← writeTrexs i.tracks f
  let f ← writeBoxEnd f mvex typMvex
  let f ← writeUserData i.userData f
  writeBoxEnd f moov typMoov

/-! ## Reading -/

/-- init.go:21-33. -/
inductive State where
  | waitingFtyp | waitingMoov | waitingMvhd | waitingTrak | readingUserData | waitingTkhd | waitingMdhd | waitingStsd | readingCodec
  deriving Repr, DecidableEq

/-- The variables of `Init.Unmarshal`. `curTrack` is the last track of the list: it is written in states in which it has not been removed.
`codecReader` is a pointer. -/
structure Reader where
  state : State := .waitingFtyp
  tracks : List InitTrack := []
  userData : List (Bytes × Bytes) := []
  codecReader : Option CodecReader := none
  deriving Repr, DecidableEq

/-- A write to `curTrack`. -/
def Reader.onTrack (r : Reader) (g : InitTrack → InitTrack) : Res Reader :=
  match r.tracks.reverse with
  | [] => .panic
  | t :: l => .ok { r with tracks := l.reverse ++ [g t] }

/-- init.go:61: `i.Tracks[:len(i.Tracks)-1]`. -/
def Reader.dropTrack (r : Reader) : Res Reader :=
  match r.tracks.reverse with
  | [] => .panic
  | _ :: l => .ok { r with tracks := l.reverse }

/-- init.go:56-62: the end of the codec boxes. -/
def Reader.codecEnded (r : Reader) (c : CodecReader) : Res Reader :=
  if c.codec.isSome then r.onTrack fun t => { t with codec := c.codec } else r.dropTrack

/-- A box that is expanded, after a check of the state. -/
def Reader.enter (r : Reader) (want next : State) (expand : Reader → Res Reader) : Res Reader :=
  if r.state ≠ want then .err "unexpected box" else expand { r with state := next }

/-- init.go:104-112: `trak`. -/
def Reader.enterTrak (r : Reader) (expand : Reader → Res Reader) : Res Reader :=
  if r.state ≠ .waitingTrak then .err "unexpected box" else expand { r with tracks := r.tracks ++ [{}], state := .waitingTkhd }

/-- init.go:114-126: `tkhd`. -/
def Reader.readTkhd (r : Reader) (payload : Bytes) : Res Reader :=
  if r.state ≠ .waitingTkhd then .err "unexpected box"
  else do
    let id ← decodeTkhd payload
    let r ← r.onTrack fun t => { t with id := id }
    .ok { r with state := .waitingMdhd }

/-- init.go:135-151: `mdhd`. -/
def Reader.readMdhd (r : Reader) (payload : Bytes) : Res Reader :=
  if r.state ≠ .waitingMdhd then .err "unexpected box"
  else do
    let ts ← decodeMdhd payload
    if ts = 0 then .err "invalid timescale"
    else do
      let r ← r.onTrack fun t => { t with timeScale := ts }
      .ok { r with state := .waitingStsd }

/-- init.go:160-167: `stsd`. -/
def Reader.enterStsd (r : Reader) (expand : Reader → Res Reader) : Res Reader :=
  if r.state ≠ .waitingStsd then .err "unexpected box" else expand { r with codecReader := some {}, state := .readingCodec }

/-- init.go:72-168: the `switch` on the type of the box. -/
def Reader.readBox (r : Reader) (typ payload : Bytes) (expand : Reader → Res Reader) : Res Reader :=
  if typ = typFtyp then (if r.state ≠ .waitingFtyp then .err "unexpected box" else .ok { r with state := .waitingMoov })
  else if typ = typMoov then r.enter .waitingMoov .waitingMvhd expand
  else if typ = typUdta then r.enter .waitingTrak .readingUserData expand
  else if typ = typMvhd then r.enter .waitingMvhd .waitingTrak expand
  else if typ = typTrak then r.enterTrak expand
  else if typ = typTkhd then r.readTkhd payload
  else if typ = typMdia then r.enter .waitingMdhd .waitingMdhd expand
  else if typ = typMdhd then r.readMdhd payload
  else if typ = typMinf ∨ typ = typStbl then r.enter .waitingStsd .waitingStsd expand
  else if typ = typStsd then r.enterStsd expand
  else .ok r

/-- init.go:43-51: a box of the user data; `ReadPayload` decodes it. -/
def Reader.readUserData (r : Reader) (fields : Fields) (typ payload : Bytes) : Res Reader :=
  match fields typ payload with
  | none => .err "cannot decode box"
  | some _ => .ok { r with userData := r.userData ++ [(typ, payload)] }

/-- init.go:54-69: what the reader of the codec boxes returned. -/
def Reader.afterCodec (r : Reader) (c : CodecReader) (typ payload : Bytes) (expand : Reader → Res Reader) : Action → Res Reader
  | .ended => do
    let r ← r.codecEnded c
    ({ r with state := .waitingTrak } : Reader).readBox typ payload expand
  | .done c => .ok { r with codecReader := some c }
  | .expand c => expand { r with codecReader := some c }

/-- init.go:39-171: the handler. -/
def handle (fields : Fields) : Handler Reader := fun bi depth payload expand r =>
  match r.state with
  | .readingUserData =>
    if depth < 3 then ({ r with state := .waitingTrak } : Reader).readBox bi.typ payload expand
    else r.readUserData fields bi.typ payload
  | .readingCodec => do
    let c ← deref r.codecReader
    let a ← c.read depth bi.typ payload
    r.afterCodec c bi.typ payload expand a
  | _ => r.readBox bi.typ payload expand

/-- init.go:19-185 (`Init.Unmarshal`), on an empty receiver. -/
def unmarshal (fields : Fields) (b : Bytes) : Res Init := do
  let r ← readTree fields (handle fields) (b.length + 1) b 0 none 1 {}
  if r.state ≠ .waitingTrak ∧ r.state ≠ .readingUserData then .err "parse error"
  else if r.tracks.length = 0 then .err "no tracks found"
  else .ok ⟨r.tracks, r.userData⟩

/-- ISO 14496-12: bytes of the fields before the boxes of a box. A box without boxes is all fields. -/
def isoFields : Fields := fun typ payload =>
  if typ = typMoov ∨ typ = typUdta ∨ typ = typTrak ∨ typ = typEdts ∨ typ = typMdia ∨ typ = typMinf ∨ typ = typStbl then some 0
  else if typ = typMvhd then (if payload.head? = some 0 then some 100 else some 112)
  else if typ = typStsd then some 8
  else if typ = typAvc1 ∨ typ = typVp09 ∨ typ = typHvc1 ∨ typ = typHev1 ∨ typ = typAv01 ∨ typ = typMp4v then some 78
  else if typ = typMp4a ∨ typ = typOpus ∨ typ = typFlac ∨ typ = typAc3 ∨ typ = typEc3 ∨ typ = typIpcm then some 28
  else some payload.length

end Verif.FMP4Init
