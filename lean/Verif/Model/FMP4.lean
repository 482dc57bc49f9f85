import Verif.Model.MP4Writer
import Verif.Model.Buf
import Verif.Model.Bits

/-!
# Model: pkg/formats/fmp4 (parts)

`Part.Marshal` and `Parts.Unmarshal`, on bytes. Encoding and decoding of single boxes is done by `go-mp4`, which is not part of the
repository: the layout of boxes is that of ISO 14496-12 and the order in which `ReadBoxStructure` visits boxes is that of the file.
-/

namespace Verif.FMP4
open Readers (SBuf)
open MP4Writer
open Spec (beBytes)
open Bits (wrapInt32 toInt32)

/-- sample.go:15-20. -/
structure Sample where
  duration : Nat := 0
  ptsOffset : Int := 0
  isNonSync : Bool := false
  payload : Bytes := []
  deriving Repr, DecidableEq

/-- part_track.go:10-14. -/
structure PartTrack where
  id : Nat := 0
  baseTime : Nat := 0
  samples : List Sample := []
  deriving Repr, DecidableEq

/-- part.go:22-25. -/
structure Part where
  sequenceNumber : Nat := 0
  tracks : List PartTrack := []
  deriving Repr, DecidableEq

/-! ## Boxes of go-mp4 -/

def typMoof : Bytes := [0x6D, 0x6F, 0x6F, 0x66]
def typMfhd : Bytes := [0x6D, 0x66, 0x68, 0x64]
def typTraf : Bytes := [0x74, 0x72, 0x61, 0x66]
def typTfhd : Bytes := [0x74, 0x66, 0x68, 0x64]
def typTfdt : Bytes := [0x74, 0x66, 0x64, 0x74]
def typTrun : Bytes := [0x74, 0x72, 0x75, 0x6E]
def typMdat : Bytes := [0x6D, 0x64, 0x61, 0x74]

/-- An entry of `trun` (`amp4.TrunEntry`). The composition time offset is kept as the number in the file. -/
structure TrunEntry where
  duration : Nat := 0
  size : Nat := 0
  flags : Nat := 0
  cto : Nat := 0
  deriving Repr, DecidableEq

/-- `amp4.Trun`. -/
structure Trun where
  version : Nat := 0
  flags : Nat := 0
  sampleCount : Nat := 0
  dataOffset : Int := 0
  firstSampleFlags : Nat := 0
  entries : List TrunEntry := []
  deriving Repr, DecidableEq

/-- A number as 32 bits, two's complement. -/
def u32 (v : Int) : Nat := (v % 2 ^ 32).toNat

/-- Whether a flag is set. -/
def hasFlag (flags bit : Nat) : Bool := flags / bit % 2 == 1

/-- Version and flags. -/
def encodeFull (version flags : Nat) : Bytes := beBytes 1 version ++ beBytes 3 flags

def encodeMfhd (seq : Nat) : Bytes := encodeFull 0 0 ++ beBytes 4 seq

def encodeTfhd (id : Nat) : Bytes := encodeFull 0 0x020000 ++ beBytes 4 id

def encodeTfdt (base : Nat) : Bytes := encodeFull 1 0 ++ beBytes 8 base

def encodeEntry (flags : Nat) (e : TrunEntry) : Bytes :=
  (if hasFlag flags 0x100 then beBytes 4 e.duration else []) ++ (if hasFlag flags 0x200 then beBytes 4 e.size else []) ++
    (if hasFlag flags 0x400 then beBytes 4 e.flags else []) ++ (if hasFlag flags 0x800 then beBytes 4 e.cto else [])

def encodeTrun (t : Trun) : Bytes :=
  encodeFull t.version t.flags ++ beBytes 4 t.sampleCount ++ (if hasFlag t.flags 1 then beBytes 4 (u32 t.dataOffset) else []) ++
    (if hasFlag t.flags 4 then beBytes 4 t.firstSampleFlags else []) ++ t.entries.flatMap (encodeEntry t.flags)

/-! ## Writer -/

/-- part_track.go:52-63: the flags of `trun`. -/
def trunFlags : List Sample → Nat → Nat
  | [], flags => flags
  | sa :: l, flags =>
    let flags := if sa.isNonSync then flags ||| 0x400 else flags
    let flags := if sa.ptsOffset ≠ 0 then flags ||| 0x800 else flags
    trunFlags l flags

/-- part_track.go:74-84: the entry of a sample. -/
def trunEntry (sa : Sample) : TrunEntry :=
  { duration := sa.duration, size := sa.payload.length % 2 ^ 32, flags := if sa.isNonSync then 2 ^ 16 else 0, cto := u32 sa.ptsOffset }

/-- part_track.go:52-85. -/
def makeTrun (samples : List Sample) : Trun :=
  { version := 1, flags := trunFlags samples (0x01 ||| 0x100 ||| 0x200), sampleCount := samples.length % 2 ^ 32,
    entries := samples.map trunEntry }

/-- part_track.go:16-98 (`PartTrack.marshal`). -/
def marshalTrack (f : SBuf) (t : PartTrack) : Res (Trun × Int × SBuf) := do
  let (traf, f) ← writeBoxStart f typTraf []
  let (_, f) ← writeBox f typTfhd (encodeTfhd (t.id % 2 ^ 32))
  let (_, f) ← writeBox f typTfdt (encodeTfdt t.baseTime)
  let trun := makeTrun t.samples
  let (trunOffset, f) ← writeBox f typTrun (encodeTrun trun)
  let f ← writeBoxEnd f traf typTraf
  .ok (trun, trunOffset, f)

/-- part.go:69-71: the size of the payloads of a track is added. -/
def addSizes : List Sample → Nat → Nat
  | [], n => n
  | sa :: l, n => addSizes l (n + sa.payload.length)

/-- What is kept for a track until the end: `truns[i]`, `trunOffsets[i]`, `dataOffsets[i]`. -/
structure Pending where
  trun : Trun
  trunOffset : Int
  dataOffset : Nat
  deriving Repr, DecidableEq

/-- part.go:59-75: the first loop over tracks. -/
def marshalTracks : List PartTrack → Nat → SBuf → Res (List Pending × Nat × SBuf)
  | [], dataSize, f => .ok ([], dataSize, f)
  | t :: l, dataSize, f => do
    let (trun, trunOffset, f) ← marshalTrack f t
    let (ps, n, f) ← marshalTracks l (addSizes t.samples dataSize) f
    .ok (⟨trun, trunOffset, dataSize⟩ :: ps, n, f)

/-- part.go:87-89: payloads are copied in the data of `mdat`. -/
def copyPayloads : List Sample → Nat → Bytes → Res (Nat × Bytes)
  | [], pos, data => .ok (pos, data)
  | sa :: l, pos, data => do
    let (data, n) ← copyAt data pos sa.payload
    copyPayloads l (pos + n) data

/-- part.go:86-90. -/
def copyTracks : List PartTrack → Nat → Bytes → Res (Nat × Bytes)
  | [], pos, data => .ok (pos, data)
  | t :: l, pos, data => do
    let (pos, data) ← copyPayloads t.samples pos data
    copyTracks l pos data

/-- part.go:97-103: data offsets are written. -/
def fixTruns (delta : Int) : List Pending → SBuf → Res SBuf
  | [], f => .ok f
  | p :: l, f => do
    let f ← rewriteBox f p.trunOffset typTrun (encodeTrun ({ p.trun with dataOffset := wrapInt32 (p.dataOffset + delta) }))
    fixTruns delta l f

/-- part.go:28-106 (`Part.Marshal`). -/
def marshalPart (f : SBuf) (p : Part) : Res SBuf := do
  let (moofOffset, f) ← writeBoxStart f typMoof []
  let (_, f) ← writeBox f typMfhd (encodeMfhd p.sequenceNumber)
  let (pending, dataSize, f) ← marshalTracks p.tracks 0 f
  let f ← writeBoxEnd f moofOffset typMoof
  let (_, data) ← copyTracks p.tracks 0 (makeBytes dataSize)
  let (mdatOffset, f) ← writeBox f typMdat data
  fixTruns (mdatOffset - moofOffset + 8) pending f

/-- parts.go:216-224 (`Parts.Marshal`). -/
def marshalParts : List Part → SBuf → Res SBuf
  | [], f => .ok f
  | p :: l, f => do
    let f ← marshalPart f p
    marshalParts l f

/-! ## Decoding of boxes by go-mp4 -/

/-- A big-endian number of `k` bytes. -/
def takeBE (k : Nat) (b : Bytes) : Res (Nat × Bytes) :=
  if b.length < k then .err "EOF" else .ok ((b.take k).foldl (fun a x => a * 256 + x.toNat) 0, b.drop k)

/-- An optional 32-bit field. -/
def takeOpt (present : Bool) (b : Bytes) : Res (Nat × Bytes) := if present then takeBE 4 b else .ok (0, b)

/-- Version and flags. -/
def takeFull (b : Bytes) : Res (Nat × Nat × Bytes) := do
  let (version, b) ← takeBE 1 b
  let (flags, b) ← takeBE 3 b
  .ok (version, flags, b)

/-- `amp4.Mfhd`: the sequence number. -/
def decodeMfhd (b : Bytes) : Res Nat := do
  let (_, _, b) ← takeFull b
  let (seq, _) ← takeBE 4 b
  .ok seq

/-- `amp4.Tfhd`. -/
structure Tfhd where
  trackID : Nat := 0
  defaultDuration : Nat := 0
  defaultSize : Nat := 0
  defaultFlags : Nat := 0
  deriving Repr, DecidableEq

def decodeTfhd (b : Bytes) : Res Tfhd := do
  let (_, flags, b) ← takeFull b
  let (id, b) ← takeBE 4 b
  let (_, b) ← takeBE (if hasFlag flags 1 then 8 else 0) b
  let (_, b) ← takeOpt (hasFlag flags 2) b
  let (duration, b) ← takeOpt (hasFlag flags 8) b
  let (size, b) ← takeOpt (hasFlag flags 0x10) b
  let (sampleFlags, _) ← takeOpt (hasFlag flags 0x20) b
  .ok ⟨id, duration, size, sampleFlags⟩

/-- `amp4.Tfdt`: `GetBaseMediaDecodeTime`. -/
def decodeTfdt (b : Bytes) : Res Nat := do
  let (version, _, b) ← takeFull b
  let (base, _) ← takeBE (if version = 0 then 4 else 8) b
  .ok base

def decodeEntries (flags : Nat) : Nat → Bytes → Res (List TrunEntry)
  | 0, _ => .ok []
  | n + 1, b => do
    let (duration, b) ← takeOpt (hasFlag flags 0x100) b
    let (size, b) ← takeOpt (hasFlag flags 0x200) b
    let (sampleFlags, b) ← takeOpt (hasFlag flags 0x400) b
    let (cto, b) ← takeOpt (hasFlag flags 0x800) b
    let l ← decodeEntries flags n b
    .ok (⟨duration, size, sampleFlags, cto⟩ :: l)

def decodeTrun (b : Bytes) : Res Trun := do
  let (version, flags, b) ← takeFull b
  let (count, b) ← takeBE 4 b
  let (dataOffset, b) ← takeOpt (hasFlag flags 1) b
  let (first, b) ← takeOpt (hasFlag flags 4) b
  let entries ← decodeEntries flags count b
  .ok ⟨version, flags, count, toInt32 dataOffset, first, entries⟩

/-- `amp4.BoxInfo`. -/
structure BoxInfo where
  offset : Nat
  size : Nat
  headerSize : Nat
  typ : Bytes
  deriving Repr, DecidableEq

/-- `amp4.ReadBoxInfo`; `none` is `io.EOF`. Sizes that are smaller than the header are refused. -/
def readBoxInfo (b : Bytes) (pos : Nat) : Res (Option BoxInfo) :=
  if (b.drop pos).length < 8 then .ok none
  else do
    let (size, rest) ← takeBE 4 (b.drop pos)
    if size = 0 then .ok (some ⟨pos, b.length - pos, 8, rest.take 4⟩)
    else if size = 1 then
      if (b.drop pos).length < 16 then .ok none
      else do
        let (large, _) ← takeBE 8 (rest.drop 4)
        if large < 16 then .err "invalid size" else .ok (some ⟨pos, large, 16, rest.take 4⟩)
    else if size < 8 then .err "invalid size"
    else .ok (some ⟨pos, size, 8, rest.take 4⟩)

/-- The payload of a box, as far as it is in the file. -/
def BoxInfo.payload (bi : BoxInfo) (b : Bytes) : Bytes := (b.drop (bi.offset + bi.headerSize)).take (bi.size - bi.headerSize)

/-! ## Reader -/

/-- parts.go:20-27. -/
inductive State where
  | waitingMoof | waitingMfhd | waitingTraf | waitingBoxes
  deriving Repr, DecidableEq

/-- The variables of `Parts.Unmarshal`. `parts` is `*ps`, whose last element is `curPart`; `hasTrack` tells whether `curTrack` is not
`nil`, in which case it is the last track of the last part that has any. -/
structure Reader where
  state : State := .waitingMoof
  parts : List Part := []
  moofOffset : Nat := 0
  hasTrack : Bool := false
  tfdt : Option Nat := none
  tfhd : Option Tfhd := none
  deriving Repr, DecidableEq

/-- A write to `curPart`: a nil dereference when there is none. -/
def Reader.onPart (r : Reader) (g : Part → Part) : Res Reader :=
  match r.parts.reverse with
  | [] => .panic
  | p :: l => .ok { r with parts := l.reverse ++ [g p] }

/-- A write to `curTrack`. It is called in `waitingBoxes` only, where `curTrack` belongs to `curPart`. -/
def Reader.onTrack (r : Reader) (g : PartTrack → PartTrack) : Res Reader :=
  match r.parts.reverse with
  | [] => .panic
  | p :: l =>
    match p.tracks.reverse with
    | [] => .panic
    | t :: ts => .ok { r with parts := l.reverse ++ [{ p with tracks := ts.reverse ++ [g t] }] }

/-- parts.go:11-13. -/
def maxSamplesPerTrun : Nat := 120 * 160

/-- parts.go:146-184: the loop over the entries of `trun`; `ptr` is what is left of the data. -/
def readEntries (t : Trun) (tfhd : Tfhd) : List TrunEntry → Bytes → Res (List Sample)
  | [], _ => .ok []
  | e :: l, ptr => do
    let duration := if hasFlag t.flags 0x100 then e.duration else tfhd.defaultDuration
    let ptsOffset := toInt32 e.cto
    let flags := if hasFlag t.flags 0x400 then e.flags else tfhd.defaultFlags
    let size := if hasFlag t.flags 0x200 then e.size else tfhd.defaultSize
    if ptr.length < size then .err "invalid sample size"
    else do
      let payload ← slice ptr 0 size
      let ptr ← sliceFrom ptr size
      let rest ← readEntries t tfhd l ptr
      .ok (⟨duration, ptsOffset, hasFlag flags (2 ^ 16), payload⟩ :: rest)

/-- parts.go:115-116: the sample count, as found 12 bytes after the beginning of the box; zero when it is not read. -/
def rawCount (raw : Bytes) : Res Nat :=
  if raw.length ≥ 16 then do
    let b0 ← idx raw 12
    let b1 ← idx raw 13
    let b2 ← idx raw 14
    let b3 ← idx raw 15
    .ok (b0.toNat * 2 ^ 24 + b1.toNat * 2 ^ 16 + b2.toNat * 2 ^ 8 + b3.toNat)
  else .ok 0

/-- parts.go:108-185: the case of `trun`. -/
def readTrun (b : Bytes) (bi : BoxInfo) (r : Reader) : Res Reader :=
  match r.tfhd with
  | none => .err "unexpected trun"
  | some tfhd =>
    if r.state ≠ .waitingBoxes then .err "unexpected trun"
    else do
      let raw ← sliceFrom b bi.offset
      let count ← rawCount raw
      if count > maxSamplesPerTrun then .err "sample count exceeds maximum"
      else do
        let t ← decodeTrun (bi.payload b)
        if t.entries.length ≠ 0 then
          if hasFlag t.flags 1 = false then .err "unsupported flags"
          else do
            let pos := ((t.dataOffset % 2 ^ 64).toNat + r.moofOffset) % 2 ^ 64
            if b.length < pos then .err "invalid data_offset / moof_offset"
            else do
              let ptr ← sliceFrom b pos
              let samples ← readEntries t tfhd t.entries ptr
              r.onTrack fun tr => { tr with samples := tr.samples ++ samples }
        else .ok r

/-- parts.go:69-73, 192-196: a track that was read has `tfdt` and `tfhd`. -/
def Reader.incomplete (r : Reader) : Bool := r.hasTrack && (r.tfdt.isNone || r.tfhd.isNone)

/-- parts.go:37-202: the handler of a box. `expand` is `h.Expand`. -/
def handle (b : Bytes) (bi : BoxInfo) (expand : Reader → Res Reader) (r : Reader) : Res Reader :=
  if bi.typ = typMoof then
    if r.state ≠ .waitingMoof then .err "unexpected moof"
    else expand { r with parts := r.parts ++ [{}], moofOffset := bi.offset, state := .waitingMfhd }
  else if bi.typ = typMfhd then
    if r.state ≠ .waitingMfhd then .err "unexpected mfhd"
    else do
      let seq ← decodeMfhd (bi.payload b)
      let r ← r.onPart fun p => { p with sequenceNumber := seq }
      .ok { r with state := .waitingTraf }
  else if bi.typ = typTraf then
    if r.state ≠ .waitingTraf ∧ r.state ≠ .waitingBoxes then .err "unexpected traf"
    else if r.incomplete then .err "parse error"
    else do
      let r ← r.onPart fun p => { p with tracks := p.tracks ++ [{}] }
      expand { r with hasTrack := true, tfdt := none, tfhd := none, state := .waitingBoxes }
  else if bi.typ = typTfhd then
    if r.state ≠ .waitingBoxes ∨ r.tfhd.isSome then .err "unexpected tfhd"
    else do
      let tfhd ← decodeTfhd (bi.payload b)
      let r ← r.onTrack fun t => { t with id := tfhd.trackID }
      .ok { r with tfhd := some tfhd }
  else if bi.typ = typTfdt then
    if r.state ≠ .waitingBoxes ∨ r.tfdt.isSome then .err "unexpected tfdt"
    else do
      let base ← decodeTfdt (bi.payload b)
      let r ← r.onTrack fun t => { t with baseTime := base }
      .ok { r with tfdt := some base }
  else if bi.typ = typTrun then readTrun b bi r
  else if bi.typ = typMdat then
    if r.state ≠ .waitingTraf ∧ r.state ≠ .waitingBoxes then .err "unexpected mdat"
    else if r.incomplete then .err "parse error"
    else .ok { r with state := .waitingMoof }
  else .ok r

/-- `amp4.ReadBoxStructure`: the boxes from `pos`. `left` is the size of the parent, `none` at the top. -/
def readLevel : Nat → Bytes → Nat → Option Nat → Reader → Res Reader
  | 0, _, _, _, _ => .err "out of fuel"
  | n + 1, b, pos, left, r =>
    if left.any (· < 8) then (if left = some 0 then .ok r else .err "Unexpected EOF")
    else do
      match ← readBoxInfo b pos with
      | none => if left.isNone then .ok r else .err "EOF"
      | some bi =>
        if left.any (· < bi.size) then .err "too large box size"
        else do
          let r ← handle b bi (fun r => readLevel n b (bi.offset + bi.headerSize) (some (bi.size - bi.headerSize)) r) r
          readLevel n b (bi.offset + bi.size) (left.map (· - bi.size)) r

/-- parts.go:19-213 (`Parts.Unmarshal`), on a nil receiver. The recursion depth is bounded by the number of boxes. -/
def unmarshal (b : Bytes) : Res (List Part) := do
  let r ← readLevel (b.length + 1) b 0 none {}
  if r.state ≠ .waitingMoof then .err "decode error" else .ok r.parts

end Verif.FMP4
