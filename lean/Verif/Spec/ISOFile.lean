import Verif.Spec.CodecRecords
import Verif.Spec.SampleTables

/-!
# Specification: files of ISO 14496-12

A reader of non-fragmented files, written from the standard without reference to the model. It knows 32-bit box sizes and version 0 of
headers, and refuses files in which a mandatory box is missing or a box that must be unique is repeated.
-/

namespace Verif.Spec.ISO
open Spec.Records (field fourcc)
open SampleTables (expand startTimes tableLocations region)

/-- A signed 32-bit number. -/
def signed (n : Nat) : Int := if n < 2 ^ 31 then n else (n : Int) - 2 ^ 32

/-- A condition. -/
def ensure (p : Prop) [Decidable p] : Option Unit := if p then some () else none

/-- 4.2: consecutive boxes, each with type and payload; `n` bounds their number. -/
def readBoxes : Nat → Bytes → Option (List (Bytes × Bytes))
  | _, [] => some []
  | 0, _ :: _ => none
  | n + 1, b =>
    let size := field b 0 32
    if 8 ≤ size ∧ size ≤ b.length then do
      let l ← readBoxes n (b.drop size)
      some (((b.drop 4).take 4, (b.take size).drop 8) :: l)
    else
      let large := field b 64 64
      if size = 1 ∧ 16 ≤ large ∧ large ≤ b.length then do
        let l ← readBoxes n (b.drop large)
        some (((b.drop 4).take 4, (b.take large).drop 16) :: l)
      else none

/-- 4.2: consecutive boxes. -/
def boxes (b : Bytes) : Option (List (Bytes × Bytes)) := readBoxes b.length b

/-- The payloads of the boxes of a type. -/
def named (typ : Bytes) (l : List (Bytes × Bytes)) : List Bytes := (l.filter fun x => x.1 == typ).map (·.2)

/-- The payload of a box that is there exactly once. -/
def only (typ : Bytes) (l : List (Bytes × Bytes)) : Option Bytes :=
  match named typ l with
  | [b] => some b
  | _ => none

/-- The payload of a box that is there once at most. -/
def maybe (typ : Bytes) (l : List (Bytes × Bytes)) : Option (Option Bytes) :=
  match named typ l with
  | [] => some none
  | [b] => some (some b)
  | _ => none

/-- `n` pieces of `size` bytes. -/
def pieces (size : Nat) : Nat → Bytes → List Bytes
  | 0, _ => []
  | n + 1, b => b.take size :: pieces size n (b.drop size)

/-- The entries of a table: version and flags, number of entries, entries of `size` bytes. -/
def rows (size : Nat) (b : Bytes) : Option (List Bytes) := do
  ensure (b.length = 8 + size * field b 32 32)
  some (pieces size (field b 32 32) (b.drop 8))

/-- The boxes of a list of boxes with their number (`dref`, `stsd`). -/
def listed (b : Bytes) : Option (List (Bytes × Bytes)) := do
  let l ← boxes (b.drop 8)
  ensure (l.length = field b 32 32 ∧ 8 ≤ b.length)
  some l

/-- 8.6.6: an edit, in units of the movie and of the media; `rate` is 16.16. -/
structure Edit where
  duration : Nat
  mediaTime : Int
  rate : Nat
  deriving Repr, DecidableEq

/-- 8.7.4: the samples of chunks. -/
structure ChunkRun where
  firstChunk : Nat
  samplesPerChunk : Nat
  description : Nat
  deriving Repr, DecidableEq

/-- 8.5.1: a sample table. -/
structure SampleTable where
  descriptions : List (Bytes × Bytes)
  stts : List (Nat × Nat)
  ctts : Option (List (Nat × Int))
  stss : Option (List Nat)
  stsc : List ChunkRun
  sizes : List Nat
  stco : List Nat
  deriving Repr, DecidableEq

/-- 8.4: media. -/
structure Media extends SampleTable where
  timeScale : Nat
  mediaDuration : Nat
  language : List Nat
  handler : Bytes
  name : Bytes
  mediaHeader : Bytes
  deriving Repr, DecidableEq

/-- 8.3: a track. -/
structure Track extends Media where
  flags : Nat
  id : Nat
  duration : Nat
  group : Nat
  volume : Nat
  matrix : List Nat
  width : Nat
  height : Nat
  edits : Option (List Edit)
  deriving Repr, DecidableEq

/-- A movie. -/
structure Movie where
  timeScale : Nat
  duration : Nat
  rate : Nat
  volume : Nat
  matrix : List Nat
  nextTrackID : Nat
  tracks : List Track
  deriving Repr, DecidableEq

/-! ## Boxes -/

/-- 8.6.6: `elst`, version 0. -/
def readEdits (b : Bytes) : Option (List Edit) := do
  ensure (field b 0 8 = 0)
  let l ← rows 12 b
  some (l.map fun r => ⟨field r 0 32, signed (field r 32 32), field r 64 32⟩)

/-- 8.6.1.2: `stts`. -/
def readTimes (b : Bytes) : Option (List (Nat × Nat)) := do
  let l ← rows 8 b
  some (l.map fun r => (field r 0 32, field r 32 32))

/-- 8.6.1.3: `ctts`; offsets are signed in version 1. -/
def readOffsets (b : Bytes) : Option (List (Nat × Int)) := do
  let l ← rows 8 b
  some (l.map fun r => (field r 0 32, if field b 0 8 = 0 then (field r 32 32 : Int) else signed (field r 32 32)))

/-- 8.6.2 and 8.7.5: `stss` and `stco`. -/
def readWords (b : Bytes) : Option (List Nat) := do
  let l ← rows 4 b
  some (l.map fun r => field r 0 32)

/-- 8.7.4: `stsc`. -/
def readChunks (b : Bytes) : Option (List ChunkRun) := do
  let l ← rows 12 b
  some (l.map fun r => ⟨field r 0 32, field r 32 32, field r 64 32⟩)

/-- 8.7.3.2: `stsz`. -/
def readSizes (b : Bytes) : Option (List Nat) :=
  let n := field b 64 32
  if field b 32 32 ≠ 0 then some (List.replicate n (field b 32 32))
  else do
    ensure (b.length = 12 + 4 * n)
    some ((pieces 4 n (b.drop 12)).map fun r => field r 0 32)

/-- 8.7.2: `dref` tells where media data are. All data are in the same file. -/
def readReferences (b : Bytes) : Option Nat := do
  let l ← listed b
  ensure (∀ x ∈ l, x.1 = fourcc 'u' 'r' 'l' ' ' ∧ field x.2 8 24 = 1)
  some l.length

/-- The transformation of pictures: nine numbers. -/
def matrix (b : Bytes) (pos : Nat) : List Nat :=
  [field b pos 32, field b (pos + 32) 32, field b (pos + 64) 32, field b (pos + 96) 32, field b (pos + 128) 32, field b (pos + 160) 32,
    field b (pos + 192) 32, field b (pos + 224) 32, field b (pos + 256) 32]

/-- 12.1.2 and 12.2.2: `vmhd` has version 0, flags 1, mode and color; `smhd` has version 0, no flags, balance. -/
def mediaHeaderFits (x : Bytes × Bytes) : Prop :=
  (x.1 = fourcc 'v' 'm' 'h' 'd' → x.2.length = 12 ∧ field x.2 0 32 = 1) ∧ (x.1 = fourcc 's' 'm' 'h' 'd' → x.2.length = 8 ∧ field x.2 0 32 = 0)

instance (x : Bytes × Bytes) : Decidable (mediaHeaderFits x) := by unfold mediaHeaderFits; infer_instance

/-- 8.4.5: the header of the media is `vmhd`, `smhd`, `hmhd` or `nmhd`. -/
def readMediaHeader (l : List (Bytes × Bytes)) : Option Bytes :=
  match l.filter fun x => x.1 == fourcc 'v' 'm' 'h' 'd' || x.1 == fourcc 's' 'm' 'h' 'd' || x.1 == fourcc 'h' 'm' 'h' 'd' ||
      x.1 == fourcc 'n' 'm' 'h' 'd' with
  | [x] => if mediaHeaderFits x then some x.1 else none
  | _ => none

/-- An optional box. -/
def readMaybe {α : Type} (f : Bytes → Option α) : Option Bytes → Option (Option α)
  | none => some none
  | some b => (f b).map some

/-- 8.6.5: `edts`. -/
def readEdts (b : Bytes) : Option (List Edit) := do
  let l ← boxes b
  let elst ← only (fourcc 'e' 'l' 's' 't') l
  readEdits elst

/-- 8.5.1: `stbl`, given the number of data references. -/
def readTable (references : Nat) (b : Bytes) : Option SampleTable := do
  let l ← boxes b
  let stsd ← only (fourcc 's' 't' 's' 'd') l
  let descriptions ← listed stsd
  ensure (∀ x ∈ descriptions, 1 ≤ field x.2 48 16 ∧ field x.2 48 16 ≤ references)
  let stts ← only (fourcc 's' 't' 't' 's') l
  let stts ← readTimes stts
  let ctts ← maybe (fourcc 'c' 't' 't' 's') l
  let ctts ← readMaybe readOffsets ctts
  let stss ← maybe (fourcc 's' 't' 's' 's') l
  let stss ← readMaybe readWords stss
  let stsc ← only (fourcc 's' 't' 's' 'c') l
  let stsc ← readChunks stsc
  ensure (∀ x ∈ stsc, 1 ≤ x.description ∧ x.description ≤ descriptions.length)
  let stsz ← only (fourcc 's' 't' 's' 'z') l
  let sizes ← readSizes stsz
  let stco ← only (fourcc 's' 't' 'c' 'o') l
  let stco ← readWords stco
  some ⟨descriptions, stts, ctts, stss, stsc, sizes, stco⟩

/-- 8.4.4: `minf`: the type of the media header, and the sample table. -/
def readMinf (b : Bytes) : Option (Bytes × SampleTable) := do
  let l ← boxes b
  let header ← readMediaHeader l
  let dinf ← only (fourcc 'd' 'i' 'n' 'f') l
  let m ← boxes dinf
  let dref ← only (fourcc 'd' 'r' 'e' 'f') m
  let references ← readReferences dref
  let stbl ← only (fourcc 's' 't' 'b' 'l') l
  let table ← readTable references stbl
  some (header, table)

/-- 8.4.1: `mdia`. -/
def readMedia (b : Bytes) : Option Media := do
  let l ← boxes b
  let mdhd ← only (fourcc 'm' 'd' 'h' 'd') l
  ensure (field mdhd 0 8 = 0 ∧ mdhd.length = 24)
  let hdlr ← only (fourcc 'h' 'd' 'l' 'r') l
  ensure (field hdlr 0 8 = 0 ∧ field hdlr 32 32 = 0 ∧ 25 ≤ hdlr.length ∧ hdlr.getLast? = some 0)
  let minf ← only (fourcc 'm' 'i' 'n' 'f') l
  let (header, table) ← readMinf minf
  some ⟨table, field mdhd 96 32, field mdhd 128 32, [field mdhd 161 5, field mdhd 166 5, field mdhd 171 5], (hdlr.drop 8).take 4, hdlr.drop 24,
    header⟩

/-- 8.3.1: `trak`. -/
def readTrack (b : Bytes) : Option Track := do
  let l ← boxes b
  let tkhd ← only (fourcc 't' 'k' 'h' 'd') l
  ensure (field tkhd 0 8 = 0 ∧ tkhd.length = 84)
  let edts ← maybe (fourcc 'e' 'd' 't' 's') l
  let edits ← readMaybe readEdts edts
  let mdia ← only (fourcc 'm' 'd' 'i' 'a') l
  let media ← readMedia mdia
  some { toMedia := media, flags := field tkhd 8 24, id := field tkhd 96 32, duration := field tkhd 160 32, group := field tkhd 272 16,
         volume := field tkhd 288 16, matrix := matrix tkhd 320, width := field tkhd 608 32, height := field tkhd 640 32, edits := edits }

/-- All or nothing. -/
def all {α β : Type} (f : α → Option β) : List α → Option (List β)
  | [] => some []
  | a :: l => do
    let b ← f a
    let m ← all f l
    some (b :: m)

/-- A file: `ftyp` is first (4.3), and there is one `moov` (8.2.1). -/
def readMovie (file : Bytes) : Option Movie := do
  let l ← boxes file
  ensure (l.head?.map (·.1) = some (fourcc 'f' 't' 'y' 'p'))
  let moov ← only (fourcc 'm' 'o' 'o' 'v') l
  let l ← boxes moov
  let mvhd ← only (fourcc 'm' 'v' 'h' 'd') l
  ensure (field mvhd 0 8 = 0 ∧ mvhd.length = 100)
  let tracks ← all readTrack (named (fourcc 't' 'r' 'a' 'k') l)
  some { timeScale := field mvhd 96 32, duration := field mvhd 128 32, rate := field mvhd 160 32, volume := field mvhd 192 16,
         matrix := matrix mvhd 288, nextTrackID := field mvhd 768 32, tracks := tracks }

/-! ## Samples -/

/-- A sample: when it is decoded and when it is composed, in units of the media, whether it is a sync sample, where it is. -/
structure Sample where
  decoding : Int
  composition : Int
  sync : Bool
  offset : Nat
  size : Nat
  deriving Repr, DecidableEq

/-- 8.6.2: sync samples. -/
def Track.sync (t : Track) (i : Nat) : Bool :=
  match t.stss with
  | none => true
  | some l => l.contains (i + 1)

/-- 8.6.1.3: composition offsets, zero when there is no table. -/
def Track.offsets (t : Track) : List Int :=
  match t.ctts with
  | none => t.sizes.map fun _ => 0
  | some l => expand l

/-- 8.7: where samples are. -/
def Track.locations (t : Track) : List (Nat × Nat) :=
  tableLocations (t.stsc.map fun e => (e.firstChunk, e.samplesPerChunk)) t.stco t.sizes

/-- The tables are about the same samples. -/
def Track.Consistent (t : Track) : Prop :=
  (expand t.stts).length = t.sizes.length ∧ t.offsets.length = t.sizes.length ∧ t.locations.length = t.sizes.length

/-- Rows of the tables, from sample `i` on. -/
def samplesFrom (t : Track) : Nat → List Int → List Int → List (Nat × Nat) → List Sample
  | i, d :: ds, o :: os, l :: ls => ⟨d, d + o, t.sync i, l.1, l.2⟩ :: samplesFrom t (i + 1) ds os ls
  | _, _, _, _ => []

/-- The samples of a track. -/
def Track.samples (t : Track) : List Sample := samplesFrom t 0 (startTimes 0 (expand t.stts)) t.offsets t.locations

/-- The bytes of a sample. -/
def Sample.bytes (s : Sample) (file : Bytes) : Bytes := region file s.offset s.size

/-! ## Presentation -/

/-- 8.6.6: when media time `c` is presented by the edits, which start at `start` (in units of the movie), in units of `1 / (movie * media)`
seconds. Edits follow one another; an edit with media time -1 is empty; others present the media from a time on, at normal rate. -/
def presented (movie media : Nat) : List Edit → Nat → Int → Option Int
  | [], _, _ => none
  | e :: l, start, c =>
    if e.mediaTime ≠ -1 ∧ e.rate = 65536 ∧ e.mediaTime ≤ c ∧ (c - e.mediaTime) * movie < e.duration * media then
      some (start * media + (c - e.mediaTime) * movie)
    else presented movie media l (start + e.duration) c

/-- When media time `c` is presented: at once, if there are no edits. -/
def Track.presentedAt (m : Movie) (t : Track) (c : Int) : Option Int :=
  match t.edits with
  | none => some (c * m.timeScale)
  | some l => presented m.timeScale t.timeScale l 0 c

end Verif.Spec.ISO
