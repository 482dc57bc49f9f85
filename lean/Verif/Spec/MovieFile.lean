import Verif.Spec.InitSegment
import Verif.Spec.ISOFile

/-!
# Specification of non-fragmented files of any writer

The boxes of ISO 14496-12 that matter to a reader of samples, with any other boxes between them. Boxes that matter have headers of 8 bytes. The sample
tables are read as in Spec/ISOFile.lean.
-/

namespace Verif.Spec.MovieFile
open Records (field fourcc)
open FMP4 (box)
open SampleTables (expand samplesInChunk tableLocations)
open InitSegment (Other others NoneOf codecBoxes Description)
open ISO (Edit ChunkRun only maybe readMaybe readTimes readOffsets readWords readChunks readSizes)

/-- The boxes on the way to the sample tables (ISO 14496-12 table 1). -/
def pathBoxes : List Bytes :=
  [fourcc 'f' 't' 'y' 'p', fourcc 'm' 'o' 'o' 'v', fourcc 'm' 'v' 'h' 'd', fourcc 't' 'r' 'a' 'k', fourcc 't' 'k' 'h' 'd', fourcc 'e' 'd' 't' 's',
    fourcc 'e' 'l' 's' 't', fourcc 'm' 'd' 'i' 'a', fourcc 'm' 'd' 'h' 'd', fourcc 'm' 'i' 'n' 'f', fourcc 's' 't' 'b' 'l', fourcc 's' 't' 's' 'd']

/-- The sample tables. -/
def tableBoxes : List Bytes :=
  [fourcc 's' 't' 't' 's', fourcc 's' 't' 's' 's', fourcc 'c' 't' 't' 's', fourcc 's' 't' 's' 'c', fourcc 's' 't' 's' 'z', fourcc 's' 't' 'c' 'o']

/-! ## Sample tables -/

/-- The tables of a track. -/
structure Tables where
  stts : List (Nat × Nat)
  ctts : Option (List (Nat × Int))
  stss : Option (List Nat)
  stsc : List ChunkRun
  sizes : List Nat
  stco : List Nat
  deriving Repr, DecidableEq

/-- 8.5.1: the tables among the boxes of `stbl`. -/
def readTables (l : List (Bytes × Bytes)) : Option Tables := do
  let stts ← only (fourcc 's' 't' 't' 's') l
  let stts ← readTimes stts
  let ctts ← maybe (fourcc 'c' 't' 't' 's') l
  let ctts ← readMaybe readOffsets ctts
  let stss ← maybe (fourcc 's' 't' 's' 's') l
  let stss ← readMaybe readWords stss
  let stsc ← only (fourcc 's' 't' 's' 'c') l
  let stsc ← readChunks stsc
  let stsz ← only (fourcc 's' 't' 's' 'z') l
  let sizes ← readSizes stsz
  let stco ← only (fourcc 's' 't' 'c' 'o') l
  let stco ← readWords stco
  some ⟨stts, ctts, stss, stsc, sizes, stco⟩

/-- 8.7.4: the number of samples in each chunk. -/
def Tables.chunks (t : Tables) : List Nat :=
  (List.range t.stco.length).map fun i => samplesInChunk (t.stsc.map fun e => (e.firstChunk, e.samplesPerChunk)) (i + 1)

/-- The tables are about the same samples. -/
structure Tables.Consistent (t : Tables) : Prop where
  /-- 8.6.1.2 and 8.6.1.3: there are durations and composition offsets for all samples. -/
  times : (expand t.stts).length = t.sizes.length
  offsets : ∀ l, t.ctts = some l → (expand l).length = t.sizes.length
  /-- 8.6.2: sync samples are samples. -/
  syncs : ∀ l, t.stss = some l → ∀ n ∈ l, 1 ≤ n ∧ n ≤ t.sizes.length
  /-- 8.7.4: chunks are numbered from 1; runs of chunks are not empty, and neither are chunks. -/
  first : ∀ e, t.stsc.head? = some e → e.firstChunk = 1
  increasing : t.stsc.Pairwise fun a b => a.firstChunk < b.firstChunk
  last : ∀ e ∈ t.stsc, e.firstChunk ≤ t.stco.length ∧ 0 < e.samplesPerChunk
  described : t.stsc = [] → t.stco = []
  /-- All samples are in chunks. -/
  chunks : t.chunks.sum = t.sizes.length

/-- A sample. -/
structure Sample where
  duration : Nat
  compositionOffset : Int
  sync : Bool
  offset : Nat
  size : Nat
  deriving Repr, DecidableEq

def Tables.duration (t : Tables) (i : Nat) : Nat := (expand t.stts).getD i 0

/-- 8.6.1.3: zero when there is no table. -/
def Tables.compositionOffset (t : Tables) (i : Nat) : Int :=
  match t.ctts with
  | none => 0
  | some l => (expand l).getD i 0

/-- 8.6.2: all samples are sync samples when there is no table. -/
def Tables.sync (t : Tables) (i : Nat) : Bool :=
  match t.stss with
  | none => true
  | some l => l.contains (i + 1)

/-- 8.7: where samples are, and their sizes. -/
def Tables.locations (t : Tables) : List (Nat × Nat) :=
  tableLocations (t.stsc.map fun e => (e.firstChunk, e.samplesPerChunk)) t.stco t.sizes

/-- The sample of a number. -/
def Tables.sample (t : Tables) (i : Nat) : Sample :=
  ⟨t.duration i, t.compositionOffset i, t.sync i, (t.locations.getD i (0, 0)).1, (t.locations.getD i (0, 0)).2⟩

/-- The samples. -/
def Tables.samples (t : Tables) : List Sample := (List.range t.sizes.length).map t.sample

/-! ## Tracks and files -/

/-- A track. `tables` are the boxes of the sample table after the sample description. -/
structure Track where
  trak1 : List Other
  tkhd : Bytes
  trak2 : List Other
  edts1 : List Other
  elst : Bytes
  edts2 : List Other
  trak3 : List Other
  mdia1 : List Other
  mdhd : Bytes
  mdia2 : List Other
  minf1 : List Other
  stbl1 : List Other
  description : Description
  tables : List Other
  minf2 : List Other
  mdia3 : List Other
  trak4 : List Other

def Track.edts (t : Track) : Bytes := box (fourcc 'e' 'd' 't' 's') (others t.edts1 ++ (box (fourcc 'e' 'l' 's' 't') t.elst ++ others t.edts2))
def Track.stbl (t : Track) : Bytes := box (fourcc 's' 't' 'b' 'l') (others t.stbl1 ++ (t.description.bytes ++ others t.tables))
def Track.minf (t : Track) : Bytes := box (fourcc 'm' 'i' 'n' 'f') (others t.minf1 ++ (t.stbl ++ others t.minf2))
def Track.mdia (t : Track) : Bytes :=
  box (fourcc 'm' 'd' 'i' 'a') (others t.mdia1 ++ (box (fourcc 'm' 'd' 'h' 'd') t.mdhd ++ (others t.mdia2 ++ (t.minf ++ others t.mdia3))))
def Track.bytes (t : Track) : Bytes :=
  box (fourcc 't' 'r' 'a' 'k') (others t.trak1 ++ (box (fourcc 't' 'k' 'h' 'd') t.tkhd ++ (others t.trak2 ++ (t.edts ++ (others t.trak3 ++ (t.mdia ++
    others t.trak4))))))

/-- The order of the tables: durations first, offsets of chunks after the sizes of chunks and samples. -/
def Ordered (l : List Other) : Prop :=
  ∃ a stts b stco c, l = a ++ (stts :: (b ++ (stco :: c))) ∧ stts.typ = fourcc 's' 't' 't' 's' ∧ stco.typ = fourcc 's' 't' 'c' 'o' ∧
    (∀ o ∈ a, o.typ ∉ tableBoxes) ∧ ∀ o ∈ c, o.typ ≠ fourcc 's' 't' 's' 'c' ∧ o.typ ≠ fourcc 's' 't' 's' 'z'

/-- A box after the header of the movie. -/
inductive Item where
  | track (t : Track)
  | other (o : Other)

def Item.bytes : Item → Bytes
  | .track t => t.bytes
  | .other o => o.bytes

def items (l : List Item) : Bytes := l.flatMap Item.bytes

/-- A file. The media data are among the other boxes. -/
structure File where
  ftyp : Bytes
  top1 : List Other
  moov1 : List Other
  mvhd : Bytes
  items : List Item
  top2 : List Other

def File.moov (f : File) : Bytes :=
  box (fourcc 'm' 'o' 'o' 'v') (others f.moov1 ++ (box (fourcc 'm' 'v' 'h' 'd') f.mvhd ++ MovieFile.items f.items))

def File.bytes (f : File) : Bytes := box (fourcc 'f' 't' 'y' 'p') f.ftyp ++ (others f.top1 ++ (f.moov ++ others f.top2))

end Verif.Spec.MovieFile
