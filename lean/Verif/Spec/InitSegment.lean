import Verif.Spec.CodecEntries
import Verif.Spec.FMP4

/-!
# Specification of initialization segments of any writer

The boxes of ISO 14496-12 that matter to a reader of tracks, in the order in which writers put them, with any other boxes between them. Boxes
that matter have headers of 8 bytes; the others have headers of 8 or 16 bytes (4.2: a `size` of 1 announces a `largesize` of 64 bits).
-/

namespace Verif.Spec.InitSegment
open Records (Fields Carries fourcc)
open FMP4 (box)

/-- A box whose contents do not matter. -/
structure Other where
  typ : Bytes
  payload : Bytes
  large : Bool := false

/-- 4.2, with a `largesize`. -/
def largeBox (typ payload : Bytes) : Bytes := beBytes 4 1 ++ typ ++ beBytes 8 (16 + payload.length) ++ payload

def Other.bytes (o : Other) : Bytes := if o.large then largeBox o.typ o.payload else box o.typ o.payload

/-- The size fits its field. -/
def Other.Fits (o : Other) : Prop := o.bytes.length < if o.large then 2 ^ 64 else 2 ^ 32

def others (l : List Other) : Bytes := l.flatMap Other.bytes

/-- The boxes on the way to the tracks and their codecs (ISO 14496-12 table 1). -/
def pathBoxes : List Bytes :=
  [fourcc 'f' 't' 'y' 'p', fourcc 'm' 'o' 'o' 'v', fourcc 'm' 'v' 'h' 'd', fourcc 'u' 'd' 't' 'a', fourcc 't' 'r' 'a' 'k', fourcc 't' 'k' 'h' 'd',
    fourcc 'm' 'd' 'i' 'a', fourcc 'm' 'd' 'h' 'd', fourcc 'm' 'i' 'n' 'f', fourcc 's' 't' 'b' 'l', fourcc 's' 't' 's' 'd']

/-- Sample entries and configuration records. -/
def codecBoxes : List Bytes :=
  [fourcc 'a' 'v' 'c' '1', fourcc 'a' 'v' 'c' 'C', fourcc 'h' 'v' 'c' '1', fourcc 'h' 'e' 'v' '1', fourcc 'h' 'v' 'c' 'C', fourcc 'v' 'p' '0' '9',
    fourcc 'v' 'p' 'c' 'C', fourcc 'a' 'v' '0' '1', fourcc 'a' 'v' '1' 'C', fourcc 'm' 'p' '4' 'v', fourcc 'm' 'p' '4' 'a', fourcc 'e' 's' 'd' 's',
    fourcc 'O' 'p' 'u' 's', fourcc 'd' 'O' 'p' 's', fourcc 'f' 'L' 'a' 'C', fourcc 'd' 'f' 'L' 'a', fourcc 'a' 'c' '-' '3', fourcc 'd' 'a' 'c' '3',
    fourcc 'e' 'c' '-' '3', fourcc 'd' 'e' 'c' '3', fourcc 'i' 'p' 'c' 'm', fourcc 'p' 'c' 'm' 'C', fourcc 'c' '6' '0' '8']

/-- Boxes that are none of the given ones. -/
def NoneOf (types : List Bytes) (l : List Other) : Prop := ∀ o ∈ l, o.typ.length = 4 ∧ o.typ ∉ types

/-- `TrackHeaderBox` (8.3.2), of version 0 or 1. -/
structure Tkhd where
  version : Nat
  flags : Nat
  created : Nat
  modified : Nat
  id : Nat
  reserved : Nat
  duration : Nat
  reserved2 : Nat
  layer : Nat
  group : Nat
  volume : Nat
  reserved3 : Nat
  matrix : Nat
  width : Nat
  height : Nat

/-- Width of times and durations. -/
def times (version : Nat) : Nat := if version = 0 then 32 else 64

def Tkhd.fields (t : Tkhd) : Fields :=
  [(8, t.version), (24, t.flags), (times t.version, t.created), (times t.version, t.modified), (32, t.id), (32, t.reserved),
    (times t.version, t.duration), (64, t.reserved2), (16, t.layer), (16, t.group), (16, t.volume), (16, t.reserved3), (288, t.matrix), (32, t.width),
    (32, t.height)]

/-- `MediaHeaderBox` (8.4.2), of version 0 or 1. -/
structure Mdhd where
  version : Nat
  flags : Nat
  created : Nat
  modified : Nat
  timeScale : Nat
  duration : Nat
  pad : Nat
  language1 : Nat
  language2 : Nat
  language3 : Nat
  preDefined : Nat

def Mdhd.fields (m : Mdhd) : Fields :=
  [(8, m.version), (24, m.flags), (times m.version, m.created), (times m.version, m.modified), (32, m.timeScale), (times m.version, m.duration),
    (1, m.pad), (5, m.language1), (5, m.language2), (5, m.language3), (16, m.preDefined)]

/-- `MovieHeaderBox` (8.2.2) is as long as its version says. -/
def IsMvhd (payload : Bytes) : Prop := (payload.head? = some 0 ∧ payload.length = 100) ∨ (payload.head? = some 1 ∧ payload.length = 112)

/-- A sample description with one sample entry of a known codec: other boxes may be around the configuration record and after the entry. -/
structure Description where
  head : Bytes
  typ : Bytes
  entry : Bytes
  before : List Other
  ctyp : Bytes
  config : Bytes
  after : List Other
  rest : List Other

def Description.bytes (d : Description) : Bytes :=
  box (fourcc 's' 't' 's' 'd') (d.head ++ (box d.typ (d.entry ++ (others d.before ++ (box d.ctyp d.config ++ others d.after))) ++ others d.rest))

/-- A track. -/
structure Track where
  trak1 : List Other
  tkhd : Bytes
  trak2 : List Other
  mdia1 : List Other
  mdhd : Bytes
  mdia2 : List Other
  minf1 : List Other
  stbl1 : List Other
  description : Description
  stbl2 : List Other
  minf2 : List Other
  mdia3 : List Other
  trak3 : List Other

def Track.stbl (t : Track) : Bytes := box (fourcc 's' 't' 'b' 'l') (others t.stbl1 ++ (t.description.bytes ++ others t.stbl2))
def Track.minf (t : Track) : Bytes := box (fourcc 'm' 'i' 'n' 'f') (others t.minf1 ++ (t.stbl ++ others t.minf2))
def Track.mdia (t : Track) : Bytes :=
  box (fourcc 'm' 'd' 'i' 'a') (others t.mdia1 ++ (box (fourcc 'm' 'd' 'h' 'd') t.mdhd ++ (others t.mdia2 ++ (t.minf ++ others t.mdia3))))
def Track.bytes (t : Track) : Bytes :=
  box (fourcc 't' 'r' 'a' 'k') (others t.trak1 ++ (box (fourcc 't' 'k' 'h' 'd') t.tkhd ++ (others t.trak2 ++ (t.mdia ++ others t.trak3))))

/-- The boxes of the track after the sample description. -/
def Track.tail (t : Track) : List Other := t.stbl2 ++ (t.minf2 ++ (t.mdia3 ++ t.trak3))

/-- A box after the header of the movie. -/
inductive Item where
  | track (t : Track)
  | userData (l : List Other)
  | other (o : Other)

def Item.bytes : Item → Bytes
  | .track t => t.bytes
  | .userData l => box (fourcc 'u' 'd' 't' 'a') (others l)
  | .other o => o.bytes

def items (l : List Item) : Bytes := l.flatMap Item.bytes

/-- A segment. -/
structure Segment where
  ftyp : Bytes
  top1 : List Other
  moov1 : List Other
  mvhd : Bytes
  items : List Item
  top2 : List Other

def Segment.bytes (s : Segment) : Bytes :=
  box (fourcc 'f' 't' 'y' 'p') s.ftyp ++ (others s.top1 ++ (box (fourcc 'm' 'o' 'o' 'v')
    (others s.moov1 ++ (box (fourcc 'm' 'v' 'h' 'd') s.mvhd ++ InitSegment.items s.items)) ++ others s.top2))

/-- The user data of the movie. -/
def userData (l : List Item) : List (Bytes × Bytes) :=
  l.flatMap fun
    | .userData l => l.map fun o => (o.typ, o.payload)
    | _ => []

/-- The tracks. -/
def tracks (l : List Item) : List Track :=
  l.filterMap fun
    | .track t => some t
    | _ => none

/-- Nothing comes after the sample description of the last track: the last box of the movie is a track that ends with it. -/
def endsOpen (l : List Item) : Bool :=
  match l.getLast? with
  | some (.track t) => t.tail.isEmpty
  | _ => false

end Verif.Spec.InitSegment
