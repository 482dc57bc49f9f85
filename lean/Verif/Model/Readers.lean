import Verif.Model.Base

/-!
# Models of the stream readers and of the seekable buffer

Sources:
* /repo/pkg/formats/mpegts/buffered_reader.go
* /repo/pkg/formats/mpegts/pre_demuxer.go
* /repo/pkg/rewindablereader/reader.go
* /repo/pkg/formats/fmp4/seekablebuffer/seekablebuffer.go

An underlying `io.Reader` is a finite byte stream with a schedule. Each scheduled read says how many
bytes the reader would like to deliver and which error, if any, comes with them; it delivers at most
the size of the destination and at most what is left of the stream, as the `io.Reader` contract
requires. After the schedule is exhausted every read returns `0, io.EOF`. Every finite run of a
contract-abiding reader is of this form.
-/

namespace Verif.Readers

/-- An underlying `io.Reader`. -/
structure Src where
  data : Bytes
  sched : List (Nat × Option String)
  deriving Repr, DecidableEq

/-- One `Read(p)` with `len(p) = cap` on the underlying reader: bytes, error, new state. -/
def Src.read (s : Src) (cap : Nat) : Bytes × Option String × Src :=
  match s.sched with
  | [] => ([], some "EOF", s)
  | (k, e) :: l => (s.data.take (min k cap), e, { data := s.data.drop (min k cap), sched := l })

/-! ## BufferedReader -/

/-- `packetSize` (robust_demuxer.go:17). -/
def packetSize : Nat := 188

/-- `syncByte` (robust_demuxer.go:18). -/
def syncByte : UInt8 := 0x47

/-- `BufferedReader` (buffered_reader.go:11-15). -/
structure BufferedReader where
  r : Src
  midbuf : Bytes := []
  midbufpos : Nat := 0
  deriving Repr, DecidableEq

/-- `BufferedReader.Read(p)` with `len(p) = plen` (buffered_reader.go:28-48): the bytes copied to
`p`, the error, and the new state. 1500 is the capacity of `midbuf` (buffered_reader.go:23). -/
def BufferedReader.read (b : BufferedReader) (plen : Nat) : Bytes × Option String × BufferedReader :=
  if b.midbufpos < b.midbuf.length then
    let out := (b.midbuf.drop b.midbufpos).take plen
    (out, none, { b with midbufpos := b.midbufpos + out.length })
  else
    match b.r.read 1500 with
    | (_, some e, r) => ([], some e, { b with r })
    | (mid, none, r) =>
      if mid.length % packetSize ≠ 0 then
        ([], some "received packet with size not multiple of 188", { b with r })
      else
        let out := mid.take plen
        (out, none, { r, midbuf := mid, midbufpos := out.length })

/-- A sequence of `Read` calls: the bytes obtained, the errors, and the final state. -/
def BufferedReader.readAll (b : BufferedReader) : List Nat → Bytes × List String × BufferedReader
  | [] => ([], [], b)
  | n :: l =>
    ((b.read n).1 ++ ((b.read n).2.2.readAll l).1,
      (b.read n).2.1.toList ++ ((b.read n).2.2.readAll l).2.1,
      ((b.read n).2.2.readAll l).2.2)

/-! ## Rewindable reader -/

/-- `maxRecordedSize` (rewindablereader/reader.go:10). -/
def maxRecordedSize : Nat := 1048576

/-- `rewindablereader.Reader` (reader.go:14-20). A nil `entries` is the empty list: the code never
leaves an empty non-nil slice there (reader.go:33, 47-49). -/
structure Rewindable where
  r : Src
  entries : List Bytes := []
  size : Nat := 0
  rewinded : Bool := false
  deriving Repr, DecidableEq

/-- `Reader.Read(p)` with `len(p) = plen` (reader.go:23-56). -/
def Rewindable.read (b : Rewindable) (plen : Nat) : Bytes × Option String × Rewindable :=
  if b.rewinded = false then
    let out := (b.r.read plen).1
    let e := (b.r.read plen).2.1
    let r := (b.r.read plen).2.2
    if b.size + out.length > maxRecordedSize then
      ([], some "max recorded size exceeded", { b with r := r })
    else
      (out, e, { b with r := r, entries := b.entries ++ [out], size := b.size + out.length })
  else
    match b.entries with
    | entry :: rest =>
      let out := entry.take plen
      if out.length ≠ entry.length then
        (out, none, { b with entries := entry.drop out.length :: rest })
      else
        (out, none, { b with entries := rest })
    | [] => ((b.r.read plen).1, (b.r.read plen).2.1, { b with r := (b.r.read plen).2.2 })

/-- `Reader.Rewind` (reader.go:59-61). -/
def Rewindable.rewind (b : Rewindable) : Rewindable := { b with rewinded := true }

/-- A sequence of `Read` calls. -/
def Rewindable.readAll (b : Rewindable) : List Nat → Bytes × List String × Rewindable
  | [] => ([], [], b)
  | n :: l =>
    ((b.read n).1 ++ ((b.read n).2.2.readAll l).1,
      (b.read n).2.1.toList ++ ((b.read n).2.2.readAll l).2.1,
      ((b.read n).2.2.readAll l).2.2)

/-! ## MPEG-TS pre-demuxer -/

/-- `preDemuxer` (pre_demuxer.go:11-19). `buf1` is the unread part `buf1[buf1Pos:]` and `buf2` the
unread part `buf2[buf2Pos:]`: the code never looks at the parts before the positions again. -/
structure PreDemuxer where
  r : Src
  buf1 : Bytes := []
  buf2 : Bytes := []
  deriving Repr, DecidableEq

/-- `skipped` (pre_demuxer.go:58-64): number of bytes before the first sync byte, or all of them. -/
def skipGarbage : Bytes → Nat
  | [] => 0
  | b :: l => if b ≠ syncByte then skipGarbage l + 1 else 0

/-- `pre_demuxer.go:40-47`: refill `buf1` when it is empty. An error is returned to the caller only if
no bytes came with it. -/
def refill (r : Src) (buf1 : Bytes) : Except (String × Src) (Src × Bytes) :=
  if buf1.length = 0 then
    match r.read 1316 with
    | (out, some e, r) => if out.length = 0 then .error (e, r) else .ok (r, out)
    | (out, none, r) => .ok (r, out)
  else
    .ok (r, buf1)

/-- The loop at pre_demuxer.go:36-73; `pkt` is `buf2[:n]`. The result is either an error or a whole
packet. `fuel` bounds the number of iterations; `none` means that it was too small. -/
def fillLoop : Nat → Src → Bytes → Bytes → Option (Except (String × Src) (Src × Bytes × Bytes))
  | 0, _, _, _ => none
  | fuel + 1, r, buf1, pkt =>
    match refill r buf1 with
    | .error e => some (.error e)
    | .ok (r, buf1) =>
      let n2 := min (packetSize - pkt.length) buf1.length
      let pkt := pkt ++ buf1.take n2
      let buf1 := buf1.drop n2
      if pkt.length ≠ packetSize then fillLoop fuel r buf1 pkt
      else
        let skipped := skipGarbage pkt
        if skipped ≠ 0 then fillLoop fuel r buf1 (pkt.drop skipped)
        else some (.ok (r, buf1, pkt))

/-- `preDemuxer.Read(p)` with `len(p) = plen` (pre_demuxer.go:32-81). On an error in the middle of a
packet the bytes collected so far are dropped, as in the code (`n` is a local variable). -/
def PreDemuxer.read (d : PreDemuxer) (plen : Nat) : Option (Bytes × Option String × PreDemuxer) :=
  if d.buf2.length = 0 then
    match fillLoop (d.r.sched.length + d.r.data.length + d.buf1.length + 1) d.r d.buf1 [] with
    | none => none
    | some (.error (e, r)) => some ([], some e, { r, buf1 := [], buf2 := [] })
    | some (.ok (r, buf1, pkt)) =>
      some (pkt.take plen, none, { r, buf1, buf2 := pkt.drop plen })
  else
    some (d.buf2.take plen, none, { d with buf2 := d.buf2.drop plen })

/-- `Read` calls with the given destination sizes, up to and including the first one that fails: the
bytes obtained, that call's error, and the final state. -/
def PreDemuxer.readUntilErr (d : PreDemuxer) : List Nat → Option (Bytes × Option String × PreDemuxer)
  | [] => some ([], none, d)
  | n :: l =>
    match d.read n with
    | none => none
    | some (out, some e, d') => some (out, some e, d')
    | some (out, none, d') =>
      match d'.readUntilErr l with
      | none => none
      | some (out', e, d'') => some (out ++ out', e, d'')

/-! ## Seekable buffer -/

/-- `seekablebuffer.Buffer` (seekablebuffer.go:11-14): `buf` is the content of the embedded
`bytes.Buffer`, from which the modelled methods never read. -/
structure SBuf where
  buf : Bytes := []
  pos : Int := 0
  deriving Repr, DecidableEq

/-- `Buffer.Write` (seekablebuffer.go:17-33). Positions are unbounded integers. -/
def SBuf.write (b : SBuf) (p : Bytes) : Res (Nat × SBuf) :=
  if b.pos < b.buf.length then
    if b.pos < 0 then .panic
    else
      let k := b.pos.toNat
      let n := min p.length (b.buf.length - k)
      let buf := b.buf.take k ++ p.take n ++ b.buf.drop (k + n)
      .ok (n + (p.drop n).length, { buf := buf ++ p.drop n, pos := b.pos + (n + (p.drop n).length : Nat) })
  else
    .ok (p.length, { buf := b.buf ++ p, pos := b.pos + p.length })

/-- The new position of `Seek` (seekablebuffer.go:42-53); the default of the switch leaves 0. -/
def SBuf.target (b : SBuf) (offset : Int) (whence : Int) : Int :=
  if whence = 0 then offset
  else if whence = 1 then b.pos + offset
  else if whence = 2 then b.buf.length + offset
  else 0

/-- `Buffer.Seek` (seekablebuffer.go:41-68). -/
def SBuf.seek (b : SBuf) (offset : Int) (whence : Int) : Int × Option String × SBuf :=
  let pos2 := b.target offset whence
  if pos2 < 0 then (0, some "negative position", b)
  else
    let diff := pos2 - b.buf.length
    if diff > 0 then
      (pos2, none, { buf := b.buf ++ List.replicate diff.toNat 0, pos := pos2 })
    else
      (pos2, none, { b with pos := pos2 })

/-- `Buffer.Reset` (seekablebuffer.go:71-74). -/
def SBuf.reset (_ : SBuf) : SBuf := {}

/-- A client operation. -/
inductive SOp where
  | write (p : Bytes)
  | seek (offset whence : Int)
  | reset
  deriving Repr, DecidableEq

/-- One operation: its integer result, its error, and the new buffer. -/
def SBuf.step (b : SBuf) : SOp → Res (Int × Option String × SBuf)
  | .write p => do
    let (n, b) ← b.write p
    pure ((n : Int), none, b)
  | .seek o w => .ok (b.seek o w)
  | .reset => .ok (0, none, b.reset)

/-- A sequence of operations: results, errors and final buffer. -/
def SBuf.run (b : SBuf) : List SOp → Res (List (Int × Option String) × SBuf)
  | [] => .ok ([], b)
  | op :: l => do
    let (n, e, b') ← b.step op
    let (rs, b'') ← b'.run l
    pure ((n, e) :: rs, b'')

end Verif.Readers
