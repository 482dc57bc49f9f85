import Verif.Model.Readers
import Verif.Model.MPEGTS

/-!
# What the MPEG-TS demultiplexer is given

Sources:
* /repo/pkg/formats/mpegts/pre_demuxer.go
* /repo/pkg/formats/mpegts/robust_demuxer.go
* /repo/pkg/formats/mpegts/reader.go:190-233

`Reader.Initialize` puts a `preDemuxer` on a `rewindablereader.Reader`, and an `errorWrapper` and a `ptsInterceptor` on the
`preDemuxer`; go-astits reads packets from the latter. After the tables have been found the `rewindablereader.Reader` is rewound and the
others are created again. `Model/Readers.lean` has the `preDemuxer` on a source; here it is on any reader, so that it can be put on the
`rewindablereader.Reader`.
-/

namespace Verif.TSChain
open Verif.Readers

/-- An `io.Reader`. `left` bounds the number of reads after which the model of the reader has nothing left to deliver. -/
class Source (σ : Type) where
  read : σ → Nat → Bytes × Option String × σ
  left : σ → Nat

instance : Source Src := ⟨Src.read, fun s => s.sched.length + s.data.length⟩

instance : Source Rewindable :=
  ⟨Rewindable.read, fun b =>
    if b.rewinded then b.entries.length + b.r.sched.length + (b.entries.flatten.length + b.r.data.length)
    else b.r.sched.length + b.r.data.length⟩

/-- pre_demuxer.go:40-47, see `Readers.refill`. -/
def refill {σ : Type} [Source σ] (r : σ) (buf1 : Bytes) : Except (String × σ) (σ × Bytes) :=
  if buf1.length = 0 then
    match Source.read r 1316 with
    | (out, some e, r) => if out.length = 0 then .error (e, r) else .ok (r, out)
    | (out, none, r) => .ok (r, out)
  else
    .ok (r, buf1)

/-- The loop at pre_demuxer.go:36-73, see `Readers.fillLoop`. -/
def fillLoop {σ : Type} [Source σ] : Nat → σ → Bytes → Bytes → Option (Except (String × σ) (σ × Bytes × Bytes))
  | 0, _, _, _ => none
  | fuel + 1, r, buf1, pkt =>
    match refill r buf1 with
    | .error e => some (.error e)
    | .ok (r, buf1) =>
      let n2 := min (packetSize - pkt.length) buf1.length
      let pkt := pkt ++ buf1.take n2
      let buf1 := buf1.drop n2
      if pkt.length ≠ packetSize then fillLoop fuel r buf1 pkt
      else
        let skipped := skipGarbage pkt
        if skipped ≠ 0 then fillLoop fuel r buf1 (pkt.drop skipped)
        else some (.ok (r, buf1, pkt))

/-- `preDemuxer` (pre_demuxer.go:11-19) on any reader, see `Readers.PreDemuxer`. -/
structure PreDem (σ : Type) where
  r : σ
  buf1 : Bytes := []
  buf2 : Bytes := []
  deriving Repr, DecidableEq

/-- `preDemuxer.Read` (pre_demuxer.go:32-81), see `Readers.PreDemuxer.read`. -/
def PreDem.read {σ : Type} [Source σ] (d : PreDem σ) (plen : Nat) : Option (Bytes × Option String × PreDem σ) :=
  if d.buf2.length = 0 then
    match fillLoop (Source.left d.r + d.buf1.length + 1) d.r d.buf1 [] with
    | none => none
    | some (.error (e, r)) => some ([], some e, { r, buf1 := [], buf2 := [] })
    | some (.ok (r, buf1, pkt)) => some (pkt.take plen, none, { r, buf1, buf2 := pkt.drop plen })
  else
    some (d.buf2.take plen, none, { d with buf2 := d.buf2.drop plen })

/-- An error of the `errorWrapper`: robust_demuxer.go:36-42. -/
inductive RErr where
  | eof
  | unexpectedEOF
  | wrapped (e : String)
  deriving Repr, DecidableEq

/-- robust_demuxer.go:50-58: the two ends of a stream are kept as they are, everything else is wrapped. Errors are told apart by their
text: the model has no errors that wrap `io.EOF`. -/
def wrapError (e : String) : RErr :=
  if e = "EOF" then .eof else if e = "unexpected EOF" then .unexpectedEOF else .wrapped e

/-- `io.ReadFull` on the `errorWrapper` (robust_demuxer.go:48-60, 74): reads until `acc` has `want` bytes. -/
def readFull {σ : Type} [Source σ] : Nat → PreDem σ → Nat → Bytes → Option (Except RErr (Bytes × PreDem σ))
  | 0, _, _, _ => none
  | fuel + 1, d, want, acc =>
    if want ≤ acc.length then some (.ok (acc, d))
    else
      match d.read (want - acc.length) with
      | none => none
      | some (out, none, d) => readFull fuel d want (acc ++ out)
      | some (out, some e, d) =>
        if want ≤ (acc ++ out).length then some (.ok (acc ++ out, d))
        else if 0 < (acc ++ out).length ∧ wrapError e = .eof then some (.error .unexpectedEOF)
        else some (.error (wrapError e))

/-- `ptsInterceptor` (robust_demuxer.go:62-67) and what is below it. -/
structure Chain (σ : Type) where
  dem : PreDem σ
  last : Option Nat := none
  deriving Repr, DecidableEq

/-- `ptsInterceptor.Read` (robust_demuxer.go:69-114) into 188 bytes: go-astits is told that packets have this size
(robust_demuxer.go:139-142). -/
def Chain.read {σ : Type} [Source σ] (c : Chain σ) : Option (Res (Except RErr (Bytes × Chain σ))) :=
  match readFull (packetSize + 1) c.dem packetSize [] with
  | none => none
  | some (.error e) => some (.ok (.error e))
  | some (.ok (p, dem)) =>
    some (match MPEGTS.intercept p c.last with
      | .ok last => .ok (.ok (p, { dem, last }))
      | .err e => .err e
      | .panic => .panic)

/-- Up to `n` packets; stops at the first failure. The packets, the failure and the state before it. -/
def Chain.reads {σ : Type} [Source σ] : Nat → Chain σ → Option (Res (List Bytes × Option RErr × Chain σ))
  | 0, c => some (.ok ([], none, c))
  | n + 1, c =>
    match c.read with
    | none => none
    | some (.err e) => some (.err e)
    | some .panic => some .panic
    | some (.ok (.error e)) => some (.ok ([], some e, c))
    | some (.ok (.ok (p, c))) =>
      match Chain.reads n c with
      | none => none
      | some (.err e) => some (.err e)
      | some .panic => some .panic
      | some (.ok (l, e, c)) => some (.ok (p :: l, e, c))

/-- reader.go:193-198: the first demultiplexer of `Reader.Initialize`. -/
def first (r : Src) : Chain Rewindable := { dem := { r := { r } } }

/-- reader.go:224-228: the second one, after `Rewind`, when the first one has read as far as `c`. -/
def second (c : Chain Rewindable) : Chain Rewindable := { dem := { r := c.dem.r.rewind } }

/-- What `NextData` of go-astits returns: data, `ErrNoMorePackets`, an error in which `errors.As` finds a `wrappedError`, or another
error. -/
inductive Next (α : Type) where
  | data (d : α)
  | noMore
  | carries (e : String)
  | other (e : String)
  deriving Repr, DecidableEq

/-- `robustDemuxer.nextData` (robust_demuxer.go:145-178) when the calls of `NextData` give `l`: the errors that are passed to
OnDecodeError, the result, and what is left; `none` if `l` was too short. -/
def nextData {α : Type} : List (Next α) → List String × Option (Except String α × List (Next α))
  | [] => ([], none)
  | .data d :: l => ([], some (.ok d, l))
  | .noMore :: l => ([], some (.error "EOF", l))
  | .carries e :: l => ([], some (.error e, l))
  | .other e :: l => (e :: (nextData l).1, (nextData l).2)

end Verif.TSChain
