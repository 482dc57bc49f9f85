import Verif.Model.FMP4

/-!
# The work of `Parts.Unmarshal`

Every `trun` box allocates a new array for all samples of the track, those that were read before included, and copies the latter
(parts.go:134-137). The functions of this file are the ones of `Verif.Model.FMP4` with a counter of the elements of these arrays. The
counter keeps what was done before a failure.

Everything else that is done (box headers, entries of `trun`, samples) is not counted: it is what C70 is about.
-/

namespace Verif.FMP4

/-- The outcome of a computation and the number of array elements it allocated. -/
structure Work (α : Type) where
  cost : Nat
  res : Res α

/-- No array is allocated. -/
def Work.free {α : Type} (x : Res α) : Work α := ⟨0, x⟩

/-- `k` more elements. -/
def Work.add {α : Type} (k : Nat) (w : Work α) : Work α := ⟨k + w.cost, w.res⟩

/-- The next instruction is executed only when the previous one succeeds. -/
def Work.bind {α β : Type} (x : Work α) (f : α → Work β) : Work β :=
  match x.res with
  | .ok a => (f a).add x.cost
  | .err e => ⟨x.cost, .err e⟩
  | .panic => ⟨x.cost, .panic⟩

instance : Monad Work where
  pure a := .free (.ok a)
  bind := Work.bind

/-- `len(curTrack.Samples)`: `curTrack` is the last track of the last part. -/
def Reader.existing (r : Reader) : Nat :=
  match r.parts.getLast? with
  | none => 0
  | some p =>
    match p.tracks.getLast? with
    | none => 0
    | some t => t.samples.length

/-- parts.go:108-185. The array is allocated (parts.go:134-137) before `pos` is checked. -/
def readTrunW (b : Bytes) (bi : BoxInfo) (r : Reader) : Work Reader :=
  match r.tfhd with
  | none => .free (.err "unexpected trun")
  | some tfhd =>
    if r.state ≠ .waitingBoxes then .free (.err "unexpected trun")
    else do
      let raw ← Work.free (sliceFrom b bi.offset)
      let count ← Work.free (rawCount raw)
      if count > maxSamplesPerTrun then .free (.err "sample count exceeds maximum")
      else do
        let t ← Work.free (decodeTrun (bi.payload b))
        if t.entries.length ≠ 0 then
          if hasFlag t.flags 1 = false then .free (.err "unsupported flags")
          else Work.add (r.existing + t.entries.length) <| do
            let pos := ((t.dataOffset % 2 ^ 64).toNat + r.moofOffset) % 2 ^ 64
            if b.length < pos then .free (.err "invalid data_offset / moof_offset")
            else do
              let ptr ← Work.free (sliceFrom b pos)
              let samples ← Work.free (readEntries t tfhd t.entries ptr)
              .free (r.onTrack fun tr => { tr with samples := tr.samples ++ samples })
        else .free (.ok r)

/-- parts.go:37-202: the handler of a box. -/
def handleW (b : Bytes) (bi : BoxInfo) (expand : Reader → Work Reader) (r : Reader) : Work Reader :=
  if bi.typ = typMoof then
    if r.state ≠ .waitingMoof then .free (.err "unexpected moof")
    else expand { r with parts := r.parts ++ [{}], moofOffset := bi.offset, state := .waitingMfhd }
  else if bi.typ = typMfhd then
    if r.state ≠ .waitingMfhd then .free (.err "unexpected mfhd")
    else do
      let seq ← Work.free (decodeMfhd (bi.payload b))
      let r ← Work.free (r.onPart fun p => { p with sequenceNumber := seq })
      .free (.ok { r with state := .waitingTraf })
  else if bi.typ = typTraf then
    if r.state ≠ .waitingTraf ∧ r.state ≠ .waitingBoxes then .free (.err "unexpected traf")
    else if r.incomplete then .free (.err "parse error")
    else do
      let r ← Work.free (r.onPart fun p => { p with tracks := p.tracks ++ [{}] })
      expand { r with hasTrack := true, tfdt := none, tfhd := none, state := .waitingBoxes }
  else if bi.typ = typTfhd then
    if r.state ≠ .waitingBoxes ∨ r.tfhd.isSome then .free (.err "unexpected tfhd")
    else do
      let tfhd ← Work.free (decodeTfhd (bi.payload b))
      let r ← Work.free (r.onTrack fun t => { t with id := tfhd.trackID })
      .free (.ok { r with tfhd := some tfhd })
  else if bi.typ = typTfdt then
    if r.state ≠ .waitingBoxes ∨ r.tfdt.isSome then .free (.err "unexpected tfdt")
    else do
      let base ← Work.free (decodeTfdt (bi.payload b))
      let r ← Work.free (r.onTrack fun t => { t with baseTime := base })
      .free (.ok { r with tfdt := some base })
  else if bi.typ = typTrun then readTrunW b bi r
  else if bi.typ = typMdat then
    if r.state ≠ .waitingTraf ∧ r.state ≠ .waitingBoxes then .free (.err "unexpected mdat")
    else if r.incomplete then .free (.err "parse error")
    else .free (.ok { r with state := .waitingMoof })
  else .free (.ok r)

/-- `amp4.ReadBoxStructure`. -/
def readLevelW : Nat → Bytes → Nat → Option Nat → Reader → Work Reader
  | 0, _, _, _, _ => .free (.err "out of fuel")
  | n + 1, b, pos, left, r =>
    if left.any (· < 8) then .free (if left = some 0 then .ok r else .err "Unexpected EOF")
    else do
      match ← Work.free (readBoxInfo b pos) with
      | none => .free (if left.isNone then .ok r else .err "EOF")
      | some bi =>
        if left.any (· < bi.size) then .free (.err "too large box size")
        else do
          let r ← handleW b bi (fun r => readLevelW n b (bi.offset + bi.headerSize) (some (bi.size - bi.headerSize)) r) r
          readLevelW n b (bi.offset + bi.size) (left.map (· - bi.size)) r

/-- parts.go:19-213 (`Parts.Unmarshal`). -/
def unmarshalW (b : Bytes) : Work (List Part) := do
  let r ← readLevelW (b.length + 1) b 0 none {}
  .free (if r.state ≠ .waitingMoof then .err "decode error" else .ok r.parts)

end Verif.FMP4
