import Verif.Model.TSMetadata

/-!
# pkg/formats/mpegts/reader.go: `readMetadataAUWrapper`, with the array it works on

`out := au.AUCellData` is a part of the array of `in`, and `out = append(out, au.AUCellData...)` writes into that array when its
capacity is enough. `readWrapper` of TSMetadata.lean treats slices as values; here the array is explicit: `mem` is the array that
starts at `in[0]` up to the capacity of `in`, and `in` is its first `le` bytes. The array is returned also when there is an error.
-/

namespace Verif.TSMetadata

/-- A slice: a part of the array of `in` (start and length), or an array that nothing else refers to. -/
inductive Out where
  | part (start len : Nat)
  | own (bytes : Bytes)
  deriving Repr, DecidableEq

/-- The bytes of a slice. -/
def Out.bytes (mem : Bytes) : Out → Bytes
  | .part s l => (mem.drop s).take l
  | .own b => b

/-- `copy(mem[at:], src)`, when the space is enough. `src` may be a part of `mem`: it is read before it is written (memmove). -/
def overwrite (mem : Bytes) (at' : Nat) (src : Bytes) : Bytes := mem.take at' ++ src ++ mem.drop (at' + src.length)

/-- `append(out, src...)`: in place if the capacity is enough, else in a new array. The capacity of a part `in[i:j]` goes up to the
capacity of `in`. -/
def appendTo (mem : Bytes) (out : Out) (src : Bytes) : Bytes × Out :=
  match out with
  | .part s l =>
    if s + l + src.length ≤ mem.length then (overwrite mem (s + l) src, .part s (l + src.length))
    else (mem, .own (Out.bytes mem (.part s l) ++ src))
  | .own b => (mem, .own (b ++ src))

/-- pkg/formats/mpegts/reader.go:97-125: the loop of `readMetadataAUWrapper`. The cell is read from the array as it is now. -/
def readLoopMem (le : Nat) : Nat → Bytes → Nat → Nat → Out → Bytes × Res Out
  | 0, mem, _, _, _ => (mem, .panic)
  | fuel + 1, mem, n, expected, out =>
    match AUCell.unmarshal (mem.take le) n with
    | .panic => (mem, .panic)
    | .err e => (mem, .err e)
    | .ok r =>
      if r.1.sequenceNumber.toNat ≠ expected then (mem, .err "unexpected sequence number")
      else
        let a := appendTo mem out r.1.data
        if r.1.fragmentIndication = 0b01 then
          if r.2 ≠ le then (a.1, .err "unread bytes detected") else (a.1, .ok a.2)
        else if r.1.fragmentIndication = 0b00 then readLoopMem le fuel a.1 r.2 (expected + 1) a.2
        else (a.1, .err "unexpected cell_fragment_indication")

/-- pkg/formats/mpegts/reader.go:69-126 (`readMetadataAUWrapper`). `au.AUCellData` of the first cell is
`in[n-len(au.AUCellData):n]`. -/
def readWrapperMem (le : Nat) (mem : Bytes) : Bytes × Res Out :=
  match AUCell.unmarshal (mem.take le) 0 with
  | .panic => (mem, .panic)
  | .err e => (mem, .err e)
  | .ok r =>
    let data := Out.part (r.2 - r.1.data.length) r.1.data.length
    if r.1.sequenceNumber.toNat ≠ 0 then (mem, .err "unexpected sequence number")
    else if r.1.fragmentIndication = 0b11 then
      if r.2 ≠ le then (mem, .err "unread bytes detected") else (mem, .ok data)
    else if r.1.fragmentIndication = 0b10 then readLoopMem le (le + 1) mem r.2 1 data
    else (mem, .err "unexpected cell_fragment_indication")

end Verif.TSMetadata
