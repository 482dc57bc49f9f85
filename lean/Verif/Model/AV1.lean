import Verif.Model.Buf

/-!
# pkg/codecs/av1: LEB128, OBU header, Bitstream, random access
-/

namespace Verif.AV1

/-- Loop of `LEB128.Unmarshal`, pkg/codecs/av1/leb128.go:17-31. `i` is the loop variable, `l` the
accumulated `uint32`; `n` in the Go code equals the number of rounds made. -/
def leb128Loop (buf : Bytes) (i l : Nat) : Res (Nat × Nat) :=
  if i < 8 then
    match buf with
    | [] => .err "not enough bytes"
    | b :: rest =>
      let l := l ||| (((b &&& 0b01111111).toNat <<< (i * 7)) % 2^32)
      if b &&& 0b10000000 = 0 then .ok (l, i + 1) else leb128Loop rest (i + 1) l
  else .ok (l, i)
termination_by 8 - i

/-- `LEB128.Unmarshal`, pkg/codecs/av1/leb128.go:13-34. Returns the value and the number of consumed
bytes. -/
def leb128Unmarshal (buf : Bytes) : Res (Nat × Nat) := leb128Loop buf 0 0

/-- `LEB128.MarshalSize`, pkg/codecs/av1/leb128.go:38-50. -/
def leb128Size (l : Nat) : Nat :=
  if l >>> 7 = 0 then 1 else leb128Size (l >>> 7) + 1
termination_by l
decreasing_by
  rename_i h
  rw [Nat.shiftRight_eq_div_pow] at *
  omega

/-- `LEB128.MarshalTo(buf[pos:])`, pkg/codecs/av1/leb128.go:54-73. Returns the new buffer and the
position after the last byte written. -/
def leb128MarshalTo (buf : Bytes) (pos l : Nat) : Res (Bytes × Nat) :=
  if l >>> 7 = 0 then do
    let buf ← setAt buf pos (UInt8.ofNat l &&& 0b01111111)
    .ok (buf, pos + 1)
  else do
    let buf ← setAt buf pos ((UInt8.ofNat l &&& 0b01111111) ||| 0b10000000)
    leb128MarshalTo buf (pos + 1) (l >>> 7)
termination_by l
decreasing_by
  rename_i h
  rw [Nat.shiftRight_eq_div_pow] at *
  omega

/-- `OBUHeader`, pkg/codecs/av1/obu_header.go:9-12. -/
structure OBUHeader where
  type : UInt8
  hasSize : Bool
  deriving Repr, DecidableEq

/-- `OBUHeader.Unmarshal`, pkg/codecs/av1/obu_header.go:15-35. -/
def obuHeaderUnmarshal (buf : Bytes) : Res OBUHeader :=
  match buf with
  | [] => .err "not enough bytes"
  | b :: _ =>
    if b >>> 7 ≠ 0 then .err "forbidden bit is set"
    else if (b >>> 2) &&& 1 ≠ 0 then .err "extension flag is not supported yet"
    else .ok ⟨b >>> 3, (b >>> 1) &&& 1 ≠ 0⟩

/-- One round of the loop of `Bitstream.Unmarshal`, pkg/codecs/av1/bitstream.go:14-39: returns the
OBU and the rest of the buffer. -/
def bitstreamStep (buf : Bytes) : Res (Bytes × Bytes) := do
  let h ← obuHeaderUnmarshal buf
  if !h.hasSize then .err "OBU size not present"
  else do
    let tail ← sliceFrom buf 1
    let (size, n) ← leb128Unmarshal tail
    if buf.length < 1 + size + n then .err "not enough bytes"
    else do
      let b0 ← idx buf 0
      let obu ← setAt (makeBytes (1 + size)) 0 (b0 &&& 0b11111101)
      let src ← sliceFrom buf (1 + n)
      let (obu, _) ← copyAt obu 1 src
      let rest ← sliceFrom buf (1 + size + n)
      .ok (obu, rest)

/-- `Bitstream.Unmarshal`, pkg/codecs/av1/bitstream.go:12-49, on an empty receiver (the Go code
appends to the receiver). `fuel` bounds the number of rounds; every round consumes at least one
byte, so `len(buf)` rounds suffice (`bitstreamLoop_fuel`). -/
def bitstreamLoop : Nat → Bytes → Res (List Bytes)
  | 0, _ => .panic
  | fuel + 1, buf => do
    let (obu, rest) ← bitstreamStep buf
    if rest.length = 0 then .ok [obu]
    else do
      let obus ← bitstreamLoop fuel rest
      .ok (obu :: obus)

/-- `Bitstream.Unmarshal`, pkg/codecs/av1/bitstream.go:12-49. -/
def bitstreamUnmarshal (buf : Bytes) : Res (List Bytes) := bitstreamLoop (buf.length + 1) buf

/-- `Bitstream.marshalSize`, pkg/codecs/av1/bitstream.go:51-70. -/
def bitstreamSize : List Bytes → Nat → Res Nat
  | [], n => .ok n
  | obu :: rest, n => do
    let h ← obuHeaderUnmarshal obu
    if !h.hasSize then bitstreamSize rest (n + obu.length + leb128Size ((obu.length - 1) % 2^32))
    else bitstreamSize rest (n + obu.length)

/-- Loop of `Bitstream.Marshal`, pkg/codecs/av1/bitstream.go:82-95. The error of the second header
parse is ignored in Go (`nolint:errcheck`); it cannot occur because `marshalSize` parsed the same
header; a failed parse leaves `HasSize` false. -/
def bitstreamMarshalLoop (buf : Bytes) (n : Nat) : List Bytes → Res Bytes
  | [] => .ok buf
  | obu :: rest =>
    let hasSize := match obuHeaderUnmarshal obu with
      | .ok h => h.hasSize
      | _ => false
    if !hasSize then do
      let b0 ← idx obu 0
      let buf ← setAt buf n (b0 ||| 0b00000010)
      let (buf, n) ← leb128MarshalTo buf (n + 1) ((obu.length - 1) % 2^32)
      let tail ← sliceFrom obu 1
      let (buf, k) ← copyAt buf n tail
      bitstreamMarshalLoop buf (n + k) rest
    else do
      let (buf, k) ← copyAt buf n obu
      bitstreamMarshalLoop buf (n + k) rest

/-- `Bitstream.Marshal`, pkg/codecs/av1/bitstream.go:73-98. -/
def bitstreamMarshal (bs : List Bytes) : Res Bytes := do
  let n ← bitstreamSize bs 0
  bitstreamMarshalLoop (makeBytes n) 0 bs

/-- `IsRandomAccess2`, pkg/codecs/av1/is_random_access.go:8-20. -/
def isRandomAccess2 : List Bytes → Bool
  | [] => false
  | [] :: rest => isRandomAccess2 rest
  | (b :: _) :: rest => if (b >>> 3) &&& 0b1111 = 1 then true else isRandomAccess2 rest

end Verif.AV1
