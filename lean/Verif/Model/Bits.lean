import Verif.Model.Base

/-!
# pkg/bits

Byte-level model of the bit reader and bit writer. `pos *int` is passed by value and the new
position is returned. Values of type `uint64` are natural numbers, truncated with `% 2^64` where
the Go code shifts left.
-/

namespace Verif.Bits

/-- `HasSpace`, pkg/bits/read.go:9-14. -/
def hasSpace (buf : Bytes) (pos n : Nat) : Res Unit :=
  if (n : Int) > (buf.length * 8 : Int) - (pos : Int) then .err "not enough bits" else .ok ()

/-- The `for n >= 8` loop and the final partial byte of `ReadBitsUnsafe`,
pkg/bits/read.go:39-50. -/
def readBitsTail (buf : Bytes) (pos : Nat) (v : Nat) (n : Nat) : Res (Nat × Nat) :=
  if 8 ≤ n then do
    let b ← idx buf (pos >>> 3)
    readBitsTail buf (pos + 8) ((v <<< 8) % 2^64 ||| b.toNat) (n - 8)
  else if 0 < n then do
    let b ← idx buf (pos >>> 3)
    .ok ((v <<< n) % 2^64 ||| (b.toNat >>> (8 - n)), pos + n)
  else .ok (v, pos)
termination_by n

/-- `ReadBitsUnsafe`, pkg/bits/read.go:27-51. Returns the value and the new position. -/
def readBitsUnsafe (buf : Bytes) (pos n : Nat) : Res (Nat × Nat) := do
  let res := 8 - (pos &&& 7)
  if n < res then do
    let b ← idx buf (pos >>> 3)
    .ok ((b.toNat >>> (res - n)) &&& (1 <<< n - 1), pos + n)
  else do
    let b ← idx buf (pos >>> 3)
    readBitsTail buf (pos + res) (b.toNat &&& (1 <<< res - 1)) (n - res)

/-- `ReadBits`, pkg/bits/read.go:17-24. -/
def readBits (buf : Bytes) (pos n : Nat) : Res (Nat × Nat) := do
  hasSpace buf pos n
  readBitsUnsafe buf pos n

/-- `ReadFlagUnsafe`, pkg/bits/read.go:117-121. -/
def readFlagUnsafe (buf : Bytes) (pos : Nat) : Res (Bool × Nat) := do
  let b ← idx buf (pos >>> 3)
  .ok (((b.toNat >>> (7 - (pos &&& 7))) &&& 1) == 1, pos + 1)

/-- `ReadFlag`, pkg/bits/read.go:107-114. -/
def readFlag (buf : Bytes) (pos : Nat) : Res (Bool × Nat) := do
  hasSpace buf pos 1
  readFlagUnsafe buf pos

/-- First loop of `ReadGolombUnsigned` (counting leading zeros), pkg/bits/read.go:58-73.
`lz` is the number of zeros seen so far. The loop condition `buflen*8 - *pos == 0` is an equality
test: for a position beyond the end the code indexes out of range. Termination: at most 33 rounds. -/
def golombZeros (buf : Bytes) (pos : Nat) (lz : Nat) : Res (Nat × Nat) :=
  if lz > 32 then .err "invalid value"
  else if (buf.length * 8 : Int) - (pos : Int) = 0 then .err "not enough bits"
  else do
    let b ← idx buf (pos >>> 3)
    if ((b.toNat >>> (7 - (pos &&& 7))) &&& 1) ≠ 0 then .ok (lz, pos + 1)
    else golombZeros buf (pos + 1) (lz + 1)
termination_by 33 - lz

/-- Second loop of `ReadGolombUnsigned` (suffix bits), pkg/bits/read.go:81-85. -/
def golombSuffix (buf : Bytes) (pos : Nat) (codeNum : Nat) : Nat → Res (Nat × Nat)
  | 0 => .ok (codeNum, pos)
  | n + 1 => do
    let b ← idx buf (pos >>> 3)
    let bit := (b.toNat >>> (7 - (pos &&& 7))) &&& 1
    golombSuffix buf (pos + 1) (codeNum ||| ((bit <<< n) % 2^32)) n

/-- `ReadGolombUnsigned`, pkg/bits/read.go:54-90. The result is a `uint32`; `(1 << lz) - 1 + codeNum`
wraps modulo `2^32`. (In the Go code the test `leadingZeros > 32` is made right after the
increment; testing it on entry of the next round is equivalent because nothing happens in between.) -/
def readGolombUnsigned (buf : Bytes) (pos : Nat) : Res (Nat × Nat) := do
  let (lz, pos) ← golombZeros buf pos 0
  if (buf.length * 8 : Int) - (pos : Int) < (lz : Int) then .err "not enough bits"
  else do
    let (codeNum, pos) ← golombSuffix buf pos 0 lz
    .ok (((1 <<< lz) % 2^32 + (2^32 - 1) + codeNum) % 2^32, pos)

/-- `int32(v)` for a `uint32` value `v`. -/
def toInt32 (v : Nat) : Int := if v % 2^32 < 2^31 then (v % 2^32 : Nat) else ((v % 2^32 : Nat) : Int) - 2^32

/-- Wrap-around of `int32` arithmetic. -/
def wrapInt32 (v : Int) : Int := (v + 2^31) % 2^32 - 2^31

/-- `ReadGolombSigned`, pkg/bits/read.go:93-104. Go's `/` on `int32` truncates toward zero
(`Int.tdiv`); `vi + 1` and `-vi` wrap. -/
def readGolombSigned (buf : Bytes) (pos : Nat) : Res (Int × Nat) := do
  let (v, pos) ← readGolombUnsigned buf pos
  let vi := toInt32 v
  if vi % 2 ≠ 0 then .ok ((wrapInt32 (vi + 1)).tdiv 2, pos)
  else .ok ((wrapInt32 (-vi)).tdiv 2, pos)

/-- `buf[i] = f(buf[i])` with Go's bounds check. -/
def modifyAt (buf : Bytes) (i : Nat) (f : UInt8 → UInt8) : Res Bytes :=
  if i < buf.length then .ok (buf.modify i f) else .panic

/-- The `for n >= 8` loop and last partial byte of `WriteBitsUnsafe`, pkg/bits/write.go:16-25. -/
def writeBitsTail (buf : Bytes) (pos v n : Nat) : Res (Bytes × Nat) :=
  if 8 ≤ n then do
    let buf ← modifyAt buf (pos >>> 3) (fun _ => UInt8.ofNat (v >>> (n - 8)))
    writeBitsTail buf (pos + 8) v (n - 8)
  else if 0 < n then do
    let buf ← modifyAt buf (pos >>> 3) (fun _ => UInt8.ofNat ((v &&& (1 <<< n - 1)) <<< (8 - n)))
    .ok (buf, pos + n)
  else .ok (buf, pos)
termination_by n

/-- `WriteBitsUnsafe`, pkg/bits/write.go:4-26. The first byte is OR-ed without masking. `v` is a
`uint64`; truncation to a byte makes the missing `% 2^64` of `v << (res - n)` irrelevant. -/
def writeBitsUnsafe (buf : Bytes) (pos v n : Nat) : Res (Bytes × Nat) := do
  let res := 8 - (pos &&& 7)
  if n < res then do
    let buf ← modifyAt buf (pos >>> 3) (fun b => b ||| UInt8.ofNat (v <<< (res - n)))
    .ok (buf, pos + n)
  else do
    let buf ← modifyAt buf (pos >>> 3) (fun b => b ||| UInt8.ofNat (v >>> (n - res)))
    writeBitsTail buf (pos + res) v (n - res)

/-- `WriteFlagUnsafe`, pkg/bits/write.go:29-35. -/
def writeFlagUnsafe (buf : Bytes) (pos : Nat) (v : Bool) : Res (Bytes × Nat) :=
  if v then writeBitsUnsafe buf pos 1 1 else writeBitsUnsafe buf pos 0 1

end Verif.Bits
