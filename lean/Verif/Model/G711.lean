import Verif.Model.Base

/-!
# pkg/codecs/g711

The 16384-entry encode tables are functions from indexes to bytes, updated one index at a time like
the Go array. All indexes are in range (`8192 ± j` with `j < 8192`).
-/

namespace Verif.G711

/-- One entry of `alawDecodeTable`, pkg/codecs/g711/alaw.go:6-28. -/
def alawDecode (i : UInt8) : UInt16 :=
  let v := i ^^^ 0x55
  let mantissa := (v &&& 0x0F).toUInt16
  let exponent := ((v &&& 0x70) >>> 4).toUInt16
  let sign := v &&& 0x80
  let mantissa := if exponent ≠ 0 then (mantissa * 2 + 1 + 32) <<< (exponent + 2) else (mantissa * 2 + 1) <<< 3
  if sign ≠ 0 then mantissa else 0 - mantissa

/-- One entry of `mulawDecodeTable`, pkg/codecs/g711/mulaw.go:5-20. `v` is an `int` in Go; only its low
8 bits are used. -/
def mulawDecode (i : UInt8) : UInt16 :=
  let v := ~~~ i
  let tmp := (((v.toUInt16 &&& 0x0F) <<< 3) + 0x84) <<< ((v &&& 0x70) >>> 4).toUInt16
  let sign := v &&& 0x80
  if sign ≠ 0 then 0x84 - tmp else tmp - 0x84

/-- Assignment to an array element. -/
def upd (res : Nat → UInt8) (k : Nat) (v : UInt8) : Nat → UInt8 := fun i => if i = k then v else res i

/-- The loops `for j < v` of `invertTable`, pkg/codecs/g711/invert_table.go:14-18 and :21-25. Returns the
table and `j`. -/
def fillRange (res : Nat → UInt8) (j v : Nat) (lo hi : UInt8) : (Nat → UInt8) × Nat :=
  if j < v then fillRange (upd (upd res (8192 - j) lo) (8192 + j) hi) (j + 1) v lo hi else (res, j)
termination_by v - j

/-- The threshold `v` of the loop body, pkg/codecs/g711/invert_table.go:10-12 (`uint16` arithmetic). -/
def threshold (tbl : UInt8 → UInt16) (mask i : UInt8) : Nat :=
  ((tbl (i ^^^ mask) + tbl ((i + 1) ^^^ mask) + 4) >>> 3).toNat

/-- The outer loop of `invertTable`, pkg/codecs/g711/invert_table.go:9-19, over the given values of `i`. -/
def invertLoop (tbl : UInt8 → UInt16) (mask : UInt8) : List UInt8 → (Nat → UInt8) → Nat → (Nat → UInt8) × Nat
  | [], res, j => (res, j)
  | i :: l, res, j =>
    let (res, j) := fillRange res j (threshold tbl mask i) (i ^^^ (mask ^^^ 0x80)) (i ^^^ mask)
    invertLoop tbl mask l res j

/-- `range uint8(127)`. -/
def codes : List UInt8 := (List.range 127).map UInt8.ofNat

/-- `invertTable`, pkg/codecs/g711/invert_table.go:3-30. -/
def invertTable (tbl : UInt8 → UInt16) (mask : UInt8) : Nat → UInt8 :=
  let res := upd (fun _ => 0) 8192 mask
  let (res, j) := invertLoop tbl mask codes res 1
  let (res, _) := fillRange res j 8192 (127 ^^^ (mask ^^^ 0x80)) (127 ^^^ mask)
  upd res 0 (res 1)

/-- `alawEncodeTable`, pkg/codecs/g711/alaw.go:30. -/
def alawEncode : Nat → UInt8 := invertTable alawDecode 0xD5

/-- `mulawEncodeTable`, pkg/codecs/g711/mulaw.go:22. -/
def mulawEncode : Nat → UInt8 := invertTable mulawDecode 0xFF

/-- `Alaw.Unmarshal` (alaw.go:45-51) and `Mulaw.Unmarshal` (mulaw.go:37-43): two bytes per sample, most
significant first. The Go code writes them at indexes `2i` and `2i+1` of a slice of length `2*len`. -/
def unmarshal (tbl : UInt8 → UInt16) : Bytes → Bytes
  | [] => []
  | b :: l => ((tbl b) >>> 8).toUInt8 :: (tbl b).toUInt8 :: unmarshal tbl l

/-- The loop of `Alaw.Marshal` (alaw.go:62-65) and `Mulaw.Marshal` (mulaw.go:54-57). -/
def marshalLoop (enc : Nat → UInt8) : Bytes → Bytes
  | h :: l :: rest =>
    let sample := h.toUInt16 <<< 8 ||| l.toUInt16
    enc ((sample + 32768) >>> 2).toNat :: marshalLoop enc rest
  | _ => []

/-- `Alaw.Marshal` (alaw.go:54-68) and `Mulaw.Marshal` (mulaw.go:46-60). -/
def marshal (enc : Nat → UInt8) (c : Bytes) : Res Bytes :=
  if c.length % 2 ≠ 0 then .err "wrong sample size" else .ok (marshalLoop enc c)

end Verif.G711
