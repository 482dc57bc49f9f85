import Verif.Model.Base

/-!
# Specification of a JPEG marker segment (ITU-T T.81, B.1.1.4)
-/

namespace Verif.Spec

/-- A segment is 0xFF, the marker code, a big-endian length that counts itself and the body, and the body. -/
def IsSegment (code : UInt8) (body seg : Bytes) : Prop :=
  ∃ hi lo : UInt8, seg = 0xFF :: code :: hi :: lo :: body ∧ hi.toNat * 256 + lo.toNat = 2 + body.length

/-- T.81 B.2.4.1: an 8-bit quantization table: precision 0 and destination in one byte, then 64 values. -/
def dqtBody (tables : List (Nat × Bytes)) : Bytes := tables.flatMap fun t => UInt8.ofNat (0 * 16 + t.1) :: t.2

/-- T.81 B.2.2: the body of a frame header with three components of 8-bit samples; the luminance component has
horizontal and vertical factors `h0`, `v0`, the others 1x1. -/
def sofBody (height width h0 v0 tq : Nat) : Bytes :=
  [8, UInt8.ofNat (height / 256), UInt8.ofNat height, UInt8.ofNat (width / 256), UInt8.ofNat width, 3,
   0, UInt8.ofNat (h0 * 16 + v0), 0,
   1, UInt8.ofNat (1 * 16 + 1), UInt8.ofNat tq,
   2, UInt8.ofNat (1 * 16 + 1), UInt8.ofNat tq]

/-- T.81 B.2.1: the marker segments of a frame, up to and with the header of the first scan (0xDA), and the entropy-coded data after it; `n` bounds the
number of segments. -/
def readSegments : Nat → Bytes → Option (List (UInt8 × Bytes) × Bytes)
  | n + 1, m :: code :: hi :: lo :: rest =>
    let size := hi.toNat * 256 + lo.toNat
    if m = 0xFF ∧ 2 ≤ size ∧ size - 2 ≤ rest.length then
      let body := rest.take (size - 2)
      let rest := rest.drop (size - 2)
      if code = 0xDA then some ([(code, body)], rest)
      else (readSegments n rest).map fun x => ((code, body) :: x.1, x.2)
    else none
  | _, _ => none

/-- T.81 B.2.1: an image starts with SOI. -/
def readImage : Bytes → Option (List (UInt8 × Bytes) × Bytes)
  | m :: soi :: rest => if m = 0xFF ∧ soi = 0xD8 then readSegments rest.length rest else none
  | _ => none

end Verif.Spec
