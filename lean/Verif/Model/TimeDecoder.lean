/-!
# Model of the MPEG-TS timestamp decoder

Source: /repo/pkg/formats/mpegts/time_decoder.go

`int64` values are modelled as integers; every `int64` addition or subtraction whose result could
leave the type's range is wrapped explicitly with `wrap64`.
-/

namespace Verif.TS

/-- Two's-complement wrap of an integer to `int64` (Go specification, integer overflow). -/
def wrap64 (v : Int) : Int := (v + 2 ^ 63) % 2 ^ 64 - 2 ^ 63

/-- `x & 0x1FFFFFFFF` for an `int64` `x` in two's complement (time_decoder.go:4, 33, 37): the low
33 bits. -/
def and33 (x : Int) : Int := x % 2 ^ 33

/-- `TimeDecoder` (time_decoder.go:9-13). -/
structure TimeDecoder where
  initialized : Bool := false
  overall : Int := 0
  prev : Int := 0
  deriving Repr, DecidableEq

/-- `maximum` (time_decoder.go:4). -/
def maximum : Int := 0x1FFFFFFFF

/-- `negativeThreshold` (time_decoder.go:5). -/
def negativeThreshold : Int := maximum / 2

/-- `d.prev` at the time the difference is computed (time_decoder.go:28-31). -/
def TimeDecoder.base (d : TimeDecoder) (ts : Int) : Int := if d.initialized then d.prev else ts

/-- `TimeDecoder.Decode` (time_decoder.go:27-46). -/
def TimeDecoder.decode (d : TimeDecoder) (ts : Int) : Int × TimeDecoder :=
  let prev := d.base ts
  let diff := and33 (wrap64 (ts - prev))
  if diff > negativeThreshold then
    let diff := and33 (wrap64 (prev - ts))
    let overall := wrap64 (d.overall - diff)
    (overall, { initialized := true, overall, prev := ts })
  else
    let overall := wrap64 (d.overall + diff)
    (overall, { initialized := true, overall, prev := ts })

/-- A sequence of `Decode` calls on one decoder: the results, in order. -/
def TimeDecoder.decodeAll (d : TimeDecoder) : List Int → List Int
  | [] => []
  | ts :: l => (d.decode ts).1 :: (d.decode ts).2.decodeAll l

end Verif.TS
