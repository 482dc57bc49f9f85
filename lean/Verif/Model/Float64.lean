import Verif.Model.H264SPS
import Verif.Model.H265SPS

/-!
# Model of `FPS`

Source: /repo/pkg/codecs/h264/sps.go, /repo/pkg/codecs/h265/sps.go

The part of IEEE 754 binary64 that is used: conversion of `uint32`, multiplication by two and division, each rounded to nearest, ties
to even, as the Go specification says. Numbers here are never negative and lie between 2^-33 and 2^34, so that signs, subnormal numbers
and overflow do not occur and are left out; exponents are never positive.
-/

namespace Verif.Float64

/-- A float64: `num m k` is `m / 2^k`, with `2^52 ≤ m < 2^53`. -/
inductive F64 where
  | zero
  | num (m k : Nat)
  | inf
  | nan
  deriving Repr, DecidableEq

/-- `p / q` rounded to an integer, ties to even. -/
def roundInt (p q : Nat) : Nat :=
  if 2 * (p % q) < q then p / q
  else if 2 * (p % q) > q then p / q + 1
  else if p / q % 2 = 0 then p / q else p / q + 1

/-- The exponent of `p / q`. -/
def scale (p q : Nat) : Nat :=
  let k := 53 + q.log2 - p.log2
  if p * 2 ^ k < q * 2 ^ 53 then k else k - 1

/-- `p / q` rounded to a float64. -/
def round (p q : Nat) : F64 :=
  let k := scale p q
  let m := roundInt (p * 2 ^ k) q
  if m = 2 ^ 53 then .num (2 ^ 52) (k - 1) else .num m k

/-- `float64(n)`, of an integer. -/
def ofNat (n : Nat) : F64 := if n = 0 then .zero else round n 1

/-- `2 * x`. -/
def twice : F64 → F64
  | .num m k => round (2 * m) (2 ^ k)
  | x => x

/-- `x / y`. -/
def div : F64 → F64 → F64
  | .nan, _ => .nan
  | _, .nan => .nan
  | .inf, .inf => .nan
  | .inf, _ => .inf
  | _, .inf => .zero
  | .zero, .zero => .nan
  | .zero, _ => .zero
  | _, .zero => .inf
  | .num m k, .num m' k' => round (m * 2 ^ k') (m' * 2 ^ k)

end Verif.Float64

namespace Verif
open Float64

/-- pkg/codecs/h264/sps.go:802-809 (`SPS.FPS`). -/
def H264.SPS.fps (s : H264.SPS) : F64 :=
  match s.vui with
  | none => .zero
  | some v =>
    match v.timingInfo with
    | none => .zero
    | some t => div (ofNat t.timeScale) (twice (ofNat t.numUnitsInTick))

/-- pkg/codecs/h265/sps.go:974-981 (`SPS.FPS`). -/
def H265.SPS.fps (s : H265.SPS) : F64 :=
  match s.vui with
  | none => .zero
  | some v =>
    match v.timingInfo with
    | none => .zero
    | some t => div (ofNat t.timeScale) (ofNat t.numUnitsInTick)

end Verif
