import Verif.Spec.Grammar
import Verif.Spec.H264SPS
import Verif.Spec.H265SPS

/-!
# Specification: start of the slice headers of H264 and H265

ITU-T H.264 7.3.3 and ITU-T H.265 7.3.6.1. `e max` is the way in which `ue(v)` elements of greatest value `max` are written:
`ueMax` for the standard, and `fun _ => ue` for elements of any value.
-/

namespace Verif.Spec.Slice
open Verif.Spec Verif.Spec.Gr

/-- `ue(v)` of a value that is at most `max`. -/
def ueMax (max : Nat) : Gr Nat := fun v bits => v ≤ max ∧ bits = golombBits v

/-- Elements of slice_header( ). -/
structure Header264 where
  firstMb : Nat
  sliceType : Nat
  pps : Nat
  frameNum : Nat
  idrPicID : Nat
  pocLsb : Nat
  deriving Repr, DecidableEq

/-- slice_header( ) of the first slice of a picture (first_mb_in_slice is zero) up to pic_order_cnt_lsb, for sequences with
frame_mbs_only_flag equal to 1 and pic_order_cnt_type equal to 0. -/
def header264 (e : Nat → Gr Nat) (sps : Verif.H264.SPS) (idr : Bool) : Gr Header264 := do
  let mb ← e 0
  let t ← e 9
  let pps ← e 255
  let _ ← opt sps.separateColourPlaneFlag (u 2) 0
  let n ← u (sps.log2MaxFrameNumMinus4 + 4)
  let id ← opt idr (e 65535) 0
  let poc ← u (sps.log2MaxPicOrderCntLsbMinus4 + 4)
  pure ⟨mb, t, pps, n, id, poc⟩

/-- Elements of slice_segment_header( ). -/
structure Header265 where
  pps : Nat
  sliceType : Nat
  pocLsb : Nat
  set : Verif.H265.RPS
  /-- short_term_ref_pic_set_sps_flag: the set is one of those of the sequence. -/
  fromSPS : Bool
  deriving Repr, DecidableEq

/-- short_term_ref_pic_set_idx: `Ceil(Log2(n))` bits, and the set of that index. -/
def setIndex (sets : List Verif.H265.RPS) : Gr Verif.H265.RPS :=
  fun r bits => ∃ k i, sets.length ≤ 2 ^ k ∧ 2 ^ k < 2 * sets.length ∧ sets[i]? = some r ∧ u k i bits

/-- The set of a slice: one of those of the sequence, or one more. -/
def currentSet (sets : List Verif.H265.RPS) (fromSPS : Bool) : Gr Verif.H265.RPS :=
  if fromSPS then setIndex sets else Spec.H265.refPicSet sets true

/-- slice_segment_header( ) of the first slice segment of a picture that is not an IDR, up to the short-term reference picture
set. -/
def header265 (e : Nat → Gr Nat) (type : Nat) (sps : Verif.H265.SPS) (pps : Verif.H265.PPS) : Gr Header265 := do
  lit 1 1
  reserved (if 16 ≤ type ∧ type ≤ 23 then 1 else 0)
  let id ← e 63
  reserved pps.numExtraSliceHeaderBits
  let t ← e 2
  let _ ← opt pps.outputFlagPresentFlag flag false
  let _ ← opt sps.separateColourPlaneFlag (u 2) 0
  let poc ← u (sps.log2MaxPicOrderCntLsbMinus4 + 4)
  let f ← flag
  let set ← currentSet sps.shortTermRefPicSets f
  pure ⟨id, t, poc, set, f⟩

/-- What the DTS extractor takes as number of pictures that precede a picture in decoding order and follow it in output
order, with a minus sign, or the opposite: a B slice of a picture that is not used for reference waits for all the pictures
of the set that follow it; other pictures are as far as the nearest picture before. This is not in the standard. -/
def estimate (type : Nat) (h : Header265) : Option Int :=
  let s1 : Int := h.set.deltaPocS1.length
  let s0 : Option Int := h.set.deltaPocS0.head?.map fun d => Spec.H265.wrap32 (- d - 1)
  if h.sliceType = 0 then
    match type with
    | 0 | 8 => some (- s1)
    | 1 | 9 => s0.map (· - s1)
    | _ => some 0
  else s0

end Verif.Spec.Slice
