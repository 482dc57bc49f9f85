import Verif.Spec.H265SPS
import Verif.Spec.SliceHeader

/-!
# Specification: short-term reference picture sets of H265

ITU-T H.265 7.3.7 and 7.4.8, with the ranges of the standard for the distances (delta_poc_s0_minus1, delta_poc_s1_minus1 and
abs_delta_rps_minus1 are at most 2^15 - 1) and with integers without a limit, so that nothing is said about overflows.
The number of pictures of a set is limited as in the code (the limit of the standard depends on sps_max_dec_pic_buffering_minus1
and is smaller).
-/

namespace Verif.Spec.RefPics
open Verif.Spec Verif.Spec.Gr Verif.H265
open Verif.Spec.Slice (ueMax)

/-- The pictures before the current one, the nearest one first, and the pictures after it, the nearest one first; no picture
is there twice. -/
structure Ordered (r : RPS) : Prop where
  before : (0 :: r.deltaPocS0).Pairwise (· > ·)
  after : (0 :: r.deltaPocS1).Pairwise (· < ·)

/-- Each picture is 1 to 2^15 pictures further than the one before it; the number of pictures is what is coded, that is a number of 32
bits. -/
def Steps (sign : Int) : Int → List Int → Prop
  | _, [] => True
  | prev, d :: l => 1 ≤ (sign * (d - prev)) % 2 ^ 32 ∧ (sign * (d - prev)) % 2 ^ 32 ≤ 32768 ∧ Steps sign d l

instance (sign : Int) : (prev : Int) → (l : List Int) → Decidable (Steps sign prev l)
  | _, [] => isTrue trivial
  | _, d :: l =>
    have : Decidable (Steps sign d l) := instDecidableSteps sign d l
    inferInstanceAs (Decidable (_ ∧ _ ∧ _))

/-- The distances that are coded are in the range of the standard. -/
def InRange (r : RPS) : Prop :=
  if r.interRefPicSetPredictionFlag then r.absDeltaRpsMinus1 ≤ 32767 else Steps (-1) 0 r.deltaPocS0 ∧ Steps 1 0 r.deltaPocS1

instance (r : RPS) : Decidable (InRange r) := by unfold InRange; infer_instance

/-- A picture at a distance `x.1` from the reference picture, with used_by_curr_pic_flag and use_delta_flag, in a set that is
predicted. -/
def predicted (deltaRps : Int) (neg : Bool) (x : Int × Bool × Bool) : Option (Int × Bool) :=
  if x.2.2 = true ∧ (if neg then x.1 + deltaRps < 0 else x.1 + deltaRps > 0) then some (x.1 + deltaRps, x.2.1) else none

/-- (7-61). -/
def predictedS0 (r : RPS) (deltaRps : Int) (flags : List (Bool × Bool)) : List (Int × Bool) :=
  ((H265.after r flags).reverse ++ H265.self r flags ++ H265.before r flags).filterMap (predicted deltaRps true)

/-- (7-62). -/
def predictedS1 (r : RPS) (deltaRps : Int) (flags : List (Bool × Bool)) : List (Int × Bool) :=
  ((H265.before r flags).reverse ++ H265.self r flags ++ H265.after r flags).filterMap (predicted deltaRps false)

/-- st_ref_pic_set( ) with inter_ref_pic_set_prediction_flag. -/
def interSet (sets : List RPS) (inSlice : Bool) : Gr RPS := do
  let idx ← opt inSlice (ueMax (2 ^ 32 - 2)) 0
  let sign ← flag
  let abs ← ueMax 32767
  match sets.reverse[idx]? with
  | none => fun _ _ => False
  | some r => do
    let flags ← times H265.usedFlags (r.deltaPocS0.length + r.deltaPocS1.length + 1)
    let deltaRps : Int := if sign then - (abs + 1) else abs + 1
    let s0 := predictedS0 r deltaRps flags
    let s1 := predictedS1 r deltaRps flags
    pure { interRefPicSetPredictionFlag := true, deltaIdxMinus1 := idx, deltaRpsSign := sign, absDeltaRpsMinus1 := abs,
           numNegativePics := s0.length, numPositivePics := s1.length,
           deltaPocS0 := s0.map (·.1), usedByCurrPicS0Flag := s0.map (·.2),
           deltaPocS1 := s1.map (·.1), usedByCurrPicS1Flag := s1.map (·.2) }

/-- delta_poc_minus1 and used_by_curr_pic_flag of `n` pictures (7-67 to 7-70). -/
def distances (sign : Int) : Nat → Int → Gr (List (Int × Bool))
  | 0, _ => pure []
  | n + 1, prev => do
    let v ← ueMax 32767
    let used ← flag
    let l ← distances sign n (prev + sign * (v + 1))
    pure ((prev + sign * (v + 1), used) :: l)

/-- st_ref_pic_set( ) without prediction. -/
def intraSet : Gr RPS := do
  let neg ← ueMax 255
  let pos ← ueMax 255
  let s0 ← distances (-1) neg 0
  let s1 ← distances 1 pos 0
  pure { numNegativePics := neg, numPositivePics := pos,
         deltaPocS0 := s0.map (·.1), usedByCurrPicS0Flag := s0.map (·.2),
         deltaPocS1 := s1.map (·.1), usedByCurrPicS1Flag := s1.map (·.2) }

/-- st_ref_pic_set( ). -/
def refPicSet (sets : List RPS) (inSlice : Bool) : Gr RPS := do
  let inter ← opt (!sets.isEmpty) flag false
  if inter then interSet sets inSlice else intraSet

/-- `n` more sets. -/
def refPicSets : Nat → List RPS → Gr (List RPS)
  | 0, sets => pure sets
  | n + 1, sets => do
    let r ← refPicSet sets false
    refPicSets n (sets ++ [r])

/-- num_short_term_ref_pic_sets to vui_parameters( ). -/
def refFields (s : SPS) : Gr SPS := do
  let n ← ueMax 64
  let sets ← refPicSets n []
  let longTerm ← flag
  let k ← opt longTerm ue 0
  must (k = 0)
  let mvp ← flag
  let strong ← flag
  let v ← H264.optional H265.vui
  pure { s with shortTermRefPicSets := sets, longTermRefPicsPresentFlag := longTerm, temporalMvpEnabledFlag := mvp,
                strongIntraSmoothingEnabledFlag := strong, vui := v }

/-- seq_parameter_set_rbsp( ), up to the VUI; the first part is that of `Spec.H265.spsData`. -/
def spsData (s : SPS) : Gr SPS := do
  let vps ← u 4
  let max ← u 3
  let nest ← flag
  let p ← H265.profileTierLevel s.profileTierLevel max
  let s ← H265.formatFields { s with vpsID := vps, maxSubLayersMinus1 := max, temporalIDNestingFlag := nest, profileTierLevel := p }
  let s ← H265.orderingFields s
  let s ← H265.toolFields s
  refFields s

end Verif.Spec.RefPics
