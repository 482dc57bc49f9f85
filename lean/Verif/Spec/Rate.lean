import Verif.Spec.DTS
import Verif.Spec.SliceHeader

/-!
# Specification: streams with a constant frame rate

Pictures are decoded every `T` ticks and presented every `T` ticks, in another order; the difference is at most `R` pictures.
-/

namespace Verif.Spec.Rate
open Verif.Spec Verif.Spec.Slice Verif.Spec.DTS

/-- An access unit whose first slice is of an IDR or not, and has that pic_order_cnt_lsb. Other NAL units may precede it; among
them, an SPS equal to `raw`. -/
def FirstSlice264 (sps : Verif.H264.SPS) (raw : Bytes) (idr : Bool) (poc : Nat) (au : List Bytes) : Prop :=
  ∃ pre n t post h bits rest, au = pre ++ (n :: t) :: post ∧
    (∀ x ∈ pre, x ≠ [] ∧ type264 x ≠ some 1 ∧ type264 x ≠ some 5 ∧ (type264 x = some 7 → x = raw)) ∧
    type264 (n :: t) = some (if idr then 5 else 1) ∧
    header264 ueMax sps idr h bits ∧ bitsOf (epRemove 0 t) = bits ++ rest ∧ poc = h.pocLsb

/-- What does not change in a H264 stream: the SPS, the increment of the picture order count between pictures, the number of
reordered pictures, the duration of a picture. -/
structure Stream264 where
  sps : Verif.H264.SPS
  raw : Bytes
  inc : Nat
  R : Nat
  T : Int

/-- MaxPicOrderCntLsb. -/
def Stream264.maxLsb (S : Stream264) : Nat := 2 ^ (S.sps.log2MaxPicOrderCntLsbMinus4 + 4)

/-- Access units with PTS, from the one after the `n`th picture in decoding order since an IDR that was decoded at time `t` and
had pic_order_cnt_lsb `base`. `p1` and `p2` are the pic_order_cnt_lsb of the last two pictures.

The picture that is next in decoding order, `n + 1`, is the `p`th in output order since the IDR. -/
def Regular (S : Stream264) : (base n p1 p2 : Nat) → Int → List (List Bytes × Int) → Prop
  | _, _, _, _, _, [] => True
  | base, n, p1, p2, t, (au, pts) :: l =>
    (∃ p, FirstSlice264 S.sps S.raw false ((base + S.inc * p) % S.maxLsb) au ∧
      n + 1 ≤ p + S.R ∧ p ≤ n + 1 + S.R + 1 ∧
      2 * S.inc * (n + 1) < 2 * S.inc * p + S.maxLsb ∧ 2 * S.inc * p ≤ 2 * S.inc * (n + 1) + S.maxLsb ∧
      (S.inc = 2 → ¬ ((base + S.inc * p) % S.maxLsb = p1 + 4 ∧ p1 = p2 + 4)) ∧
      pts = t + S.T * (p + S.R) ∧ -2 ^ 62 ≤ pts ∧ pts < 2 ^ 62 ∧
      Regular S base (n + 1) ((base + S.inc * p) % S.maxLsb) p1 t l) ∨
    (∃ poc, FirstSlice264 S.sps S.raw true poc au ∧ (S.inc = 2 → poc % 2 = 0) ∧
      pts = t + S.T * (n + 1) + S.T * S.R ∧ -2 ^ 62 ≤ pts ∧ pts < 2 ^ 62 ∧
      Regular S poc 0 poc 0 (t + S.T * (n + 1)) l)

/-- `c, c + T, c + 2 T, ...`. -/
def clock (c T : Int) : Nat → List Int
  | 0 => []
  | n + 1 => c :: clock (c + T) T n

/-- Errors that decrease until they are zero. -/
def Vanishing (e : Int) : List Int → Prop
  | [] => True
  | a :: l => 0 ≤ a ∧ (a = 0 ∨ a < e) ∧ Vanishing a l

/-- A H265 access unit whose first slice is of an IDR, for which the distance between output and decoding order is zero, or of
another picture whose header has an estimate of that distance. The header is in the 12 bytes that the implementation looks at, and does
not refer to the only set of the sequence. -/
def FirstSlice265 (sps : Verif.H265.SPS) (pps : Verif.H265.PPS) (raw rawPPS : Bytes) (delta : Int) (au : List Bytes) : Prop :=
  ∃ pre n0 t post, au = pre ++ (n0 :: t) :: post ∧
    (∀ x ∈ pre, x ≠ [] ∧ (∀ k ∈ [0, 1, 8, 9, 19, 20, 21], type265 x ≠ some k) ∧ (type265 x = some 33 → x = raw) ∧
      (type265 x = some 34 → x = rawPPS)) ∧
    ((delta = 0 ∧ (type265 (n0 :: t) = some 19 ∨ type265 (n0 :: t) = some 20)) ∨
     ((∃ k ∈ [0, 1, 8, 9, 21], type265 (n0 :: t) = some k) ∧
      ∃ n1 u h bits rest, t = n1 :: u ∧ n1 ≠ 0 ∧ header265 ueMax (n0.toNat / 2 % 64) sps pps h bits ∧
        bits.length ≤ 8 * (epRemove 0 (u.take 11)).length ∧ (h.fromSPS = true → sps.shortTermRefPicSets.length ≠ 1) ∧
        bitsOf (epRemove 0 u) = bits ++ rest ∧ estimate (n0.toNat / 2 % 64) h = some delta))

/-- Access units with PTS, after a picture decoded at time `c`: those of the H265 stream with pictures of duration `T` and `R`
reordered pictures, where the distances in the headers are right. -/
def Regular265 (sps : Verif.H265.SPS) (pps : Verif.H265.PPS) (raw rawPPS : Bytes) (R T : Int) :
    Int → List (List Bytes × Int) → Prop
  | _, [] => True
  | c, (au, pts) :: l =>
    (∃ delta, FirstSlice265 sps pps raw rawPPS delta au ∧ 0 ≤ delta + R ∧ pts = c + T * (delta + R + 1) ∧
      -2 ^ 62 ≤ pts ∧ pts < 2 ^ 62) ∧ Regular265 sps pps raw rawPPS R T (c + T) l

/-- `nal_ref_idc` (ITU-T H.264 7.3.1): the 2 bits after the first one. -/
def refIdc (n : Bytes) : Option Nat := n.head?.map (·.toNat / 32 % 4)

/-- An access unit with a new SPS followed by an IDR that has that pic_order_cnt_lsb. -/
def FirstUnit264 (sps : Verif.H264.SPS) (raw : Bytes) (poc : Nat) (au : List Bytes) : Prop :=
  ∃ pre au', au = pre ++ raw :: au' ∧ type264 raw = some 7 ∧
    (∀ x ∈ pre, x ≠ [] ∧ type264 x ≠ some 1 ∧ type264 x ≠ some 5 ∧ type264 x ≠ some 7) ∧
    FirstSlice264 sps raw true poc au'

/-- The picture at index `j` of a list whose first picture is decoded at time `c` shows the number of reordered pictures: it is
presented when it is decoded, or as late as possible. -/
def Extreme (R : Nat) (T c : Int) (l : List (List Bytes × Int)) (j : Nat) : Prop :=
  ∃ au pts, l[j]? = some (au, pts) ∧ (pts = c + T * j ∨ pts = c + T * j + T * (2 * R + 1))

/-- The NAL unit types of H265 that matter to decoding times: slices and parameter sets. -/
def types265 : List Nat := [0, 1, 8, 9, 19, 20, 21, 33, 34]

/-- A H265 access unit with SPS, PPS and IDR, in this order and among other NAL units. -/
def FirstUnit265 (raw rawPPS : Bytes) (au : List Bytes) : Prop :=
  ∃ pre mid mid' idr post, au = pre ++ raw :: (mid ++ rawPPS :: (mid' ++ idr :: post)) ∧ type265 raw = some 33 ∧
    type265 rawPPS = some 34 ∧ (type265 idr = some 19 ∨ type265 idr = some 20) ∧
    ∀ x ∈ pre ++ mid ++ mid', x ≠ [] ∧ ∀ k ∈ types265, type265 x ≠ some k

/-- The SPS says that a picture takes `T` ticks of 90 kHz. -/
def Timing265 (sps : Verif.H265.SPS) (T : Int) : Prop :=
  ∃ v t, sps.vui = some v ∧ v.timingInfo = some t ∧ t.timeScale ≠ 0 ∧ t.numUnitsInTick < 2 ^ 32 ∧
    T * t.timeScale = 90000 * t.numUnitsInTick

/-- The SPS does not say how long a picture is. -/
def NoTiming265 (sps : Verif.H265.SPS) : Prop :=
  ∀ v t, sps.vui = some v → v.timingInfo = some t → t.timeScale = 0

end Verif.Spec.Rate
