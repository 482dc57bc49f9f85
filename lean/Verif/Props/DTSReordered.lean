import Verif.Props.DTSStart

/-!
# C65: detection of the increment in streams with reordered pictures

Increment 1 is noticed at the first odd picture order count. Until then increment 2 was supposed, and as many pictures as were expected have
passed: what is expected, and the number of reordered pictures, are converted to the new unit.
-/

namespace Verif.Props
open Verif.Spec Verif.H264 Verif.Spec.Slice Verif.Spec.Rate Verif.StepM
open Verif.Spec.DTS (type264 type265)
open TS (wrap64)

/-- C65: the `n`th picture since the IDR was expected to have count `2 n`; now it is `n`. `r` reordered pictures were known, of twice the
distance in output order: they are `2 r`, and the DTS is held for `r` pictures. -/
theorem C65_h264_detect (d : DTSExtractor) (n r m poc : Nat) (hi : d.pocIncrement = 2) (ha : d.auCount < 5) (hx : d.expectedPOC = 2 * n)
    (hr : d.reorderedFrames = r) (hr2 : 2 * r ≤ 10) (hp : d.pause = m) (ho : poc % 2 = 1) :
    updateIncrement poc d =
      ({ d with pocIncrement := 1, expectedPOC := n, reorderedFrames := (2 * r : Nat), pause := (m + r : Nat), auCount := d.auCount + 1,
                prevPrevPOC := d.prevPOC, prevPOC := poc }, .ok ()) := by
  have hn : 2 * n / 2 = n := by omega
  have h : detectIncrement poc d =
      ({ d with pocIncrement := 1, expectedPOC := n, reorderedFrames := (2 * r : Nat), pause := (m + r : Nat) }, .ok ()) := by
    unfold detectIncrement
    rw [step_get, if_pos (by omega), step_modify]
    obtain ⟨x1, x2, x3, x4, x5, x6, x7, x8, x9, x10, x11, x12⟩ := d
    dsimp only at hx hr hp ⊢
    subst hx hr hp
    rw [hn]
    by_cases h0 : r = 0
    · subst h0
      rw [if_neg (by decide)]
      rfl
    · rw [if_pos (by omega)]
      unfold increaseReordered
      rw [step_get]
      dsimp only
      rw [if_neg (by unfold maxReorderedFrames; omega)]
      show ((DTSExtractor.mk _ _ _ _ _ _ ((r : Int) + r) ((m : Int) + r) _ _ _ _ : DTSExtractor), Res.ok ()) = _
      rw [show (r : Int) + r = ((2 * r : Nat) : Int) by omega]
      rfl
  unfold updateIncrement
  rw [step_get, if_pos ⟨ha, hi⟩, step_bind h]
  rfl

/-- C65: a stream with increment 1 and one reordered picture that starts with I, P, B. The first DTS are late; the increment and the
number of reordered pictures are known after the B picture, and the error decreases until it is zero. `c` is when the IDR is presented. -/
theorem C65_h264_one_reordered (S : Stream264) (hS : Stream264Ok S) (hinc : S.inc = 1) (hR : S.R = 1) (hT : 270 ≤ S.T) (c : Int)
    (hc : -2 ^ 61 ≤ c) (hc2 : c + 4 * S.T < 2 ^ 61) (d : DTSExtractor) (hd : AfterIDR S c d) (au1 au2 au3 : List Bytes)
    (h1 : FirstSlice264 S.sps S.raw false 2 au1) (h2 : FirstSlice264 S.sps S.raw false 1 au2) (pts : Int) (hp : c + 3 * S.T ≤ pts)
    (l : List (List Bytes × Int)) (hl : Regular S 0 2 1 2 (c - S.T) ((au3, pts) :: l)) :
    ∃ dts e es, 0 ≤ e ∧ e ≤ S.T ∧ dts = c + 2 * S.T + e ∧ Vanishing e es ∧ es.length = l.length ∧ (∀ x ∈ es.drop e.toNat, x = 0) ∧
      calls extract d ((au1, c + 2 * S.T) :: (au2, c + S.T) :: (au3, pts) :: l) =
        .ok (c + 2 * S.T) :: .ok (c + 2 * S.T + 90) :: .ok dts :: (List.zipWith (· + ·) (clock (c + 3 * S.T) S.T l.length) es).map .ok := by
  obtain ⟨nal1, f1, hs1, hg1, hlt1, -, hi1⟩ := rate_found S hS d hd.raw false 2 au1 h1 false
  obtain ⟨m1, m2, m3⟩ := rate_maxLsb S hS
  have hm16 : 16 ≤ S.maxLsb := by
    unfold Stream264.maxLsb
    exact Nat.le_trans (by decide) (Nat.pow_le_pow_right (by omega) (by omega : 4 ≤ _))
  -- the P picture
  have hu1 : updateIncrement 2 d = ({ d with auCount := 2, prevPrevPOC := 0, prevPOC := 2 }, .ok ()) := by
    unfold updateIncrement
    rw [step_get, if_pos ⟨by rw [hd.count]; decide, hd.inc⟩]
    have : detectIncrement 2 d = (d, .ok ()) := by
      unfold detectIncrement
      rw [step_get, if_neg (by decide), if_neg (by rw [hd.count]; simp)]
      rfl
    rw [step_bind this]
    show (({ d with auCount := d.auCount + 1, prevPrevPOC := d.prevPOC, prevPOC := 2 } : DTSExtractor), Res.ok ()) = _
    rw [hd.count, hd.poc]
    rfl
  have hn1 : handleNonIDR nal1 S.sps d =
      ({ d with auCount := 2, prevPrevPOC := 0, prevPOC := 2, expectedPOC := 2 }, .ok 0) := by
    unfold handleNonIDR
    rw [step_bind (s' := d) (a := 2) (by rw [hg1]; rfl), step_bind hu1]
    exact start_advance S hS { d with auCount := 2, prevPrevPOC := 0, prevPOC := 2 } 2 0 2 hd.inc (by decide) hd.expected (by omega)
      hlt1 (by omega) (by omega)
  have hf1 : handleFrame f1 S.sps (c + 2 * S.T) d =
      ({ d with auCount := 2, prevPrevPOC := 0, prevPOC := 2, expectedPOC := 2 }, .ok (c + 2 * S.T, false)) := by
    unfold handleFrame
    rw [(hi1 rfl).1, (hi1 rfl).2]
    dsimp only
    rw [step_bind hn1, rate_tail { d with auCount := 2, prevPrevPOC := 0, prevPOC := 2, expectedPOC := 2 } 0 _ 0 hd.filled hd.pause hd.reordered (by decide) (by decide)]
    show (_, Res.ok (wrap64 (d.prevDTS + (wrap64 (c + 2 * S.T - d.prevDTS)).tdiv (0 + 0 + 1)), false)) = _
    rw [hd.prev, rate_wrap (v := c + 2 * S.T - c) (by omega) (by omega), show (0 : Int) + 0 + 1 = 1 from rfl, Int.tdiv_one,
      show c + (c + 2 * S.T - c) = c + 2 * S.T by omega, rate_wrap (by omega) (by omega)]
  have hx1 := rate_extract d _ au1 _ _ false f1 S.sps hs1 hd.sps hS.type hS.frames hd.random hf1 (by intro _; omega)
    (by show d.prevDTS ≤ _; rw [hd.prev]; omega)
  generalize hd1 : ({ d with auCount := 2, prevPrevPOC := 0, prevPOC := 2, expectedPOC := 2 } : DTSExtractor) = d1 at hx1
  generalize hd2 : ({ d1 with prevDTSFilled := true, prevDTS := c + 2 * S.T } : DTSExtractor) = d2 at hx1
  have e2 : d2.prevDTS = c + 2 * S.T ∧ d2.prevDTSFilled = true ∧ d2.pause = 0 ∧ d2.reorderedFrames = 0 ∧ d2.spsp = some S.sps ∧
      d2.sps = S.raw ∧ d2.randomReceived = true ∧ d2.pocIncrement = 2 ∧ d2.auCount = 2 ∧ d2.expectedPOC = 2 ∧ d2.prevPOC = 2 := by
    subst hd2 hd1
    exact ⟨rfl, rfl, hd.pause, hd.reordered, hd.sps, hd.raw, hd.random, hd.inc, rfl, rfl, rfl⟩
  obtain ⟨p1, p2, p3, p4, p5, p6, p7, p8, p9, p10, p11⟩ := e2
  -- the B picture
  obtain ⟨nal2, f2, hs2, hg2, hlt2, -, hi2⟩ := rate_found S hS d2 p6 false 1 au2 h2 false
  have hu2 := C65_h264_detect d2 1 0 0 1 p8 (by omega) p10 p4 (by decide) p3 (by decide)
  generalize hd3 : ({ d2 with pocIncrement := 1, expectedPOC := 1, reorderedFrames := (2 * 0 : Nat), pause := (0 + 0 : Nat),
                              auCount := d2.auCount + 1, prevPrevPOC := d2.prevPOC, prevPOC := 1 } : DTSExtractor) = d3 at hu2
  have hn2 : handleNonIDR nal2 S.sps d2 = ({ d3 with expectedPOC := 2 }, .ok (-1)) := by
    unfold handleNonIDR
    rw [step_bind (s' := d2) (a := 1) (by rw [hg2]; rfl), step_bind hu2]
    exact start_advance S hS d3 1 1 1 (by subst hd3; rfl) (by decide) (by subst hd3; rfl) (by omega) hlt2 (by omega) (by omega)
  have hf2 : handleFrame f2 S.sps (c + S.T) d2 =
      ({ d3 with expectedPOC := 2, reorderedFrames := (0 + (0 + 1) : Nat), pause := (0 : Nat) }, .ok (c + 2 * S.T + 90, true)) := by
    unfold handleFrame
    rw [(hi2 rfl).1, (hi2 rfl).2]
    dsimp only
    rw [step_bind hn2, rate_jump { d3 with expectedPOC := 2 } (-1) _ 0 0 (by subst hd3; exact p2) (by subst hd3; rfl) (by subst hd3; rfl)
      (by decide) (.inl (by decide))]
    have : wrap64 (d3.prevDTS + 90) = c + 2 * S.T + 90 := by
      subst hd3
      show wrap64 (d2.prevDTS + 90) = _
      rw [p1, rate_wrap (by omega) (by omega)]
    rw [show ({ d3 with expectedPOC := 2 } : DTSExtractor).prevDTS = d3.prevDTS from rfl, this]
  have hx2 := rate_extract d2 _ au2 _ _ true f2 S.sps hs2 p5 hS.type hS.frames p7 hf2 (by simp)
    (by subst hd3; show d2.prevDTS ≤ _; omega)
  -- the next picture
  have hst : Steady S S.R 0 0 2 1 2 (c - S.T + S.T * (2 : Nat)) (S.T + 90)
      { d3 with expectedPOC := 2, reorderedFrames := (0 + (0 + 1) : Nat), pause := (0 : Nat), prevDTSFilled := true,
                prevDTS := c + 2 * S.T + 90 } := by
    subst hd3
    exact ⟨p6, p5, p7, rfl, by show c + 2 * S.T + 90 = _; omega, rfl, by rw [hR], by rw [hinc]; rfl, by
      show 2 = (0 + S.inc * 2) % S.maxLsb
      rw [hinc, Nat.mod_eq_of_lt (by omega)], fun h => by omega, fun h => by omega, ⟨by omega, by omega⟩, by omega, by omega⟩
  generalize hd4 : ({ d3 with expectedPOC := 2, reorderedFrames := (0 + (0 + 1) : Nat), pause := (0 : Nat), prevDTSFilled := true,
                              prevDTS := c + 2 * S.T + 90 } : DTSExtractor) = d4 at hst hx2
  obtain ⟨f3, d5, diff, base', n', q1, q2, t', k1, k2, k3, k4, k5, k6, k7, k8, k9, k10⟩ := rate_mid S hS hst au3 pts l hl
  have b1 := k3.low
  have b2 := k3.high
  have hprev := k3.prev
  rw [rate_tail d5 diff pts S.R k3.filled k3.pause k3.reordered k6 k7, rate_wrap (v := pts - d5.prevDTS) (by omega) (by omega)] at k2
  have hk : ∃ k : Int, k = diff + S.R ∧ 1 ≤ k ∧ k ≤ 3 := by
    refine ⟨_, rfl, ?_, by rw [hR] at k7 ⊢; omega⟩
    have : S.T * 2 ≤ S.T * (diff + S.R + 1) := by omega
    have := Int.le_of_mul_le_mul_left this (by omega)
    omega
  obtain ⟨k, hk, hk1, hk3⟩ := hk
  have ht : S.T * (k + 1) = S.T * k + S.T := by rw [Int.mul_add, Int.mul_one]
  rw [← hk] at k2 k8
  rw [ht] at k8
  have hge : S.T * 1 ≤ S.T * k := Int.mul_le_mul_of_nonneg_left hk1 (by omega)
  have hq : ∃ q, q = (pts - d5.prevDTS).tdiv (k + 1) ∧ 0 ≤ q ∧ 90 + q ≤ S.T ∧ q ≤ pts - d5.prevDTS := by
    have hx : 0 ≤ pts - d5.prevDTS := by omega
    have hm : (0 : Int) < k + 1 := by omega
    refine ⟨_, rfl, ?_⟩
    rw [Int.tdiv_eq_ediv_of_nonneg hx]
    refine ⟨Int.ediv_nonneg hx (by omega), ?_, Int.ediv_le_self _ hx⟩
    have hq1 : (k + 1) * ((pts - d5.prevDTS) / (k + 1)) ≤ pts - d5.prevDTS := Int.mul_ediv_self_le (by omega)
    have : (k + 1) * ((pts - d5.prevDTS) / (k + 1)) ≤ (k + 1) * (S.T - 90) := by
      have e1 : (k + 1) * (S.T - 90) = S.T * k + S.T - 90 * k - 90 := by
        rw [Int.mul_sub, Int.mul_comm (k + 1) S.T, ht]; omega
      omega
    have := Int.le_of_mul_le_mul_left this hm
    omega
  obtain ⟨q, hq, hq0, hq1, hq2⟩ := hq
  rw [← hq, rate_wrap (by omega) (by omega)] at k2
  have g5 : d4.spsp = some S.sps ∧ d4.randomReceived = true := ⟨hst.sps, hst.random⟩
  have hx3 := rate_extract d4 _ au3 pts _ false f3 S.sps k1 g5.1 hS.type hS.frames g5.2 k2 (by intro _; omega) (by omega)
  have hst2 : Steady S S.R 0 base' n' q1 q2 (t' + S.T * n') (90 + q)
      { d5 with prevDTSFilled := true, prevDTS := d5.prevDTS + q } :=
    ⟨k3.raw, k3.sps, k3.random, rfl, by show d5.prevDTS + q = _; omega, k3.pause, k3.reordered, k3.inc, k3.expected, k3.even, k3.known,
      k3.small, by omega, by omega⟩
  obtain ⟨es, j1, j2, j3, j4⟩ := C62_h264_converges S hS base' n' q1 q2 t' (90 + q) _ (by omega) hq1 hst2 l k4
  refine ⟨d5.prevDTS + q, 90 + q, es, by omega, hq1, by omega, j1, j2, j3, ?_⟩
  simp only [calls, hx1]
  simp only [hx2]
  simp only [hx3, j4]
  rw [show t' + S.T * n' + S.T = c + 3 * S.T by omega]

/-- I P B P B P with increment 1: presented at 0, 2, 1, 4, 3, 6. -/
example :
    Stream264Ok ⟨rateSPS, [0x67], 1, 1, 3000⟩ ∧
    AfterIDR ⟨rateSPS, [0x67], 1, 1, 3000⟩ 90000
      { rateState with prevDTS := 90000, expectedPOC := 0, auCount := 1, prevPOC := 0 } ∧
    Regular ⟨rateSPS, [0x67], 1, 1, 3000⟩ 0 2 1 2 (90000 - 3000) [([rateSlice 4], 102000), ([rateSlice 3], 99000),
      ([rateSlice 6], 108000)] ∧
    calls extract { rateState with prevDTS := 90000, expectedPOC := 0, auCount := 1, prevPOC := 0 }
      [([rateSlice 2], 96000), ([rateSlice 1], 93000), ([rateSlice 4], 102000), ([rateSlice 3], 99000), ([rateSlice 6], 108000)] =
      [.ok 96000, .ok 96090, .ok 98060, .ok 99000, .ok 102000] :=
  ⟨⟨⟨by decide, by decide⟩, rfl, rfl, rfl, .inl rfl⟩,
    ⟨rfl, rfl, rfl, rfl, rfl, rfl, rfl, rfl, rfl, rfl, rfl, rfl⟩,
    .inl ⟨4, rateSlice_first _ 4 (by decide), by decide, by decide, by decide, by decide, by decide, by decide, by decide, by decide,
    .inl ⟨3, rateSlice_first _ 3 (by decide), by decide, by decide, by decide, by decide, by decide, by decide, by decide, by decide,
    .inl ⟨6, rateSlice_first _ 6 (by decide), by decide, by decide, by decide, by decide, by decide, by decide, by decide, by decide,
      trivial⟩⟩⟩, by decide +kernel⟩

/-- The conversion where there is something to convert: two pictures have passed, one reordered picture was known. -/
example : updateIncrement 3 { rateState with expectedPOC := 4, reorderedFrames := 1, auCount := 3, prevPOC := 4, prevPrevPOC := 2 } =
    ({ rateState with expectedPOC := 2, pocIncrement := 1, reorderedFrames := 2, pause := 1, auCount := 4, prevPOC := 3,
                      prevPrevPOC := 4 }, .ok ()) :=
  C65_h264_detect _ 2 1 0 3 rfl (by decide) rfl rfl (by decide) rfl (by decide)

end Verif.Props
