import Verif.Props.DTSStart

/-!
# C64: DTS from the first access unit (H265)
-/

namespace Verif.Props
open Verif.Spec Verif.Spec.Slice Verif.Spec.Rate Verif.StepM
open Verif.Spec.DTS (type264 type265)
open TS (wrap64)

theorem start265_cons (d : H265.DTSExtractor) (b : UInt8) (r : Bytes) (l : List Bytes) :
    H265.scan ((b :: r) :: l) d =
      (if b.toNat / 2 % 64 = 33 then (H265.handleSPS (b :: r) >>= fun _ => H265.scan l)
       else if b.toNat / 2 % 64 = 34 then (H265.handlePPS (b :: r) >>= fun _ => H265.scan l)
       else if b.toNat / 2 % 64 = 19 ∨ b.toNat / 2 % 64 = 20 then pure .idr
       else if b.toNat / 2 % 64 = 21 then pure (.cra (b :: r))
       else if b.toNat / 2 % 64 = 0 ∨ b.toNat / 2 % 64 = 1 ∨ b.toNat / 2 % 64 = 8 ∨ b.toNat / 2 % 64 = 9 then pure (.nonIDR (b :: r))
       else H265.scan l : H265.DM H265.Found) d := by
  rw [← hdts_type b]
  rfl

theorem start265_skip (d : H265.DTSExtractor) (rest : List Bytes) :
    ∀ pre : List Bytes, (∀ x ∈ pre, x ≠ [] ∧ ∀ k ∈ types265, type265 x ≠ some k) → H265.scan (pre ++ rest) d = H265.scan rest d := by
  intro pre
  induction pre with
  | nil => intro _; rfl
  | cons n pre ih =>
    intro h
    obtain ⟨hn, hk⟩ := h n (by simp)
    have hr := ih (fun x hx => h x (by simp [hx]))
    rw [List.cons_append]
    cases n with
    | nil => exact absurd rfl hn
    | cons b r =>
    have ht : type265 (b :: r) = some (b.toNat / 2 % 64) := rfl
    have hne : ∀ k ∈ types265, b.toNat / 2 % 64 ≠ k := fun k hk' e => hk k hk' (by rw [ht, e])
    simp only [types265, List.mem_cons, List.not_mem_nil, or_false] at hne
    have f0 := hne 0 (by simp)
    have f1 := hne 1 (by simp)
    have f8 := hne 8 (by simp)
    have f9 := hne 9 (by simp)
    have f19 := hne 19 (by simp)
    have f20 := hne 20 (by simp)
    have f21 := hne 21 (by simp)
    have f33 := hne 33 (by simp)
    have f34 := hne 34 (by simp)
    rw [start265_cons, if_neg f33, if_neg f34, if_neg (by omega), if_neg f21, if_neg (by omega)]
    exact hr

/-- The state after a picture. The time that was returned for it is `c + e`, and the next `m` pictures are in the pause. -/
structure Start265 (sps : H265.SPS) (pps : H265.PPS) (raw rawPPS : Bytes) (R c e : Int) (m : Nat) (d : H265.DTSExtractor) : Prop where
  raw : d.sps = raw
  rawPPS : d.pps = rawPPS
  sps : d.spsp = some sps
  pps : d.ppsp = some pps
  random : d.randomReceived = true
  filled : d.prevDTSFilled = true
  prev : d.prevDTS = c + e
  pause : d.pause = m
  reordered : d.reorderedFrames = R
  low : -2 ^ 61 ≤ c + e
  high : c + e < 2 ^ 61

/-- The state when SPS, PPS and IDR have been found. -/
def start265State (sps : H265.SPS) (pps : H265.PPS) (raw rawPPS : Bytes) : H265.DTSExtractor :=
  { sps := raw, spsp := some sps, pps := rawPPS, ppsp := some pps, reorderedFrames := H265.initialReorder sps,
    pause := H265.initialReorder sps }

theorem start265_scan (sps : H265.SPS) (pps : H265.PPS) (raw rawPPS : Bytes) (hu : ({} : H265.SPS).unmarshal raw = .ok sps)
    (hq : H265.PPS.unmarshal rawPPS = .ok pps) (au : List Bytes) (h : FirstUnit265 raw rawPPS au) :
    H265.scan au {} = (start265State sps pps raw rawPPS, .ok .idr) := by
  obtain ⟨pre, mid, mid', idr, post, rfl, t1, t2, t3, hx⟩ := h
  obtain ⟨b, r, rfl⟩ : ∃ b r, raw = b :: r := by
    cases raw with
    | nil => cases t1
    | cons b r => exact ⟨b, r, rfl⟩
  obtain ⟨b', r', rfl⟩ : ∃ b r, rawPPS = b :: r := by
    cases rawPPS with
    | nil => cases t2
    | cons b r => exact ⟨b, r, rfl⟩
  obtain ⟨b'', r'', rfl⟩ : ∃ b r, idr = b :: r := by
    cases idr with
    | nil => rcases t3 with h | h <;> cases h
    | cons b r => exact ⟨b, r, rfl⟩
  have k1 : b.toNat / 2 % 64 = 33 := Option.some.inj t1
  have k2 : b'.toNat / 2 % 64 = 34 := Option.some.inj t2
  have k3 : b''.toNat / 2 % 64 = 19 ∨ b''.toNat / 2 % 64 = 20 := by
    rcases t3 with h | h
    · exact .inl (Option.some.inj h)
    · exact .inr (Option.some.inj h)
  rw [start265_skip _ _ pre (fun x h => hx x (by simp [h]))]
  rw [start265_cons, if_pos k1]
  have s1 : H265.handleSPS (b :: r) {} =
      ({ sps := b :: r, spsp := some sps, reorderedFrames := H265.initialReorder sps, pause := H265.initialReorder sps }, .ok ()) := by
    unfold H265.handleSPS
    rw [step_get, if_neg (by simp), hu]
    rfl
  rw [step_bind s1, start265_skip _ _ mid (fun x h => hx x (by simp [h]))]
  rw [start265_cons, if_neg (by omega), if_pos k2]
  have s2 : H265.handlePPS (b' :: r')
      { sps := b :: r, spsp := some sps, reorderedFrames := H265.initialReorder sps, pause := H265.initialReorder sps } =
      (start265State sps pps (b :: r) (b' :: r'), .ok ()) := by
    unfold H265.handlePPS
    rw [step_get, if_neg (by simp), hq]
    rfl
  rw [step_bind s2, start265_skip _ _ mid' (fun x h => hx x (by simp [h]))]
  rw [start265_cons, if_neg (by omega), if_neg (by omega), if_pos k3]
  rfl

theorem start265_firstDiff (sps : H265.SPS) (T : Int) (h : Timing265 sps T) (R : Nat) (hR : R ≤ 16) :
    H265.firstDiff sps R = T * R := by
  obtain ⟨v, t, hv, ht, h0, h32, hT⟩ := h
  unfold H265.firstDiff
  rw [hv]
  show (match v.timingInfo with | some t => _ | none => _) = _
  rw [ht]
  dsimp only
  rw [if_pos h0]
  have e1 : (R : Int) * 90000 * t.numUnitsInTick = T * R * t.timeScale := by
    rw [Int.mul_assoc, ← hT, Int.mul_comm T R, Int.mul_assoc]
  have e2 : (R : Int) * 90000 * (t.numUnitsInTick : Int) ≤ 16 * 90000 * 2 ^ 32 := by
    have : R * (90000 * t.numUnitsInTick) ≤ 16 * (90000 * 2 ^ 32) := Nat.mul_le_mul hR (Nat.mul_le_mul_left _ (by omega))
    rw [Int.mul_assoc]
    have h2 : ((R * (90000 * t.numUnitsInTick) : Nat) : Int) ≤ ((16 * (90000 * 2 ^ 32) : Nat) : Int) := Int.ofNat_le.2 this
    rw [Int.natCast_mul, Int.natCast_mul] at h2
    exact h2
  have e3 : 0 ≤ (R : Int) * 90000 * (t.numUnitsInTick : Int) := Int.mul_nonneg (by omega) (by omega)
  rw [rate_wrap (by omega) (by omega), e1]
  exact Int.mul_tdiv_cancel _ (by omega)

theorem start265_noTiming (sps : H265.SPS) (h : NoTiming265 sps) (k : Int) : H265.firstDiff sps k = 9000 := by
  unfold H265.firstDiff
  cases hv : sps.vui with
  | none => rfl
  | some v =>
    show (match v.timingInfo with | some t => _ | none => _) = _
    cases ht : v.timingInfo with
    | none => rfl
    | some t =>
      dsimp only
      rw [if_neg (by rw [h v t hv ht]; simp)]

theorem start265_first (sps : H265.SPS) (pps : H265.PPS) (raw rawPPS : Bytes) (hu : ({} : H265.SPS).unmarshal raw = .ok sps)
    (hq : H265.PPS.unmarshal rawPPS = .ok pps) (au : List Bytes) (h : FirstUnit265 raw rawPPS au) (R : Nat)
    (hr : H265.initialReorder sps = R) (pts D : Int) (hD : H265.firstDiff sps R = D) (hD0 : 0 ≤ D) (h1 : -2 ^ 61 ≤ pts - D)
    (h2 : pts < 2 ^ 61) :
    ∃ d', H265.extract (au, pts) {} = (d', .ok (pts - D)) ∧ Start265 sps pps raw rawPPS R (pts - D) 0 (R - 1) d' := by
  have hs := start265_scan sps pps raw rawPPS hu hq au h
  let d0 := start265State sps pps raw rawPPS
  have hw : wrap64 (pts - D) = pts - D := rate_wrap (by omega) (by omega)
  have hc : H265.checkRandom .idr d0 = ({ d0 with randomReceived := true }, .ok ()) := rfl
  have hfin : H265.finish 0 pts sps { d0 with randomReceived := true } =
      ({ d0 with randomReceived := true, pause := ((R - 1 : Nat) : Int) }, .ok (pts - D)) := by
    unfold H265.finish
    rw [step_get]
    show (if (0 : Int) + H265.initialReorder sps < 0 then _ else if H265.initialReorder sps > 0 then _ else _ : H265.DM Int) _ = _
    rw [hr, if_neg (by omega)]
    by_cases h0 : R = 0
    · rw [if_neg (by omega)]
      show (_, Res.ok (wrap64 (pts - H265.firstDiff sps (0 + H265.initialReorder sps)))) = _
      rw [hr, Int.zero_add, hD, hw]
      have : d0.pause = ((R - 1 : Nat) : Int) := by
        show H265.initialReorder sps = _
        rw [hr, h0]
      rw [← this]
    · rw [if_pos (by omega), step_modify]
      show (({ d0 with randomReceived := true, pause := H265.initialReorder sps - 1 } : H265.DTSExtractor),
        Res.ok (wrap64 (pts - H265.firstDiff sps (0 + H265.initialReorder sps)))) = _
      rw [hr, Int.zero_add, hD, hw, show ((R - 1 : Nat) : Int) = (R : Int) - 1 by omega]
  have hi : H265.extractInner au pts {} =
      ({ d0 with randomReceived := true, pause := ((R - 1 : Nat) : Int) }, .ok (pts - D)) := by
    unfold H265.extractInner
    rw [step_bind hs, step_get]
    show (H265.checkRandom .idr >>= fun _ => _ : H265.DM Int) d0 = _
    rw [step_bind hc]
    exact (step_bind (p := StepM.lift (H265.frameDiff .idr sps pps)) rfl).trans hfin
  have hx : H265.extract (au, pts) {} =
      ({ d0 with randomReceived := true, pause := ((R - 1 : Nat) : Int), prevDTSFilled := true, prevDTS := pts - D },
        .ok (pts - D)) := by
    unfold H265.extract
    dsimp only
    rw [step_bind hi, step_get, if_neg (by omega), if_neg (by rintro ⟨h, -⟩; cases h)]
    rfl
  exact ⟨_, hx, ⟨rfl, rfl, rfl, rfl, rfl, rfl, by simp, rfl, hr, by omega, by omega⟩⟩

/-- C64 (H265): when the SPS does not say how long a picture is, the first DTS is 100 ms before the PTS. -/
theorem C64_h265_no_timing (sps : H265.SPS) (pps : H265.PPS) (raw rawPPS : Bytes) (hu : ({} : H265.SPS).unmarshal raw = .ok sps)
    (hq : H265.PPS.unmarshal rawPPS = .ok pps) (au : List Bytes) (h : FirstUnit265 raw rawPPS au) (ht : NoTiming265 sps) (pts : Int)
    (h1 : -2 ^ 60 ≤ pts) (h2 : pts < 2 ^ 61) : (H265.extract (au, pts) {}).2 = .ok (pts - 9000) := by
  have hr : ∃ R : Nat, H265.initialReorder sps = R := by
    unfold H265.initialReorder
    split
    · exact ⟨_, rfl⟩
    · exact ⟨0, rfl⟩
  obtain ⟨R, hr⟩ := hr
  obtain ⟨d', hx, -⟩ := start265_first sps pps raw rawPPS hu hq au h R hr pts 9000 (start265_noTiming sps ht R) (by decide) (by omega) h2
  rw [hx]

/-- One picture in the pause. -/
theorem start265_pause (sps : H265.SPS) (pps : H265.PPS) (raw rawPPS : Bytes) (hc : Conforming265 sps)
    {R T c e : Int} {m : Nat} {d : H265.DTSExtractor}
    (hd : Start265 sps pps raw rawPPS R c e (m + 1) d) (he : e ≤ 0) (hT : 90 ≤ T) (delta : Int) (au : List Bytes) (pts : Int)
    (h : FirstSlice265 sps pps raw rawPPS delta au) (hr : 0 ≤ delta + R) (hp : pts = c + T * (delta + R + 1))
    (hh : pts < 2 ^ 61) :
    ∃ d', H265.extract (au, pts) d = (d', .ok (c + T + (e + 90 - T))) ∧ Start265 sps pps raw rawPPS R (c + T) (e + 90 - T) m d' := by
  obtain ⟨f, hs, hf⟩ := rate_found265 sps pps raw rawPPS hc d hd.raw hd.rawPPS delta au h
  have hprev := hd.prev
  have b1 := hd.low
  have b2 := hd.high
  have hpts : c + T ≤ pts := by
    have : T * 1 ≤ T * (delta + R + 1) := Int.mul_le_mul_of_nonneg_left (by omega) (by omega)
    omega
  have hfin : H265.finish delta pts sps d = ({ d with pause := d.pause - 1 }, .ok (c + T + (e + 90 - T))) := by
    unfold H265.finish
    rw [step_get, if_neg (by rw [hd.reordered]; omega), if_pos (by rw [hd.pause]; omega), step_modify, if_pos hd.filled,
      rate_wrap (by omega) (by omega), show c + T + (e + 90 - T) = d.prevDTS + 90 by omega]
    rfl
  generalize hd2 : ({ d with pause := d.pause - 1 } : H265.DTSExtractor) = d2 at hfin
  have hi : H265.extractInner au pts d = (d2, .ok (c + T + (e + 90 - T))) := by
    unfold H265.extractInner
    rw [step_bind hs, step_get, hd.sps]
    dsimp only
    rw [hd.pps]
    dsimp only
    have hc : H265.checkRandom f d = (d, .ok ()) := by
      unfold H265.checkRandom
      rw [step_get, if_pos hd.random]
      rfl
    rw [step_bind hc, step_bind (s' := d) (a := delta) (by rw [hf]; rfl)]
    exact hfin
  have hx : H265.extract (au, pts) d = ({ d with pause := d.pause - 1, prevDTSFilled := true, prevDTS := c + T + (e + 90 - T) },
      .ok (c + T + (e + 90 - T))) := by
    unfold H265.extract
    dsimp only
    rw [step_bind hi, step_get, if_neg (by omega), if_neg (by rintro ⟨-, h⟩; rw [← hd2] at h; dsimp only at h; omega), ← hd2]
    rfl
  exact ⟨_, hx, ⟨hd.raw, hd.rawPPS, hd.sps, hd.pps, hd.random, rfl, rfl,
    by show d.pause - 1 = _; rw [hd.pause]; omega, hd.reordered, by omega, by omega⟩⟩

/-- One picture after the pause. -/
theorem start265_step (sps : H265.SPS) (pps : H265.PPS) (raw rawPPS : Bytes) (hc : Conforming265 sps)
    {R T c e : Int} {d : H265.DTSExtractor}
    (hd : Start265 sps pps raw rawPPS R c e 0 d) (he : e ≤ 0) (hT : 0 < T) (delta : Int) (au : List Bytes) (pts : Int)
    (h : FirstSlice265 sps pps raw rawPPS delta au) (hr : 0 ≤ delta + R) (hp : pts = c + T * (delta + R + 1))
    (hh : pts < 2 ^ 61) :
    ∃ e' d', H265.extract (au, pts) d = (d', .ok (c + T + e')) ∧ e ≤ e' ∧ e' ≤ 0 ∧ (pts = c + T → e' = 0) ∧
      Start265 sps pps raw rawPPS R (c + T) e' 0 d' := by
  obtain ⟨f, hs, hf⟩ := rate_found265 sps pps raw rawPPS hc d hd.raw hd.rawPPS delta au h
  have hprev := hd.prev
  have b1 := hd.low
  have b2 := hd.high
  generalize hk : delta + R = k at *
  have hpts : c + T ≤ pts := by
    have : T * 1 ≤ T * (k + 1) := Int.mul_le_mul_of_nonneg_left (by omega) (by omega)
    omega
  have hdiv : (pts - d.prevDTS).tdiv (k + 1) = T + (-e) / (k + 1) := by
    rw [Int.tdiv_eq_ediv_of_nonneg (by omega), show pts - d.prevDTS = -e + T * (k + 1) by omega,
      Int.add_mul_ediv_right _ _ (by omega), Int.add_comm]
  have hq1 : 0 ≤ (-e) / (k + 1) := Int.ediv_nonneg (by omega) (by omega)
  have hq2 : (-e) / (k + 1) ≤ -e := Int.ediv_le_self _ (by omega)
  generalize hq : (-e) / (k + 1) = q at *
  have hw1 : wrap64 (pts - d.prevDTS) = pts - d.prevDTS := rate_wrap (by omega) (by omega)
  have hfin : H265.finish delta pts sps d = (d, .ok (c + T + (e + q))) := by
    unfold H265.finish
    rw [step_get, hd.reordered, if_neg (by omega), hd.pause, if_neg (by omega), if_pos hd.filled, if_neg (by omega), hw1, hk, hdiv,
      rate_wrap (by omega) (by omega), show d.prevDTS + (T + q) = c + T + (e + q) by omega]
    rfl
  have hi : H265.extractInner au pts d = (d, .ok (c + T + (e + q))) := by
    unfold H265.extractInner
    rw [step_bind hs, step_get, hd.sps]
    dsimp only
    rw [hd.pps]
    dsimp only
    have hc : H265.checkRandom f d = (d, .ok ()) := by
      unfold H265.checkRandom
      rw [step_get, if_pos hd.random]
      rfl
    rw [step_bind hc, step_bind (s' := d) (a := delta) (by rw [hf]; rfl), hfin]
  have hx : H265.extract (au, pts) d = ({ d with prevDTSFilled := true, prevDTS := c + T + (e + q) }, .ok (c + T + (e + q))) := by
    unfold H265.extract
    dsimp only
    rw [step_bind hi, step_get, if_neg (by omega), if_neg (by rintro ⟨-, h⟩; omega)]
    rfl
  refine ⟨e + q, _, hx, by omega, by omega, fun h => ?_,
    ⟨hd.raw, hd.rawPPS, hd.sps, hd.pps, hd.random, rfl, rfl, hd.pause, hd.reordered, by omega, by omega⟩⟩
  have h2 : T * (k + 1) = T * k + T := by rw [Int.mul_add, Int.mul_one]
  have h3 : T * k = 0 := by omega
  have h4 : k = 0 := by
    rcases Int.mul_eq_zero.1 h3 with h | h
    · omega
    · exact h
  rw [h4] at hq
  have : (-e) / (0 + 1) = -e := Int.ediv_one _
  omega

theorem start265_after (sps : H265.SPS) (pps : H265.PPS) (raw rawPPS : Bytes) (hc : Conforming265 sps)
    (R T : Int) (hT : 0 < T) (l : List (List Bytes × Int)) :
    ∀ (c e : Int) (d : H265.DTSExtractor), Start265 sps pps raw rawPPS R c e 0 d → e ≤ 0 →
    Regular265 sps pps raw rawPPS R T c l → (∀ x ∈ l, x.2 < 2 ^ 61) →
    ∃ es : List Int, es.length = l.length ∧
      calls H265.extract d l = (List.zipWith (· + ·) (clock (c + T) T l.length) es).map .ok ∧
      (∀ x ∈ es, e ≤ x ∧ x ≤ 0) ∧ es.Pairwise (· ≤ ·) ∧
      (∀ (j : Nat) au, l[j]? = some (au, c + T + T * (j : Int)) → ∀ x ∈ es.drop j, x = 0) := by
  induction l with
  | nil => intro c e d _ _ _ _; exact ⟨[], rfl, rfl, by simp, .nil, by simp⟩
  | cons x l ih =>
    obtain ⟨au, pts⟩ := x
    intro c e d hd he hl h61
    unfold Regular265 at hl
    obtain ⟨⟨delta, g1, g2, g3, g4, g5⟩, hl'⟩ := hl
    obtain ⟨e', d', k1, k2, k3, k4, k5⟩ := start265_step sps pps raw rawPPS hc hd he hT delta au pts g1 g2 g3 (h61 (au, pts) (by simp))
    obtain ⟨es, i1, i2, i3, i4, i5⟩ := ih (c + T) e' d' k5 k3 hl' (fun x hx => h61 x (by simp [hx]))
    refine ⟨e' :: es, by simp [i1], ?_, ?_, ?_, ?_⟩
    · simp only [calls, k1, i2, List.length_cons, clock, List.zipWith_cons_cons, List.map_cons]
    · intro x hx
      rcases List.mem_cons.1 hx with rfl | hx
      · exact ⟨k2, k3⟩
      · have := i3 x hx; omega
    · exact List.pairwise_cons.2 ⟨fun x hx => (i3 x hx).1, i4⟩
    · intro j au' hj x hx
      cases j with
      | zero =>
        have hj : pts = c + T := by
          have := (Prod.mk.inj (Option.some.inj hj)).2
          rw [this]; simp
        rcases List.mem_cons.1 hx with rfl | hx
        · exact k4 hj
        · have := i3 x hx
          have := k4 hj
          omega
      | succ j =>
        refine i5 j au' ?_ x hx
        rw [List.getElem?_cons_succ] at hj
        rw [hj]
        have e1 : T * ((j + 1 : Nat) : Int) = T * j + T := by
          rw [show ((j + 1 : Nat) : Int) = (j : Int) + 1 from rfl, Int.mul_add, Int.mul_one]
        rw [e1]
        rw [show c + T + (T * (j : Int) + T) = c + T + T + T * j by omega]

theorem start265_run (sps : H265.SPS) (pps : H265.PPS) (raw rawPPS : Bytes) (hc : Conforming265 sps)
    (R T : Int) (hT : 90 ≤ T) (m : Nat) :
    ∀ (l : List (List Bytes × Int)) (c e : Int) (d : H265.DTSExtractor), Start265 sps pps raw rawPPS R c e m d → e ≤ 0 →
    Regular265 sps pps raw rawPPS R T c l → (∀ x ∈ l, x.2 < 2 ^ 61) →
    ∃ es : List Int, es.length = l.length ∧
      calls H265.extract d l = (List.zipWith (· + ·) (clock (c + T) T l.length) es).map .ok ∧
      (∀ x ∈ es, e - (T - 90) * m ≤ x ∧ x ≤ 0) ∧ (es.drop m).Pairwise (· ≤ ·) ∧
      (∀ (j : Nat) au, m ≤ j → l[j]? = some (au, c + T + T * (j : Int)) → ∀ x ∈ es.drop j, x = 0) := by
  induction m with
  | zero =>
    intro l c e d hd he hl h61
    obtain ⟨es, i1, i2, i3, i4, i5⟩ := start265_after sps pps raw rawPPS hc R T (by omega) l c e d hd he hl h61
    refine ⟨es, i1, i2, fun x hx => ?_, i4, fun j au _ => i5 j au⟩
    have := i3 x hx
    simp only [Int.natCast_zero, Int.mul_zero]
    omega
  | succ m ih =>
    intro l c e d hd he hl h61
    cases l with
    | nil => exact ⟨[], rfl, rfl, by simp, by simp, by simp⟩
    | cons x l =>
    obtain ⟨au, pts⟩ := x
    unfold Regular265 at hl
    obtain ⟨⟨delta, g1, g2, g3, g4, g5⟩, hl'⟩ := hl
    obtain ⟨d', k1, k2⟩ := start265_pause sps pps raw rawPPS hc hd he hT delta au pts g1 g2 g3 (h61 (au, pts) (by simp))
    obtain ⟨es, i1, i2, i3, i4, i5⟩ := ih l (c + T) (e + 90 - T) d' k2 (by omega) hl' (fun x hx => h61 x (by simp [hx]))
    have e0 : (T - 90) * ((m + 1 : Nat) : Int) = (T - 90) * m + (T - 90) := by
      rw [show ((m + 1 : Nat) : Int) = (m : Int) + 1 from rfl, Int.mul_add, Int.mul_one]
    have e2 : 0 ≤ (T - 90) * (m : Int) := Int.mul_nonneg (by omega) (by omega)
    refine ⟨(e + 90 - T) :: es, by simp [i1], ?_, ?_, ?_, ?_⟩
    · simp only [calls, k1, i2, List.length_cons, clock, List.zipWith_cons_cons, List.map_cons]
    · intro x hx
      rw [e0]
      rcases List.mem_cons.1 hx with rfl | hx
      · omega
      · have := i3 x hx; omega
    · exact i4
    · intro j au' hm hj x hx
      cases j with
      | zero => omega
      | succ j =>
        refine i5 j au' (by omega) ?_ x hx
        rw [List.getElem?_cons_succ] at hj
        rw [hj]
        have e1 : T * ((j + 1 : Nat) : Int) = T * j + T := by
          rw [show ((j + 1 : Nat) : Int) = (j : Int) + 1 from rfl, Int.mul_add, Int.mul_one]
        rw [e1]
        rw [show c + T + (T * (j : Int) + T) = c + T + T + T * j by omega]

/-- C64 (H265): a fresh extractor, a first access unit with SPS, PPS and IDR, one sub-layer, and an SPS that says that pictures take `T`
ticks and that `R` pictures are reordered. Every access unit gets a DTS. The first one is the decoding time; no other is after the
decoding time, nor before it by more than `R - 1` pictures; after `R - 1` pictures the distance never grows, and it is zero
as soon as a picture is presented when it is decoded. -/
theorem C64_h265 (sps : H265.SPS) (pps : H265.PPS) (raw rawPPS : Bytes) (hc : Conforming265 sps)
    (hu : ({} : H265.SPS).unmarshal raw = .ok sps)
    (hq : H265.PPS.unmarshal rawPPS = .ok pps) (R : Nat) (hR : R ≤ 16) (hr : sps.maxNumReorderPics = [R]) (T : Int) (hT : 90 ≤ T)
    (ht : Timing265 sps T) (au : List Bytes) (h : FirstUnit265 raw rawPPS au) (pts : Int) (hl1 : -2 ^ 61 ≤ pts - T * R)
    (hh : pts < 2 ^ 61) (l : List (List Bytes × Int)) (hl : Regular265 sps pps raw rawPPS R T (pts - T * R) l)
    (h61 : ∀ x ∈ l, x.2 < 2 ^ 61) :
    ∃ es : List Int, es.length = l.length ∧
      calls H265.extract {} ((au, pts) :: l) =
        ((pts - T * R) :: List.zipWith (· + ·) (clock (pts - T * R + T) T l.length) es).map .ok ∧
      (∀ x ∈ es, -((T - 90) * (R - 1 : Nat)) ≤ x ∧ x ≤ 0) ∧ (es.drop (R - 1)).Pairwise (· ≤ ·) ∧
      (∀ (j : Nat) au', R - 1 ≤ j → l[j]? = some (au', pts - T * R + T + T * (j : Int)) → ∀ x ∈ es.drop j, x = 0) := by
  have hri : H265.initialReorder sps = R := by unfold H265.initialReorder; rw [hr]
  obtain ⟨d', hx, hd⟩ := start265_first sps pps raw rawPPS hu hq au h R hri pts (T * R) (start265_firstDiff sps T ht R hR)
    (Int.mul_nonneg (by omega) (by omega)) hl1 hh
  obtain ⟨es, i1, i2, i3, i4, i5⟩ := start265_run sps pps raw rawPPS hc R T hT (R - 1) l (pts - T * R) 0 d' hd (by omega) hl h61
  refine ⟨es, i1, ?_, fun x hx => ?_, i4, i5⟩
  · simp only [calls, hx, i2, List.map_cons]
  · have := i3 x hx
    omega

/-- C64 (H265) is false with more than one sub-layer: the number of reordered pictures is then not taken from the SPS, and every
picture that is presented before one that is decoded earlier is refused, unless the distance is made up by other pictures. -/
theorem C64_h265_layers_false (sps : H265.SPS) (pps : H265.PPS) (raw rawPPS : Bytes) (hc : Conforming265 sps)
    (hu : ({} : H265.SPS).unmarshal raw = .ok sps)
    (hq : H265.PPS.unmarshal rawPPS = .ok pps) (hr : sps.maxNumReorderPics.length ≠ 1) (T : Int) (ht : Timing265 sps T)
    (au : List Bytes) (h : FirstUnit265 raw rawPPS au) (pts : Int) (hl1 : -2 ^ 61 ≤ pts) (hh : pts < 2 ^ 61) (delta : Int)
    (hd : delta < 0) (au' : List Bytes) (h' : FirstSlice265 sps pps raw rawPPS delta au') (pts' : Int) :
    calls H265.extract {} [(au, pts), (au', pts')] = [.ok pts, .err "negative pts-dts difference"] := by
  have hri : H265.initialReorder sps = (0 : Nat) := by
    unfold H265.initialReorder
    split
    · rename_i n hn; rw [hn] at hr; exact absurd rfl hr
    · rfl
  obtain ⟨d', hx, hd'⟩ := start265_first sps pps raw rawPPS hu hq au h 0 hri pts 0
    ((start265_firstDiff sps T ht 0 (by decide)).trans (by simp)) (by omega) (by omega) hh
  obtain ⟨f, hs, hf⟩ := rate_found265 sps pps raw rawPPS hc d' hd'.raw hd'.rawPPS delta au' h'
  have hfin : H265.finish delta pts' sps d' = (d', .err "negative pts-dts difference") := by
    unfold H265.finish
    rw [step_get, hd'.reordered, if_pos (by omega)]
    rfl
  have hi : H265.extractInner au' pts' d' = (d', .err "negative pts-dts difference") := by
    unfold H265.extractInner
    rw [step_bind hs, step_get, hd'.sps]
    dsimp only
    rw [hd'.pps]
    dsimp only
    have hc : H265.checkRandom f d' = (d', .ok ()) := by
      unfold H265.checkRandom
      rw [step_get, if_pos hd'.random]
      rfl
    rw [step_bind hc, step_bind (s' := d') (a := delta) (by rw [hf]; rfl), hfin]
  have hx2 : H265.extract (au', pts') d' = (d', .err "negative pts-dts difference") := by
    unfold H265.extract
    exact step_err hi
  simp only [calls, hx, hx2, Int.sub_zero]

/-- An SPS of 640 by 480 pixels with `layers` sub-layers, one reordered picture and 30 pictures per second. -/
def start265SPS (layers : Nat) : H265.SPS :=
  { maxSubLayersMinus1 := layers - 1, temporalIDNestingFlag := true,
    profileTierLevel :=
      { generalProfileIdc := 1, generalProfileCompatibilityFlag := [false, true, true] ++ List.replicate 29 false,
        generalProgressiveSourceFlag := true, generalFrameOnlyConstraintFlag := true, generalLevelIdc := 93,
        subLayerProfilePresentFlag := List.replicate (layers - 1) false,
        subLayerLevelPresentFlag := List.replicate (layers - 1) false },
    chromaFormatIdc := 1, picWidthInLumaSamples := 640, picHeightInLumaSamples := 480, subLayerOrderingInfoPresentFlag := true,
    maxDecPicBufferingMinus1 := List.replicate layers 1, maxNumReorderPics := List.replicate layers 1,
    maxLatencyIncreasePlus1 := List.replicate layers 0, log2DiffMaxMinLumaCodingBlockSize := 3,
    log2DiffMaxMinLumaTransformBlockSize := 3, maxTransformHierarchyDepthInter := 1, maxTransformHierarchyDepthIntra := 1,
    ampEnabledFlag := true, sampleAdaptiveOffsetEnabledFlag := true, temporalMvpEnabledFlag := true,
    strongIntraSmoothingEnabledFlag := true, vui := some { timingInfo := some { numUnitsInTick := 1, timeScale := 30 } } }

/-- With one sub-layer. -/
def start265Raw : Bytes :=
  [0x42, 0x01, 0x01, 0x01, 0x60, 0x00, 0x00, 0x03, 0x00, 0x90, 0x00, 0x00, 0x03, 0x00, 0x00, 0x03, 0x00, 0x5d, 0xa0, 0x05, 0x02, 0x01,
   0xe1, 0x7a, 0x59, 0x24, 0x49, 0xae, 0x01, 0x00, 0x00, 0x03, 0x00, 0x01, 0x00, 0x00, 0x03, 0x00, 0x1e, 0x0c]

/-- With two sub-layers. -/
def start265Raw2 : Bytes :=
  [0x42, 0x01, 0x03, 0x01, 0x60, 0x00, 0x00, 0x03, 0x00, 0x90, 0x00, 0x00, 0x03, 0x00, 0x00, 0x03, 0x00, 0x5d, 0x00, 0x00, 0xa0, 0x05,
   0x02, 0x01, 0xe1, 0x7a, 0x54, 0xb2, 0x48, 0x93, 0x5c, 0x02, 0x00, 0x00, 0x03, 0x00, 0x02, 0x00, 0x00, 0x03, 0x00, 0x3c, 0x18]

/-- A PPS. -/
def start265PPS : Bytes := [0x44, 0x01, 0xc0, 0x78]

/-- A P picture that follows its reference picture by two. -/
theorem start265_P (n : Nat) (raw rawPPS : Bytes) : FirstSlice265 (start265SPS n) {} raw rawPPS 1 [[2, 1, 0xD1, 0x15, 0x60]] :=
  ⟨[], 2, _, [], rfl, by simp, .inr ⟨⟨1, by simp, rfl⟩, 1, [0xD1, 0x15, 0x60],
      ⟨0, 1, 2, ⟨false, 0, false, 0, 1, 0, [-2], [true], [], []⟩, false⟩, _, [true, false, false, false, false, false], rfl, by decide,
      ⟨(), _, _, rfl, ⟨(), [], _, rfl, ⟨0, _, _, ⟨by decide, rfl⟩, ⟨(), [], _, rfl, ⟨1, _, _, ⟨by decide, rfl⟩,
    ⟨false, [], _, ⟨rfl, rfl⟩, ⟨0, [], _, ⟨rfl, rfl⟩, ⟨2, bitsOfNat 4 2, _, ⟨by simp [start265SPS], rfl⟩, ⟨false, _, _, rfl, ⟨_, _, _, ⟨false, [], _,
    ⟨rfl, rfl⟩, ⟨1, _, _, ⟨1, by decide, rfl, rfl⟩, ⟨0, _, _, ⟨0, by decide, rfl, rfl⟩, ⟨(), [], _, ⟨by decide, rfl⟩,
    ⟨[(-2, true)], _, _, ⟨1, _, _, ⟨1, by decide, rfl, rfl⟩, ⟨true, _, _, rfl, ⟨_, _, _, ⟨rfl, rfl⟩, ⟨rfl, rfl⟩, rfl⟩, rfl⟩, rfl⟩,
    ⟨(), [], _, ⟨by decide, rfl⟩, ⟨[], [], _, ⟨rfl, rfl⟩, ⟨rfl, rfl⟩, rfl⟩, rfl⟩, rfl⟩, rfl⟩, rfl⟩, rfl⟩, rfl⟩, ⟨rfl, rfl⟩,
    rfl⟩, rfl⟩, rfl⟩, rfl⟩, rfl⟩, rfl⟩, rfl⟩, rfl⟩, rfl⟩, rfl⟩, by decide +kernel, (fun h => by cases h), by decide +kernel, by decide +kernel⟩⟩

/-- A B picture, not used for reference, with one reference picture before and one after. -/
theorem start265_B (n : Nat) (raw rawPPS : Bytes) : FirstSlice265 (start265SPS n) {} raw rawPPS (-1) [[0, 1, 0xE2, 0x4B, 0xE0]] :=
  ⟨[], 0, _, [], rfl, by simp, .inr ⟨⟨0, by simp, rfl⟩, 1, [0xE2, 0x4B, 0xE0],
      ⟨0, 0, 1, ⟨false, 0, false, 0, 1, 1, [-1], [true], [1], [true]⟩, false⟩, _, [true, false, false, false, false, false], rfl, by decide,
      ⟨(), _, _, rfl, ⟨(), [], _, rfl, ⟨0, _, _, ⟨by decide, rfl⟩, ⟨(), [], _, rfl, ⟨0, _, _, ⟨by decide, rfl⟩,
    ⟨false, [], _, ⟨rfl, rfl⟩, ⟨0, [], _, ⟨rfl, rfl⟩, ⟨1, bitsOfNat 4 1, _, ⟨by simp [start265SPS], rfl⟩, ⟨false, _, _, rfl, ⟨_, _, _, ⟨false, [], _,
    ⟨rfl, rfl⟩, ⟨1, _, _, ⟨1, by decide, rfl, rfl⟩, ⟨1, _, _, ⟨1, by decide, rfl, rfl⟩, ⟨(), [], _, ⟨by decide, rfl⟩,
    ⟨[(-1, true)], _, _, ⟨0, _, _, ⟨0, by decide, rfl, rfl⟩, ⟨true, _, _, rfl, ⟨_, _, _, ⟨rfl, rfl⟩, ⟨rfl, rfl⟩, rfl⟩, rfl⟩, rfl⟩,
    ⟨(), [], _, ⟨by decide, rfl⟩, ⟨[(1, true)], _, _, ⟨0, _, _, ⟨0, by decide, rfl, rfl⟩, ⟨true, _, _, rfl, ⟨_, _, _, ⟨rfl, rfl⟩,
    ⟨rfl, rfl⟩, rfl⟩, rfl⟩, rfl⟩, ⟨rfl, rfl⟩, rfl⟩, rfl⟩, rfl⟩, rfl⟩, rfl⟩, rfl⟩, rfl⟩, ⟨rfl, rfl⟩,
    rfl⟩, rfl⟩, rfl⟩, rfl⟩, rfl⟩, rfl⟩, rfl⟩, rfl⟩, rfl⟩, rfl⟩, by decide +kernel, (fun h => by cases h), by decide +kernel, by decide +kernel⟩⟩

theorem start265_unit (raw : Bytes) (h : type265 raw = some 33) : FirstUnit265 raw start265PPS [[0x40, 1], raw, start265PPS, [0x26, 1]] :=
  ⟨[[0x40, 1]], [], [], [0x26, 1], [], rfl, h, rfl, .inl rfl, fun x hx => by
    rw [List.append_nil, List.append_nil, List.mem_singleton] at hx
    subst hx
    exact ⟨by simp, by decide⟩⟩

/-- VPS, SPS, PPS and IDR; a P picture and a B picture. -/
example : Conforming265 (start265SPS 1) ∧ ({} : H265.SPS).unmarshal start265Raw = .ok (start265SPS 1) ∧
    H265.PPS.unmarshal start265PPS = .ok {} ∧ (start265SPS 1).maxNumReorderPics = [1] ∧ Timing265 (start265SPS 1) 3000 ∧
    FirstUnit265 start265Raw start265PPS [[0x40, 1], start265Raw, start265PPS, [0x26, 1]] ∧
    Regular265 (start265SPS 1) {} start265Raw start265PPS 1 3000 87000
      [([[2, 1, 0xD1, 0x15, 0x60]], 96000), ([[0, 1, 0xE2, 0x4B, 0xE0]], 93000)] ∧
    calls H265.extract {} [([[0x40, 1], start265Raw, start265PPS, [0x26, 1]], 90000), ([[2, 1, 0xD1, 0x15, 0x60]], 96000),
      ([[0, 1, 0xE2, 0x4B, 0xE0]], 93000)] = [.ok 87000, .ok 90000, .ok 93000] :=
  ⟨⟨by decide, by decide, fun r h => by cases h⟩, by decide +kernel, by decide +kernel, rfl, ⟨_, _, rfl, rfl, by decide, by decide, by decide⟩,
    start265_unit _ rfl,
    ⟨⟨1, start265_P 1 _ _, by decide, by decide, by decide, by decide⟩,
     ⟨-1, start265_B 1 _ _, by decide, by decide, by decide, by decide⟩, trivial⟩, by decide +kernel⟩

/-- The same pictures with two sub-layers. -/
example : Conforming265 (start265SPS 2) ∧ ({} : H265.SPS).unmarshal start265Raw2 = .ok (start265SPS 2) ∧
    (start265SPS 2).maxNumReorderPics = [1, 1] ∧ Timing265 (start265SPS 2) 3000 ∧
    FirstUnit265 start265Raw2 start265PPS [[0x40, 1], start265Raw2, start265PPS, [0x26, 1]] ∧
    FirstSlice265 (start265SPS 2) {} start265Raw2 start265PPS (-1) [[0, 1, 0xE2, 0x4B, 0xE0]] ∧
    calls H265.extract {} [([[0x40, 1], start265Raw2, start265PPS, [0x26, 1]], 90000), ([[2, 1, 0xD1, 0x15, 0x60]], 96000),
      ([[0, 1, 0xE2, 0x4B, 0xE0]], 93000)] = [.ok 90000, .ok 93000, .err "negative pts-dts difference"] :=
  ⟨⟨by decide, by decide, fun r h => by cases h⟩, by decide +kernel, rfl, ⟨_, _, rfl, rfl, by decide, by decide, by decide⟩,
    start265_unit _ rfl, start265_B 2 _ _, by decide +kernel⟩

end Verif.Props
