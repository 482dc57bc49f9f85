import Verif.Spec.Rate
import Verif.Props.SliceHeader

/-!
# C62: DTS of streams with a constant frame rate
-/

namespace Verif.Props
open Verif.Spec Verif.H264 Verif.Spec.Slice Verif.Spec.Rate Verif.StepM
open Verif.Spec.DTS (type264 type265)
open TS (wrap64)

/-! ## Arithmetic -/

theorem rate_step {prev c T e k pts : Int} (hk : 0 ≤ k) (h1 : prev = c + e) (h2 : pts = c + T * (k + 1)) (he : 0 ≤ e)
    (hT : e ≤ T) : ∃ e', prev + (pts - prev).tdiv (k + 1) = c + T + e' ∧ 0 ≤ e' ∧ (e' = 0 ∨ e' < e) ∧ e' ≤ e ∧
      prev ≤ prev + (pts - prev).tdiv (k + 1) ∧ prev + (pts - prev).tdiv (k + 1) ≤ pts := by
  have hm : 0 < k + 1 := by omega
  have hT0 : 0 ≤ T := by omega
  have hTm : T * 1 ≤ T * (k + 1) := Int.mul_le_mul_of_nonneg_left (by omega) hT0
  have hx : 0 ≤ pts - prev := by omega
  rw [Int.tdiv_eq_ediv_of_nonneg hx]
  have hq0 : 0 ≤ (pts - prev) / (k + 1) := Int.ediv_nonneg hx (by omega)
  have hq1 : (k + 1) * ((pts - prev) / (k + 1)) ≤ pts - prev := Int.mul_ediv_self_le (by omega)
  have hq2 : pts - prev < (k + 1) * ((pts - prev) / (k + 1)) + (k + 1) := Int.lt_mul_ediv_self_add hm
  have hq3 : (pts - prev) / (k + 1) ≤ pts - prev := Int.ediv_le_self _ hx
  generalize (pts - prev) / (k + 1) = q at *
  refine ⟨e + q - T, by omega, ?_, ?_, ?_, by omega, by omega⟩
  · have : (k + 1) * (T - q) < (k + 1) * (e + 1) := by
      have e1 : (k + 1) * (T - q) = T * (k + 1) - (k + 1) * q := by rw [Int.mul_sub, Int.mul_comm (k + 1) T]
      have e2 : (k + 1) * (e + 1) = k * e + e + (k + 1) := by rw [Int.mul_add, Int.add_mul]; omega
      have e3 : 0 ≤ k * e := Int.mul_nonneg hk he
      omega
    have := Int.lt_of_mul_lt_mul_left this (by omega)
    omega
  · by_cases h0 : e = 0
    · left
      have : (k + 1) * q < (k + 1) * (T + 1) := by
        have e1 : (k + 1) * (T + 1) = T * (k + 1) + (k + 1) := by rw [Int.mul_add, Int.mul_comm (k + 1) T]; omega
        omega
      have a1 := Int.lt_of_mul_lt_mul_left this (by omega)
      have : (k + 1) * T < (k + 1) * (q + 1) := by
        have e1 : (k + 1) * T = T * (k + 1) := Int.mul_comm _ _
        have e2 : (k + 1) * (q + 1) = (k + 1) * q + (k + 1) := by rw [Int.mul_add]; omega
        omega
      have a2 := Int.lt_of_mul_lt_mul_left this (by omega)
      omega
    · right
      have : (k + 1) * q < (k + 1) * T := by
        have e1 : (k + 1) * T = T * (k + 1) := Int.mul_comm _ _
        omega
      have := Int.lt_of_mul_lt_mul_left this (by omega)
      omega
  · have : (k + 1) * q < (k + 1) * (T + 1) := by
      have e1 : (k + 1) * (T + 1) = T * (k + 1) + (k + 1) := by rw [Int.mul_add, Int.mul_comm (k + 1) T]; omega
      omega
    have := Int.lt_of_mul_lt_mul_left this (by omega)
    omega

theorem rate_wrap {v : Int} (h1 : -2 ^ 63 ≤ v) (h2 : v < 2 ^ 63) : wrap64 v = v := by
  unfold wrap64; omega

/-! ## Running code -/

theorem step_bind {σ α β : Type} {p : StepM σ α} {f : α → StepM σ β} {s s' : σ} {a : α} (h : p s = (s', .ok a)) :
    (p >>= f) s = f a s' := by
  show (match p s with
    | (s, .ok a) => f a s
    | (s, .err e) => (s, .err e)
    | (s, .panic) => (s, .panic)) = _
  rw [h]

theorem step_get {σ β : Type} {f : σ → StepM σ β} {s : σ} : (StepM.get >>= f) s = f s s := rfl

theorem step_modify {σ β : Type} {g : σ → σ} {f : Unit → StepM σ β} {s : σ} : (StepM.modify g >>= f) s = f () (g s) := rfl

/-! ## H264 -/

theorem rate_scan264 (raw : Bytes) (d : DTSExtractor) (hd : d.sps = raw) (k : UInt8) (hk : k = 1 ∨ k = 5) (n : UInt8) (t : Bytes)
    (post : List Bytes) (hn : n &&& 0x1F = k) :
    ∀ (pre : List Bytes), (∀ x ∈ pre, x ≠ [] ∧ type264 x ≠ some 1 ∧ type264 x ≠ some 5 ∧ (type264 x = some 7 → x = raw)) →
    ∀ nz, ∃ nz', scan nz (pre ++ (n :: t) :: post) d =
      (d, .ok (if k = 5 then { idr := some (n :: t), nonZeroNalRefIDFound := nz' }
               else { nonIDR := some (n :: t), nonZeroNalRefIDFound := nz' })) := by
  intro pre
  induction pre with
  | nil =>
    intro _ nz
    refine ⟨nz || decide (n &&& 0x60 > 0), ?_⟩
    rw [List.nil_append]
    unfold scan
    rw [step_bind (s' := d) (a := n) rfl]
    rw [hn]
    rcases hk with rfl | rfl <;> rfl
  | cons x pre ih =>
    intro hx nz
    obtain ⟨h1, h2, h3, h4⟩ := hx x List.mem_cons_self
    obtain ⟨b, r, rfl⟩ := List.exists_cons_of_ne_nil h1
    obtain ⟨nz', hr⟩ := ih (fun y hy => hx y (List.mem_cons_of_mem _ hy)) (nz || decide (b &&& 0x60 > 0))
    refine ⟨nz', ?_⟩
    rw [List.cons_append]
    unfold scan
    rw [step_bind (s' := d) (a := b) rfl]
    have t1 : ∀ j : UInt8, type264 (b :: r) ≠ some j.toNat → b &&& 0x1F ≠ j := by
      intro j hj e
      exact hj (by rw [dts_typeEq] at e; show some (b.toNat % 32) = _; rw [e])
    by_cases h7 : b &&& 0x1F = 7
    · rw [if_pos h7]
      have : handleSPS (b :: r) d = (d, .ok ()) := by
        unfold handleSPS
        rw [step_get, if_pos]
        · rfl
        · rw [hd, h4 (by rw [dts_typeEq] at h7; show some (b.toNat % 32) = _; rw [h7]; rfl)]
      rw [step_bind this]
      exact hr
    · rw [if_neg h7, if_neg (t1 5 h3), if_neg (t1 1 h2)]
      exact hr

theorem rate_and (a : Nat) {k : Nat} (hk : k ≤ 32) : a % 2 ^ 32 &&& (2 ^ k - 1) = a % 2 ^ k := by
  rw [Nat.and_two_pow_sub_one_eq_mod, Nat.mod_mod_of_dvd _ (Nat.pow_dvd_pow 2 hk)]

theorem rate_maxPOC {sps : SPS} (h : sps.log2MaxPicOrderCntLsbMinus4 ≤ 12) :
    maxPOC sps = 2 ^ (sps.log2MaxPicOrderCntLsbMinus4 + 4) := by
  unfold maxPOC
  rw [slice_plus4 h, if_pos (by omega)]

theorem rate_sub1 {k : Nat} (hk : k ≤ 16) : sub32 (2 ^ k) 1 = 2 ^ k - 1 := by
  have h1 : 2 ^ k ≤ 2 ^ 16 := Nat.pow_le_pow_right (by omega) hk
  have h2 : 0 < 2 ^ k := Nat.pow_pos (by omega)
  unfold sub32
  omega

theorem rate_diff {sps : SPS} (h : sps.log2MaxPicOrderCntLsbMinus4 ≤ 12) (x y : Nat)
    (h1 : 2 * y < 2 * x + 2 ^ (sps.log2MaxPicOrderCntLsbMinus4 + 4))
    (h2 : 2 * x ≤ 2 * y + 2 ^ (sps.log2MaxPicOrderCntLsbMinus4 + 4)) :
    pictureOrderCountDiff (x % 2 ^ (sps.log2MaxPicOrderCntLsbMinus4 + 4)) (y % 2 ^ (sps.log2MaxPicOrderCntLsbMinus4 + 4)) sps =
      (x : Int) - y := by
  unfold pictureOrderCountDiff
  rw [rate_maxPOC h]
  have hk : sps.log2MaxPicOrderCntLsbMinus4 + 4 ≤ 16 := by omega
  have hk1 : 1 ≤ sps.log2MaxPicOrderCntLsbMinus4 + 4 := by omega
  generalize sps.log2MaxPicOrderCntLsbMinus4 + 4 = k at *
  have hM1 : 2 ^ k ≤ 2 ^ 16 := Nat.pow_le_pow_right (by omega) hk
  obtain ⟨q, hq⟩ : 2 ^ k ∣ 2 ^ 32 := Nat.pow_dvd_pow 2 (by omega)
  have hM2 : 2 ^ k = 2 * 2 ^ (k - 1) := by
    conv => lhs; rw [show k = k - 1 + 1 by omega, Nat.pow_succ, Nat.mul_comm]
  have hM3 : 0 < 2 ^ (k - 1) := Nat.pow_pos (by omega)
  have hsub : sub32 (x % 2 ^ k) (y % 2 ^ k) = (x % 2 ^ k + 2 ^ 32 - y % 2 ^ k) % 2 ^ 32 := by
    have hym := Nat.mod_lt y (show 0 < 2 ^ k by omega)
    unfold sub32
    rw [Nat.mod_eq_of_lt (a := y % 2 ^ k) (by omega)]
    congr 1
    omega
  dsimp only
  rw [rate_sub1 hk, hsub, rate_and _ (by omega)]
  generalize 2 ^ (k - 1) = H at *
  generalize hM : 2 ^ k = M at *
  have hxm := Nat.mod_lt x (show 0 < M by omega)
  have hym := Nat.mod_lt y (show 0 < M by omega)
  have hd : (((x % M + 2 ^ 32 - y % M) % M : Nat) : Int) = ((x : Int) - y) % M := by
    have e1 : ((x % M + 2 ^ 32 - y % M : Nat) : Int) = ((x : Int) - y) + M * (q - x / M + y / M) := by
      have a1 : ((x % M : Nat) : Int) = x - M * (x / M) := by
        have := Nat.mod_add_div x M
        rw [← Int.natCast_ediv, ← Int.natCast_mul]; omega
      have a2 : ((y % M : Nat) : Int) = y - M * (y / M) := by
        have := Nat.mod_add_div y M
        rw [← Int.natCast_ediv, ← Int.natCast_mul]; omega
      have a3 : (2 : Int) ^ 32 = M * q := by
        rw [← Int.natCast_mul, ← hq]; rfl
      rw [Int.mul_add, Int.mul_sub, Int.ofNat_sub (by omega), Int.natCast_add, a1, a2]
      have : ((2 ^ 32 : Nat) : Int) = (2 : Int) ^ 32 := by norm_cast
      rw [this, a3]
      omega
    rw [Int.natCast_emod, e1, Int.add_mul_emod_self_left]
  have hlt := Nat.mod_lt (x % M + 2 ^ 32 - y % M) (show 0 < M by omega)
  generalize (x % M + 2 ^ 32 - y % M) % M = v at *
  by_cases hs : y ≤ x
  · rw [Int.emod_eq_of_lt (by omega) (by omega)] at hd
    rw [if_neg (by omega)]
    unfold Bits.toInt32
    split <;> omega
  · rw [← Int.add_emod_right, Int.emod_eq_of_lt (by omega) (by omega)] at hd
    rw [if_pos (by omega)]
    unfold Bits.wrapInt32 Bits.toInt32
    split <;> split <;> omega

/-- What is needed of the stream. -/
structure Stream264Ok (S : Stream264) : Prop where
  conforming : Conforming264 S.sps
  planes : S.sps.separateColourPlaneFlag = false
  type : S.sps.picOrderCntType = 0
  frames : S.sps.frameMbsOnlyFlag = true
  inc : S.inc = 1 ∨ S.inc = 2 ∨ S.inc = 4

/-- The state after the `n`th picture since an IDR, when the increment is known: `r` reordered pictures are known, and a pause
of `m` pictures is left. The time that was returned for the picture is `c + e`. -/
structure Steady (S : Stream264) (r m : Nat) (base n p1 p2 : Nat) (c e : Int) (d : DTSExtractor) : Prop where
  raw : d.sps = S.raw
  sps : d.spsp = some S.sps
  random : d.randomReceived = true
  filled : d.prevDTSFilled = true
  prev : d.prevDTS = c + e
  pause : d.pause = m
  reordered : d.reorderedFrames = r
  inc : d.pocIncrement = S.inc
  expected : d.expectedPOC = (base + S.inc * n) % S.maxLsb
  even : S.inc = 2 → base % 2 = 0
  known : S.inc = 2 → 5 ≤ d.auCount ∨ (d.prevPOC = p1 ∧ d.prevPrevPOC = p2)
  small : p1 < 2 ^ 16 ∧ p2 < 2 ^ 16
  low : -2 ^ 62 ≤ c + e
  high : c + e < 2 ^ 62

theorem rate_tail (d : DTSExtractor) (diff pts : Int) (R : Nat) (hf : d.prevDTSFilled = true) (hp : d.pause = 0)
    (hr : d.reorderedFrames = R) (h1 : 0 ≤ diff + R) (h2 : diff + R ≤ 2 * R + 1) :
    (adjust diff >>= fun k => finish k pts) d =
      (d, .ok (wrap64 (d.prevDTS + (wrap64 (pts - d.prevDTS)).tdiv (diff + R + 1)), false)) := by
  have ha : adjust diff d = (d, .ok (diff + R)) := by
    unfold adjust
    rw [step_get, hr, if_neg (by omega), if_neg (by omega)]
    rfl
  rw [step_bind ha]
  unfold finish
  rw [step_get, hp, if_neg (by omega), if_pos hf, if_neg (by omega)]
  rfl

/-- A pause. -/
theorem rate_pause (d : DTSExtractor) (diff pts : Int) (R m : Nat) (hf : d.prevDTSFilled = true) (hp : d.pause = (m + 1 : Nat))
    (hr : d.reorderedFrames = R) (h1 : 0 ≤ diff + R) (h2 : diff + R ≤ 2 * R + 1) :
    (adjust diff >>= fun k => finish k pts) d = ({ d with pause := m }, .ok (wrap64 (d.prevDTS + 90), true)) := by
  have ha : adjust diff d = (d, .ok (diff + R)) := by
    unfold adjust
    rw [step_get, hr, if_neg (by omega), if_neg (by omega)]
    rfl
  rw [step_bind ha]
  unfold finish
  rw [step_get, hp, if_pos (by omega), step_modify, if_pos hf]
  have : d.pause - 1 = m := by omega
  rw [this]
  rfl

/-- More reordered pictures. -/
theorem rate_jump (d : DTSExtractor) (diff pts : Int) (r m : Nat) (hf : d.prevDTSFilled = true) (hp : d.pause = 0)
    (hr : d.reorderedFrames = r) (hm : r + (m + 1) ≤ 10)
    (h : diff + (r + (m + 1)) = 0 ∨ diff + (r + (m + 1)) = 2 * (r + (m + 1)) + 1) :
    (adjust diff >>= fun k => finish k pts) d =
      ({ d with reorderedFrames := (r + (m + 1) : Nat), pause := m }, .ok (wrap64 (d.prevDTS + 90), true)) := by
  have hi : increaseReordered ((m + 1 : Nat) : Int) d =
      ({ d with reorderedFrames := (r + (m + 1) : Nat), pause := (m + 1 : Nat) }, .ok ()) := by
    unfold increaseReordered
    rw [step_get, hr, if_neg (by unfold maxReorderedFrames; omega)]
    show (({ d with reorderedFrames := d.reorderedFrames + ((m + 1 : Nat) : Int), pause := d.pause + ((m + 1 : Nat) : Int) } :
      DTSExtractor), Res.ok ()) = _
    rw [hr, hp]
    rw [Int.zero_add]
    rfl
  have ha : ∃ k, adjust diff d = ({ d with reorderedFrames := (r + (m + 1) : Nat), pause := (m + 1 : Nat) }, .ok k) := by
    unfold adjust
    rw [step_get, hr]
    rcases h with h | h
    · rw [if_neg (by omega), if_pos (by omega), show -(diff + (r : Int)) = ((m + 1 : Nat) : Int) by omega, step_bind hi]
      exact ⟨_, rfl⟩
    · rw [if_pos (by omega), show diff + (r : Int) - (2 * r + 1) = ((m + 1 : Nat) : Int) by omega, step_bind hi]
      exact ⟨_, rfl⟩
  obtain ⟨k, ha⟩ := ha
  rw [step_bind ha]
  unfold finish
  rw [step_get, if_pos (by show ((m + 1 : Nat) : Int) > 0; omega), step_modify, if_pos hf]
  have : ((m + 1 : Nat) : Int) - 1 = m := by omega
  show (({ d with reorderedFrames := (r + (m + 1) : Nat), pause := ((m + 1 : Nat) : Int) - 1 } : DTSExtractor), _) = _
  rw [this]

theorem rate_extract (d d1 : DTSExtractor) (au : List Bytes) (pts v : Int) (skip : Bool) (f : Found) (sps : SPS)
    (hs : scan false au d = (d, .ok f)) (hp : d.spsp = some sps) (ht : sps.picOrderCntType = 0)
    (hm : sps.frameMbsOnlyFlag = true) (hr : d.randomReceived = true)
    (hh : handleFrame f sps pts d = (d1, .ok (v, skip))) (h1 : skip = false → v ≤ pts) (h2 : d1.prevDTS ≤ v) :
    extract (au, pts) d = ({ d1 with prevDTSFilled := true, prevDTS := v }, .ok v) := by
  have hi : extractInner au pts d = (d1, .ok (v, skip)) := by
    unfold extractInner
    rw [step_bind hs, step_get, hp]
    dsimp only
    rw [if_neg (by rw [ht, hm]; simp), if_neg (by rw [ht]; simp)]
    have hc : checkRandom f d = (d, .ok ()) := by
      unfold checkRandom
      rw [step_get, if_pos hr]
      rfl
    rw [step_bind hc, hh]
  unfold extract
  dsimp only
  rw [step_bind hi, step_get, if_neg, if_neg (by simp; omega)]
  · rfl
  · rintro ⟨g1, g2⟩
    have := h1 g1
    omega

theorem rate_poc_lt {sps : SPS} {idr : Bool} {h : Header264} {bits : List Bool}
    (hh : header264 ueMax sps idr h bits) : h.pocLsb < 2 ^ (sps.log2MaxPicOrderCntLsbMinus4 + 4) := by
  unfold header264 at hh
  obtain ⟨mb, b1, _, g1, hh, rfl⟩ := hh
  obtain ⟨t, b2, _, g2, hh, rfl⟩ := hh
  obtain ⟨p, b3, _, g3, hh, rfl⟩ := hh
  obtain ⟨c, b4, _, g4, hh, rfl⟩ := hh
  obtain ⟨n, b5, _, g5, hh, rfl⟩ := hh
  obtain ⟨i, b6, _, g6, hh, rfl⟩ := hh
  obtain ⟨q, b7, _, g7, ⟨rfl, rfl⟩, rfl⟩ := hh
  exact g7.1

/-- What is found in the access unit. -/
theorem rate_found (S : Stream264) (hS : Stream264Ok S) (d : DTSExtractor) (hd : d.sps = S.raw) (idr : Bool) (poc : Nat)
    (au : List Bytes) (h : FirstSlice264 S.sps S.raw idr poc au) (nz0 : Bool) :
    ∃ nal f, scan nz0 au d = (d, .ok f) ∧ getPictureOrderCount nal S.sps idr = .ok poc ∧ poc < S.maxLsb ∧
      (idr = true → f.idr = some nal) ∧ (idr = false → f.idr = none ∧ f.nonIDR = some nal) := by
  obtain ⟨pre, n, t, post, hd', bits, rest, rfl, h1, h2, h3, h4, rfl⟩ := h
  have h2 : n.toNat % 32 = if idr then 5 else 1 := by
    have : type264 (n :: t) = some (n.toNat % 32) := rfl
    rw [this] at h2
    exact Option.some.inj h2
  have hpoc := C61_h264_partial n t S.sps idr hS.conforming hS.planes _ bits rest h3 h4
  have hlt := rate_poc_lt h3
  cases idr
  · obtain ⟨nz, e⟩ := rate_scan264 S.raw d hd 1 (.inl rfl) n t post (by rw [dts_typeEq, h2]; rfl) pre h1 nz0
    exact ⟨n :: t, _, e, hpoc, hlt, by simp, fun _ => ⟨rfl, rfl⟩⟩
  · obtain ⟨nz, e⟩ := rate_scan264 S.raw d hd 5 (.inr rfl) n t post (by rw [dts_typeEq, h2]; rfl) pre h1 nz0
    exact ⟨n :: t, _, e, hpoc, hlt, fun _ => rfl, by simp⟩

theorem rate_maxLsb (S : Stream264) (hS : Stream264Ok S) : S.maxLsb ≤ 2 ^ 16 ∧ 0 < S.maxLsb ∧ S.maxLsb % 2 = 0 := by
  have h1 := hS.conforming.poc
  unfold Stream264.maxLsb
  refine ⟨Nat.pow_le_pow_right (by omega) (by omega), Nat.pow_pos (by omega), ?_⟩
  rw [Nat.pow_succ]; omega

/-- An IDR. -/
theorem rate_idr (S : Stream264) (hS : Stream264Ok S) {r m base n p1 p2 : Nat} {c e : Int} {d : DTSExtractor}
    (hd : Steady S r m base n p1 p2 c e d) (poc : Nat) (au : List Bytes)
    (h : FirstSlice264 S.sps S.raw true poc au) (h2 : S.inc = 2 → poc % 2 = 0) :
    ∃ f d1, scan false au d = (d, .ok f) ∧
      (∀ pts, handleFrame f S.sps pts d = (adjust 0 >>= fun k => finish k pts) d1) ∧
      Steady S r m poc 0 poc 0 c e d1 := by
  obtain ⟨nal, f, hs, hg, hlt, hi, -⟩ := rate_found S hS d hd.raw true poc au h false
  obtain ⟨m1, m2, m3⟩ := rate_maxLsb S hS
  have hx : poc = (poc + S.inc * 0) % S.maxLsb := by rw [Nat.mul_zero, Nat.add_zero, Nat.mod_eq_of_lt hlt]
  obtain ⟨d1, k1, k2⟩ : ∃ d1, handleIDR nal S.sps d = (d1, .ok 0) ∧ Steady S r m poc 0 poc 0 c e d1 := by
    by_cases hinc : S.inc = 2
    · refine ⟨{ d with expectedPOC := poc, auCount := 1, prevPrevPOC := 0, prevPOC := poc }, ?_, ?_⟩
      · unfold handleIDR
        rw [hg]
        dsimp only
        rw [step_modify, step_get, if_pos (by show d.pocIncrement = 2; rw [hd.inc, hinc]; rfl), step_modify,
          if_neg (by rw [h2 hinc]; simp)]
        rfl
      · exact ⟨hd.raw, hd.sps, hd.random, hd.filled, hd.prev, hd.pause, hd.reordered, hd.inc, hx, h2, fun _ => .inr ⟨rfl, rfl⟩,
          ⟨by omega, by omega⟩, hd.low, hd.high⟩
    · refine ⟨{ d with expectedPOC := poc }, ?_, ?_⟩
      · unfold handleIDR
        rw [hg]
        dsimp only
        rw [step_modify, step_get, if_neg (by show d.pocIncrement ≠ 2; rw [hd.inc]; omega)]
        rfl
      · exact ⟨hd.raw, hd.sps, hd.random, hd.filled, hd.prev, hd.pause, hd.reordered, hd.inc, hx, h2,
          fun hc => absurd hc hinc, ⟨by omega, by omega⟩, hd.low, hd.high⟩
  refine ⟨f, d1, hs, fun pts => ?_, k2⟩
  unfold handleFrame
  rw [hi rfl]
  dsimp only
  rw [step_bind k1]

/-- The increment is not changed. -/
theorem rate_increment (S : Stream264) (hS : Stream264Ok S) {r m base n p1 p2 : Nat} {c e : Int} {d : DTSExtractor}
    (hd : Steady S r m base n p1 p2 c e d) (p : Nat)
    (hpat : S.inc = 2 → ¬ ((base + S.inc * p) % S.maxLsb = p1 + 4 ∧ p1 = p2 + 4)) :
    ∃ d1, updateIncrement ((base + S.inc * p) % S.maxLsb) d = (d1, .ok ()) ∧
      Steady S r m base n ((base + S.inc * p) % S.maxLsb) p1 c e d1 := by
  obtain ⟨m1, m2, m3⟩ := rate_maxLsb S hS
  have hlt := Nat.mod_lt (base + S.inc * p) m2
  obtain ⟨s1, s2⟩ := hd.small
  unfold updateIncrement
  rw [step_get]
  by_cases hc : d.auCount < 5 ∧ d.pocIncrement = 2
  · have hinc : S.inc = 2 := by have := hd.inc; omega
    have hev := hd.even hinc
    obtain ⟨r1, r2⟩ : d.prevPOC = p1 ∧ d.prevPrevPOC = p2 := (hd.known hinc).resolve_left (by omega)
    have hpat := hpat hinc
    have e2 : (base + S.inc * p) % S.maxLsb % 2 = 0 := by
      rw [Nat.mod_mod_of_dvd _ (Nat.dvd_of_mod_eq_zero m3), hinc]; omega
    rw [if_pos hc]
    generalize (base + S.inc * p) % S.maxLsb = v at *
    have hdet : detectIncrement v d = (d, .ok ()) := by
      unfold detectIncrement
      rw [step_get, if_neg (by rw [e2]; simp), if_neg]
      · rfl
      · rintro ⟨-, -, g1, g2⟩
        rw [r1] at g1 g2
        rw [r2] at g2
        exact hpat (by omega)
    rw [step_bind hdet]
    exact ⟨_, rfl, ⟨hd.raw, hd.sps, hd.random, hd.filled, hd.prev, hd.pause, hd.reordered, hd.inc, hd.expected, hd.even,
      fun _ => .inr ⟨rfl, r1⟩, ⟨by omega, s1⟩, hd.low, hd.high⟩⟩
  · rw [if_neg hc]
    refine ⟨d, rfl, ⟨hd.raw, hd.sps, hd.random, hd.filled, hd.prev, hd.pause, hd.reordered, hd.inc, hd.expected, hd.even,
      fun h => .inl ?_, ⟨by omega, s1⟩, hd.low, hd.high⟩⟩
    have := hd.inc
    omega

/-- A picture that is not an IDR. -/
theorem rate_nonIDR (S : Stream264) (hS : Stream264Ok S) {r m base n p1 p2 : Nat} {c e : Int} {d : DTSExtractor}
    (hd : Steady S r m base n p1 p2 c e d) (p : Nat) (au : List Bytes)
    (h : FirstSlice264 S.sps S.raw false ((base + S.inc * p) % S.maxLsb) au)
    (r3 : 2 * S.inc * (n + 1) < 2 * S.inc * p + S.maxLsb) (r4 : 2 * S.inc * p ≤ 2 * S.inc * (n + 1) + S.maxLsb)
    (hpat : S.inc = 2 → ¬ ((base + S.inc * p) % S.maxLsb = p1 + 4 ∧ p1 = p2 + 4)) :
    ∃ f d1, scan false au d = (d, .ok f) ∧
      (∀ pts, handleFrame f S.sps pts d = (adjust ((p : Int) - (n + 1)) >>= fun k => finish k pts) d1) ∧
      Steady S r m base (n + 1) ((base + S.inc * p) % S.maxLsb) p1 c e d1 := by
  obtain ⟨nal, f, hs, hg, hlt, -, hi⟩ := rate_found S hS d hd.raw false _ au h false
  obtain ⟨d1, hu, hd1⟩ := rate_increment S hS hd p hpat
  have hinc0 : 0 < S.inc := by have := hS.inc; omega
  have hn : handleNonIDR nal S.sps d =
      ({ d1 with expectedPOC := (base + S.inc * (n + 1)) % S.maxLsb }, .ok ((p : Int) - (n + 1))) := by
    unfold handleNonIDR
    rw [step_bind (s' := d) (a := (base + S.inc * p) % S.maxLsb) (by rw [hg]; rfl), step_bind hu]
    unfold advance
    rw [step_modify, step_get]
    have e1 : (d1.expectedPOC + d1.pocIncrement.toNat) % 2 ^ 32 &&& sub32 (maxPOC S.sps) 1 =
        (base + S.inc * (n + 1)) % S.maxLsb := by
      rw [rate_maxPOC hS.conforming.poc, rate_sub1 (by have := hS.conforming.poc; omega),
        rate_and _ (by have := hS.conforming.poc; omega), hd1.expected, hd1.inc]
      show ((base + S.inc * n) % S.maxLsb + S.inc) % S.maxLsb = _
      rw [Nat.mod_add_mod, Nat.mul_add, Nat.mul_one, Nat.add_assoc]
    rw [e1, if_neg (by show d1.pocIncrement ≠ 0; rw [hd1.inc]; omega)]
    have e2 : pictureOrderCountDiff ((base + S.inc * p) % S.maxLsb) ((base + S.inc * (n + 1)) % S.maxLsb) S.sps =
        ((base + S.inc * p : Nat) : Int) - ((base + S.inc * (n + 1) : Nat) : Int) := by
      rw [Nat.mul_assoc, Nat.mul_assoc] at r3 r4
      exact rate_diff hS.conforming.poc _ _ (by
        show 2 * (base + S.inc * (n + 1)) < 2 * (base + S.inc * p) + S.maxLsb
        omega) (by
        show 2 * (base + S.inc * p) ≤ 2 * (base + S.inc * (n + 1)) + S.maxLsb
        omega)
    have e3 : ((base + S.inc * p : Nat) : Int) - ((base + S.inc * (n + 1) : Nat) : Int) = S.inc * ((p : Int) - (n + 1)) := by
      simp only [Int.natCast_add, Int.natCast_mul, Int.mul_sub]
      show (base : Int) + S.inc * p - (base + S.inc * (n + 1)) = _
      omega
    show (_, Res.ok ((pictureOrderCountDiff ((base + S.inc * p) % S.maxLsb) ((base + S.inc * (n + 1)) % S.maxLsb) S.sps).tdiv
      d1.pocIncrement)) = _
    rw [e2, e3, hd1.inc, Int.mul_tdiv_cancel_left _ (by omega)]
  refine ⟨f, { d1 with expectedPOC := (base + S.inc * (n + 1)) % S.maxLsb }, hs, fun pts => ?_,
    ⟨hd1.raw, hd1.sps, hd1.random, hd1.filled, hd1.prev, hd1.pause, hd1.reordered, hd1.inc, rfl, hd1.even, hd1.known, hd1.small,
      hd1.low, hd1.high⟩⟩
  unfold handleFrame
  rw [(hi rfl).1, (hi rfl).2]
  dsimp only
  rw [step_bind hn]

/-- A picture: the difference between output and decoding order, and the state before it is used. -/
theorem rate_mid (S : Stream264) (hS : Stream264Ok S) {r m base n p1 p2 : Nat} {c e t : Int} {d : DTSExtractor}
    (hd : Steady S r m base n p1 p2 c e d) (au : List Bytes) (pts : Int) (l : List (List Bytes × Int))
    (hl : Regular S base n p1 p2 t ((au, pts) :: l)) :
    ∃ (f : Found) (d1 : DTSExtractor) (diff : Int) (base' n' q1 q2 : Nat) (t' : Int), scan false au d = (d, .ok f) ∧
      handleFrame f S.sps pts d = (adjust diff >>= fun k => finish k pts) d1 ∧
      Steady S r m base' n' q1 q2 c e d1 ∧ Regular S base' n' q1 q2 t' l ∧ t' + S.T * n' = t + S.T * n + S.T ∧
      0 ≤ diff + S.R ∧ diff + S.R ≤ 2 * S.R + 1 ∧ pts = t + S.T * n + S.T * (diff + S.R + 1) ∧ -2 ^ 62 ≤ pts ∧ pts < 2 ^ 62 := by
  unfold Regular at hl
  rcases hl with ⟨p, g1, g2, g3, g4, g5, g6, g7, g8, g9, hl⟩ | ⟨poc, g1, g2, g3, g4, g5, hl⟩
  · obtain ⟨f, d1, h1, h2, h3⟩ := rate_nonIDR S hS hd p au g1 g4 g5 g6
    refine ⟨f, d1, _, base, n + 1, _, p1, t, h1, h2 pts, h3, hl, ?_, by omega, by omega, ?_, g8, g9⟩
    · rw [show ((n + 1 : Nat) : Int) = (n : Int) + 1 from rfl, Int.mul_add]; omega
    · have : S.T * ((p : Int) - (n + 1) + S.R + 1) = S.T * (p + S.R) - S.T * n := by
        rw [← Int.mul_sub]; congr 1; omega
      rw [g7, this]; omega
  · obtain ⟨f, d1, h1, h2, h3⟩ := rate_idr S hS hd poc au g1 g2
    refine ⟨f, d1, 0, poc, 0, poc, 0, _, h1, h2 pts, h3, hl, ?_, by omega, by omega, ?_, g4, g5⟩
    · rw [Int.mul_add]; simp; omega
    · rw [g3, Int.mul_add, Int.mul_add]; simp; omega

/-- The next state after a pause. -/
theorem rate_paused (S : Stream264) (hS : Stream264Ok S) {m base n p1 p2 : Nat} {e t : Int} {d : DTSExtractor}
    (hd : Steady S S.R (m + 1) base n p1 p2 (t + S.T * n) e d) (h62 : t + S.T * n + e + 90 < 2 ^ 62) (au : List Bytes) (pts : Int)
    (l : List (List Bytes × Int)) (hl : Regular S base n p1 p2 t ((au, pts) :: l)) :
    ∃ (d' : DTSExtractor) (base' n' q1 q2 : Nat) (t' : Int), extract (au, pts) d = (d', .ok (t + S.T * n + e + 90)) ∧ t' + S.T * n' = t + S.T * n + S.T ∧
      Steady S S.R m base' n' q1 q2 (t' + S.T * n') (e + 90 - S.T) d' ∧ Regular S base' n' q1 q2 t' l := by
  obtain ⟨f, d1, diff, base', n', q1, q2, t', h1, h2, h3, h4, h5, h6, h7, h8, h9, h10⟩ := rate_mid S hS hd au pts l hl
  have b1 := h3.low
  have b2 := h3.high
  have hprev := h3.prev
  rw [rate_pause d1 diff pts S.R m h3.filled h3.pause h3.reordered h6 h7, rate_wrap (by omega) (by omega), hprev] at h2
  refine ⟨_, base', n', q1, q2, t', rate_extract d _ au pts _ true f S.sps h1 hd.sps hS.type hS.frames hd.random h2 (by simp)
    (by show t + S.T * n + e ≤ _; omega), h5, ⟨h3.raw, h3.sps, h3.random, rfl, ?_, rfl, h3.reordered, h3.inc, h3.expected, h3.even,
    h3.known, h3.small, by omega, by omega⟩, h4⟩
  show t + S.T * n + e + 90 = _
  omega

/-- The next state when the number of reordered pictures turns out to be greater. -/
theorem rate_jumped (S : Stream264) (hS : Stream264Ok S) {r m base n p1 p2 : Nat} {e t : Int} {d : DTSExtractor} (hT : 0 < S.T)
    (hR : S.R = r + (m + 1)) (hR10 : S.R ≤ 10) (hd : Steady S r 0 base n p1 p2 (t + S.T * n) e d)
    (h62 : t + S.T * n + e + 90 < 2 ^ 62) (au : List Bytes)
    (pts : Int) (l : List (List Bytes × Int)) (hl : Regular S base n p1 p2 t ((au, pts) :: l))
    (hp : pts = t + S.T * (n + 1) ∨ pts = t + S.T * (n + 1) + S.T * (2 * S.R + 1)) :
    ∃ (d' : DTSExtractor) (base' n' q1 q2 : Nat) (t' : Int), extract (au, pts) d = (d', .ok (t + S.T * n + e + 90)) ∧ t' + S.T * n' = t + S.T * n + S.T ∧
      Steady S S.R m base' n' q1 q2 (t' + S.T * n') (e + 90 - S.T) d' ∧ Regular S base' n' q1 q2 t' l := by
  obtain ⟨f, d1, diff, base', n', q1, q2, t', h1, h2, h3, h4, h5, h6, h7, h8, h9, h10⟩ := rate_mid S hS hd au pts l hl
  have b1 := h3.low
  have b2 := h3.high
  have hprev := h3.prev
  have hdiff : diff + (r + (m + 1)) = 0 ∨ diff + (r + (m + 1)) = 2 * (r + (m + 1)) + 1 := by
    rw [Int.mul_add] at hp
    rcases hp with hp | hp
    · left
      have : S.T * (diff + S.R + 1) = S.T * 1 := by omega
      have := Int.eq_of_mul_eq_mul_left (by omega) this
      omega
    · right
      have : S.T * (diff + S.R + 1) = S.T * (1 + (2 * S.R + 1)) := by rw [Int.mul_add S.T 1]; omega
      have := Int.eq_of_mul_eq_mul_left (by omega) this
      omega
  rw [rate_jump d1 diff pts r m h3.filled h3.pause h3.reordered (by omega) hdiff, rate_wrap (by omega) (by omega), hprev] at h2
  refine ⟨_, base', n', q1, q2, t', rate_extract d _ au pts _ true f S.sps h1 hd.sps hS.type hS.frames hd.random h2 (by simp)
    (by show t + S.T * n + e ≤ _; omega), h5, ⟨h3.raw, h3.sps, h3.random, rfl, ?_, rfl, ?_, h3.inc, h3.expected, h3.even,
    h3.known, h3.small, by omega, by omega⟩, h4⟩
  · show t + S.T * n + e + 90 = _
    omega
  · rw [hR]

/-- The next state without pauses. -/
theorem rate_next (S : Stream264) (hS : Stream264Ok S) {base n p1 p2 : Nat} {e t : Int} {d : DTSExtractor}
    (hd : Steady S S.R 0 base n p1 p2 (t + S.T * n) e d) (he : 0 ≤ e) (hT : e ≤ S.T) (au : List Bytes) (pts : Int)
    (l : List (List Bytes × Int)) (hl : Regular S base n p1 p2 t ((au, pts) :: l)) :
    ∃ (e' : Int) (d' : DTSExtractor) (base' n' q1 q2 : Nat) (t' : Int), extract (au, pts) d = (d', .ok (t + S.T * n + S.T + e')) ∧
      t' + S.T * n' = t + S.T * n + S.T ∧ 0 ≤ e' ∧ (e' = 0 ∨ e' < e) ∧ e' ≤ e ∧
      Steady S S.R 0 base' n' q1 q2 (t' + S.T * n') e' d' ∧ Regular S base' n' q1 q2 t' l := by
  obtain ⟨f, d1, diff, base', n', q1, q2, t', h1, h2, h3, h4, h5, h6, h7, h8, h9, h10⟩ := rate_mid S hS hd au pts l hl
  have b1 := h3.low
  have b2 := h3.high
  have hprev := h3.prev
  obtain ⟨e', k1, k2, k3, k4, k5, k6⟩ := rate_step (k := diff + S.R) (T := S.T) (pts := pts) h6 hprev h8 he hT
  have hw1 : wrap64 (pts - d1.prevDTS) = pts - d1.prevDTS := rate_wrap (by omega) (by omega)
  rw [rate_tail d1 diff pts S.R h3.filled h3.pause h3.reordered h6 h7, hw1, rate_wrap (by omega) (by omega), k1] at h2
  refine ⟨e', _, base', n', q1, q2, t', rate_extract d _ au pts _ false f S.sps h1 hd.sps hS.type hS.frames hd.random h2
    (by intro _; omega) (by omega), h5, k2, k3, k4, ⟨h3.raw, h3.sps, h3.random, rfl, ?_, h3.pause, h3.reordered, h3.inc,
    h3.expected, h3.even, h3.known, h3.small, by omega, by omega⟩, h4⟩
  show t + S.T * n + S.T + e' = _
  omega

theorem rate_calls (S : Stream264) (hS : Stream264Ok S) (l : List (List Bytes × Int)) :
    ∀ (base n p1 p2 : Nat) (t e : Int) (d : DTSExtractor), Steady S S.R 0 base n p1 p2 (t + S.T * n) e d → 0 ≤ e → e ≤ S.T →
    Regular S base n p1 p2 t l →
    ∃ es, Vanishing e es ∧ es.length = l.length ∧
      calls extract d l = (List.zipWith (· + ·) (clock (t + S.T * n + S.T) S.T l.length) es).map .ok := by
  induction l with
  | nil => intro base n p1 p2 t e d _ _ _ _; exact ⟨[], trivial, rfl, rfl⟩
  | cons a l ih =>
    obtain ⟨au, pts⟩ := a
    intro base n p1 p2 t e d hd he hT hl
    obtain ⟨e', d', base', n', q1, q2, t', h1, h2, h3, h4, h5, h6, h7⟩ := rate_next S hS hd he hT au pts l hl
    obtain ⟨es, i1, i2, i3⟩ := ih base' n' q1 q2 t' e' d' h6 h3 (by omega) h7
    refine ⟨e' :: es, ⟨h3, h4, i1⟩, by simp [i2], ?_⟩
    simp only [calls, h1, i3, List.length_cons, clock, List.zipWith_cons_cons, List.map_cons]
    rw [h2]

theorem rate_pauses (S : Stream264) (hS : Stream264Ok S) (m : Nat) :
    ∀ (l : List (List Bytes × Int)) (base n p1 p2 : Nat) (t e : Int) (d : DTSExtractor),
    Steady S S.R m base n p1 p2 (t + S.T * n) e d → t + S.T * n + e + 90 * m < 2 ^ 62 → m ≤ l.length →
    Regular S base n p1 p2 t l →
    0 ≤ e + m * (90 - S.T) → e + m * (90 - S.T) ≤ S.T →
    ∃ es, Vanishing (e + m * (90 - S.T)) es ∧ es.length = l.length - m ∧
      calls extract d l = (clock (t + S.T * n + e + 90) 90 m ++
        List.zipWith (· + ·) (clock (t + S.T * n + S.T * m + S.T) S.T (l.length - m)) es).map .ok := by
  induction m with
  | zero =>
    intro l base n p1 p2 t e d hd _ _ hl he hT
    simp only [Int.natCast_zero, Int.zero_mul, Int.add_zero, Int.mul_zero, Nat.sub_zero] at *
    obtain ⟨es, h1, h2, h3⟩ := rate_calls S hS l base n p1 p2 t e d hd he hT hl
    exact ⟨es, h1, h2, h3⟩
  | succ m ih =>
    intro l base n p1 p2 t e d hd h62 hm hl he hT
    cases l with
    | nil => simp at hm
    | cons a l =>
      obtain ⟨au, pts⟩ := a
      obtain ⟨d', base', n', q1, q2, t', h1, h2, h3, h4⟩ := rate_paused S hS hd (by omega) au pts l hl
      have hm1 : ((m + 1 : Nat) : Int) * (90 - S.T) = m * (90 - S.T) + (90 - S.T) := by
        rw [show ((m + 1 : Nat) : Int) = (m : Int) + 1 from rfl, Int.add_mul, Int.one_mul]
      have hm2 : S.T * ((m + 1 : Nat) : Int) = S.T * m + S.T := by
        rw [show ((m + 1 : Nat) : Int) = (m : Int) + 1 from rfl, Int.mul_add, Int.mul_one]
      obtain ⟨es, i1, i2, i3⟩ := ih l base' n' q1 q2 t' (e + 90 - S.T) d' h3 (by omega) (by simpa using hm) h4 (by omega) (by omega)
      refine ⟨es, ?_, by simp [i2], ?_⟩
      · rw [hm1]
        rw [show e + 90 - S.T + m * (90 - S.T) = e + (m * (90 - S.T) + (90 - S.T)) by omega] at i1
        exact i1
      · simp only [calls, h1, i3, List.length_cons, clock, List.cons_append, List.map_cons, Nat.add_sub_add_right]
        rw [h2, hm2]
        congr 4
        · omega
        · congr 1
          omega

theorem rate_exact (es : List Int) : ∀ e, e ≤ 0 → Vanishing e es → ∀ x ∈ es, x = 0 := by
  induction es with
  | nil => intro e _ _ x hx; cases hx
  | cons a l ih =>
    rintro e he ⟨h1, h2, h3⟩ x hx
    rcases List.mem_cons.1 hx with rfl | hx
    · omega
    · exact ih a (by omega) h3 x hx

theorem rate_vanish (es : List Int) : ∀ (k : Nat) (e : Int), e ≤ k → Vanishing e es → ∀ x ∈ es.drop k, x = 0 := by
  induction es with
  | nil => intro k e _ _ x hx; simp at hx
  | cons a l ih =>
    rintro k e he ⟨h1, h2, h3⟩ x hx
    cases k with
    | zero => exact rate_exact (a :: l) e he ⟨h1, h2, h3⟩ x hx
    | succ k => exact ih k a (by omega) h3 x hx

theorem rate_clock (l es : List Int) (h : es.length = l.length) (h0 : ∀ x ∈ es, x = 0) : List.zipWith (· + ·) l es = l := by
  induction l generalizing es with
  | nil => simp
  | cons a l ih =>
    cases es with
    | nil => cases h
    | cons b es =>
      rw [List.zipWith_cons_cons, ih es (by simpa using h) fun x hx => h0 x (List.mem_cons_of_mem _ hx), h0 b List.mem_cons_self]
      simp

theorem length_clock (n : Nat) : ∀ c T, (clock c T n).length = n := by
  induction n with
  | zero => intros; rfl
  | succ n ih => intros; simp [clock, ih]

/-- C62 (H264): once the increment and the number of reordered pictures are known, the DTS of a stream with a constant frame
rate is exactly one frame duration after the previous one, for every sequence of pictures in any order of presentation that is
compatible with the reordering. -/
theorem C62_h264_exact (S : Stream264) (hS : Stream264Ok S) (hT : 0 ≤ S.T) (base n p1 p2 : Nat) (t : Int) (d : DTSExtractor)
    (hd : Steady S S.R 0 base n p1 p2 (t + S.T * n) 0 d) (l : List (List Bytes × Int)) (hl : Regular S base n p1 p2 t l) :
    calls extract d l = (clock (t + S.T * n + S.T) S.T l.length).map .ok := by
  obtain ⟨es, h1, h2, h3⟩ := rate_calls S hS l base n p1 p2 t 0 d hd (by omega) hT hl
  rw [h3, rate_clock _ _ (by rw [h2, length_clock]) (rate_exact es 0 (by omega) h1)]

/-- C62 (H264): an initial error of up to one frame duration decreases with every picture until it is zero. -/
theorem C62_h264_converges (S : Stream264) (hS : Stream264Ok S) (base n p1 p2 : Nat) (t e : Int) (d : DTSExtractor) (he : 0 ≤ e)
    (hT : e ≤ S.T) (hd : Steady S S.R 0 base n p1 p2 (t + S.T * n) e d) (l : List (List Bytes × Int))
    (hl : Regular S base n p1 p2 t l) :
    ∃ es, Vanishing e es ∧ es.length = l.length ∧ (∀ x ∈ es.drop e.toNat, x = 0) ∧
      calls extract d l = (List.zipWith (· + ·) (clock (t + S.T * n + S.T) S.T l.length) es).map .ok := by
  obtain ⟨es, h1, h2, h3⟩ := rate_calls S hS l base n p1 p2 t e d hd he hT hl
  exact ⟨es, h1, h2, rate_vanish es e.toNat e (by omega) h1, h3⟩

/-- C62 (H264): the extractor believes that `r` pictures are reordered, and the DTS is right according to that, up to `e`.
The next picture shows that `m` more are: it is presented when it is decoded, or as late as possible. Then the DTS of that
picture and of the following ones, `m` in total, advances by 90 ticks only; after that the error is `90 m + e`, and decreases until
it is zero. -/
theorem C62_h264_reordering (S : Stream264) (hS : Stream264Ok S) (r m : Nat) (hR : S.R = r + m) (hm : 1 ≤ m) (hR10 : S.R ≤ 10)
    (base n p1 p2 : Nat) (t e : Int) (d : DTSExtractor) (he : 0 ≤ e) (hT : 90 * m + e ≤ S.T)
    (hd : Steady S r 0 base n p1 p2 (t + S.T * n) (S.T * m + e) d) (hh : t + S.T * n + S.T * m + S.T < 2 ^ 62)
    (au : List Bytes) (pts : Int) (l : List (List Bytes × Int)) (hl : Regular S base n p1 p2 t ((au, pts) :: l))
    (hlen : m ≤ l.length + 1)
    (hp : pts = t + S.T * (n + 1) ∨ pts = t + S.T * (n + 1) + S.T * (2 * S.R + 1)) :
    ∃ es, Vanishing (90 * m + e) es ∧ es.length = l.length + 1 - m ∧ (∀ x ∈ es.drop (90 * m + e).toNat, x = 0) ∧
      calls extract d ((au, pts) :: l) = (clock (t + S.T * n + S.T * m + e + 90) 90 m ++
        List.zipWith (· + ·) (clock (t + S.T * n + S.T * m + S.T) S.T (l.length + 1 - m)) es).map .ok := by
  cases m with
  | zero => omega
  | succ m =>
    obtain ⟨d', base', n', q1, q2, t', h1, h2, h3, h4⟩ := rate_jumped S hS (m := m) (by omega) hR hR10 hd (by omega) au pts l hl hp
    have hm1 : (m : Int) * (90 - S.T) = 90 * m - S.T * m := by rw [Int.mul_sub, Int.mul_comm, Int.mul_comm (m : Int)]
    have hm2 : S.T * ((m + 1 : Nat) : Int) = S.T * m + S.T := by
      rw [show ((m + 1 : Nat) : Int) = (m : Int) + 1 from rfl, Int.mul_add, Int.mul_one]
    obtain ⟨es, i1, i2, i3⟩ := rate_pauses S hS m l base' n' q1 q2 t' _ d' h3 (by omega) (by omega) h4 (by omega) (by omega)
    have ee : S.T * ((m + 1 : Nat) : Int) + e + 90 - S.T + m * (90 - S.T) = 90 * ((m + 1 : Nat) : Int) + e := by omega
    rw [ee] at i1
    refine ⟨es, i1, by rw [i2]; omega, rate_vanish es _ _ (by omega) i1, ?_⟩
    simp only [calls, h1, i3, clock, List.cons_append, List.map_cons, Nat.add_sub_add_right]
    have e1 : t + S.T * n + (S.T * ((m + 1 : Nat) : Int) + e) + 90 = t + S.T * n + S.T * ((m + 1 : Nat) : Int) + e + 90 := by omega
    have e2 : t' + S.T * n' + (S.T * ((m + 1 : Nat) : Int) + e + 90 - S.T) + 90 =
        t + S.T * n + S.T * ((m + 1 : Nat) : Int) + e + 90 + 90 := by omega
    have e3 : t' + S.T * n' + S.T * m + S.T = t + S.T * n + S.T * ((m + 1 : Nat) : Int) + S.T := by omega
    rw [e1, e2, e3]

/-! ### Examples -/

def rateSPS : SPS := { frameMbsOnlyFlag := true, log2MaxPicOrderCntLsbMinus4 := 2 }

/-- A slice with pic_order_cnt_lsb `v`. -/
def rateSlice (v : Nat) : Bytes := [0x41, 0x9A, UInt8.ofNat (64 + v / 2), UInt8.ofNat (v % 2 * 128 + 64)]

theorem rateSlice_bits : ∀ v < 64, bitsOf (epRemove 0 (rateSlice v).tail) =
    [true] ++ ([false, false, true, true, false] ++ ([true] ++ ([] ++ ([false, false, true, false] ++
      ([] ++ (bitsOfNat 6 v ++ [])))))) ++ [true, false, false, false, false, false, false] := by
  decide +kernel

theorem rateSlice_first (raw : Bytes) (v : Nat) (h : v < 64) : FirstSlice264 rateSPS raw false v [rateSlice v] :=
  ⟨[], 0x41, _, [], ⟨0, 5, 0, 2, 0, v⟩, _, _, rfl, by simp, rfl,
    ⟨0, [true], _, ⟨by decide, rfl⟩, ⟨5, [false, false, true, true, false], _, ⟨by decide, by decide +kernel⟩,
      ⟨0, [true], _, ⟨by decide, rfl⟩, ⟨0, [], _, ⟨rfl, rfl⟩, ⟨2, [false, false, true, false], _, ⟨by decide, rfl⟩,
      ⟨0, [], _, ⟨rfl, rfl⟩, ⟨v, bitsOfNat 6 v, [], ⟨h, rfl⟩, ⟨rfl, rfl⟩, rfl⟩, rfl⟩, rfl⟩,
      rfl⟩, rfl⟩, rfl⟩, rfl⟩, rateSlice_bits v h, rfl⟩

theorem rateSlice_idr (raw : Bytes) : FirstSlice264 rateSPS raw true 0 [[9, 0xF0], [0x65, 0xB8, 0x40, 0x80]] :=
  ⟨[[9, 0xF0]], 0x65, _, [], ⟨0, 2, 0, 0, 0, 0⟩, _, [true, false, false, false, false, false, false, false], rfl,
    fun x hx => by rw [List.mem_singleton] at hx; subst hx; exact ⟨by simp, by decide, by decide, fun h => absurd h (by decide)⟩,
    rfl,
    ⟨0, [true], _, ⟨by decide, rfl⟩, ⟨2, [false, true, true], _, ⟨by decide, by decide +kernel⟩,
      ⟨0, [true], _, ⟨by decide, rfl⟩, ⟨0, [], _, ⟨rfl, rfl⟩, ⟨0, [false, false, false, false], _, ⟨by decide, rfl⟩,
      ⟨0, [true], _, ⟨by decide, rfl⟩, ⟨0, [false, false, false, false, false, false], [], ⟨by decide, rfl⟩, ⟨rfl, rfl⟩, rfl⟩,
      rfl⟩, rfl⟩, rfl⟩, rfl⟩, rfl⟩, rfl⟩, by decide +kernel, rfl⟩

/-- One reordered picture, 30 pictures per second. -/
def rateStream : Stream264 := ⟨rateSPS, [0x67], 2, 1, 3000⟩

theorem rateStream_ok : Stream264Ok rateStream := ⟨⟨by decide, by decide⟩, rfl, rfl, rfl, .inr (.inl rfl)⟩

/-- The state after an IDR and a P picture of PTS 90000 and 96000. -/
def rateState : DTSExtractor :=
  { sps := [0x67], spsp := some rateSPS, prevDTSFilled := true, prevDTS := 93000, randomReceived := true, expectedPOC := 2,
    auCount := 2, prevPOC := 4, prevPrevPOC := 0, pocIncrement := 2 }

/-- B, P, B, IDR. -/
def rateList : List (List Bytes × Int) :=
  [([rateSlice 2], 93000), ([rateSlice 8], 102000), ([rateSlice 6], 99000), ([[9, 0xF0], [0x65, 0xB8, 0x40, 0x80]], 105000)]

theorem rateList_regular : Regular rateStream 0 1 4 0 87000 rateList :=
  .inl ⟨1, rateSlice_first _ 2 (by decide), by decide, by decide, by decide, by decide, by decide, by decide, by decide, by decide,
  .inl ⟨4, rateSlice_first _ 8 (by decide), by decide, by decide, by decide, by decide, by decide, by decide, by decide, by decide,
  .inl ⟨3, rateSlice_first _ 6 (by decide), by decide, by decide, by decide, by decide, by decide, by decide, by decide, by decide,
  .inr ⟨0, rateSlice_idr _, by decide, by decide, by decide, by decide, trivial⟩⟩⟩⟩

/-- A B picture shows that there is one reordered picture: the DTS are late by 90, then by 60, then they are right. -/
example : Steady rateStream 0 0 0 1 4 0 (87000 + 3000 * 1) (3000 * 1 + 0) rateState ∧ Regular rateStream 0 1 4 0 87000 rateList ∧
    calls extract rateState rateList = [.ok 93090, .ok 96060, .ok 99000, .ok 102000] :=
  ⟨⟨rfl, rfl, rfl, rfl, rfl, rfl, rfl, rfl, rfl, fun _ => rfl, fun _ => .inr ⟨rfl, rfl⟩, by decide, by decide, by decide⟩,
    rateList_regular, by decide +kernel⟩

/-- The same with the right number of reordered pictures. -/
example : Steady rateStream 1 0 0 1 4 0 (87000 + 3000 * 1) 0 { rateState with prevDTS := 90000, reorderedFrames := 1 } ∧
    calls extract { rateState with prevDTS := 90000, reorderedFrames := 1 } rateList =
      [.ok 93000, .ok 96000, .ok 99000, .ok 102000] :=
  ⟨⟨rfl, rfl, rfl, rfl, rfl, rfl, rfl, rfl, rfl, fun _ => rfl, fun _ => .inr ⟨rfl, rfl⟩, by decide, by decide, by decide⟩,
    by decide +kernel⟩

/-- Without the condition on three picture order counts that are four apart, C62 (H264) is false: a stream with increment 2 and
two reordered pictures, where two P pictures follow the IDR and the B pictures are decoded later, is taken as a stream with
increment 4. -/
theorem C62_h264_increment_false :
    ∃ (S : Stream264) (d : DTSExtractor) (ps : List (Nat × List Bytes)), Stream264Ok S ∧ S.inc = 2 ∧
      Steady S S.R 0 0 0 0 0 90000 0 d ∧
      (∀ i x, ps[i]? = some x → FirstSlice264 S.sps S.raw false (2 * x.1) x.2 ∧ 2 * x.1 < S.maxLsb ∧
        i + 1 ≤ x.1 + S.R ∧ x.1 ≤ i + 1 + S.R + 1) ∧
      calls extract d (ps.map fun x => (x.2, 90000 + S.T * (x.1 + S.R))) ≠
        (clock (90000 + S.T) S.T ps.length).map .ok :=
  ⟨⟨rateSPS, [0x67], 2, 2, 3000⟩,
    { rateState with prevDTS := 90000, reorderedFrames := 2, expectedPOC := 0, auCount := 1, prevPOC := 0 },
    [(2, [rateSlice 4]), (4, [rateSlice 8]), (1, [rateSlice 2]), (3, [rateSlice 6])],
    ⟨⟨by decide, by decide⟩, rfl, rfl, rfl, .inr (.inl rfl)⟩, rfl,
    ⟨rfl, rfl, rfl, rfl, rfl, rfl, rfl, rfl, rfl, fun _ => rfl, fun _ => .inr ⟨rfl, rfl⟩, by decide, by decide, by decide⟩,
    (fun i x h => by
      rcases i with _ | _ | _ | _ | i
      · cases h; exact ⟨rateSlice_first _ 4 (by decide), by decide, by decide, by decide⟩
      · cases h; exact ⟨rateSlice_first _ 8 (by decide), by decide, by decide, by decide⟩
      · cases h; exact ⟨rateSlice_first _ 2 (by decide), by decide, by decide, by decide⟩
      · cases h; exact ⟨rateSlice_first _ 6 (by decide), by decide, by decide, by decide⟩
      · cases h),
    by decide +kernel⟩

/-! ## H265 -/

theorem rate_scan265 (raw rawPPS : Bytes) (d : H265.DTSExtractor) (hd : d.sps = raw) (hq : d.pps = rawPPS) (n : UInt8) (t : Bytes)
    (post : List Bytes) (f : H265.Found)
    (hn : f = .idr ∧ (n.toNat / 2 % 64 = 19 ∨ n.toNat / 2 % 64 = 20) ∨ f = .cra (n :: t) ∧ n.toNat / 2 % 64 = 21 ∨
      f = .nonIDR (n :: t) ∧ (n.toNat / 2 % 64 = 0 ∨ n.toNat / 2 % 64 = 1 ∨ n.toNat / 2 % 64 = 8 ∨ n.toNat / 2 % 64 = 9)) :
    ∀ (pre : List Bytes), (∀ x ∈ pre, x ≠ [] ∧ (∀ k ∈ [0, 1, 8, 9, 19, 20, 21], type265 x ≠ some k) ∧
      (type265 x = some 33 → x = raw) ∧ (type265 x = some 34 → x = rawPPS)) →
    H265.scan (pre ++ (n :: t) :: post) d = (d, .ok f) := by
  intro pre
  induction pre with
  | nil =>
    intro _
    rw [List.nil_append]
    unfold H265.scan
    rw [step_bind (s' := d) (a := n) rfl, hdts_type]
    rcases hn with ⟨rfl, h⟩ | ⟨rfl, h⟩ | ⟨rfl, h⟩
    · rw [if_neg (by omega), if_neg (by omega), if_pos (by omega)]; rfl
    · rw [if_neg (by omega), if_neg (by omega), if_neg (by omega), if_pos (by omega)]; rfl
    · rw [if_neg (by omega), if_neg (by omega), if_neg (by omega), if_neg (by omega), if_pos (by omega)]; rfl
  | cons x pre ih =>
    intro hx
    obtain ⟨h1, h2, h3, h4⟩ := hx x List.mem_cons_self
    obtain ⟨b, r, rfl⟩ := List.exists_cons_of_ne_nil h1
    have hr := ih (fun y hy => hx y (List.mem_cons_of_mem _ hy))
    have ht : type265 (b :: r) = some (b.toNat / 2 % 64) := rfl
    rw [ht] at h2 h3 h4
    simp only [List.mem_cons, List.not_mem_nil, or_false, forall_eq_or_imp, forall_eq, ne_eq, Option.some.injEq] at h2
    rw [List.cons_append]
    unfold H265.scan
    rw [step_bind (s' := d) (a := b) rfl, hdts_type]
    by_cases h33 : b.toNat / 2 % 64 = 33
    · rw [if_pos h33]
      have : H265.handleSPS (b :: r) d = (d, .ok ()) := by
        unfold H265.handleSPS
        rw [step_get, if_pos]
        · rfl
        · rw [hd, h3 (by rw [h33])]
      rw [step_bind this]
      exact hr
    · rw [if_neg h33]
      by_cases h34 : b.toNat / 2 % 64 = 34
      · rw [if_pos h34]
        have : H265.handlePPS (b :: r) d = (d, .ok ()) := by
          unfold H265.handlePPS
          rw [step_get, if_pos]
          · rfl
          · rw [hq, h4 (by rw [h34])]
        rw [step_bind this]
        exact hr
      · rw [if_neg h34, if_neg (by omega), if_neg (by omega), if_neg (by omega)]
        exact hr

/-- The state after a picture, when no pause is left. The time that was returned for it is `c + e`. -/
structure Steady265 (sps : H265.SPS) (pps : H265.PPS) (raw rawPPS : Bytes) (R c e : Int) (d : H265.DTSExtractor) : Prop where
  raw : d.sps = raw
  rawPPS : d.pps = rawPPS
  sps : d.spsp = some sps
  pps : d.ppsp = some pps
  random : d.randomReceived = true
  filled : d.prevDTSFilled = true
  prev : d.prevDTS = c + e
  pause : d.pause = 0
  reordered : d.reorderedFrames = R
  low : -2 ^ 62 ≤ c + e
  high : c + e < 2 ^ 62

theorem rate_found265 (sps : H265.SPS) (pps : H265.PPS) (raw rawPPS : Bytes) (hc : Conforming265 sps)
    (d : H265.DTSExtractor) (hd : d.sps = raw) (hq : d.pps = rawPPS) (delta : Int)
    (au : List Bytes) (h : FirstSlice265 sps pps raw rawPPS delta au) :
    ∃ f, H265.scan au d = (d, .ok f) ∧ H265.frameDiff f sps pps = .ok delta := by
  obtain ⟨pre, n0, t, post, rfl, hpre, h⟩ := h
  have ht : type265 (n0 :: t) = some (n0.toNat / 2 % 64) := rfl
  rw [ht] at h
  rcases h with ⟨rfl, h⟩ | ⟨⟨k, hk, hk2⟩, n1, u, hd', bits, rest, rfl, hn, hh, hl, h1, hb, he⟩
  · refine ⟨.idr, rate_scan265 raw rawPPS d hd hq n0 t post _ (.inl ⟨rfl, ?_⟩) pre hpre, rfl⟩
    rcases h with h | h
    · exact .inl (Option.some.inj h)
    · exact .inr (Option.some.inj h)
  · have hg := C61_h265_partial n0 n1 u sps pps hc hn hd' h1 bits rest hh hb hl
    rw [he] at hg
    have hk2 := Option.some.inj hk2
    simp only [List.mem_cons, List.not_mem_nil, or_false] at hk
    by_cases h21 : k = 21
    · exact ⟨.cra (n0 :: n1 :: u), rate_scan265 raw rawPPS d hd hq n0 _ post _ (.inr (.inl ⟨rfl, by omega⟩)) pre hpre, hg⟩
    · exact ⟨.nonIDR (n0 :: n1 :: u), rate_scan265 raw rawPPS d hd hq n0 _ post _ (.inr (.inr ⟨rfl, by omega⟩)) pre hpre, hg⟩

theorem rate_step265 (sps : H265.SPS) (pps : H265.PPS) (raw rawPPS : Bytes) (hc : Conforming265 sps)
    {R T c e : Int} {d : H265.DTSExtractor}
    (hd : Steady265 sps pps raw rawPPS R c e d) (he : 0 ≤ e) (hT : e ≤ T) (delta : Int) (au : List Bytes) (pts : Int)
    (h : FirstSlice265 sps pps raw rawPPS delta au) (hr : 0 ≤ delta + R) (hp : pts = c + T * (delta + R + 1))
    (hl : -2 ^ 62 ≤ pts) (hh : pts < 2 ^ 62) :
    ∃ e' d', H265.extract (au, pts) d = (d', .ok (c + T + e')) ∧ 0 ≤ e' ∧ (e' = 0 ∨ e' < e) ∧ e' ≤ e ∧
      Steady265 sps pps raw rawPPS R (c + T) e' d' := by
  obtain ⟨f, hs, hf⟩ := rate_found265 sps pps raw rawPPS hc d hd.raw hd.rawPPS delta au h
  have hprev := hd.prev
  have b1 := hd.low
  have b2 := hd.high
  obtain ⟨e', q1, q2, q3, q4, q5, q6⟩ := rate_step (k := delta + R) (T := T) (pts := pts) hr hprev hp he hT
  have hw1 : wrap64 (pts - d.prevDTS) = pts - d.prevDTS := rate_wrap (by omega) (by omega)
  have hfin : H265.finish delta pts sps d = (d, .ok (c + T + e')) := by
    unfold H265.finish
    rw [step_get, hd.reordered, if_neg (by omega), hd.pause, if_neg (by omega), if_pos hd.filled, if_neg (by omega), hw1,
      rate_wrap (by omega) (by omega), q1]
    rfl
  have hi : H265.extractInner au pts d = (d, .ok (c + T + e')) := by
    unfold H265.extractInner
    rw [step_bind hs, step_get, hd.sps]
    dsimp only
    rw [hd.pps]
    dsimp only
    have hc : H265.checkRandom f d = (d, .ok ()) := by
      unfold H265.checkRandom
      rw [step_get, if_pos hd.random]
      rfl
    rw [step_bind hc, step_bind (s' := d) (a := delta) (by rw [hf]; rfl), hfin]
  have hx : H265.extract (au, pts) d = ({ d with prevDTSFilled := true, prevDTS := c + T + e' }, .ok (c + T + e')) := by
    unfold H265.extract
    dsimp only
    rw [step_bind hi, step_get, if_neg (by omega), if_neg (by simp; omega)]
    rfl
  exact ⟨e', _, hx, q2, q3, q4, ⟨hd.raw, hd.rawPPS, hd.sps, hd.pps, hd.random, rfl, rfl, hd.pause, hd.reordered, by omega, by omega⟩⟩

theorem rate_calls265 (sps : H265.SPS) (pps : H265.PPS) (raw rawPPS : Bytes) (hc : Conforming265 sps)
    (R T : Int) (l : List (List Bytes × Int)) :
    ∀ (c e : Int) (d : H265.DTSExtractor), Steady265 sps pps raw rawPPS R c e d → 0 ≤ e → e ≤ T →
    Regular265 sps pps raw rawPPS R T c l →
    ∃ es, Vanishing e es ∧ es.length = l.length ∧
      calls H265.extract d l = (List.zipWith (· + ·) (clock (c + T) T l.length) es).map .ok := by
  induction l with
  | nil => intro c e d _ _ _ _; exact ⟨[], trivial, rfl, rfl⟩
  | cons a l ih =>
    obtain ⟨au, pts⟩ := a
    intro c e d hd he hT hl
    unfold Regular265 at hl
    obtain ⟨⟨delta, g1, g2, g3, g4, g5⟩, hl⟩ := hl
    obtain ⟨e', d', k1, k2, k3, k4, k5⟩ := rate_step265 sps pps raw rawPPS hc hd he hT delta au pts g1 g2 g3 g4 g5
    obtain ⟨es, i1, i2, i3⟩ := ih (c + T) e' d' k5 k2 (by omega) hl
    refine ⟨e' :: es, ⟨k2, k3, i1⟩, by simp [i2], ?_⟩
    simp only [calls, k1, i3, List.length_cons, clock, List.zipWith_cons_cons, List.map_cons]

/-- C62 (H265): when no pause is left, and where the estimated distance between output and decoding order is right, the DTS of
a stream with a constant frame rate is exactly one frame duration after the previous one. -/
theorem C62_h265_exact (sps : H265.SPS) (pps : H265.PPS) (raw rawPPS : Bytes) (hc : Conforming265 sps)
    (R T c : Int) (hT : 0 ≤ T) (d : H265.DTSExtractor)
    (hd : Steady265 sps pps raw rawPPS R c 0 d) (l : List (List Bytes × Int)) (hl : Regular265 sps pps raw rawPPS R T c l) :
    calls H265.extract d l = (clock (c + T) T l.length).map .ok := by
  obtain ⟨es, h1, h2, h3⟩ := rate_calls265 sps pps raw rawPPS hc R T l c 0 d hd (by omega) hT hl
  rw [h3, rate_clock _ _ (by rw [h2, length_clock]) (rate_exact es 0 (by omega) h1)]

/-- C62 (H265): an initial error of up to one frame duration decreases with every picture until it is zero. -/
theorem C62_h265_converges (sps : H265.SPS) (pps : H265.PPS) (raw rawPPS : Bytes) (hc : Conforming265 sps)
    (R T c e : Int) (he : 0 ≤ e) (hT : e ≤ T) (d : H265.DTSExtractor)
    (hd : Steady265 sps pps raw rawPPS R c e d) (l : List (List Bytes × Int)) (hl : Regular265 sps pps raw rawPPS R T c l) :
    ∃ es, Vanishing e es ∧ es.length = l.length ∧ (∀ x ∈ es.drop e.toNat, x = 0) ∧
      calls H265.extract d l = (List.zipWith (· + ·) (clock (c + T) T l.length) es).map .ok := by
  obtain ⟨es, h1, h2, h3⟩ := rate_calls265 sps pps raw rawPPS hc R T l c e d hd he hT hl
  exact ⟨es, h1, h2, rate_vanish es e.toNat e (by omega) h1, h3⟩

/-- A P picture with a reference picture 3 before, and an IDR. -/
example : Conforming265 {} ∧ Steady265 {} {} [0x42] [0x44] 0 9000 0
      { sps := [0x42], pps := [0x44], spsp := some {}, ppsp := some {}, randomReceived := true, prevDTSFilled := true,
        prevDTS := 9000 } ∧
    Regular265 {} {} [0x42] [0x44] 0 3000 9000 [([[2, 1, 0xD0, 0x95, 0xE0]], 18000), ([[0x44], [0x26, 1]], 15000)] ∧
    calls H265.extract
      { sps := [0x42], pps := [0x44], spsp := some {}, ppsp := some {}, randomReceived := true, prevDTSFilled := true,
        prevDTS := 9000 } [([[2, 1, 0xD0, 0x95, 0xE0]], 18000), ([[0x44], [0x26, 1]], 15000)] = [.ok 12000, .ok 15000] := by
  refine ⟨⟨by decide, by decide, by simp⟩, ⟨rfl, rfl, rfl, rfl, rfl, rfl, rfl, rfl, rfl, by decide, by decide⟩,
    ⟨⟨2, ⟨[], 2, _, [], rfl, by simp, .inr ⟨⟨1, by simp, rfl⟩, 1, [0xD0, 0x95, 0xE0],
      ⟨0, 1, 1, ⟨false, 0, false, 0, 1, 0, [-3], [true], [], []⟩, false⟩, _, [true, false, false, false, false, false], rfl, by decide,
      ⟨(), _, _, rfl, ⟨(), [], _, rfl, ⟨0, _, _, ⟨by decide, rfl⟩, ⟨(), [], _, rfl, ⟨1, _, _, ⟨by decide, rfl⟩,
    ⟨false, [], _, ⟨rfl, rfl⟩, ⟨0, [], _, ⟨rfl, rfl⟩, ⟨1, _, _, ⟨by decide, rfl⟩, ⟨false, _, _, rfl, ⟨_, _, _, ⟨false, [], _,
    ⟨rfl, rfl⟩, ⟨1, _, _, ⟨1, by decide, rfl, rfl⟩, ⟨0, _, _, ⟨0, by decide, rfl, rfl⟩, ⟨(), [], _, ⟨by decide, rfl⟩,
    ⟨[(-3, true)], _, _, ⟨2, _, _, ⟨2, by decide, rfl, rfl⟩, ⟨true, _, _, rfl, ⟨_, _, _, ⟨rfl, rfl⟩, ⟨rfl, rfl⟩, rfl⟩, rfl⟩, rfl⟩,
    ⟨(), [], _, ⟨by decide, rfl⟩, ⟨[], [], _, ⟨rfl, rfl⟩, ⟨rfl, rfl⟩, rfl⟩, rfl⟩, rfl⟩, rfl⟩, rfl⟩, rfl⟩, rfl⟩, ⟨rfl, rfl⟩,
    rfl⟩, rfl⟩, rfl⟩, rfl⟩, rfl⟩, rfl⟩, rfl⟩, rfl⟩, rfl⟩, rfl⟩, ?_, ?_, ?_, ?_⟩⟩, by decide, by decide, by decide, by decide⟩,
    ⟨0, ⟨[[0x44]], 0x26, [1], [], rfl, by simp; decide, .inl ⟨rfl, .inl rfl⟩⟩, by decide, by decide, by decide, by decide⟩,
    trivial⟩, ?_⟩ <;> decide +kernel

end Verif.Props
