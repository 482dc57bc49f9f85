import Verif.Props.DTSRate

/-!
# C63, C64: DTS from the first access unit
-/

namespace Verif.Props
open Verif.Spec Verif.H264 Verif.Spec.Slice Verif.Spec.Rate Verif.StepM
open Verif.Spec.DTS (type264 type265)
open TS (wrap64)

theorem step_err {σ α β : Type} {p : StepM σ α} {f : α → StepM σ β} {s s' : σ} {e : String} (h : p s = (s', .err e)) :
    (p >>= f) s = (s', .err e) := by
  show (match p s with
    | (s, .ok a) => f a s
    | (s, .err e) => (s, .err e)
    | (s, .panic) => (s, .panic)) = _
  rw [h]

/-! ## Access units without slices -/

theorem start_ref (b : UInt8) : (b &&& 0x60 > 0) ↔ b.toNat / 32 % 4 ≠ 0 := by
  revert b
  exact forall_u8 (by decide +kernel)

theorem start_scan (d : DTSExtractor) (l : List Bytes) :
    (∀ x ∈ l, x ≠ [] ∧ type264 x ≠ some 1 ∧ type264 x ≠ some 5 ∧ (type264 x = some 7 → x = d.sps)) →
    ∀ nz, scan nz l d = (d, .ok { nonZeroNalRefIDFound := nz || decide (∃ x ∈ l, refIdc x ≠ some 0) }) := by
  induction l with
  | nil => intro _ nz; unfold scan; simp; rfl
  | cons x l ih =>
    intro hx nz
    obtain ⟨h1, h2, h3, h4⟩ := hx x List.mem_cons_self
    obtain ⟨b, r, rfl⟩ := List.exists_cons_of_ne_nil h1
    have hr := ih (fun y hy => hx y (List.mem_cons_of_mem _ hy)) (nz || decide (b &&& 0x60 > 0))
    have hnz : ((nz || decide (b &&& 0x60 > 0)) || decide (∃ x ∈ l, refIdc x ≠ some 0)) =
        (nz || decide (∃ x ∈ (b :: r) :: l, refIdc x ≠ some 0)) := by
      rw [Bool.or_assoc]
      congr 1
      rw [Bool.eq_iff_iff, Bool.or_eq_true, decide_eq_true_eq, decide_eq_true_eq, decide_eq_true_eq, start_ref]
      have : refIdc (b :: r) ≠ some 0 ↔ b.toNat / 32 % 4 ≠ 0 := by
        show some (b.toNat / 32 % 4) ≠ some 0 ↔ _
        simp
      simp only [List.mem_cons, exists_eq_or_imp, this]
    rw [hnz] at hr
    unfold scan
    rw [step_bind (s' := d) (a := b) rfl]
    have t1 : ∀ j : UInt8, type264 (b :: r) ≠ some j.toNat → b &&& 0x1F ≠ j := by
      intro j hj e
      exact hj (by rw [dts_typeEq] at e; show some (b.toNat % 32) = _; rw [e])
    by_cases h7 : b &&& 0x1F = 7
    · rw [if_pos h7]
      have : handleSPS (b :: r) d = (d, .ok ()) := by
        unfold handleSPS
        rw [step_get, if_pos]
        · rfl
        · rw [h4 (by rw [dts_typeEq] at h7; show some (b.toNat % 32) = _; rw [h7]; rfl)]
      rw [step_bind this]
      exact hr
    · rw [if_neg h7, if_neg (t1 5 h3), if_neg (t1 1 h2)]
      exact hr

theorem start_inner (d : DTSExtractor) (au : List Bytes) (pts : Int) (f : Found) (sps : SPS) (hs : scan false au d = (d, .ok f))
    (hp : d.spsp = some sps) (ht : sps.picOrderCntType = 0) (hm : sps.frameMbsOnlyFlag = true) (hr : d.randomReceived = true) :
    extractInner au pts d = handleFrame f sps pts d := by
  unfold extractInner
  rw [step_bind hs, step_get, hp]
  dsimp only
  rw [if_neg (by rw [ht, hm]; simp), if_neg (by rw [ht]; simp)]
  have hc : checkRandom f d = (d, .ok ()) := by
    unfold checkRandom
    rw [step_get, if_pos hr]
    rfl
  rw [step_bind hc]

/-- C63 (H264): an access unit without slices and whose NAL units are not needed by others repeats the previous DTS, and
changes nothing. -/
theorem C63_h264_repeat (d : DTSExtractor) (au : List Bytes) (pts : Int) (sps : SPS)
    (hau : ∀ x ∈ au, x ≠ [] ∧ type264 x ≠ some 1 ∧ type264 x ≠ some 5 ∧ (type264 x = some 7 → x = d.sps))
    (hp : d.spsp = some sps) (ht : sps.picOrderCntType = 0) (hm : sps.frameMbsOnlyFlag = true) (hr : d.randomReceived = true)
    (hf : d.prevDTSFilled = true) (href : ∀ x ∈ au, refIdc x = some 0) (hpts : d.prevDTS ≤ pts) :
    extract (au, pts) d = (d, .ok d.prevDTS) := by
  have hs := start_scan d au hau false
  rw [show (false || decide (∃ x ∈ au, refIdc x ≠ some 0)) = false by
    rw [Bool.false_or, decide_eq_false_iff_not]; rintro ⟨x, h1, h2⟩; exact h2 (href x h1)] at hs
  have hi := start_inner d au pts _ sps hs hp ht hm hr
  have hh : handleFrame ({} : Found) sps pts d = (d, .ok (d.prevDTS, false)) := by
    unfold handleFrame
    dsimp only
    rw [if_neg (by simp)]
    unfold repeatDTS
    rw [step_get, if_pos hf]
    rfl
  rw [hh] at hi
  unfold extract
  dsimp only
  rw [step_bind hi, step_get, if_neg (by rintro ⟨-, h⟩; dsimp only at h; omega), if_neg (by rintro ⟨-, h⟩; dsimp only at h; omega)]
  show ({ d with prevDTSFilled := true, prevDTS := d.prevDTS }, _) = _
  rw [← hf]

/-- C63 (H264): an access unit without slices, one of whose NAL units is needed by others, is refused. -/
theorem C63_h264_refused (d : DTSExtractor) (au : List Bytes) (pts : Int) (sps : SPS)
    (hau : ∀ x ∈ au, x ≠ [] ∧ type264 x ≠ some 1 ∧ type264 x ≠ some 5 ∧ (type264 x = some 7 → x = d.sps))
    (hp : d.spsp = some sps) (ht : sps.picOrderCntType = 0) (hm : sps.frameMbsOnlyFlag = true) (hr : d.randomReceived = true)
    (href : ∃ x ∈ au, refIdc x ≠ some 0) : ∃ e, extract (au, pts) d = (d, .err e) := by
  have hs := start_scan d au hau false
  rw [show (false || decide (∃ x ∈ au, refIdc x ≠ some 0)) = true by
    rw [Bool.false_or, decide_eq_true_eq]; exact href] at hs
  have hi := start_inner d au pts _ sps hs hp ht hm hr
  refine ⟨"access unit doesn't contain an IDR or non-IDR NALU", ?_⟩
  have hh : handleFrame ({ nonZeroNalRefIDFound := true } : Found) sps pts d =
      (d, .err "access unit doesn't contain an IDR or non-IDR NALU") := rfl
  rw [hh] at hi
  unfold extract
  exact step_err hi

theorem start_scan_any (d : DTSExtractor) (l : List Bytes) :
    (∀ x ∈ l, x ≠ [] ∧ (type264 x = some 7 → x = d.sps)) → ∀ nz, ∃ f, scan nz l d = (d, .ok f) := by
  induction l with
  | nil => intro _ nz; exact ⟨_, rfl⟩
  | cons x l ih =>
    intro hx nz
    obtain ⟨h1, h4⟩ := hx x List.mem_cons_self
    obtain ⟨b, r, rfl⟩ := List.exists_cons_of_ne_nil h1
    have hr := ih (fun y hy => hx y (List.mem_cons_of_mem _ hy)) (nz || decide (b &&& 0x60 > 0))
    unfold scan
    rw [step_bind (s' := d) (a := b) rfl]
    by_cases h7 : b &&& 0x1F = 7
    · rw [if_pos h7]
      have : handleSPS (b :: r) d = (d, .ok ()) := by
        unfold handleSPS
        rw [step_get, if_pos]
        · rfl
        · rw [h4 (by rw [dts_typeEq] at h7; show some (b.toNat % 32) = _; rw [h7]; rfl)]
      rw [step_bind this]
      exact hr
    · rw [if_neg h7]
      split
      · exact ⟨_, rfl⟩
      · split
        · exact ⟨_, rfl⟩
        · exact hr

/-- C63 (H264): with picture order count type 2 or with fields, every DTS is the PTS. -/
theorem C63_h264_direct (d : DTSExtractor) (au : List Bytes) (pts : Int) (sps : SPS)
    (hau : ∀ x ∈ au, x ≠ [] ∧ (type264 x = some 7 → x = d.sps)) (hp : d.spsp = some sps)
    (ht : sps.picOrderCntType = 2 ∨ sps.frameMbsOnlyFlag = false) (hm : d.prevDTSFilled = true → d.prevDTS ≤ pts) :
    extract (au, pts) d = ({ d with prevDTSFilled := true, prevDTS := pts }, .ok pts) := by
  obtain ⟨f, hs⟩ := start_scan_any d au hau false
  have hi : extractInner au pts d = (d, .ok (pts, false)) := by
    unfold extractInner
    rw [step_bind hs, step_get, hp]
    dsimp only
    rw [if_pos ht]
    rfl
  unfold extract
  dsimp only
  rw [step_bind hi, step_get, if_neg (by rintro ⟨-, h⟩; dsimp only at h; omega), if_neg]
  · rfl
  · rintro ⟨h1, h2⟩
    have := hm h1
    dsimp only at h2
    omega

/-- A delimiter and SEI without slices; then a SEI marked as needed. -/
example : (∀ x ∈ [[9, 0xF0], [6, 0]], x ≠ [] ∧ type264 x ≠ some 1 ∧ type264 x ≠ some 5 ∧ (type264 x = some 7 → x = rateState.sps)) ∧
    extract ([[9, 0xF0], [6, 0]], 94000) rateState = (rateState, .ok 93000) ∧
    (extract ([[9, 0xF0], [0x26, 0]], 94000) rateState).2 = .err "access unit doesn't contain an IDR or non-IDR NALU" := by
  refine ⟨?_, by decide +kernel, by decide +kernel⟩
  intro x hx
  simp only [List.mem_cons, List.not_mem_nil, or_false] at hx
  rcases hx with rfl | rfl <;> decide

/-! ## From the first access unit -/

theorem start_jump (d : DTSExtractor) (diff pts : Int) (r m i : Nat) (hf : d.prevDTSFilled = true) (hp : d.pause = m)
    (hr : d.reorderedFrames = r) (hi1 : 1 ≤ i) (h10 : r + i ≤ 10) (h : diff + r + i = 0 ∨ diff + r = 2 * r + 1 + i) :
    (adjust diff >>= fun k => finish k pts) d =
      ({ d with reorderedFrames := (r + i : Nat), pause := (m + i - 1 : Nat) }, .ok (wrap64 (d.prevDTS + 90), true)) := by
  have hi : increaseReordered (i : Int) d =
      ({ d with reorderedFrames := (r + i : Nat), pause := (m + i : Nat) }, .ok ()) := by
    unfold increaseReordered
    rw [step_get, hr, if_neg (by unfold maxReorderedFrames; omega)]
    show (({ d with reorderedFrames := d.reorderedFrames + (i : Int), pause := d.pause + (i : Int) } :
      DTSExtractor), Res.ok ()) = _
    rw [hr, hp]
    rfl
  have ha : ∃ k, adjust diff d = ({ d with reorderedFrames := (r + i : Nat), pause := (m + i : Nat) }, .ok k) := by
    unfold adjust
    rw [step_get, hr]
    rcases h with h | h
    · rw [if_neg (by omega), if_pos (by omega), show -(diff + (r : Int)) = (i : Int) by omega, step_bind hi]
      exact ⟨_, rfl⟩
    · rw [if_pos (by omega), show diff + (r : Int) - (2 * r + 1) = (i : Int) by omega, step_bind hi]
      exact ⟨_, rfl⟩
  obtain ⟨k, ha⟩ := ha
  rw [step_bind ha]
  unfold finish
  rw [step_get, if_pos (by show ((m + i : Nat) : Int) > 0; omega), step_modify, if_pos hf]
  have : ((m + i : Nat) : Int) - 1 = (m + i - 1 : Nat) := by omega
  show (({ d with reorderedFrames := (r + i : Nat), pause := ((m + i : Nat) : Int) - 1 } : DTSExtractor), _) = _
  rw [this]

/-- The difference between the DTS and the decoding time, when `r` reordered pictures are known and a pause of `m` is left. -/
def startErr (S : Stream264) (r m : Nat) (eps : Int) : Int := S.T * S.R - S.T * r + (S.T * m - 90 * m) + eps

theorem start_step (S : Stream264) (hS : Stream264Ok S) (hT : 900 ≤ S.T) (hT2 : S.T ≤ 2 ^ 50) (hR : S.R ≤ 10)
    {r m base n p1 p2 : Nat} {eps t : Int} {d : DTSExtractor}
    (hd : Steady S r m base n p1 p2 (t + S.T * n) (startErr S r m eps) d) (hr : r ≤ S.R) (hm : m ≤ r) (he : 0 ≤ eps)
    (he2 : eps ≤ 90 * r) (au : List Bytes) (pts : Int) (l : List (List Bytes × Int))
    (hl : Regular S base n p1 p2 t ((au, pts) :: l)) (h61 : pts < 2 ^ 61) :
    ∃ (r' m' : Nat) (eps' : Int) (d' : DTSExtractor) (base' n' q1 q2 : Nat) (t' : Int),
      extract (au, pts) d = (d', .ok (t + S.T * n + S.T + startErr S r' m' eps')) ∧
      t' + S.T * n' = t + S.T * n + S.T ∧ Steady S r' m' base' n' q1 q2 (t' + S.T * n') (startErr S r' m' eps') d' ∧
      Regular S base' n' q1 q2 t' l ∧ r' ≤ S.R ∧ m' ≤ r' ∧ 0 ≤ eps' ∧ eps' ≤ 90 * r' ∧
      (r = S.R → r' = S.R ∧ (0 < m → m' + 1 = m ∧ eps' = eps) ∧ (m = 0 → m' = 0 ∧ (eps' = 0 ∨ eps' < eps))) ∧
      ((pts = t + S.T * n + S.T ∨ pts = t + S.T * n + S.T + S.T * (2 * S.R + 1)) → r' = S.R) := by
  obtain ⟨f, d1, diff, base', n', q1, q2, t', h1, h2, h3, h4, h5, h6, h7, h8, h9, h10⟩ := rate_mid S hS hd au pts l hl
  have b1 := h3.low
  have b2 := h3.high
  have hprev := h3.prev
  have hext : (pts = t + S.T * n + S.T ∨ pts = t + S.T * n + S.T + S.T * (2 * S.R + 1)) →
      diff + S.R = 0 ∨ diff + S.R = 2 * S.R + 1 := by
    rintro (hp | hp)
    · left
      have : S.T * (diff + S.R + 1) = S.T * 1 := by omega
      have := Int.eq_of_mul_eq_mul_left (by omega) this
      omega
    · right
      have : S.T * (diff + S.R + 1) = S.T * (1 + (2 * S.R + 1)) := by rw [Int.mul_add S.T 1]; omega
      have := Int.eq_of_mul_eq_mul_left (by omega) this
      omega
  have hTk : S.T * 1 ≤ S.T * (diff + S.R + 1) := Int.mul_le_mul_of_nonneg_left (by omega) (by omega)
  have hTr : S.T * (r : Int) ≤ S.T * S.R := Int.mul_le_mul_of_nonneg_left (by omega) (by omega)
  have hTr0 : 0 ≤ S.T * (r : Int) := Int.mul_nonneg (by omega) (by omega)
  have hTm : S.T * (m : Int) ≤ S.T * r := Int.mul_le_mul_of_nonneg_left (by omega) (by omega)
  have hTm0 : 0 ≤ S.T * (m : Int) := Int.mul_nonneg (by omega) (by omega)
  have hTR : S.T * (S.R : Int) ≤ S.T * 10 := Int.mul_le_mul_of_nonneg_left (by omega) (by omega)
  have hhigh : t + S.T * n + startErr S r m eps + 90 < 2 ^ 62 := by unfold startErr; omega
  by_cases hj : diff + r < 0 ∨ diff + r > 2 * r + 1
  · -- more reordered pictures
    obtain ⟨i, hi1, hi⟩ : ∃ i : Nat, 1 ≤ i ∧ (diff + r + i = 0 ∨ diff + r = 2 * r + 1 + i) := by
      rcases hj with hj | hj
      · exact ⟨(-(diff + r)).toNat, by omega, .inl (by omega)⟩
      · exact ⟨(diff + r - (2 * r + 1)).toNat, by omega, .inr (by omega)⟩
    rw [start_jump d1 diff pts r m i h3.filled h3.pause h3.reordered hi1 (by omega) hi, rate_wrap (by omega) (by omega), hprev] at h2
    have hx := rate_extract d _ au pts _ true f S.sps h1 hd.sps hS.type hS.frames hd.random h2 (by simp)
      (by show t + S.T * n + startErr S r m eps ≤ _; omega)
    have hTi : S.T * ((r + i : Nat) : Int) = S.T * r + S.T * i := by rw [Int.natCast_add, Int.mul_add]
    have hTmi : S.T * ((m + i - 1 : Nat) : Int) = S.T * m + S.T * i - S.T := by
      rw [show ((m + i - 1 : Nat) : Int) = (m : Int) + i - 1 by omega, Int.mul_sub, Int.mul_add, Int.mul_one]
    have herr : t + S.T * n + startErr S r m eps + 90 = t + S.T * n + S.T + startErr S (r + i) (m + i - 1) (eps + 90 * i) := by
      unfold startErr
      omega
    refine ⟨r + i, m + i - 1, eps + 90 * i, _, base', n', q1, q2, t', hx.trans (congrArg (fun v => (_, Res.ok v)) herr), h5, ⟨h3.raw, h3.sps, h3.random, rfl, ?_, rfl, rfl,
      h3.inc, h3.expected, h3.even, h3.known, h3.small, ?_, ?_⟩, h4, by omega, by omega, by omega, by omega, fun h => by omega,
      fun h => by have := hext h; omega⟩
    · show t + S.T * n + startErr S r m eps + 90 = _
      omega
    · omega
    · omega
  · by_cases hm0 : m = 0
    · -- no pause
      subst hm0
      have hp' : d1.prevDTS = t + S.T * n + (S.T * S.R - S.T * r) + eps := by
        rw [hprev]; unfold startErr; simp; omega
      have hq' : pts = t + S.T * n + (S.T * S.R - S.T * r) + S.T * (diff + r + 1) := by
        rw [h8, show diff + (S.R : Int) + 1 = diff + r + 1 + (S.R - r) by omega, Int.mul_add S.T (diff + r + 1), Int.mul_sub]
        omega
      obtain ⟨e', k1, k2, k3, k4, k5, k6⟩ := rate_step (k := diff + r) (T := S.T) (pts := pts) (by omega) hp' hq' he (by omega)
      have hw1 : wrap64 (pts - d1.prevDTS) = pts - d1.prevDTS := rate_wrap (by omega) (by omega)
      rw [rate_tail d1 diff pts r h3.filled h3.pause h3.reordered (by omega) (by omega), hw1, rate_wrap (by omega) (by omega), k1] at h2
      have hx := rate_extract d _ au pts _ false f S.sps h1 hd.sps hS.type hS.frames hd.random h2 (by intro _; omega) (by omega)
      have herr : t + S.T * n + (S.T * S.R - S.T * r) + S.T + e' = t + S.T * n + S.T + startErr S r 0 e' := by
        unfold startErr; simp; omega
      refine ⟨r, 0, e', _, base', n', q1, q2, t', hx.trans (congrArg (fun v => (_, Res.ok v)) herr), h5, ⟨h3.raw, h3.sps, h3.random, rfl, ?_, h3.pause, h3.reordered,
        h3.inc, h3.expected, h3.even, h3.known, h3.small, ?_, ?_⟩, h4, by omega, by omega, by omega, by omega,
        fun h => ⟨h, by omega, fun _ => ⟨rfl, k3⟩⟩, fun h => by have := hext h; omega⟩
      · show t + S.T * n + (S.T * S.R - S.T * r) + S.T + e' = _
        omega
      · omega
      · omega
    · -- pause
      obtain ⟨m, rfl⟩ : ∃ k, m = k + 1 := ⟨m - 1, by omega⟩
      rw [rate_pause d1 diff pts r m h3.filled h3.pause h3.reordered (by omega) (by omega), rate_wrap (by omega) (by omega), hprev] at h2
      have hx := rate_extract d _ au pts _ true f S.sps h1 hd.sps hS.type hS.frames hd.random h2 (by simp)
        (by show t + S.T * n + startErr S r (m + 1) eps ≤ _; omega)
      have hTm1 : S.T * ((m + 1 : Nat) : Int) = S.T * m + S.T := by
        rw [show ((m + 1 : Nat) : Int) = (m : Int) + 1 from rfl, Int.mul_add, Int.mul_one]
      have herr : t + S.T * n + startErr S r (m + 1) eps + 90 = t + S.T * n + S.T + startErr S r m eps := by
        unfold startErr
        omega
      refine ⟨r, m, eps, _, base', n', q1, q2, t', hx.trans (congrArg (fun v => (_, Res.ok v)) herr), h5, ⟨h3.raw, h3.sps, h3.random, rfl, ?_, rfl, h3.reordered,
        h3.inc, h3.expected, h3.even, h3.known, h3.small, ?_, ?_⟩, h4, by omega, by omega, by omega, by omega,
        fun h => ⟨h, fun _ => ⟨rfl, rfl⟩, by omega⟩, fun h => by have := hext h; omega⟩
      · show t + S.T * n + startErr S r (m + 1) eps + 90 = _
        omega
      · omega
      · omega

theorem start_drop {α : Type} {l : List α} {P : α → Prop} {a b : Nat} (hab : a ≤ b) (h : ∀ x ∈ l.drop a, P x) :
    ∀ x ∈ l.drop b, P x := by
  intro x hx
  rw [show b = a + (b - a) by omega, ← List.drop_drop] at hx
  exact h x (List.mem_of_mem_drop hx)

theorem start_err_bounds (S : Stream264) (hT : 900 ≤ S.T) {r m : Nat} {eps : Int} (hr : r ≤ S.R) (hm : m ≤ r) (he : 0 ≤ eps)
    (he2 : eps ≤ 90 * r) : 0 ≤ startErr S r m eps ∧ startErr S r m eps ≤ S.T * S.R + 90 * S.R := by
  have hTr : S.T * (r : Int) ≤ S.T * S.R := Int.mul_le_mul_of_nonneg_left (by omega) (by omega)
  have hTm : S.T * (m : Int) ≤ S.T * r := Int.mul_le_mul_of_nonneg_left (by omega) (by omega)
  have hTm0 : 90 * (m : Int) ≤ S.T * m := Int.mul_le_mul_of_nonneg_right (by omega) (by omega)
  unfold startErr
  omega

theorem start_run (S : Stream264) (hS : Stream264Ok S) (hT : 900 ≤ S.T) (hT2 : S.T ≤ 2 ^ 50) (hR : S.R ≤ 10)
    (l : List (List Bytes × Int)) : ∀ (r m base n p1 p2 : Nat) (eps t : Int) (d : DTSExtractor),
    Steady S r m base n p1 p2 (t + S.T * n) (startErr S r m eps) d → r ≤ S.R → m ≤ r → 0 ≤ eps → eps ≤ 90 * r →
    (∀ x ∈ l, x.2 < 2 ^ 61) → Regular S base n p1 p2 t l →
    ∃ es, es.length = l.length ∧
      calls extract d l = (List.zipWith (· + ·) (clock (t + S.T * n + S.T) S.T l.length) es).map .ok ∧
      (∀ e ∈ es, 0 ≤ e ∧ e ≤ S.T * S.R + 90 * S.R) ∧ (r = S.R → ∀ x ∈ es.drop (m + eps.toNat), x = 0) ∧
      (∀ j, Extreme S.R S.T (t + S.T * n + S.T) l j → ∀ x ∈ es.drop (j + 1 + 910), x = 0) := by
  induction l with
  | nil =>
    intro r m base n p1 p2 eps t d _ _ _ _ _ _ _
    refine ⟨[], rfl, rfl, by simp, by simp, by simp⟩
  | cons a l ih =>
    obtain ⟨au, pts⟩ := a
    intro r m base n p1 p2 eps t d hd hr hm he he2 h61 hl
    obtain ⟨r', m', eps', d', base', n', q1, q2, t', g1, g2, g3, g4, g5, g6, g7, g8, g9, g10⟩ :=
      start_step S hS hT hT2 hR hd hr hm he he2 au pts l hl (h61 _ List.mem_cons_self)
    obtain ⟨es, i1, i2, i3, i4, i5⟩ := ih r' m' base' n' q1 q2 eps' t' d' g3 g5 g6 g7 g8
      (fun x hx => h61 x (List.mem_cons_of_mem _ hx)) g4
    refine ⟨startErr S r' m' eps' :: es, by simp [i1], ?_, ?_, ?_, ?_⟩
    · simp only [calls, g1, i2, List.length_cons, clock, List.zipWith_cons_cons, List.map_cons]
      rw [g2]
    · intro e he
      rcases List.mem_cons.1 he with rfl | he
      · exact start_err_bounds S hT g5 g6 g7 g8
      · exact i3 e he
    · intro hrR
      obtain ⟨j1, j2, j3⟩ := g9 hrR
      have i4 := i4 j1
      by_cases h0 : m + eps.toNat = 0
      · rw [h0, List.drop_zero]
        obtain ⟨j4, j5⟩ := j3 (by omega)
        have he' : eps' = 0 := by omega
        have hz : startErr S r' m' eps' = 0 := by
          unfold startErr
          rw [j1, j4, he']
          simp
        rw [j4, he'] at i4
        intro x hx
        rcases List.mem_cons.1 hx with rfl | hx
        · exact hz
        · exact i4 x hx
      · rw [show m + eps.toNat = (m + eps.toNat - 1) + 1 by omega, List.drop_succ_cons]
        refine start_drop ?_ i4
        by_cases hm0 : m = 0
        · obtain ⟨j4, j5⟩ := j3 hm0
          omega
        · obtain ⟨j4, j5⟩ := j2 (by omega)
          omega
    · rintro j ⟨au', pts', h1, h2⟩
      cases j with
      | zero =>
        rw [List.getElem?_cons_zero] at h1
        cases h1
        simp only [Int.natCast_zero, Int.mul_zero, Int.add_zero] at h2
        have hr' := g10 h2
        rw [show 0 + 1 + 910 = 910 + 1 by omega, List.drop_succ_cons]
        exact start_drop (by omega) (i4 hr')
      | succ j =>
        rw [List.getElem?_cons_succ] at h1
        rw [show j + 1 + 1 + 910 = (j + 1 + 910) + 1 by omega, List.drop_succ_cons]
        refine i5 j ⟨au', pts', h1, ?_⟩
        have : S.T * ((j + 1 : Nat) : Int) = S.T * j + S.T := by
          rw [show ((j + 1 : Nat) : Int) = (j : Int) + 1 from rfl, Int.mul_add, Int.mul_one]
        rw [g2]
        omega

theorem start_skip (d : DTSExtractor) (l : List Bytes) (pre : List Bytes) :
    (∀ x ∈ pre, x ≠ [] ∧ type264 x ≠ some 1 ∧ type264 x ≠ some 5 ∧ type264 x ≠ some 7) →
    ∀ nz, ∃ nz', scan nz (pre ++ l) d = scan nz' l d := by
  induction pre with
  | nil => intro _ nz; exact ⟨nz, rfl⟩
  | cons x pre ih =>
    intro hx nz
    obtain ⟨h1, h2, h3, h4⟩ := hx x List.mem_cons_self
    obtain ⟨b, r, rfl⟩ := List.exists_cons_of_ne_nil h1
    obtain ⟨nz', hr⟩ := ih (fun y hy => hx y (List.mem_cons_of_mem _ hy)) (nz || decide (b &&& 0x60 > 0))
    refine ⟨nz', ?_⟩
    rw [List.cons_append]
    conv => lhs; unfold scan
    rw [step_bind (s' := d) (a := b) rfl]
    have t1 : ∀ j : UInt8, type264 (b :: r) ≠ some j.toNat → b &&& 0x1F ≠ j := by
      intro j hj e
      exact hj (by rw [dts_typeEq] at e; show some (b.toNat % 32) = _; rw [e])
    rw [if_neg (t1 7 h4), if_neg (t1 5 h3), if_neg (t1 1 h2)]
    exact hr

/-- The first access unit. -/
theorem start_first (S : Stream264) (hS : Stream264Ok S) (hinc : S.inc = 2) (d : DTSExtractor) (hd : d.sps ≠ S.raw)
    (hu : ({} : SPS).unmarshal S.raw = .ok S.sps) (poc : Nat) (hpoc : poc % 2 = 0) (au : List Bytes)
    (h : FirstUnit264 S.sps S.raw poc au) (pts : Int) (hprev : d.prevDTSFilled = true → -2 ^ 61 ≤ d.prevDTS ∧ d.prevDTS ≤ pts)
    (h1 : -2 ^ 61 ≤ pts) (h2 : pts < 2 ^ 61) :
    ∃ d', extract (au, pts) d = (d', .ok pts) ∧ Steady S 0 0 poc 0 poc 0 pts 0 d' := by
  obtain ⟨pre, au', rfl, h7, hpre, hfs⟩ := h
  let d0 : DTSExtractor := { d with sps := S.raw, spsp := some S.sps, randomReceived := false, expectedPOC := 0, reorderedFrames := 0,
                                    pause := 0, auCount := 0, pocIncrement := 2, prevPOC := 0, prevPrevPOC := 0 }
  obtain ⟨nz', hskip⟩ := start_skip d (S.raw :: au') pre hpre false
  obtain ⟨b, rr, hraw⟩ : ∃ b rr, S.raw = b :: rr := by
    cases hc : S.raw with
    | nil => rw [hc] at h7; cases h7
    | cons b rr => exact ⟨b, rr, rfl⟩
  have hb : b &&& 0x1F = 7 := by
    rw [dts_typeEq]
    rw [hraw] at h7
    exact Option.some.inj h7
  have hsps : handleSPS S.raw d = (d0, .ok ()) := by
    unfold handleSPS
    rw [step_get, if_neg hd, hu]
    rfl
  obtain ⟨nal, f, hs, hg, hlt, hi, -⟩ := rate_found S hS d0 rfl true poc au' hfs (nz' || decide (b &&& 0x60 > 0))
  have hscan : scan false (pre ++ S.raw :: au') d = (d0, .ok f) := by
    rw [hskip]
    unfold scan
    rw [step_bind (s' := d) (a := b) (by rw [hraw]; rfl), if_pos hb, step_bind hsps]
    exact hs
  let d1 : DTSExtractor := { d0 with randomReceived := true, expectedPOC := poc, auCount := 1, prevPrevPOC := 0, prevPOC := poc }
  have hidr : handleIDR nal S.sps { d0 with randomReceived := true } = (d1, .ok 0) := by
    unfold handleIDR
    rw [hg]
    dsimp only
    rw [step_modify, step_get, if_pos rfl, step_modify, if_neg (by rw [hpoc]; simp)]
    rfl
  have hin : ∃ b, extractInner (pre ++ S.raw :: au') pts d = (d1, .ok (pts, b)) := by
    unfold extractInner
    rw [step_bind hscan, step_get]
    show ∃ b, (if S.sps.picOrderCntType = 2 ∨ S.sps.frameMbsOnlyFlag = false then _ else _ : DM (Int × Bool)) d0 = _
    rw [if_neg (by rw [hS.type, hS.frames]; simp), if_neg (by rw [hS.type]; simp)]
    have hc : checkRandom f d0 = ({ d0 with randomReceived := true }, .ok ()) := by
      unfold checkRandom
      rw [step_get, if_neg (by simp [d0]), if_neg (by rw [hi rfl]; simp)]
      rfl
    rw [step_bind hc]
    unfold handleFrame
    rw [hi rfl]
    dsimp only
    rw [step_bind hidr]
    have ha : adjust 0 d1 = (d1, .ok 0) := by
      unfold adjust
      rw [step_get]
      show (if (0 : Int) + 0 > 2 * 0 + 1 then _ else _ : DM Int) d1 = _
      rw [if_neg (by decide), if_neg (by show ¬ ((0 : Int) + 0 < 0); decide)]
      rfl
    rw [step_bind ha]
    unfold finish
    rw [step_get, if_neg (by simp [d1, d0])]
    by_cases hf : d.prevDTSFilled = true
    · obtain ⟨g1, g2⟩ := hprev hf
      have e1 : d1.prevDTSFilled = true := hf
      rw [if_pos e1, if_neg (by decide)]
      refine ⟨false, ?_⟩
      show (d1, Res.ok (wrap64 (d.prevDTS + (wrap64 (pts - d.prevDTS)).tdiv (0 + 1)), false)) = _
      rw [rate_wrap (v := pts - d.prevDTS) (by omega) (by omega), Int.zero_add, Int.tdiv_one,
        show d.prevDTS + (pts - d.prevDTS) = pts by omega, rate_wrap (by omega) (by omega)]
    · rw [if_neg (show ¬ d1.prevDTSFilled = true from hf)]
      exact ⟨true, rfl⟩
  obtain ⟨skip, hin⟩ := hin
  refine ⟨{ d1 with prevDTSFilled := true, prevDTS := pts }, ?_, ?_⟩
  · unfold extract
    dsimp only
    rw [step_bind hin, step_get, if_neg (by rintro ⟨-, h⟩; dsimp only at h; omega), if_neg]
    · rfl
    · rintro ⟨g1, g2⟩
      have := (hprev g1).2
      have : pts < d.prevDTS := g2
      omega
  · exact ⟨rfl, rfl, rfl, rfl, by simp, rfl, rfl, by rw [hinc]; rfl, by
      show poc = (poc + S.inc * 0) % S.maxLsb
      rw [Nat.mul_zero, Nat.add_zero, Nat.mod_eq_of_lt hlt], fun _ => hpoc, fun _ => .inr ⟨rfl, rfl⟩,
      ⟨by have := rate_maxLsb S hS; omega, by decide⟩, by omega, by omega⟩

/-- C64 (H264): from the first access unit, or from any SPS that is not the current one, every access unit of a stream with a
constant frame rate up to 100 frames per second gets a DTS, which is never before the decoding time and at most `R` frames and
90 ticks per reordered frame after it. Once a picture has shown the number of reordered pictures, and 910 pictures later at most,
the DTS is the decoding time. -/
theorem C64_h264 (S : Stream264) (hS : Stream264Ok S) (hinc : S.inc = 2) (hT : 900 ≤ S.T) (hT2 : S.T ≤ 2 ^ 50) (hR : S.R ≤ 10)
    (d : DTSExtractor) (hd : d.sps ≠ S.raw) (hu : ({} : SPS).unmarshal S.raw = .ok S.sps) (poc : Nat) (hpoc : poc % 2 = 0)
    (au : List Bytes) (h : FirstUnit264 S.sps S.raw poc au) (pts : Int)
    (hprev : d.prevDTSFilled = true → -2 ^ 61 ≤ d.prevDTS ∧ d.prevDTS ≤ pts) (h1 : -2 ^ 61 ≤ pts) (h2 : pts < 2 ^ 61)
    (l : List (List Bytes × Int)) (hl : Regular S poc 0 poc 0 (pts - S.T * S.R) l) (h61 : ∀ x ∈ l, x.2 < 2 ^ 61) :
    ∃ es, es.length = l.length ∧
      calls extract d ((au, pts) :: l) =
        (pts :: List.zipWith (· + ·) (clock (pts - S.T * S.R + S.T) S.T l.length) es).map .ok ∧
      (∀ e ∈ es, 0 ≤ e ∧ e ≤ S.T * S.R + 90 * S.R) ∧
      (∀ j, Extreme S.R S.T (pts - S.T * S.R + S.T) l j → ∀ x ∈ es.drop (j + 1 + 910), x = 0) := by
  obtain ⟨d', g1, g2⟩ := start_first S hS hinc d hd hu poc hpoc au h pts hprev h1 h2
  have e1 : startErr S 0 0 0 = S.T * S.R := by unfold startErr; simp
  have g2 : Steady S 0 0 poc 0 poc 0 (pts - S.T * S.R + S.T * (0 : Nat)) (startErr S 0 0 0) d' := by
    have a1 := g2.prev
    have a2 := g2.low
    have a3 := g2.high
    exact { g2 with
      prev := by rw [e1]; simp; omega
      low := by rw [e1]; simp; omega
      high := by rw [e1]; simp; omega }
  obtain ⟨es, i1, i2, i3, -, i5⟩ := start_run S hS hT hT2 hR l 0 0 poc 0 poc 0 0 _ d' g2 (by omega) (by omega) (by omega) (by simp) h61 hl
  rw [Int.natCast_zero, Int.mul_zero, Int.add_zero] at i2 i5
  refine ⟨es, i1, ?_, i3, i5⟩
  simp only [calls, g1, i2, List.map_cons]

/-- An SPS of 176 by 144 pixels, baseline profile, log2_max_pic_order_cnt_lsb = 6. -/
def startRaw : Bytes := [0x67, 0x42, 0xC0, 0x1E, 0xED, 0x05, 0x89, 0xC8]

/-- The parameters in it. -/
def startSPS : SPS :=
  { profileIdc := 66, constraintSet0Flag := true, constraintSet1Flag := true, levelIdc := 30, chromaFormatIdc := 1,
    log2MaxPicOrderCntLsbMinus4 := 2, maxNumRefFrames := 1, picWidthInMbsMinus1 := 10, picHeightInMapUnitsMinus1 := 8,
    frameMbsOnlyFlag := true, direct8x8InferenceFlag := true }

/-- One reordered picture, 30 pictures per second. -/
def startStream : Stream264 := ⟨startSPS, startRaw, 2, 1, 3000⟩

theorem startSlice_first (v : Nat) (h : v < 64) : FirstSlice264 startSPS startRaw false v [rateSlice v] :=
  ⟨[], 0x41, _, [], ⟨0, 5, 0, 2, 0, v⟩, _, _, rfl, by simp, rfl,
    ⟨0, [true], _, ⟨by decide, rfl⟩, ⟨5, [false, false, true, true, false], _, ⟨by decide, by decide +kernel⟩,
      ⟨0, [true], _, ⟨by decide, rfl⟩, ⟨0, [], _, ⟨rfl, rfl⟩, ⟨2, [false, false, true, false], _, ⟨by decide, rfl⟩,
      ⟨0, [], _, ⟨rfl, rfl⟩, ⟨v, bitsOfNat 6 v, [], ⟨h, rfl⟩, ⟨rfl, rfl⟩, rfl⟩, rfl⟩, rfl⟩,
      rfl⟩, rfl⟩, rfl⟩, rfl⟩, rateSlice_bits v h, rfl⟩

theorem startSlice_idr : FirstSlice264 startSPS startRaw true 0 [[0x68, 0xCE], [0x65, 0xB8, 0x40, 0x80]] :=
  ⟨[[0x68, 0xCE]], 0x65, _, [], ⟨0, 2, 0, 0, 0, 0⟩, _, [true, false, false, false, false, false, false, false], rfl,
    fun x hx => by rw [List.mem_singleton] at hx; subst hx; exact ⟨by simp, by decide, by decide, fun h => absurd h (by decide)⟩,
    rfl,
    ⟨0, [true], _, ⟨by decide, rfl⟩, ⟨2, [false, true, true], _, ⟨by decide, by decide +kernel⟩,
      ⟨0, [true], _, ⟨by decide, rfl⟩, ⟨0, [], _, ⟨rfl, rfl⟩, ⟨0, [false, false, false, false], _, ⟨by decide, rfl⟩,
      ⟨0, [true], _, ⟨by decide, rfl⟩, ⟨0, [false, false, false, false, false, false], [], ⟨by decide, rfl⟩, ⟨rfl, rfl⟩, rfl⟩,
      rfl⟩, rfl⟩, rfl⟩, rfl⟩, rfl⟩, rfl⟩, by decide +kernel, rfl⟩

/-- P, B, P, B after the IDR. -/
def startList : List (List Bytes × Int) :=
  [([rateSlice 4], 96000), ([rateSlice 2], 93000), ([rateSlice 8], 102000), ([rateSlice 6], 99000)]

/-- A fresh extractor and a stream that starts with SPS, PPS and IDR: the first B picture shows that one picture is reordered. -/
example : Stream264Ok startStream ∧ ({} : SPS).unmarshal startStream.raw = .ok startStream.sps ∧
    FirstUnit264 startSPS startRaw 0 [[9, 0xF0], startRaw, [0x68, 0xCE], [0x65, 0xB8, 0x40, 0x80]] ∧
    Regular startStream 0 0 0 0 (90000 - 3000 * 1) startList ∧ Extreme 1 3000 90000 startList 1 ∧
    calls extract {} (([[9, 0xF0], startRaw, [0x68, 0xCE], [0x65, 0xB8, 0x40, 0x80]], 90000) :: startList) =
      [.ok 90000, .ok 93000, .ok 93090, .ok 96060, .ok 99000] :=
  ⟨⟨⟨by decide, by decide⟩, rfl, rfl, rfl, .inr (.inl rfl)⟩, by decide +kernel,
    ⟨[[9, 0xF0]], _, rfl, by decide,
      fun x hx => by rw [List.mem_singleton] at hx; subst hx; exact ⟨by simp, by decide, by decide, by decide⟩, startSlice_idr⟩,
    .inl ⟨2, startSlice_first 4 (by decide), by decide, by decide, by decide, by decide, by decide, by decide, by decide, by decide,
    .inl ⟨1, startSlice_first 2 (by decide), by decide, by decide, by decide, by decide, by decide, by decide, by decide, by decide,
    .inl ⟨4, startSlice_first 8 (by decide), by decide, by decide, by decide, by decide, by decide, by decide, by decide, by decide,
    .inl ⟨3, startSlice_first 6 (by decide), by decide, by decide, by decide, by decide, by decide, by decide, by decide, by decide,
      trivial⟩⟩⟩⟩, ⟨_, _, rfl, by decide⟩, by decide +kernel⟩

/-! ## Detection of the increment -/

/-- The state after an IDR whose pic_order_cnt_lsb is zero, when the increment is not known yet. -/
structure AfterIDR (S : Stream264) (c : Int) (d : DTSExtractor) : Prop where
  raw : d.sps = S.raw
  sps : d.spsp = some S.sps
  random : d.randomReceived = true
  filled : d.prevDTSFilled = true
  prev : d.prevDTS = c
  pause : d.pause = 0
  reordered : d.reorderedFrames = 0
  inc : d.pocIncrement = 2
  expected : d.expectedPOC = 0
  count : d.auCount = 1
  poc : d.prevPOC = 0
  poc2 : d.prevPrevPOC = 0

theorem start_advance (S : Stream264) (hS : Stream264Ok S) (d : DTSExtractor) (v x i : Nat) (hi : d.pocIncrement = (i : Int))
    (hi0 : 0 < i) (hx : d.expectedPOC = x) (hxl : x + i < S.maxLsb) (hv : v < S.maxLsb)
    (h1 : 2 * (x + i) < 2 * v + S.maxLsb) (h2 : 2 * v ≤ 2 * (x + i) + S.maxLsb) :
    advance v S.sps d = ({ d with expectedPOC := x + i }, .ok (((v : Int) - (x + i : Nat)).tdiv i)) := by
  unfold advance
  rw [step_modify, step_get, if_neg (by show d.pocIncrement ≠ 0; omega)]
  have e1 : (d.expectedPOC + d.pocIncrement.toNat) % 2 ^ 32 &&& sub32 (maxPOC S.sps) 1 = x + i := by
    rw [rate_maxPOC hS.conforming.poc, rate_sub1 (by have := hS.conforming.poc; omega),
      rate_and _ (by have := hS.conforming.poc; omega), hx, hi]
    exact Nat.mod_eq_of_lt hxl
  show (({ d with expectedPOC := (d.expectedPOC + d.pocIncrement.toNat) % 2 ^ 32 &&& sub32 (maxPOC S.sps) 1 } : DTSExtractor),
    Res.ok ((pictureOrderCountDiff v ((d.expectedPOC + d.pocIncrement.toNat) % 2 ^ 32 &&& sub32 (maxPOC S.sps) 1) S.sps).tdiv
      d.pocIncrement)) = _
  rw [e1, hi]
  have := rate_diff hS.conforming.poc v (x + i) h1 h2
  rw [show v % 2 ^ (S.sps.log2MaxPicOrderCntLsbMinus4 + 4) = v from Nat.mod_eq_of_lt hv,
    show (x + i) % 2 ^ (S.sps.log2MaxPicOrderCntLsbMinus4 + 4) = x + i from Nat.mod_eq_of_lt hxl] at this
  rw [this]

/-- C65: a stream without reordered pictures and with increment 4. The first DTS after the IDR is between the decoding times; then the
increment is known and every DTS is the decoding time. -/
theorem C65_h264_four (S : Stream264) (hS : Stream264Ok S) (hinc : S.inc = 4) (hR : S.R = 0) (hT : 0 ≤ S.T) (c : Int)
    (hc : -2 ^ 61 ≤ c) (hc2 : c + 2 * S.T < 2 ^ 61) (d : DTSExtractor) (hd : AfterIDR S c d) (au1 au2 : List Bytes)
    (h1 : FirstSlice264 S.sps S.raw false 4 au1) (h2 : FirstSlice264 S.sps S.raw false 8 au2) (l : List (List Bytes × Int))
    (hl : Regular S 0 2 8 4 c l) :
    calls extract d ((au1, c + S.T) :: (au2, c + 2 * S.T) :: l) =
      .ok (c + S.T / 2) :: (clock (c + 2 * S.T) S.T (l.length + 1)).map .ok := by
  obtain ⟨nal1, f1, hs1, hg1, hlt1, -, hi1⟩ := rate_found S hS d hd.raw false 4 au1 h1 false
  obtain ⟨m1, m2, m3⟩ := rate_maxLsb S hS
  have hm16 : 16 ≤ S.maxLsb := by
    unfold Stream264.maxLsb
    exact Nat.le_trans (by decide) (Nat.pow_le_pow_right (by omega) (by omega : 4 ≤ _))
  -- first picture
  have hu1 : updateIncrement 4 d = ({ d with auCount := 2, prevPrevPOC := 0, prevPOC := 4 }, .ok ()) := by
    unfold updateIncrement
    rw [step_get, if_pos ⟨by rw [hd.count]; decide, hd.inc⟩]
    have : detectIncrement 4 d = (d, .ok ()) := by
      unfold detectIncrement
      rw [step_get, if_neg (by decide), if_neg (by rw [hd.count]; simp)]
      rfl
    rw [step_bind this]
    show (({ d with auCount := d.auCount + 1, prevPrevPOC := d.prevPOC, prevPOC := 4 } : DTSExtractor), Res.ok ()) = _
    rw [hd.count, hd.poc]
    rfl
  have hn1 : handleNonIDR nal1 S.sps d =
      ({ d with auCount := 2, prevPrevPOC := 0, prevPOC := 4, expectedPOC := 2 }, .ok 1) := by
    unfold handleNonIDR
    rw [step_bind (s' := d) (a := 4) (by rw [hg1]; rfl), step_bind hu1]
    exact start_advance S hS { d with auCount := 2, prevPrevPOC := 0, prevPOC := 4 } 4 0 2 hd.inc (by decide) hd.expected (by omega)
      hlt1 (by omega) (by omega)
  have hf1 : handleFrame f1 S.sps (c + S.T) d =
      ({ d with auCount := 2, prevPrevPOC := 0, prevPOC := 4, expectedPOC := 2 }, .ok (c + S.T / 2, false)) := by
    unfold handleFrame
    rw [(hi1 rfl).1, (hi1 rfl).2]
    dsimp only
    rw [step_bind hn1, rate_tail { d with auCount := 2, prevPrevPOC := 0, prevPOC := 4, expectedPOC := 2 } 1 _ 0 hd.filled hd.pause hd.reordered (by decide) (by decide)]
    show (_, Res.ok (wrap64 (d.prevDTS + (wrap64 (c + S.T - d.prevDTS)).tdiv (1 + 0 + 1)), false)) = _
    rw [hd.prev, rate_wrap (v := c + S.T - c) (by omega) (by omega), show c + S.T - c = S.T by omega,
      Int.tdiv_eq_ediv_of_nonneg hT, rate_wrap (by omega) (by omega)]
    rfl
  have hx1 := rate_extract d _ au1 _ _ false f1 S.sps hs1 hd.sps hS.type hS.frames hd.random hf1 (by intro _; omega)
    (by show d.prevDTS ≤ _; rw [hd.prev]; omega)
  generalize hd1 : ({ d with auCount := 2, prevPrevPOC := 0, prevPOC := 4, expectedPOC := 2 } : DTSExtractor) = d1 at hx1
  generalize hd2 : ({ d1 with prevDTSFilled := true, prevDTS := c + S.T / 2 } : DTSExtractor) = d2 at hx1
  -- second picture
  obtain ⟨nal2, f2, hs2, hg2, hlt2, -, hi2⟩ := rate_found S hS d2 (by rw [← hd2, ← hd1]; exact hd.raw) false 8 au2 h2 false
  have hu2 : updateIncrement 8 d2 =
      ({ d2 with pocIncrement := 4, expectedPOC := 4, auCount := 3, prevPrevPOC := 4, prevPOC := 8 }, .ok ()) := by
    subst hd2 hd1
    unfold updateIncrement
    rw [step_get, if_pos ⟨(by show (2 : Int) < 5; decide), hd.inc⟩]
    rfl
  have hn2 : handleNonIDR nal2 S.sps d2 =
      ({ d2 with pocIncrement := 4, expectedPOC := 8, auCount := 3, prevPrevPOC := 4, prevPOC := 8 }, .ok 0) := by
    unfold handleNonIDR
    rw [step_bind (s' := d2) (a := 8) (by rw [hg2]; rfl), step_bind hu2]
    exact start_advance S hS { d2 with pocIncrement := 4, expectedPOC := 4, auCount := 3, prevPrevPOC := 4, prevPOC := 8 } 8 4 4 rfl
      (by decide) rfl (by omega) hlt2 (by omega) (by omega)
  have e2 : d2.prevDTS = c + S.T / 2 ∧ d2.prevDTSFilled = true ∧ d2.pause = 0 ∧ d2.reorderedFrames = 0 ∧ d2.spsp = some S.sps ∧
      d2.sps = S.raw ∧ d2.randomReceived = true := by
    subst hd2 hd1
    exact ⟨rfl, rfl, hd.pause, hd.reordered, hd.sps, hd.raw, hd.random⟩
  obtain ⟨p1, p2, p3, p4, p5, p6, p7⟩ := e2
  have hf2 : handleFrame f2 S.sps (c + 2 * S.T) d2 =
      ({ d2 with pocIncrement := 4, expectedPOC := 8, auCount := 3, prevPrevPOC := 4, prevPOC := 8 }, .ok (c + 2 * S.T, false)) := by
    unfold handleFrame
    rw [(hi2 rfl).1, (hi2 rfl).2]
    dsimp only
    rw [step_bind hn2,
      rate_tail { d2 with pocIncrement := 4, expectedPOC := 8, auCount := 3, prevPrevPOC := 4, prevPOC := 8 } 0 _ 0 p2 p3 p4 (by decide) (by decide)]
    show (_, Res.ok (wrap64 (d2.prevDTS + (wrap64 (c + 2 * S.T - d2.prevDTS)).tdiv (0 + 0 + 1)), false)) = _
    rw [p1, rate_wrap (v := c + 2 * S.T - (c + S.T / 2)) (by omega) (by omega), show (0 : Int) + 0 + 1 = 1 from rfl, Int.tdiv_one,
      show c + S.T / 2 + (c + 2 * S.T - (c + S.T / 2)) = c + 2 * S.T by omega, rate_wrap (by omega) (by omega)]
  have hx2 := rate_extract d2 _ au2 _ _ false f2 S.sps hs2 p5 hS.type hS.frames p7 hf2 (by intro _; omega)
    (by show d2.prevDTS ≤ _; rw [p1]; omega)
  have hst : Steady S S.R 0 0 2 8 4 (c + S.T * (2 : Nat)) 0
      { d2 with pocIncrement := 4, expectedPOC := 8, auCount := 3, prevPrevPOC := 4, prevPOC := 8, prevDTSFilled := true,
                prevDTS := c + 2 * S.T } :=
    ⟨p6, p5, p7, rfl, by show c + 2 * S.T = _; omega, p3, by rw [hR]; exact p4, by rw [hinc]; rfl, by
      show 8 = (0 + S.inc * 2) % S.maxLsb
      rw [hinc, Nat.mod_eq_of_lt (by omega)], fun h => by omega, fun h => by omega, ⟨by omega, by omega⟩, by omega, by omega⟩
  have hrun := C62_h264_exact S hS hT 0 2 8 4 c _ hst l hl
  simp only [calls, hx1]
  simp only [hx2, clock, List.map_cons]
  rw [show ((2 : Nat) : Int) = 2 from rfl] at hrun
  rw [Int.mul_comm S.T 2] at hrun
  rw [← hrun]

/-- C65: a stream without reordered pictures and with increment 1: the increment is known from the first picture after the IDR. -/
theorem C65_h264_one (S : Stream264) (hS : Stream264Ok S) (hinc : S.inc = 1) (hR : S.R = 0) (hT : 0 ≤ S.T) (c : Int)
    (hc : -2 ^ 61 ≤ c) (hc2 : c + S.T < 2 ^ 61) (d : DTSExtractor) (hd : AfterIDR S c d) (au1 : List Bytes)
    (h1 : FirstSlice264 S.sps S.raw false 1 au1) (l : List (List Bytes × Int)) (hl : Regular S 0 1 1 0 c l) :
    calls extract d ((au1, c + S.T) :: l) = (clock (c + S.T) S.T (l.length + 1)).map .ok := by
  obtain ⟨nal1, f1, hs1, hg1, hlt1, -, hi1⟩ := rate_found S hS d hd.raw false 1 au1 h1 false
  obtain ⟨m1, m2, m3⟩ := rate_maxLsb S hS
  have hu1 : updateIncrement 1 d =
      ({ d with pocIncrement := 1, expectedPOC := 0, auCount := 2, prevPrevPOC := 0, prevPOC := 1 }, .ok ()) := by
    unfold updateIncrement
    rw [step_get, if_pos ⟨by rw [hd.count]; decide, hd.inc⟩]
    have : detectIncrement 1 d = ({ d with pocIncrement := 1, expectedPOC := 0 }, .ok ()) := by
      unfold detectIncrement
      rw [step_get, if_pos (by decide), step_modify, if_neg (by rw [hd.reordered]; simp), hd.expected]
      rfl
    rw [step_bind this]
    show (({ d with pocIncrement := 1, expectedPOC := 0, auCount := d.auCount + 1, prevPrevPOC := d.prevPOC, prevPOC := 1 } :
      DTSExtractor), Res.ok ()) = _
    rw [hd.count, hd.poc]
    rfl
  have hn1 : handleNonIDR nal1 S.sps d =
      ({ d with pocIncrement := 1, expectedPOC := 1, auCount := 2, prevPrevPOC := 0, prevPOC := 1 }, .ok 0) := by
    unfold handleNonIDR
    rw [step_bind (s' := d) (a := 1) (by rw [hg1]; rfl), step_bind hu1]
    exact start_advance S hS { d with pocIncrement := 1, expectedPOC := 0, auCount := 2, prevPrevPOC := 0, prevPOC := 1 } 1 0 1 rfl
      (by decide) rfl (by omega) hlt1 (by omega) (by omega)
  have hf1 : handleFrame f1 S.sps (c + S.T) d =
      ({ d with pocIncrement := 1, expectedPOC := 1, auCount := 2, prevPrevPOC := 0, prevPOC := 1 }, .ok (c + S.T, false)) := by
    unfold handleFrame
    rw [(hi1 rfl).1, (hi1 rfl).2]
    dsimp only
    rw [step_bind hn1,
      rate_tail { d with pocIncrement := 1, expectedPOC := 1, auCount := 2, prevPrevPOC := 0, prevPOC := 1 } 0 _ 0 hd.filled hd.pause hd.reordered (by decide) (by decide)]
    show (_, Res.ok (wrap64 (d.prevDTS + (wrap64 (c + S.T - d.prevDTS)).tdiv (0 + 0 + 1)), false)) = _
    rw [hd.prev, rate_wrap (v := c + S.T - c) (by omega) (by omega), show (0 : Int) + 0 + 1 = 1 from rfl, Int.tdiv_one,
      show c + (c + S.T - c) = c + S.T by omega, rate_wrap (by omega) (by omega)]
  have hx1 := rate_extract d _ au1 _ _ false f1 S.sps hs1 hd.sps hS.type hS.frames hd.random hf1 (by intro _; omega)
    (by show d.prevDTS ≤ _; rw [hd.prev]; omega)
  have hst : Steady S S.R 0 0 1 1 0 (c + S.T * (1 : Nat)) 0
      { d with pocIncrement := 1, expectedPOC := 1, auCount := 2, prevPrevPOC := 0, prevPOC := 1, prevDTSFilled := true,
               prevDTS := c + S.T } :=
    ⟨hd.raw, hd.sps, hd.random, rfl, by simp, hd.pause, by rw [hR]; exact hd.reordered, by rw [hinc]; rfl, by
      show 1 = (0 + S.inc * 1) % S.maxLsb
      rw [hinc, Nat.mod_eq_of_lt (by omega)], fun h => by omega, fun h => by omega, ⟨by omega, by omega⟩, by simp; omega, by simp; omega⟩
  have hrun := C62_h264_exact S hS hT 0 1 1 0 c _ hst l hl
  simp only [calls, hx1, clock, List.map_cons]
  rw [show ((1 : Nat) : Int) = 1 from rfl, Int.mul_one] at hrun
  rw [← hrun]

/-- C65 is false for IDR pictures whose pic_order_cnt_lsb is not zero: here it is 8, the increment is 4, nothing is reordered, and the
extractor falls behind by more than a picture. -/
theorem C65_h264_offset_false :
    calls extract { rateState with prevDTS := 90000, expectedPOC := 8, auCount := 1, prevPOC := 8 }
      [([rateSlice 12], 93000), ([rateSlice 16], 96000), ([rateSlice 20], 99000), ([rateSlice 24], 102000)] =
      [.ok 91500, .ok 91590, .ok 91680, .ok 102000] ∧
    (∀ k ∈ [12, 16, 20, 24], FirstSlice264 rateSPS [0x67] false k [rateSlice k]) := by
  refine ⟨by decide +kernel, fun k hk => rateSlice_first _ k ?_⟩
  simp only [List.mem_cons, List.not_mem_nil, or_false] at hk
  omega

example : AfterIDR ⟨rateSPS, [0x67], 4, 0, 3000⟩ 90000
      { rateState with prevDTS := 90000, expectedPOC := 0, auCount := 1, prevPOC := 0 } ∧
    Regular ⟨rateSPS, [0x67], 4, 0, 3000⟩ 0 2 8 4 90000 [([rateSlice 12], 99000), ([rateSlice 16], 102000)] ∧
    calls extract { rateState with prevDTS := 90000, expectedPOC := 0, auCount := 1, prevPOC := 0 }
      [([rateSlice 4], 93000), ([rateSlice 8], 96000), ([rateSlice 12], 99000), ([rateSlice 16], 102000)] =
      [.ok 91500, .ok 96000, .ok 99000, .ok 102000] ∧
    calls extract { rateState with prevDTS := 90000, expectedPOC := 0, auCount := 1, prevPOC := 0 }
      [([rateSlice 1], 93000), ([rateSlice 2], 96000), ([rateSlice 3], 99000)] = [.ok 93000, .ok 96000, .ok 99000] :=
  ⟨⟨rfl, rfl, rfl, rfl, rfl, rfl, rfl, rfl, rfl, rfl, rfl, rfl⟩,
    .inl ⟨3, rateSlice_first _ 12 (by decide), by decide, by decide, by decide, by decide, by decide, by decide, by decide, by decide,
    .inl ⟨4, rateSlice_first _ 16 (by decide), by decide, by decide, by decide, by decide, by decide, by decide, by decide, by decide,
      trivial⟩⟩, by decide +kernel, by decide +kernel⟩

end Verif.Props
