import Verif.Model.Float64
import Verif.Spec.Float64
import Verif.Props.H264SPS
import Verif.Props.H265SPS

/-!
# Property C97: frame rates of H264 and H265
-/

namespace Verif.Props
open Verif.Float64 Verif.Spec.Float64
open Verif.BitM

theorem flt_gap_mul (a b c : Nat) : gap (a * c) (b * c) = gap a b * c := by
  simp [gap, ← Nat.sub_mul, ← Nat.add_mul]

theorem flt_gap_mono {a b c d : Nat} (h : c ≤ b) (hb : b ≤ a) (hd : d ≤ gap a b) : d ≤ gap a c := by
  simp only [gap] at *; omega

theorem flt_roundInt (t q : Nat) (hq : 0 < q) :
    (roundInt t q = t / q ∨ roundInt t q = t / q + 1) ∧
    (∀ n, gap t (roundInt t q * q) ≤ gap t (n * q)) ∧
    (∀ n, gap t (roundInt t q * q) = gap t (n * q) → n = roundInt t q ∨ roundInt t q % 2 = 0) := by
  have hr : t % q < q := Nat.mod_lt _ hq
  have ht : t / q * q + t % q = t := by rw [Nat.mul_comm]; exact Nat.div_add_mod t q
  have hn : ∀ n, n = t / q ∨ n = t / q + 1 ∨ (n < t / q ∧ n * q + q ≤ t / q * q) ∨
      (t / q + 1 < n ∧ t / q * q + q + q ≤ n * q) := by
    intro n
    rcases Nat.lt_trichotomy n (t / q) with h | h | h
    · refine .inr (.inr (.inl ⟨h, ?_⟩))
      have := Nat.mul_le_mul_right q (show n + 1 ≤ t / q from h)
      rw [Nat.add_mul, Nat.one_mul] at this
      exact this
    · exact .inl h
    · by_cases h' : n = t / q + 1
      · exact .inr (.inl h')
      · refine .inr (.inr (.inr ⟨by omega, ?_⟩))
        have := Nat.mul_le_mul_right q (show t / q + 1 + 1 ≤ n by omega)
        rw [Nat.add_mul, Nat.add_mul, Nat.one_mul] at this
        exact this
  have h1 : (t / q + 1) * q = t / q * q + q := by rw [Nat.add_mul, Nat.one_mul]
  generalize hX : t / q * q = X at *
  generalize hR : t % q = r at *
  generalize hD : t / q = d at *
  have hcase : (roundInt t q = d ∧ (2 * r < q ∨ (2 * r = q ∧ d % 2 = 0))) ∨
      (roundInt t q = d + 1 ∧ (q < 2 * r ∨ (2 * r = q ∧ (d + 1) % 2 = 0))) := by
    unfold roundInt
    rw [hR, hD]
    split
    · exact .inl ⟨rfl, .inl (by omega)⟩
    · split
      · exact .inr ⟨rfl, .inl (by omega)⟩
      · split
        · exact .inl ⟨rfl, .inr ⟨by omega, by omega⟩⟩
        · exact .inr ⟨rfl, .inr ⟨by omega, by omega⟩⟩
  rcases hcase with ⟨e, h⟩ | ⟨e, h⟩
  · rw [e]
    refine ⟨.inl rfl, fun n => ?_, fun n => ?_⟩
    · rw [hX]
      rcases hn n with rfl | rfl | ⟨_, k⟩ | ⟨_, k⟩
      · rw [hX]; exact Nat.le_refl _
      · rw [h1]; simp only [gap]; omega
      · simp only [gap]; omega
      · simp only [gap]; omega
    · rw [hX]
      rcases hn n with rfl | rfl | ⟨_, k⟩ | ⟨_, k⟩
      · intro _; exact .inl rfl
      · rw [h1]; simp only [gap]; omega
      · simp only [gap]; omega
      · simp only [gap]; omega
  · rw [e]
    refine ⟨.inr rfl, fun n => ?_, fun n => ?_⟩
    · rw [h1]
      rcases hn n with rfl | rfl | ⟨_, k⟩ | ⟨_, k⟩
      · rw [hX]; simp only [gap]; omega
      · rw [h1]; exact Nat.le_refl _
      · simp only [gap]; omega
      · simp only [gap]; omega
    · rw [h1]
      rcases hn n with rfl | rfl | ⟨_, k⟩ | ⟨_, k⟩
      · rw [hX]; simp only [gap]; omega
      · intro _; exact .inl rfl
      · simp only [gap]; omega
      · simp only [gap]; omega

theorem flt_scale (p q : Nat) (hp : 0 < p) (hq : 0 < q) (h : p < q * 2 ^ 52) :
    0 < scale p q ∧ q * 2 ^ 52 ≤ p * 2 ^ scale p q ∧ p * 2 ^ scale p q < q * 2 ^ 53 := by
  have ha := Nat.log2_self_le (Nat.pos_iff_ne_zero.1 hp)
  have ha' := Nat.lt_log2_self (n := p)
  have hb := Nat.log2_self_le (Nat.pos_iff_ne_zero.1 hq)
  have hb' := Nat.lt_log2_self (n := q)
  have hle : p.log2 < q.log2 + 1 + 52 := by
    refine (Nat.pow_lt_pow_iff_right (a := 2) (by decide)).1 ?_
    rw [Nat.pow_add]
    exact Nat.lt_of_le_of_lt ha (Nat.lt_trans h (Nat.mul_lt_mul_of_pos_right hb' (by decide)))
  have hk : ∃ k, 53 + q.log2 - p.log2 = k + 1 ∧ p.log2 + k = q.log2 + 52 := ⟨q.log2 + 52 - p.log2, by omega, by omega⟩
  obtain ⟨k, hk, he⟩ := hk
  have h1 : q * 2 ^ 52 ≤ p * 2 ^ (k + 1) := by
    calc q * 2 ^ 52 ≤ 2 ^ (q.log2 + 1) * 2 ^ 52 := Nat.mul_le_mul_right _ (Nat.le_of_lt hb')
      _ = 2 ^ p.log2 * 2 ^ (k + 1) := by rw [← Nat.pow_add, ← Nat.pow_add]; congr 1; omega
      _ ≤ p * 2 ^ (k + 1) := Nat.mul_le_mul_right _ ha
  have h2 : p * 2 ^ k < q * 2 ^ 53 := by
    calc p * 2 ^ k < 2 ^ (p.log2 + 1) * 2 ^ k := Nat.mul_lt_mul_of_pos_right ha' (Nat.pow_pos (by decide))
      _ = 2 ^ q.log2 * 2 ^ 53 := by rw [← Nat.pow_add, ← Nat.pow_add]; congr 1; omega
      _ ≤ q * 2 ^ 53 := Nat.mul_le_mul_right _ hb
  unfold scale
  simp only [hk]
  split
  · exact ⟨by omega, h1, by assumption⟩
  · rename_i hn
    have e : p * 2 ^ (k + 1) = p * 2 ^ k * 2 := by rw [Nat.pow_succ, Nat.mul_assoc]
    have h53 : q * 2 ^ 53 = q * 2 ^ 52 * 2 := by rw [Nat.mul_assoc]
    have h3 : q * 2 ^ 52 ≤ p * 2 ^ k := by omega
    refine ⟨?_, h3, h2⟩
    show 0 < k
    rcases Nat.eq_zero_or_pos k with rfl | hk0
    · simp only [Nat.pow_zero, Nat.mul_one] at h3; omega
    · exact hk0

/-- A number of 53 digits is a multiple of `1 / 2^k`, or below `2^52 / 2^k`. -/
theorem flt_grid {a b : Nat} (k : Nat) (h : IsFloat a b) : (∃ n, a * 2 ^ k = n * b) ∨ a * 2 ^ k < 2 ^ 52 * b := by
  obtain ⟨hb, m, i, j, hm, e⟩ := h
  by_cases hij : i ≤ j + k
  · refine .inl ⟨m * 2 ^ (j + k - i), ?_⟩
    refine Nat.eq_of_mul_eq_mul_right (Nat.pow_pos (n := i) (show 0 < 2 by decide)) ?_
    calc a * 2 ^ k * 2 ^ i = a * 2 ^ i * 2 ^ k := by ac_rfl
      _ = m * 2 ^ j * b * 2 ^ k := by rw [e]
      _ = m * (2 ^ (j + k - i) * 2 ^ i) * b := by
        rw [← Nat.pow_add, show j + k - i + i = j + k by omega, Nat.pow_add]; ac_rfl
      _ = m * 2 ^ (j + k - i) * b * 2 ^ i := by ac_rfl
  · refine .inr ?_
    refine Nat.lt_of_mul_lt_mul_right (a := 2 ^ i) ?_
    calc a * 2 ^ k * 2 ^ i = a * 2 ^ i * 2 ^ k := by ac_rfl
      _ = m * b * 2 ^ (j + k) := by rw [e, Nat.pow_add]; ac_rfl
      _ < 2 ^ 53 * b * 2 ^ (j + k) :=
        Nat.mul_lt_mul_of_pos_right (Nat.mul_lt_mul_of_pos_right hm hb) (Nat.pow_pos (by decide))
      _ = 2 ^ 52 * b * 2 ^ (j + k + 1) := by rw [Nat.pow_succ 2 (j + k), show (2 : Nat) ^ 53 = 2 ^ 52 * 2 from rfl]; ac_rfl
      _ ≤ 2 ^ 52 * b * 2 ^ i := Nat.mul_le_mul_left _ (Nat.pow_le_pow_right (by decide) (by omega))

theorem flt_near {p q k : Nat} (hq : 0 < q) (h1 : q * 2 ^ 52 ≤ p * 2 ^ k) :
    let m := roundInt (p * 2 ^ k) q
    (∀ a b, IsFloat a b → gap (p * 2 ^ k) (m * q) * b ≤ gap (p * b) (a * q) * 2 ^ k) ∧
    (∀ a b, IsFloat a b → gap (p * 2 ^ k) (m * q) * b = gap (p * b) (a * q) * 2 ^ k → a * 2 ^ k = m * b ∨ m % 2 = 0) := by
  intro m
  obtain ⟨_, hbest, heven⟩ := flt_roundInt (p * 2 ^ k) q hq
  have key : ∀ a b, IsFloat a b →
      (∃ n, a * 2 ^ k = n * b ∧ gap (p * b) (a * q) * 2 ^ k = gap (p * 2 ^ k) (n * q) * b) ∨
      gap (p * 2 ^ k) (m * q) * b < gap (p * b) (a * q) * 2 ^ k := by
    intro a b hf
    rcases flt_grid k hf with ⟨n, hn⟩ | hlt
    · refine .inl ⟨n, hn, ?_⟩
      rw [← flt_gap_mul, ← flt_gap_mul]
      congr 1
      · ac_rfl
      · calc a * q * 2 ^ k = a * 2 ^ k * q := by ac_rfl
          _ = n * q * b := by rw [hn]; ac_rfl
    · refine .inr ?_
      have hb : 0 < b := hf.1
      have h52 := Nat.mul_le_mul_right b (hbest (2 ^ 52))
      refine Nat.lt_of_le_of_lt h52 ?_
      rw [← flt_gap_mul, ← flt_gap_mul]
      have e1 : p * b * 2 ^ k = p * 2 ^ k * b := by ac_rfl
      have e2 : a * q * 2 ^ k < 2 ^ 52 * q * b := by
        calc a * q * 2 ^ k = a * 2 ^ k * q := by ac_rfl
          _ < 2 ^ 52 * b * q := Nat.mul_lt_mul_of_pos_right hlt hq
          _ = 2 ^ 52 * q * b := by ac_rfl
      have e3 : 2 ^ 52 * q * b ≤ p * 2 ^ k * b := Nat.mul_le_mul_right b (by rw [Nat.mul_comm]; exact h1)
      rw [e1]
      generalize p * 2 ^ k * b = P at *
      generalize 2 ^ 52 * q * b = Q at *
      generalize a * q * 2 ^ k = A at *
      simp only [gap]; omega
  constructor
  · intro a b hf
    rcases key a b hf with ⟨n, _, e⟩ | h
    · rw [e]; exact Nat.mul_le_mul_right b (hbest n)
    · exact Nat.le_of_lt h
  · intro a b hf he
    rcases key a b hf with ⟨n, hn, e⟩ | h
    · rw [e] at he
      rcases heven n (Nat.eq_of_mul_eq_mul_right hf.1 he) with h | h
      · left; rw [hn, h]
      · exact .inr h
    · omega

theorem flt_round (p q : Nat) (hp : 0 < p) (hq : 0 < q) (h : p < q * 2 ^ 52) : ∃ m k, round p q = .num m k ∧ Nearest p q m k := by
  obtain ⟨hk, h1, h2⟩ := flt_scale p q hp hq h
  obtain ⟨hm, _, _⟩ := flt_roundInt (p * 2 ^ scale p q) q hq
  obtain ⟨n1, n2⟩ := flt_near hq h1
  unfold round
  generalize scale p q = k at *
  simp only []
  have hd1 : 2 ^ 52 ≤ p * 2 ^ k / q := (Nat.le_div_iff_mul_le hq).2 (by rw [Nat.mul_comm]; exact h1)
  have hd2 : p * 2 ^ k / q < 2 ^ 53 := Nat.div_lt_of_lt_mul h2
  generalize hmm : roundInt (p * 2 ^ k) q = m at *
  split
  · rename_i he
    obtain ⟨k, rfl⟩ : ∃ k', k = k' + 1 := ⟨k - 1, by omega⟩
    refine ⟨2 ^ 52, k, rfl, by decide, by decide, fun a b hf => ?_, fun _ _ _ _ => .inr (by decide)⟩
    have := n1 a b hf
    rw [he] at this
    have e1 : gap (p * 2 ^ (k + 1)) (2 ^ 53 * q) = gap (p * 2 ^ k) (2 ^ 52 * q) * 2 := by
      rw [← flt_gap_mul]
      congr 1
      · rw [Nat.pow_succ]; ac_rfl
      · omega
    rw [e1, Nat.pow_succ] at this
    refine Nat.le_of_mul_le_mul_right (c := 2) ?_ (by decide)
    calc gap (p * 2 ^ k) (2 ^ 52 * q) * b * 2 = gap (p * 2 ^ k) (2 ^ 52 * q) * 2 * b := by ac_rfl
      _ ≤ gap (p * b) (a * q) * (2 ^ k * 2) := this
      _ = gap (p * b) (a * q) * 2 ^ k * 2 := by ac_rfl
  · exact ⟨m, k, rfl, by omega, by omega, n1, n2⟩

/-- A number of 53 digits is not changed. -/
theorem flt_exact {p q m k : Nat} (h : Nearest p q m k) (hf : IsFloat p q) : p * 2 ^ k = m * q := by
  have := h.best p q hf
  have e : gap (p * q) (p * q) = 0 := by simp [gap]
  rw [e, Nat.zero_mul] at this
  have := Nat.eq_zero_of_le_zero this
  rcases Nat.mul_eq_zero.1 this with h | h
  · simp only [gap] at h; omega
  · have := hf.1; omega

theorem flt_scaled {p q m k c : Nat} (hc : 0 < c) (h : Nearest (p * c) (q * c) m k) : Nearest p q m k := by
  have e1 : ∀ x y, gap (p * c * x) (y * (q * c)) = gap (p * x) (y * q) * c := by
    intro x y; rw [← flt_gap_mul]; congr 1 <;> ac_rfl
  refine ⟨h.lo, h.hi, fun a b hf => ?_, fun a b hf he => ?_⟩
  · have := h.best a b hf
    rw [e1, e1] at this
    refine Nat.le_of_mul_le_mul_right (c := c) ?_ hc
    calc gap (p * 2 ^ k) (m * q) * b * c = gap (p * 2 ^ k) (m * q) * c * b := by ac_rfl
      _ ≤ gap (p * b) (a * q) * c * 2 ^ k := this
      _ = gap (p * b) (a * q) * 2 ^ k * c := by ac_rfl
  · refine h.even a b hf ?_
    rw [e1, e1]
    calc gap (p * 2 ^ k) (m * q) * c * b = gap (p * 2 ^ k) (m * q) * b * c := by ac_rfl
      _ = gap (p * b) (a * q) * c * 2 ^ k := by rw [he]; ac_rfl

/-- The same numbers as `ofNat`, exact. -/
theorem flt_ofNat (n : Nat) (h0 : 0 < n) (hn : n < 2 ^ 33) : ∃ m k, ofNat n = .num m k ∧ m = n * 2 ^ k := by
  obtain ⟨m, k, e, hm⟩ := flt_round n 1 h0 (by decide) (by omega)
  refine ⟨m, k, by rw [ofNat, if_neg (by omega), e], ?_⟩
  have := flt_exact hm ⟨by decide, n, 0, 0, by omega, by simp⟩
  omega

theorem flt_twice (n : Nat) (h0 : 0 < n) (hn : n < 2 ^ 33) : ∃ m k, twice (ofNat n) = .num m k ∧ m = 2 * n * 2 ^ k := by
  obtain ⟨m, k, e, hm⟩ := flt_ofNat n h0 hn
  have hk : 0 < 2 ^ k := Nat.pow_pos (by decide)
  obtain ⟨m', k', e', hm'⟩ := flt_round (2 * m) (2 ^ k) (by rw [hm]; exact Nat.mul_pos (by decide) (Nat.mul_pos h0 hk)) hk
    (by rw [hm, ← Nat.mul_assoc, Nat.mul_comm (2 ^ k)]; exact Nat.mul_lt_mul_of_pos_right (by omega) hk)
  refine ⟨m', k', by rw [e, twice, e'], ?_⟩
  have := flt_exact hm' ⟨hk, 2 * n, 0, 0, by omega, by rw [hm]; simp [Nat.mul_assoc]⟩
  rw [hm] at this
  refine (Nat.eq_of_mul_eq_mul_right hk ?_).symm
  rw [← this]; ac_rfl

theorem flt_div (x y mx kx my ky : Nat) (hx : 0 < x) (hy : 0 < y) (hlt : x < 2 ^ 33) (ex : mx = x * 2 ^ kx) (ey : my = y * 2 ^ ky) :
    ∃ m k, div (.num mx kx) (.num my ky) = .num m k ∧ Nearest x y m k := by
  have hkx : 0 < 2 ^ kx := Nat.pow_pos (by decide)
  have hky : 0 < 2 ^ ky := Nat.pow_pos (by decide)
  have hc : 0 < 2 ^ kx * 2 ^ ky := Nat.mul_pos hkx hky
  have e1 : mx * 2 ^ ky = x * (2 ^ kx * 2 ^ ky) := by rw [ex, Nat.mul_assoc]
  have e2 : my * 2 ^ kx = y * (2 ^ kx * 2 ^ ky) := by rw [ey]; ac_rfl
  have hxy : x < y * 2 ^ 52 := by omega
  obtain ⟨m, k, e, hm⟩ := flt_round (x * (2 ^ kx * 2 ^ ky)) (y * (2 ^ kx * 2 ^ ky)) (Nat.mul_pos hx hc) (Nat.mul_pos hy hc) (by
    rw [Nat.mul_right_comm y]
    exact Nat.mul_lt_mul_of_pos_right hxy hc)
  exact ⟨m, k, by rw [div, e1, e2, e], flt_scaled hc hm⟩

/-- The timing information of a decoded SPS has 32 bits. -/
theorem flt_h264_timing (s x : H264.SPS) (buf : Bytes) (e : s.unmarshal buf = .ok x) (v : H264.VUI) (hv : x.vui = some v)
    (t : H264.TimingInfo) (ht : v.timingInfo = some t) : t.numUnitsInTick < 2 ^ 32 ∧ t.timeScale < 2 ^ 32 := by
  obtain ⟨_, bits, _, _, g, _⟩ := (C50_decode s x buf).1 e
  have h1 : Sat Spec.H264.timing fun t => t.numUnitsInTick < 2 ^ 32 ∧ t.timeScale < 2 ^ 32 :=
    Sat.bind (P := fun v => v < 2 ^ 32) (fun _ _ h => h.1) fun _ h => Sat.bind (P := fun v => v < 2 ^ 32) (fun _ _ h => h.1)
      fun _ h' => Sat.skip fun _ => Sat.pure ⟨h, h'⟩
  have h2 : Sat Spec.H264.vui fun v => ∀ t, v.timingInfo = some t → t.numUnitsInTick < 2 ^ 32 ∧ t.timeScale < 2 ^ 32 := by
    refine Sat.skip fun _ => Sat.skip fun _ => Sat.skip fun _ => Sat.skip fun _ => Sat.skip fun _ => Sat.skip fun _ =>
      Sat.skip fun _ => Sat.skip fun _ => Sat.skip fun _ => Sat.skip fun _ => Sat.skip fun _ => Sat.skip fun _ =>
      Sat.skip fun _ => Sat.skip fun _ => Sat.skip fun _ => Sat.skip fun _ => Sat.bind (optional_sat h1) fun n hn =>
      Sat.skip fun _ => Sat.skip fun _ => Sat.skip fun _ => Sat.skip fun _ => Sat.skip fun _ => Sat.pure ?_
    exact hn
  have h3 : Sat (Spec.H264.spsData s) fun x => ∀ v, x.vui = some v → ∀ t, v.timingInfo = some t →
      t.numUnitsInTick < 2 ^ 32 ∧ t.timeScale < 2 ^ 32 := by
    refine Sat.skip fun _ => Sat.skip fun _ => Sat.skip fun _ => Sat.skip fun _ => Sat.skip fun _ => Sat.skip fun _ =>
      Sat.skip fun _ => Sat.skip fun _ => Sat.skip fun _ => Sat.skip fun _ => Sat.skip fun _ => Sat.skip fun _ => ?_
    refine Sat.skip fun _ => Sat.skip fun _ => Sat.skip fun _ => Sat.skip fun _ => Sat.skip fun _ => Sat.skip fun _ =>
        Sat.skip fun _ => Sat.skip fun _ => Sat.bind (optional_sat h2) fun v hv => Sat.pure hv
  exact h3 x bits g v hv t ht

theorem flt_h265_timing (s x : H265.SPS) (buf : Bytes) (e : s.unmarshal buf = .ok x) (v : H265.VUI) (hv : x.vui = some v)
    (t : H265.TimingInfo) (ht : v.timingInfo = some t) : t.numUnitsInTick < 2 ^ 32 ∧ t.timeScale < 2 ^ 32 := by
  obtain ⟨_, bits, _, _, g, _⟩ := (C51_decode s x buf).1 e
  have h1 : Sat Spec.H265.timing fun t => t.numUnitsInTick < 2 ^ 32 ∧ t.timeScale < 2 ^ 32 :=
    Sat.bind (P := fun v => v < 2 ^ 32) (fun _ _ h => h.1) fun _ h => Sat.bind (P := fun v => v < 2 ^ 32) (fun _ _ h => h.1)
      fun _ h' => Sat.skip fun _ => Sat.skip fun _ => Sat.pure ⟨h, h'⟩
  have h2 : Sat Spec.H265.vui fun v => ∀ t, v.timingInfo = some t → t.numUnitsInTick < 2 ^ 32 ∧ t.timeScale < 2 ^ 32 := by
    refine Sat.skip fun _ => Sat.skip fun _ => Sat.skip fun _ => Sat.skip fun _ => Sat.skip fun _ => Sat.skip fun _ =>
      Sat.skip fun _ => Sat.skip fun _ => Sat.skip fun _ => Sat.skip fun _ => Sat.skip fun _ => Sat.skip fun _ =>
      Sat.skip fun _ => Sat.skip fun _ => Sat.skip fun _ => Sat.skip fun _ => Sat.skip fun _ => Sat.skip fun _ =>
      Sat.skip fun _ => Sat.skip fun _ => Sat.bind (optional_sat h1) fun n hn => Sat.pure hn
  have h3 : Sat (Spec.H265.spsData s) fun x => ∀ v, x.vui = some v → ∀ t, v.timingInfo = some t →
      t.numUnitsInTick < 2 ^ 32 ∧ t.timeScale < 2 ^ 32 := by
    refine Sat.skip fun _ => Sat.skip fun _ => Sat.skip fun _ => Sat.skip fun _ => Sat.skip fun _ => Sat.skip fun _ =>
      Sat.skip fun _ => ?_
    exact Sat.skip fun _ => Sat.skip fun _ => Sat.skip fun _ => Sat.skip fun _ => Sat.skip fun _ => Sat.skip fun _ =>
        Sat.skip fun _ => Sat.skip fun _ => Sat.bind (optional_sat h2) fun v hv => Sat.pure hv
  exact h3 x bits g v hv t ht

/-! ## Theorems -/

/-- C97, in full, H264: the frame rate is time_scale / (2 * num_units_in_tick) (E.2.1, a frame has two fields), as a float64. -/
def C97_h264_statement : Prop :=
  ∀ (s x : H264.SPS) (buf : Bytes), s.unmarshal buf = .ok x → ∀ v, x.vui = some v → ∀ t, v.timingInfo = some t → t.timeScale ≠ 0 →
    ∃ m k, x.fps = .num m k ∧ Nearest t.timeScale (2 * t.numUnitsInTick) m k

/-- C97, in full, H265: the frame rate is vui_time_scale / vui_num_units_in_tick, as a float64. -/
def C97_h265_statement : Prop :=
  ∀ (s x : H265.SPS) (buf : Bytes), s.unmarshal buf = .ok x → ∀ v, x.vui = some v → ∀ t, v.timingInfo = some t → t.timeScale ≠ 0 →
    ∃ m k, x.fps = .num m k ∧ Nearest t.timeScale t.numUnitsInTick m k

/-- The statement holds when num_units_in_tick is not 0. In the other case `FPS` is infinite. -/
theorem C97_h264_partial (s x : H264.SPS) (buf : Bytes) (e : s.unmarshal buf = .ok x) (v : H264.VUI) (hv : x.vui = some v)
    (t : H264.TimingInfo) (ht : v.timingInfo = some t) (h0 : t.timeScale ≠ 0) :
    (t.numUnitsInTick ≠ 0 → ∃ m k, x.fps = .num m k ∧ Nearest t.timeScale (2 * t.numUnitsInTick) m k) ∧
    (t.numUnitsInTick = 0 → x.fps = .inf) := by
  obtain ⟨hn, hts⟩ := flt_h264_timing s x buf e v hv t ht
  obtain ⟨mx, kx, e1, e2⟩ := flt_ofNat t.timeScale (by omega) (by omega)
  have hf : x.fps = div (ofNat t.timeScale) (twice (ofNat t.numUnitsInTick)) := by simp only [H264.SPS.fps, hv, ht]
  rw [hf, e1]
  constructor
  · intro hz
    obtain ⟨my, ky, e3, e4⟩ := flt_twice t.numUnitsInTick (by omega) (by omega)
    rw [e3]
    exact flt_div _ _ _ _ _ _ (by omega) (by omega) (by omega) e2 e4
  · intro hz
    rw [hz]
    rfl

theorem C97_h265_partial (s x : H265.SPS) (buf : Bytes) (e : s.unmarshal buf = .ok x) (v : H265.VUI) (hv : x.vui = some v)
    (t : H265.TimingInfo) (ht : v.timingInfo = some t) (h0 : t.timeScale ≠ 0) :
    (t.numUnitsInTick ≠ 0 → ∃ m k, x.fps = .num m k ∧ Nearest t.timeScale t.numUnitsInTick m k) ∧
    (t.numUnitsInTick = 0 → x.fps = .inf) := by
  obtain ⟨hn, hts⟩ := flt_h265_timing s x buf e v hv t ht
  obtain ⟨mx, kx, e1, e2⟩ := flt_ofNat t.timeScale (by omega) (by omega)
  have hf : x.fps = div (ofNat t.timeScale) (ofNat t.numUnitsInTick) := by simp only [H265.SPS.fps, hv, ht]
  rw [hf, e1]
  constructor
  · intro hz
    obtain ⟨my, ky, e3, e4⟩ := flt_ofNat t.numUnitsInTick (by omega) (by omega)
    rw [e3]
    exact flt_div _ _ _ _ _ _ (by omega) (by omega) (by omega) e2 e4
  · intro hz
    rw [hz]
    rfl

/-- What `Nearest` means for the result: the error is at most 2^-53 of it, and a frame rate that has 53 binary digits, in particular an
integer, is exact. -/
theorem C97_error {p q m k : Nat} (h : Nearest p q m k) (hq : 0 < q) :
    gap (p * 2 ^ k) (m * q) * 2 ^ 53 ≤ m * q ∧ (IsFloat p q → p * 2 ^ k = m * q) ∧ (∀ r, r < 2 ^ 53 → p = r * q → m = r * 2 ^ k) := by
  refine ⟨?_, flt_exact h, fun r hr e => ?_⟩
  · have hk : 0 < 2 ^ k := Nat.pow_pos (by decide)
    have hfl : ∀ n, n ≤ 2 ^ 53 → IsFloat n (2 ^ k) := by
      intro n hn
      rcases Nat.lt_or_eq_of_le hn with hn | hn
      · exact ⟨hk, n, k, 0, hn, by simp⟩
      · exact ⟨hk, 2 ^ 52, k, 1, by decide, by rw [hn]⟩
    have hb : ∀ n, n ≤ 2 ^ 53 → gap (p * 2 ^ k) (m * q) ≤ gap (p * 2 ^ k) (n * q) := by
      intro n hn
      exact Nat.le_of_mul_le_mul_right (h.best n (2 ^ k) (hfl n hn)) hk
    have h1 := hb (m + 1) (by have := h.hi; omega)
    have h2 := hb (m - 1) (by have := h.hi; omega)
    have hlo := h.lo
    obtain ⟨m, rfl⟩ : ∃ m', m = m' + 1 := ⟨m - 1, by omega⟩
    rw [show m + 1 + 1 = m + 2 from rfl] at h1
    rw [show m + 1 - 1 = m by omega] at h2
    rw [Nat.add_mul, Nat.one_mul] at *
    rw [Nat.add_mul] at h1
    have h3 : gap (p * 2 ^ k) (m * q + q) * 2 ≤ q := by
      generalize p * 2 ^ k = P at *
      generalize m * q = M at *
      simp only [gap] at *; omega
    have h4 : 2 ^ 52 * q ≤ m * q + q := by
      have := Nat.mul_le_mul_right q hlo
      rw [Nat.add_mul, Nat.one_mul] at this
      exact this
    calc gap (p * 2 ^ k) (m * q + q) * 2 ^ 53 = gap (p * 2 ^ k) (m * q + q) * 2 * 2 ^ 52 := by
          rw [Nat.mul_assoc]
      _ ≤ q * 2 ^ 52 := Nat.mul_le_mul_right _ h3
      _ ≤ m * q + q := by rw [Nat.mul_comm]; exact h4
  · have := flt_exact h ⟨hq, r, 0, 0, hr, by rw [e]; simp⟩
    rw [e] at this
    exact (Nat.eq_of_mul_eq_mul_right hq (by rw [← this]; ac_rfl)).symm

/-- Without timing information the frame rate is 0; a time scale of 0 makes it 0, or not a number when num_units_in_tick is 0, too. -/
theorem C97_unknown (x : H264.SPS) (y : H265.SPS) :
    (x.vui = none → x.fps = .zero) ∧ (y.vui = none → y.fps = .zero) ∧
    (∀ v, x.vui = some v → v.timingInfo = none → x.fps = .zero) ∧ (∀ v, y.vui = some v → v.timingInfo = none → y.fps = .zero) ∧
    (∀ v t, x.vui = some v → v.timingInfo = some t → t.timeScale = 0 → t.numUnitsInTick = 0 → x.fps = .nan) ∧
    (∀ v t, y.vui = some v → v.timingInfo = some t → t.timeScale = 0 → t.numUnitsInTick = 0 → y.fps = .nan) ∧
    (∀ v t, x.vui = some v → v.timingInfo = some t → t.timeScale = 0 → t.numUnitsInTick ≠ 0 → x.fps = .zero) ∧
    (∀ v t, y.vui = some v → v.timingInfo = some t → t.timeScale = 0 → t.numUnitsInTick ≠ 0 → y.fps = .zero) := by
  have hr : ∀ p q, ∃ m k, round p q = .num m k := by
    intro p q; unfold round; dsimp only; split <;> exact ⟨_, _, rfl⟩
  have ho : ∀ n, n ≠ 0 → ∃ m k, ofNat n = .num m k := by
    intro n hn; obtain ⟨m, k, e⟩ := hr n 1; exact ⟨m, k, by rw [ofNat, if_neg hn, e]⟩
  refine ⟨fun h => ?_, fun h => ?_, fun v h h' => ?_, fun v h h' => ?_, fun v t h h' a b => ?_, fun v t h h' a b => ?_,
    fun v t h h' a b => ?_, fun v t h h' a b => ?_⟩
  · simp [H264.SPS.fps, h]
  · simp [H265.SPS.fps, h]
  · simp [H264.SPS.fps, h, h']
  · simp [H265.SPS.fps, h, h']
  · simp only [H264.SPS.fps, h, h', a, b]; rfl
  · simp only [H265.SPS.fps, h, h', a, b]; rfl
  · obtain ⟨m, k, e⟩ := ho _ b
    obtain ⟨m', k', e'⟩ := hr (2 * m) (2 ^ k)
    simp only [H264.SPS.fps, h, h', a, e, twice, e']; rfl
  · obtain ⟨m, k, e⟩ := ho _ b
    simp only [H265.SPS.fps, h, h', a, e]; rfl

/-- An SPS of 176x144, num_units_in_tick 0 and time_scale 50. -/
def rateSPS264 : Bytes := [103, 66, 0, 10, 218, 11, 19, 161, 0, 0, 3, 0, 0, 3, 0, 0, 3, 0, 50, 132]

/-- An SPS of 64x64, vui_num_units_in_tick 0 and vui_time_scale 50. -/
def rateSPS265 : Bytes := [66, 1, 1, 1, 96, 0, 0, 3, 0, 0, 3, 0, 0, 3, 0, 0, 3, 0, 30, 160, 32, 129, 5, 151, 255, 8, 128, 64, 0, 0, 3, 0, 0, 3, 0,
  0, 12, 132]

/-- A sequence parameter set with num_units_in_tick 0 is accepted, although the standard asks for more than 0, and `FPS` is infinite. -/
theorem C97_h264_false : ¬C97_h264_statement := by
  intro h
  have : ((({} : H264.SPS).unmarshal rateSPS264).bind fun x => .ok (x.vui.bind (·.timingInfo), x.fps)) =
      .ok (some ⟨0, 50, true⟩, .inf) := by decide +kernel
  obtain ⟨x, hx, this⟩ := Res.bind_eq_ok.1 this
  injection this with this
  injection this with h1 h2
  obtain ⟨v, hv, ht⟩ := Option.bind_eq_some_iff.1 h1
  obtain ⟨m, k, e, _⟩ := h {} x _ hx v hv _ ht (by decide)
  rw [h2] at e
  cases e

theorem C97_h265_false : ¬C97_h265_statement := by
  intro h
  have : ((({} : H265.SPS).unmarshal rateSPS265).bind fun x => .ok (x.vui.bind (·.timingInfo), x.fps)) =
      .ok (some ⟨0, 50, false, 0⟩, .inf) := by decide +kernel
  obtain ⟨x, hx, this⟩ := Res.bind_eq_ok.1 this
  injection this with this
  injection this with h1 h2
  obtain ⟨v, hv, ht⟩ := Option.bind_eq_some_iff.1 h1
  obtain ⟨m, k, e, _⟩ := h {} x _ hx v hv _ ht (by decide)
  rw [h2] at e
  cases e

/-- 29.97: the float64 for 60000 / 2002. -/
example : ((({} : H264.SPS).unmarshal [103, 66, 0, 10, 218, 11, 19, 161, 0, 0, 3, 3, 233, 0, 0, 234, 96, 132]).bind fun x =>
    .ok (x.vui.bind (·.timingInfo), x.fps)) = .ok (some ⟨1001, 60000, true⟩, .num 8435813487831848 48) := by decide +kernel
/-- 50. -/
example : ((({} : H265.SPS).unmarshal [66, 1, 1, 1, 96, 0, 0, 3, 0, 0, 3, 0, 0, 3, 0, 0, 3, 0, 30, 160, 32, 129, 5, 151, 255, 8, 128, 64, 0, 0,
    3, 0, 64, 0, 0, 12, 132]).bind fun x => .ok (x.vui.bind (·.timingInfo), x.fps)) =
    .ok (some ⟨1, 50, false, 0⟩, .num (50 * 2 ^ 47) 47) := by decide +kernel
example : IsFloat 60000 2400 ∧ ¬2400 * 25 ≠ 60000 := ⟨⟨by decide, 25, 0, 0, by decide, by decide⟩, by decide⟩

end Verif.Props
