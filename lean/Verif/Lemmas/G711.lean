import Verif.Model.G711
import Verif.Lemmas.Util

/-!
# Closed form of the G711 encode tables
-/

namespace Verif.G711

theorem fillRange_spec (res : Nat → UInt8) (j v : Nat) (lo hi : UInt8) (hj : 1 ≤ j) (_hv : v ≤ 8192) :
    (fillRange res j v lo hi).2 = max j v ∧
    (∀ x, 1 ≤ x → x < 8192 → (fillRange res j v lo hi).1 (8192 + x) = if j ≤ x ∧ x < v then hi else res (8192 + x)) ∧
    (∀ x, 1 ≤ x → x < 8192 → (fillRange res j v lo hi).1 (8192 - x) = if j ≤ x ∧ x < v then lo else res (8192 - x)) ∧
    (fillRange res j v lo hi).1 8192 = res 8192 := by
  induction hn : v - j generalizing res j with
  | zero =>
    unfold fillRange
    rw [if_neg (by omega)]
    refine ⟨by simp only; omega, ?_, ?_, rfl⟩ <;>
    · intro x h1 h2; rw [if_neg (by omega)]
  | succ n ih =>
    unfold fillRange
    rw [if_pos (by omega)]
    obtain ⟨i1, i2, i3, i4⟩ := ih (upd (upd res (8192 - j) lo) (8192 + j) hi) (j + 1) (by omega) (by omega)
    refine ⟨by rw [i1]; omega, ?_, ?_, ?_⟩
    · intro x h1 h2
      rw [i2 x h1 h2]
      unfold upd
      by_cases hx : x = j
      · subst hx
        rw [if_neg (by omega), if_pos rfl, if_pos (by omega)]
      · by_cases hc : j ≤ x ∧ x < v
        · rw [if_pos (by omega), if_pos hc]
        · rw [if_neg (by omega), if_neg (by omega), if_neg (by omega), if_neg hc]
    · intro x h1 h2
      rw [i3 x h1 h2]
      unfold upd
      by_cases hx : x = j
      · subst hx
        rw [if_neg (by omega), if_neg (by omega), if_pos rfl, if_pos (by omega)]
      · by_cases hc : j ≤ x ∧ x < v
        · rw [if_pos (by omega), if_pos hc]
        · rw [if_neg (by omega), if_neg (by omega), if_neg (by omega), if_neg hc]
    · rw [i4]
      unfold upd
      rw [if_neg (by omega), if_neg (by omega)]

/-- The first code in the list whose threshold is above `x`. -/
def firstAbove (tbl : UInt8 → UInt16) (mask : UInt8) (x : Nat) : List UInt8 → Option UInt8
  | [] => none
  | i :: l => if x < threshold tbl mask i then some i else firstAbove tbl mask x l

theorem firstAbove_cons (tbl : UInt8 → UInt16) (mask : UInt8) (x : Nat) (i : UInt8) (l : List UInt8) :
    firstAbove tbl mask x (i :: l) = if x < threshold tbl mask i then some i else firstAbove tbl mask x l := rfl

theorem threshold_le (tbl : UInt8 → UInt16) (mask i : UInt8) : threshold tbl mask i ≤ 8192 := by
  unfold threshold
  have := (tbl (i ^^^ mask) + tbl ((i + 1) ^^^ mask) + 4).toNat_lt
  rw [UInt16.toNat_shiftRight]
  simp only [Nat.shiftRight_eq_div_pow]
  simp
  omega

theorem invertLoop_spec (tbl : UInt8 → UInt16) (mask : UInt8) (l : List UInt8) :
    ∀ (res : Nat → UInt8) (j : Nat), 1 ≤ j →
    1 ≤ (invertLoop tbl mask l res j).2 ∧
    (∀ x, j ≤ x → x < 8192 →
      (x < (invertLoop tbl mask l res j).2 ↔ firstAbove tbl mask x l ≠ none)) ∧
    (∀ x, 1 ≤ x → x < j → x < (invertLoop tbl mask l res j).2) ∧
    (∀ x, 1 ≤ x → x < 8192 → (invertLoop tbl mask l res j).1 (8192 + x) =
      if j ≤ x then (match firstAbove tbl mask x l with | some i => i ^^^ mask | none => res (8192 + x))
      else res (8192 + x)) ∧
    (∀ x, 1 ≤ x → x < 8192 → (invertLoop tbl mask l res j).1 (8192 - x) =
      if j ≤ x then (match firstAbove tbl mask x l with | some i => i ^^^ (mask ^^^ 0x80) | none => res (8192 - x))
      else res (8192 - x)) ∧
    (invertLoop tbl mask l res j).1 8192 = res 8192 := by
  induction l with
  | nil =>
    intro res j hj
    refine ⟨hj, ?_, ?_, ?_, ?_, rfl⟩
    · intro x h1 _; simp [invertLoop, firstAbove]; omega
    · intro x _ h2; simpa [invertLoop] using h2
    · intro x _ _; simp [invertLoop, firstAbove]
    · intro x _ _; simp [invertLoop, firstAbove]
  | cons i l ih =>
    intro res j hj
    obtain ⟨f1, f2, f3, f4⟩ := fillRange_spec res j (threshold tbl mask i) (i ^^^ (mask ^^^ 0x80)) (i ^^^ mask) hj
      (threshold_le tbl mask i)
    obtain ⟨i1, i2, i3, i4, i5, i6⟩ := ih
      (fillRange res j (threshold tbl mask i) (i ^^^ (mask ^^^ 0x80)) (i ^^^ mask)).1
      (fillRange res j (threshold tbl mask i) (i ^^^ (mask ^^^ 0x80)) (i ^^^ mask)).2 (by rw [f1]; omega)
    simp only [invertLoop]
    rw [f1] at i2 i3 i4 i5
    refine ⟨i1, ?_, ?_, ?_, ?_, ?_⟩
    · intro x h1 h2
      rw [firstAbove_cons]
      by_cases hx : x < threshold tbl mask i
      · rw [if_pos hx]
        simp only [ne_eq, reduceCtorEq, not_false_eq_true, iff_true]
        rw [f1]
        exact i3 x (by omega) (by omega)
      · rw [if_neg hx]
        rw [f1]
        exact i2 x (by omega) h2
    · intro x h1 h2
      rw [f1]
      exact i3 x h1 (by omega)
    · intro x h1 h2
      rw [f1, i4 x h1 h2, f2 x h1 h2]
      rw [firstAbove_cons]
      by_cases hx : x < threshold tbl mask i
      · rw [if_neg (by omega), if_pos hx]
        by_cases hjx : j ≤ x
        · simp [hjx, hx]
        · rw [if_neg (by omega), if_neg hjx]
      · rw [if_neg (c := j ≤ x ∧ x < threshold tbl mask i) (by omega), if_neg hx]
        by_cases hjx : j ≤ x
        · rw [if_pos (by omega), if_pos hjx]
        · rw [if_neg (by omega), if_neg hjx]
    · intro x h1 h2
      rw [f1, i5 x h1 h2, f3 x h1 h2]
      rw [firstAbove_cons]
      by_cases hx : x < threshold tbl mask i
      · rw [if_neg (by omega), if_pos hx]
        by_cases hjx : j ≤ x
        · simp [hjx, hx]
        · rw [if_neg (by omega), if_neg hjx]
      · rw [if_neg (c := j ≤ x ∧ x < threshold tbl mask i) (by omega), if_neg hx]
        by_cases hjx : j ≤ x
        · rw [if_pos (by omega), if_pos hjx]
        · rw [if_neg (by omega), if_neg hjx]
    · rw [i6, f4]

/-- Closed form of one entry. -/
def entry (tbl : UInt8 → UInt16) (mask : UInt8) (k : Nat) : UInt8 :=
  if k = 8192 then mask
  else if 8192 < k then ((firstAbove tbl mask (k - 8192) codes).getD 127) ^^^ mask
  else ((firstAbove tbl mask (if k = 0 then 8191 else 8192 - k) codes).getD 127) ^^^ (mask ^^^ 0x80)

theorem invertTable_eq (tbl : UInt8 → UInt16) (mask : UInt8) (k : Nat) (hk : k < 16384) :
    invertTable tbl mask k = entry tbl mask k := by
  obtain ⟨i1, i2, i3, i4, i5, i6⟩ := invertLoop_spec tbl mask codes (upd (fun _ => 0) 8192 mask) 1 (Nat.le_refl _)
  obtain ⟨f1, f2, f3, f4⟩ := fillRange_spec (invertLoop tbl mask codes (upd (fun _ => 0) 8192 mask) 1).1
    (invertLoop tbl mask codes (upd (fun _ => 0) 8192 mask) 1).2 8192 (127 ^^^ (mask ^^^ 0x80)) (127 ^^^ mask) i1 (Nat.le_refl _)
  have hpos : ∀ x, 1 ≤ x → x < 8192 → (fillRange (invertLoop tbl mask codes (upd (fun _ => 0) 8192 mask) 1).1
    (invertLoop tbl mask codes (upd (fun _ => 0) 8192 mask) 1).2 8192 (127 ^^^ (mask ^^^ 0x80)) (127 ^^^ mask)).1 (8192 + x)
      = ((firstAbove tbl mask x codes).getD 127) ^^^ mask := by
    intro x h1 h2
    rw [f2 x h1 h2, i4 x h1 h2]
    have := i2 x h1 h2
    cases hf : firstAbove tbl mask x codes with
    | none =>
      rw [hf] at this
      simp only [ne_eq, not_true_eq_false, iff_false] at this
      rw [if_pos (by omega)]; rfl
    | some i =>
      rw [hf] at this
      simp only [ne_eq, reduceCtorEq, not_false_eq_true, iff_true] at this
      rw [if_neg (by omega), if_pos h1]; rfl
  have hneg : ∀ x, 1 ≤ x → x < 8192 → (fillRange (invertLoop tbl mask codes (upd (fun _ => 0) 8192 mask) 1).1
    (invertLoop tbl mask codes (upd (fun _ => 0) 8192 mask) 1).2 8192 (127 ^^^ (mask ^^^ 0x80)) (127 ^^^ mask)).1 (8192 - x)
      = ((firstAbove tbl mask x codes).getD 127) ^^^ (mask ^^^ 0x80) := by
    intro x h1 h2
    rw [f3 x h1 h2, i5 x h1 h2]
    have := i2 x h1 h2
    cases hf : firstAbove tbl mask x codes with
    | none =>
      rw [hf] at this
      simp only [ne_eq, not_true_eq_false, iff_false] at this
      rw [if_pos (by omega)]; rfl
    | some i =>
      rw [hf] at this
      simp only [ne_eq, reduceCtorEq, not_false_eq_true, iff_true] at this
      rw [if_neg (by omega), if_pos h1]; rfl
  unfold invertTable entry
  simp only
  by_cases h0 : k = 0
  · subst h0
    rw [upd, if_pos rfl, if_neg (by omega), if_neg (by omega), if_pos rfl]
    exact hneg 8191 (by omega) (by omega)
  · rw [upd, if_neg h0]
    by_cases h1 : k = 8192
    · rw [if_pos h1, h1, f4, i6, upd, if_pos rfl]
    · rw [if_neg h1]
      by_cases h2 : 8192 < k
      · rw [if_pos h2]
        have := hpos (k - 8192) (by omega) (by omega)
        rwa [show 8192 + (k - 8192) = k by omega] at this
      · rw [if_neg h2, if_neg h0]
        have := hneg (8192 - k) (by omega) (by omega)
        rwa [show 8192 - (8192 - k) = k by omega] at this

end Verif.G711
