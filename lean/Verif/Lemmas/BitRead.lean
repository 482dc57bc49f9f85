import Verif.Lemmas.BitList
import Verif.Model.Bits

namespace Verif.Bits
open Verif.Spec

theorem and_seven (p : Nat) : p &&& 7 = p % 8 := Nat.and_two_pow_sub_one_eq_mod p 3
theorem shr_three (p : Nat) : p >>> 3 = p / 8 := by simp [Nat.shiftRight_eq_div_pow]
theorem and_mask (x n : Nat) : x &&& (1 <<< n - 1) = x % 2 ^ n := by
  rw [Nat.shiftLeft_eq, Nat.one_mul, Nat.and_two_pow_sub_one_eq_mod]
theorem shl_or {a b n : Nat} (h : b < 2 ^ n) : (a <<< n) ||| b = a * 2 ^ n + b := by
  rw [← Nat.shiftLeft_add_eq_or_of_lt h, Nat.shiftLeft_eq]

/-- Bits `k .. k+n` inside one byte. -/
theorem natOfBits_byte_part (b : UInt8) (k n : Nat) (h : k + n ≤ 8) :
    natOfBits (((byteBits b).drop k).take n) = b.toNat / 2 ^ (8 - k - n) % 2 ^ n := by
  rw [natOfBits_take, natOfBits_drop, natOfBits_byteBits]
  simp only [List.length_drop, length_byteBits]
  have e : 2 ^ (8 - k) = 2 ^ (8 - k - n) * 2 ^ n := by rw [← Nat.pow_add]; congr 1; omega
  rw [e, Nat.mod_mul_right_div_self]

theorem take_byte_part {buf : Bytes} {pos n : Nat} (h : pos / 8 < buf.length) (hn : pos % 8 + n ≤ 8) :
    natOfBits (((bitsOf buf).drop pos).take n)
      = (buf[pos / 8]).toNat / 2 ^ (8 - pos % 8 - n) % 2 ^ n := by
  rw [drop_bitsOf h, List.take_append_of_le_length (by simp; omega), natOfBits_byte_part _ _ _ hn]

theorem take_split {α} (l : List α) (a b : Nat) : l.take (a + b) = l.take a ++ (l.drop a).take b := by
  rw [List.take_add]

theorem natOfBits_split (l : List Bool) (a b : Nat) (h : a + b ≤ l.length) :
    natOfBits (l.take (a + b)) = natOfBits (l.take a) * 2 ^ b + natOfBits ((l.drop a).take b) := by
  rw [take_split, natOfBits_append]
  congr 3
  simp; omega

theorem shl_mod_or {v k n b : Nat} (hv : v < 2 ^ k) (hk : k + n ≤ 64) (hb : b < 2 ^ n) :
    (v <<< n) % 2 ^ 64 ||| b = v * 2 ^ n + b := by
  have h : v * 2 ^ n < 2 ^ 64 :=
    calc v * 2 ^ n < 2 ^ k * 2 ^ n := Nat.mul_lt_mul_of_pos_right hv (Nat.two_pow_pos _)
      _ = 2 ^ (k + n) := (Nat.pow_add _ _ _).symm
      _ ≤ 2 ^ 64 := Nat.pow_le_pow_right (by omega) hk
  rw [Nat.shiftLeft_eq, Nat.mod_eq_of_lt h, ← shl_or hb, Nat.shiftLeft_eq]

theorem readBitsTail_spec (buf : Bytes) (pos v k n : Nat) (h0 : pos % 8 = 0)
    (hsp : pos + n ≤ 8 * buf.length) (hv : v < 2 ^ k) (hk : k + n ≤ 64) :
    readBitsTail buf pos v n
      = .ok (v * 2 ^ n + natOfBits (((bitsOf buf).drop pos).take n), pos + n) := by
  induction n using Nat.strongRecOn generalizing pos v k with
  | ind n ih =>
    unfold readBitsTail
    by_cases h8 : 8 ≤ n
    · have hlt : pos / 8 < buf.length := by omega
      have hb := (buf[pos/8]).toNat_lt
      have e2 : 2 ^ n = 2 ^ 8 * 2 ^ (n - 8) := by rw [← Nat.pow_add]; congr 1; omega
      simp only [h8, if_true, shr_three, idx_of_lt hlt, Res.bind_ok]
      rw [shl_mod_or hv (by omega) hb]
      have hnat : natOfBits (((bitsOf buf).drop pos).take n)
          = (buf[pos/8]).toNat * 2 ^ (n - 8) + natOfBits (((bitsOf buf).drop (pos + 8)).take (n - 8)) := by
        have hn : n = 8 + (n - 8) := by omega
        conv => lhs; rw [hn]
        rw [natOfBits_split _ _ _ (by simp; omega), List.drop_drop, take_byte_part hlt (by omega)]
        simp only [h0]
        rw [Nat.mod_eq_of_lt (by omega)]
        simp
      rw [ih (n - 8) (by omega) (pos + 8) _ (k + 8) (by omega) (by omega)
        (by rw [Nat.pow_add]; omega) (by omega)]
      rw [hnat, e2]
      simp only [Nat.add_mul, Nat.mul_assoc]
      congr 2 <;> omega
    · simp only [h8, if_false]
      by_cases h1 : 0 < n
      · have hlt : pos / 8 < buf.length := by omega
        have hb := (buf[pos/8]).toNat_lt
        have hsm : (buf[pos/8]).toNat / 2 ^ (8 - n) < 2 ^ n := by
          apply Nat.div_lt_of_lt_mul
          rw [← Nat.pow_add, show 8 - n + n = 8 by omega]; exact hb
        simp only [h1, if_true, shr_three, idx_of_lt hlt, Res.bind_ok]
        rw [Nat.shiftRight_eq_div_pow]
        rw [shl_mod_or hv (by omega) hsm, take_byte_part hlt (by omega)]
        simp only [h0, Nat.sub_zero]
        rw [Nat.mod_eq_of_lt hsm]
      · have : n = 0 := by omega
        subst this
        simp [natOfBits]

/-- Refinement of the byte-level reader to the bit list. -/
theorem readBitsUnsafe_spec (buf : Bytes) (pos n : Nat) (hn : n ≤ 64) (hlt : pos / 8 < buf.length)
    (hsp : pos + n ≤ 8 * buf.length) :
    readBitsUnsafe buf pos n = .ok (natOfBits (((bitsOf buf).drop pos).take n), pos + n) := by
  unfold readBitsUnsafe
  simp only [and_seven, shr_three, idx_of_lt hlt, Res.bind_ok]
  by_cases h : n < 8 - pos % 8
  · simp only [h, if_true]
    rw [and_mask, Nat.shiftRight_eq_div_pow, take_byte_part hlt (by omega)]
  · simp only [h, if_false]
    have hmod : (buf[pos/8]).toNat % 2 ^ (8 - pos % 8) < 2 ^ (8 - pos % 8) := Nat.mod_lt _ (Nat.two_pow_pos _)
    rw [and_mask, readBitsTail_spec _ _ _ (8 - pos % 8) _ (by omega) (by omega) hmod (by omega)]
    have hn' : n = (8 - pos % 8) + (n - (8 - pos % 8)) := by omega
    have hs := natOfBits_split ((bitsOf buf).drop pos) (8 - pos % 8) (n - (8 - pos % 8)) (by simp; omega)
    have hp := take_byte_part (n := 8 - pos % 8) hlt (by omega)
    rw [Nat.sub_self, Nat.pow_zero, Nat.div_one] at hp
    rw [← hn', hp, List.drop_drop] at hs
    rw [hs]
    congr 2
    omega

theorem hasSpace_ok {buf : Bytes} {pos n : Nat} (h : pos + n ≤ 8 * buf.length) : hasSpace buf pos n = .ok () := by
  unfold hasSpace; rw [if_neg (by omega)]

theorem hasSpace_err {buf : Bytes} {pos n : Nat} (h : 8 * buf.length < pos + n) :
    hasSpace buf pos n = .err "not enough bits" := by
  unfold hasSpace; rw [if_pos (by omega)]

theorem hasSpace_eq_ok {buf : Bytes} {pos n : Nat} : hasSpace buf pos n = .ok () ↔ pos + n ≤ 8 * buf.length := by
  by_cases h : pos + n ≤ 8 * buf.length
  · simp [h, hasSpace_ok h]
  · simp [h, hasSpace_err (Nat.lt_of_not_le h)]

theorem readBits_ok {buf : Bytes} {pos n : Nat} (h1 : 1 ≤ n) (hn : n ≤ 64) (hsp : pos + n ≤ 8 * buf.length) :
    readBits buf pos n = .ok (natOfBits (((bitsOf buf).drop pos).take n), pos + n) := by
  rw [readBits, hasSpace_ok hsp, Res.bind_ok, readBitsUnsafe_spec _ _ _ hn (by omega) hsp]

theorem readBits_err {buf : Bytes} {pos n : Nat} (h : 8 * buf.length < pos + n) :
    readBits buf pos n = .err "not enough bits" := by
  rw [readBits, hasSpace_err h, Res.bind_err]

theorem flagBit {buf : Bytes} {pos : Nat} (hlt : pos < 8 * buf.length) :
    idx buf (pos >>> 3) = .ok (buf[pos / 8]'(by omega)) ∧
    (((buf[pos / 8]'(by omega)).toNat >>> (7 - (pos &&& 7))) &&& 1)
      = ((bitsOf buf)[pos]'(by simp; omega)).toNat := by
  have hl : pos / 8 < buf.length := by omega
  refine ⟨by rw [shr_three, idx_of_lt hl], ?_⟩
  have h := take_byte_part (buf := buf) (pos := pos) (n := 1) hl (by omega)
  rw [List.drop_eq_getElem_cons (by simp; omega), List.take_succ_cons, List.take_zero] at h
  simp only [natOfBits, List.length_nil, Nat.pow_zero, Nat.mul_one, Nat.add_zero, Nat.pow_one] at h
  have e := Nat.and_two_pow_sub_one_eq_mod (buf[pos/8].toNat >>> (7 - pos % 8)) 1
  simp only [Nat.pow_one, Nat.reduceSub] at e
  rw [and_seven, e, Nat.shiftRight_eq_div_pow, h]
  congr 3
  omega

theorem readFlagUnsafe_spec {buf : Bytes} {pos : Nat} (hlt : pos < 8 * buf.length) :
    readFlagUnsafe buf pos = .ok ((bitsOf buf)[pos]'(by simp; omega), pos + 1) := by
  obtain ⟨h1, h2⟩ := flagBit hlt
  rw [readFlagUnsafe, h1, Res.bind_ok, h2]
  cases (bitsOf buf)[pos]'(by simp; omega) <;> rfl

theorem readFlag_ok {buf : Bytes} {pos : Nat} (hlt : pos < 8 * buf.length) :
    readFlag buf pos = .ok ((bitsOf buf)[pos]'(by simp; omega), pos + 1) := by
  rw [readFlag, hasSpace_ok (by omega), Res.bind_ok, readFlagUnsafe_spec hlt]

theorem readFlag_err {buf : Bytes} {pos : Nat} (hlt : 8 * buf.length ≤ pos) :
    readFlag buf pos = .err "not enough bits" := by
  rw [readFlag, hasSpace_err (by omega), Res.bind_err]

end Verif.Bits
