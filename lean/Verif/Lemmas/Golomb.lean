import Verif.Lemmas.BitRead

namespace Verif.Bits
open Verif.Spec

theorem drop_cons_of_lt {buf : Bytes} {pos : Nat} (h : pos < 8 * buf.length) :
    (bitsOf buf).drop pos = (bitsOf buf)[pos]'(by simp; omega) :: (bitsOf buf).drop (pos + 1) :=
  List.drop_eq_getElem_cons (by simp; omega)

theorem lt_of_drop_cons {buf : Bytes} {pos : Nat} {b : Bool} {l : List Bool}
    (h : (bitsOf buf).drop pos = b :: l) : pos < 8 * buf.length := by
  have := congrArg List.length h
  simp at this
  omega

theorem getElem_of_drop_cons {buf : Bytes} {pos : Nat} {b : Bool} {l : List Bool}
    (h : (bitsOf buf).drop pos = b :: l) :
    ((bitsOf buf)[pos]'(by have := lt_of_drop_cons h; simp; omega)) = b ∧ (bitsOf buf).drop (pos + 1) = l := by
  have hlt := lt_of_drop_cons h
  rw [drop_cons_of_lt hlt] at h
  exact List.cons.inj h

theorem golombZeros_spec (buf : Bytes) (k lz pos : Nat) (rest : List Bool)
    (h : (bitsOf buf).drop pos = List.replicate k false ++ true :: rest) (hk : lz + k ≤ 32) :
    golombZeros buf pos lz = .ok (lz + k, pos + k + 1) := by
  induction k generalizing pos lz with
  | zero =>
    simp only [List.replicate_zero, List.nil_append] at h
    have hlt := lt_of_drop_cons h
    obtain ⟨h1, h2⟩ := flagBit hlt
    obtain ⟨h3, h4⟩ := getElem_of_drop_cons h
    unfold golombZeros
    rw [if_neg (by omega), if_neg (by omega), h1, Res.bind_ok, h2, h3]
    rfl
  | succ k ih =>
    rw [List.replicate_succ, List.cons_append] at h
    have hlt := lt_of_drop_cons h
    obtain ⟨h1, h2⟩ := flagBit hlt
    obtain ⟨h3, h4⟩ := getElem_of_drop_cons h
    unfold golombZeros
    rw [if_neg (by omega), if_neg (by omega), h1, Res.bind_ok, h2, h3]
    simp only [Bool.toNat_false, ne_eq, not_true_eq_false, if_false]
    rw [ih _ _ h4 (by omega)]
    congr 2 <;> omega

theorem golombSuffix_spec (buf : Bytes) (n pos c : Nat) (hn : n ≤ 32) (hsp : pos + n ≤ 8 * buf.length) :
    golombSuffix buf pos (c * 2 ^ n) n
      = .ok (c * 2 ^ n + natOfBits (((bitsOf buf).drop pos).take n), pos + n) := by
  induction n generalizing pos c with
  | zero => simp [golombSuffix, natOfBits]
  | succ n ih =>
    have hlt : pos < 8 * buf.length := by omega
    obtain ⟨h1, h2⟩ := flagBit hlt
    rw [golombSuffix, h1, Res.bind_ok]
    simp only [h2]
    rw [drop_cons_of_lt hlt, List.take_succ_cons]
    generalize hb : (bitsOf buf)[pos]'(by simp; omega) = b
    have hbn : b.toNat * 2 ^ n < 2 ^ (n + 1) := by
      have := Nat.two_pow_pos n
      cases b <;> simp [Nat.pow_succ] <;> omega
    have h32 : 2 ^ (n + 1) ≤ 2 ^ 32 := Nat.pow_le_pow_right (by omega) hn
    have e : c * 2 ^ (n + 1) ||| (b.toNat <<< n) % 2 ^ 32 = (2 * c + b.toNat) * 2 ^ n := by
      rw [Nat.shiftLeft_eq, Nat.mod_eq_of_lt (by omega), ← Nat.shiftLeft_eq c, shl_or hbn,
        Nat.add_mul, Nat.pow_succ, Nat.mul_comm 2 c, Nat.mul_assoc, Nat.mul_comm 2]
    rw [e, ih _ _ (by omega) (by omega)]
    simp only [natOfBits, List.length_take, List.length_drop, length_bitsOf]
    rw [Nat.min_eq_left (by omega), Nat.add_mul, Nat.pow_succ, Nat.mul_comm 2 c, Nat.mul_assoc,
      Nat.mul_comm 2]
    congr 2 <;> omega

/-- Every code word with at most 32 leading zeros: the value comes out modulo `2^32`. -/
theorem readGolombUnsigned_spec (buf : Bytes) (pos v : Nat) (rest : List Bool)
    (hv : Nat.log2 (v + 1) ≤ 32) (h : (bitsOf buf).drop pos = golombBits v ++ rest) :
    readGolombUnsigned buf pos = .ok (v % 2 ^ 32, pos + (golombBits v).length) := by
  generalize hk : Nat.log2 (v + 1) = k at *
  have hg : golombBits v = List.replicate k false ++ true :: bitsOfNat k (v + 1) := by
    simp [golombBits, hk]
  have hlen : (golombBits v).length = 2 * k + 1 := by rw [hg]; simp; omega
  have hlo : 2 ^ k ≤ v + 1 := by rw [← hk]; exact Nat.log2_self_le (by omega)
  have hhi : v + 1 < 2 ^ (k + 1) := by rw [← hk]; exact Nat.lt_log2_self
  have hl := congrArg List.length h
  simp only [List.length_drop, length_bitsOf, List.length_append, hlen] at hl
  rw [hg, List.append_assoc, List.cons_append] at h
  have hz := golombZeros_spec buf k 0 pos _ h (by omega)
  rw [readGolombUnsigned, hz, Res.bind_ok]
  simp only [Nat.zero_add]
  rw [if_neg (by omega)]
  have hs := golombSuffix_spec buf k (pos + k + 1) 0 (by omega) (by omega)
  rw [Nat.zero_mul] at hs
  rw [hs, Res.bind_ok]
  simp only [Nat.zero_add]
  have hd : (bitsOf buf).drop (pos + k + 1) = bitsOfNat k (v + 1) ++ rest := by
    have h' := congrArg (List.drop (k + 1)) h
    rw [List.drop_drop, List.drop_append] at h'
    rw [List.drop_eq_nil_of_le (as := List.replicate k false) (by simp)] at h'
    simpa [Nat.add_assoc] using h'
  rw [hd, List.take_append_of_le_length (by simp), List.take_of_length_le (by simp), natOfBits_bitsOfNat,
    hlen]
  have hm : (v + 1) % 2 ^ k = v + 1 - 2 ^ k := by
    rw [Nat.mod_eq_sub_mod hlo, Nat.mod_eq_of_lt]
    rw [Nat.pow_succ] at hhi; omega
  rw [hm, Nat.shiftLeft_eq, Nat.one_mul]
  congr 2
  · by_cases h32 : k = 32
    · subst h32; omega
    · have h32' : 2 ^ k < 2 ^ 32 := Nat.pow_lt_pow_right (by omega) (by omega)
      rw [Nat.mod_eq_of_lt h32']
      omega
  · omega

theorem golombZeros_result (buf : Bytes) (lz pos : Nat) (hp : pos ≤ 8 * buf.length) (hlz : lz ≤ 33) :
    (∃ k, lz + k ≤ 32 ∧ pos + k + 1 ≤ 8 * buf.length ∧ golombZeros buf pos lz = .ok (lz + k, pos + k + 1) ∧
      (bitsOf buf).drop pos = List.replicate k false ++ true :: (bitsOf buf).drop (pos + k + 1)) ∨
    (∃ e, golombZeros buf pos lz = .err e) := by
  induction h : 33 - lz generalizing lz pos with
  | zero =>
    right; unfold golombZeros; rw [if_pos (by omega)]; exact ⟨_, rfl⟩
  | succ m ih =>
    by_cases he : pos = 8 * buf.length
    · right; unfold golombZeros
      rw [if_neg (by omega), if_pos (by omega)]; exact ⟨_, rfl⟩
    · have hlt : pos < 8 * buf.length := by omega
      obtain ⟨h1, h2⟩ := flagBit hlt
      unfold golombZeros
      rw [if_neg (by omega), if_neg (by omega), h1, Res.bind_ok, h2, drop_cons_of_lt hlt]
      generalize (bitsOf buf)[pos]'(by simp; omega) = b
      cases b with
      | true => left; exact ⟨0, by omega, by omega, by simp, by simp⟩
      | false =>
        simp only [Bool.toNat_false, ne_eq, not_true_eq_false, if_false]
        rcases ih (lz + 1) (pos + 1) (by omega) (by omega) (by omega) with ⟨k, hk1, hk2, hk3, hk4⟩ | hk
        · left
          refine ⟨k + 1, by omega, by omega, ?_, ?_⟩
          · rw [hk3]; congr 2 <;> omega
          · rw [hk4, List.replicate_succ, List.cons_append]
            congr 5; omega
        · right; exact hk

/-- Total description of `ReadGolombUnsigned`: it either fails, or it consumed exactly one code word. -/
theorem readGolombUnsigned_result (buf : Bytes) (pos : Nat) (hp : pos ≤ 8 * buf.length) :
    (∃ v, Nat.log2 (v + 1) ≤ 32 ∧ pos + (golombBits v).length ≤ 8 * buf.length ∧
      readGolombUnsigned buf pos = .ok (v % 2 ^ 32, pos + (golombBits v).length) ∧
      ((bitsOf buf).drop pos).take (golombBits v).length = golombBits v) ∨
    (∃ e, readGolombUnsigned buf pos = .err e) := by
  rcases golombZeros_result buf 0 pos hp (by omega) with ⟨k, hk1, hk2, hk3, hk4⟩ | ⟨e, he⟩
  · by_cases hs : pos + k + 1 + k ≤ 8 * buf.length
    · left
      let s := ((bitsOf buf).drop (pos + k + 1)).take k
      have hsl : s.length = k := by simp [s]; omega
      have hlt := natOfBits_lt s
      rw [hsl] at hlt
      have hpos := Nat.two_pow_pos k
      have hlog : Nat.log2 (2 ^ k + natOfBits s - 1 + 1) = k := by
        rw [Nat.log2_eq_iff (by omega)]
        rw [Nat.pow_succ]; omega
      have hgb : golombBits (2 ^ k + natOfBits s - 1) = List.replicate k false ++ true :: s := by
        rw [golombBits, hlog]
        congr 2
        have : bitsOfNat k (2 ^ k + natOfBits s - 1 + 1) = bitsOfNat k (natOfBits s) := by
          rw [← bitsOfNat_mod k k _ (Nat.le_refl _), show 2 ^ k + natOfBits s - 1 + 1 = natOfBits s + 2 ^ k by omega,
            Nat.add_mod_right, bitsOfNat_mod _ _ _ (Nat.le_refl _)]
        rw [this]
        have := bitsOfNat_natOfBits s
        rwa [hsl] at this
      have hdrop : (bitsOf buf).drop pos
          = golombBits (2 ^ k + natOfBits s - 1) ++ (bitsOf buf).drop (pos + k + 1 + k) := by
        rw [hk4, hgb, List.append_assoc, List.cons_append]
        congr 2
        have e : (bitsOf buf).drop (pos + k + 1 + k) = ((bitsOf buf).drop (pos + k + 1)).drop k := by
          rw [List.drop_drop]
        rw [e]; exact (List.take_append_drop _ _).symm
      have hlen : (golombBits (2 ^ k + natOfBits s - 1)).length = k + (k + 1) := by
        rw [hgb]; simp [hsl]
      refine ⟨2 ^ k + natOfBits s - 1, by omega, by omega,
        readGolombUnsigned_spec _ _ _ _ (by omega) hdrop, ?_⟩
      rw [hdrop, List.take_append_of_le_length (by omega), List.take_of_length_le (by omega)]
    · right
      refine ⟨"not enough bits", ?_⟩
      rw [readGolombUnsigned, hk3, Res.bind_ok]
      simp only
      rw [if_pos (by omega)]
  · right; exact ⟨e, by rw [readGolombUnsigned, he, Res.bind_err]⟩

theorem length_golombBits_pos (v : Nat) : 1 ≤ (golombBits v).length := by simp [golombBits]; omega

end Verif.Bits
