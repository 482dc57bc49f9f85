import Verif.Lemmas.BitRead

namespace Verif.Bits
open Verif.Spec

theorem replicate_add {α} (n m : Nat) (a : α) :
    List.replicate (n + m) a = List.replicate n a ++ List.replicate m a := by
  rw [List.replicate_append_replicate]

theorem modify_append {α} (a : List α) (b : α) (c : List α) (f : α → α) :
    (a ++ b :: c).modify a.length f = a ++ f b :: c := by
  induction a with
  | nil => simp
  | cons x a ih => simp [ih]

theorem modifyAt_append (a : Bytes) (b : UInt8) (c : Bytes) (f : UInt8 → UInt8) (i : Nat)
    (h : i = a.length) : modifyAt (a ++ b :: c) i f = .ok (a ++ f b :: c) := by
  subst h
  rw [modifyAt, if_pos (by simp), modify_append]

theorem byteBits_ofNat (v : Nat) : byteBits (UInt8.ofNat v) = bitsOfNat 8 v := by
  rw [byteBits, UInt8.toNat_ofNat']
  exact bitsOfNat_mod 8 8 v (Nat.le_refl _)

theorem bitsOfNat_zero (n : Nat) : bitsOfNat n 0 = List.replicate n false := by
  induction n with
  | zero => rfl
  | succ n ih => simp [bitsOfNat, ih, List.replicate_succ]

theorem bitsOfNat_mul_pow (n k v : Nat) :
    bitsOfNat (n + k) (v * 2 ^ k) = bitsOfNat n v ++ List.replicate k false := by
  rw [bitsOfNat_add, Nat.mul_div_cancel _ (Nat.two_pow_pos _)]
  congr 1
  rw [← bitsOfNat_mod k k _ (Nat.le_refl _), Nat.mul_mod_left, bitsOfNat_zero]

theorem bitsOf_replicate_zero (m : Nat) : bitsOf (List.replicate m 0) = List.replicate (8 * m) false := by
  induction m with
  | zero => rfl
  | succ m ih =>
    rw [List.replicate_succ, bitsOf_cons, ih, show 8 * (m + 1) = 8 + 8 * m by omega, replicate_add]
    congr 1

theorem bitsOf_zero_inj {c : Bytes} {k : Nat} (h : bitsOf c = List.replicate k false) :
    c = List.replicate c.length 0 := by
  apply bitsOf_inj
  rw [bitsOf_replicate_zero, h]
  have := congrArg List.length h
  simp at this
  rw [this]

theorem writeBitsTail_spec (a : Bytes) (m v n : Nat) (hn : n ≤ 8 * m) :
    ∃ buf', writeBitsTail (a ++ List.replicate m 0) (8 * a.length) v n = .ok (buf', 8 * a.length + n) ∧
      buf'.length = a.length + m ∧
      bitsOf buf' = bitsOf a ++ bitsOfNat n v ++ List.replicate (8 * m - n) false := by
  induction n using Nat.strongRecOn generalizing a m with
  | ind n ih =>
    unfold writeBitsTail
    by_cases h8 : 8 ≤ n
    · obtain ⟨m, rfl⟩ : ∃ m', m = m' + 1 := ⟨m - 1, by omega⟩
      rw [if_pos h8, List.replicate_succ, modifyAt_append _ _ _ _ _ (by rw [shr_three]; omega), Res.bind_ok]
      obtain ⟨buf', h1, h2, h3⟩ := ih (n - 8) (by omega) (a ++ [UInt8.ofNat (v >>> (n - 8))]) m (by omega)
      refine ⟨buf', ?_, ?_, ?_⟩
      · rw [List.append_assoc, List.length_append] at h1
        have e : 8 * a.length + 8 = 8 * (a.length + 1) := by omega
        rw [e]
        simp only [List.cons_append, List.nil_append, List.length_cons, List.length_nil, Nat.zero_add] at h1
        rw [h1]
        congr 2; omega
      · rw [h2]; simp; omega
      · rw [h3, bitsOf_append, bitsOf_cons, byteBits_ofNat, bitsOf_nil, List.append_nil, Nat.shiftRight_eq_div_pow]
        have e : bitsOfNat n v = bitsOfNat 8 (v / 2 ^ (n - 8)) ++ bitsOfNat (n - 8) v := by
          rw [← bitsOfNat_add]; congr 1; omega
        rw [e, show 8 * (m + 1) - n = 8 * m - (n - 8) by omega]
        simp only [List.append_assoc]
    · rw [if_neg h8]
      by_cases h1 : 0 < n
      · obtain ⟨m, rfl⟩ : ∃ m', m = m' + 1 := ⟨m - 1, by omega⟩
        rw [if_pos h1, List.replicate_succ, modifyAt_append _ _ _ _ _ (by rw [shr_three]; omega), Res.bind_ok]
        refine ⟨_, rfl, by simp, ?_⟩
        have e : bitsOfNat 8 (v % 2 ^ n * 2 ^ (8 - n)) = bitsOfNat n v ++ List.replicate (8 - n) false := by
          rw [← bitsOfNat_mod n n v (Nat.le_refl _), ← bitsOfNat_mul_pow]; congr 1; omega
        rw [bitsOf_append, bitsOf_cons, byteBits_ofNat, and_mask, Nat.shiftLeft_eq, e, bitsOf_replicate_zero]
        simp only [List.append_assoc]
        congr 2
        rw [← replicate_add]; congr 1; omega
      · have : n = 0 := by omega
        subst this
        rw [if_neg (by omega)]
        refine ⟨_, rfl, by simp, ?_⟩
        simp [bitsOfNat, bitsOf_replicate_zero]

/-- OR-ing `w < 2^r` into a byte whose low `r` bits are clear. -/
theorem byteBits_or (b : UInt8) (r w : Nat) (hr : r ≤ 8) (p : List Bool)
    (hb : byteBits b = p ++ List.replicate r false) (hw : w < 2 ^ r) :
    byteBits (b ||| UInt8.ofNat w) = p ++ bitsOfNat r w := by
  have hp : p.length = 8 - r := by
    have := congrArg List.length hb
    simp at this; omega
  have hbn : b.toNat = natOfBits p * 2 ^ r := by
    have := congrArg natOfBits hb
    rw [natOfBits_append, natOfBits_replicate_false] at this
    simpa using this
  have hw8 : w < 2 ^ 8 := Nat.lt_of_lt_of_le hw (Nat.pow_le_pow_right (by omega) hr)
  rw [byteBits, UInt8.toNat_or, UInt8.toNat_ofNat', Nat.mod_eq_of_lt hw8, hbn, ← Nat.shiftLeft_eq,
    shl_or hw]
  have e : (8 : Nat) = p.length + r := by omega
  conv => lhs; rw [e]
  rw [bitsOfNat_add, Nat.add_comm, Nat.add_mul_div_right _ _ (Nat.two_pow_pos _), Nat.div_eq_of_lt hw, Nat.zero_add,
    bitsOfNat_natOfBits]
  congr 1
  rw [← bitsOfNat_mod r r _ (Nat.le_refl _), Nat.add_mul_mod_self_right, Nat.mod_eq_of_lt hw]

/-- Refinement of the byte-level writer to the bit list. -/
theorem writeBitsUnsafe_spec (buf : Bytes) (pos v n m : Nat) (pre : List Bool)
    (hbuf : bitsOf buf = pre ++ List.replicate m false) (hpre : pre.length = pos)
    (hm : 1 ≤ m) (hn : n ≤ m) (hv : v < 2 ^ n) :
    ∃ buf', writeBitsUnsafe buf pos v n = .ok (buf', pos + n) ∧ buf'.length = buf.length ∧
      bitsOf buf' = pre ++ bitsOfNat n v ++ List.replicate (m - n) false := by
  have hlen : 8 * buf.length = pos + m := by
    have := congrArg List.length hbuf
    simp at this; omega
  have hlt : pos / 8 < buf.length := by omega
  -- split the buffer
  obtain ⟨a, b, c, hab, hal⟩ : ∃ a b c, buf = a ++ b :: c ∧ a.length = pos / 8 :=
    ⟨buf.take (pos/8), buf[pos/8], buf.drop (pos/8+1), by simp, by simp; omega⟩
  have hcl : buf.length = pos / 8 + 1 + c.length := by rw [hab]; simp; omega
  have hd := drop_bitsOf hlt
  have hb : buf[pos/8] = b := by simp [hab, ← hal]
  have hc : buf.drop (pos/8+1) = c := by simp [hab, ← hal]
  rw [hb, hc, hbuf, List.drop_append, hpre, Nat.sub_self, List.drop_zero, List.drop_eq_nil_of_le (by omega),
    List.nil_append] at hd
  have hm2 : m = (8 - pos % 8) + 8 * c.length := by omega
  rw [hm2, replicate_add] at hd
  obtain ⟨hd1, hd2⟩ := List.append_inj hd (by simp)
  have hcz := bitsOf_zero_inj hd2.symm
  have hb2 : byteBits b = (byteBits b).take (pos % 8) ++ List.replicate (8 - pos % 8) false := by
    rw [hd1, List.take_append_drop]
  have hpre2 : pre = bitsOf a ++ (byteBits b).take (pos % 8) := by
    have e := hbuf
    rw [hab, bitsOf_append, bitsOf_cons, hb2, List.append_assoc, ← List.append_assoc] at e
    have := (List.append_inj e (by simp; omega)).1
    rw [this]
  generalize hq : (byteBits b).take (pos % 8) = q at *
  have hql : q.length = pos % 8 := by rw [← hq]; simp; omega
  unfold writeBitsUnsafe
  simp only [and_seven, shr_three]
  by_cases h : n < 8 - pos % 8
  · simp only [h, if_true]
    rw [hab, modifyAt_append _ _ _ _ _ (by omega), Res.bind_ok]
    refine ⟨_, rfl, by simp, ?_⟩
    have hw : v * 2 ^ (8 - pos % 8 - n) < 2 ^ (8 - pos % 8) := by
      have e : 2 ^ (8 - pos % 8) = 2 ^ n * 2 ^ (8 - pos % 8 - n) := by rw [← Nat.pow_add]; congr 1; omega
      rw [e]
      exact Nat.mul_lt_mul_of_pos_right hv (Nat.two_pow_pos _)
    rw [bitsOf_append, bitsOf_cons, Nat.shiftLeft_eq, byteBits_or b (8 - pos % 8) _ (by omega) q hb2 hw, ← hd2, hpre2]
    have e : bitsOfNat (8 - pos % 8) (v * 2 ^ (8 - pos % 8 - n))
        = bitsOfNat n v ++ List.replicate (8 - pos % 8 - n) false := by
      rw [← bitsOfNat_mul_pow]; congr 1; omega
    rw [e]
    simp only [List.append_assoc]
    congr 3
    rw [← replicate_add]; congr 1; omega
  · simp only [h, if_false]
    rw [hab, modifyAt_append _ _ _ _ _ (by omega), Res.bind_ok]
    have hw : v / 2 ^ (n - (8 - pos % 8)) < 2 ^ (8 - pos % 8) := by
      apply Nat.div_lt_of_lt_mul
      rw [← Nat.pow_add]
      refine Nat.lt_of_lt_of_le hv (Nat.pow_le_pow_right (by omega) (by omega))
    have hbb := byteBits_or b (8 - pos % 8) _ (by omega) q hb2 hw
    obtain ⟨buf', h1, h2, h3⟩ := writeBitsTail_spec
      (a ++ [b ||| UInt8.ofNat (v >>> (n - (8 - pos % 8)))]) c.length v (n - (8 - pos % 8)) (by omega)
    refine ⟨buf', ?_, ?_, ?_⟩
    · rw [← hcz, List.append_assoc] at h1
      simp only [List.cons_append, List.nil_append, List.length_append, List.length_cons, List.length_nil] at h1
      rw [show pos + (8 - pos % 8) = 8 * (a.length + (0 + 1)) by omega, h1]
      congr 2; omega
    · rw [h2]; simp; omega
    · rw [h3, bitsOf_append, bitsOf_cons, Nat.shiftRight_eq_div_pow, hbb, hpre2]
      have e : bitsOfNat n v = bitsOfNat (8 - pos % 8) (v / 2 ^ (n - (8 - pos % 8))) ++ bitsOfNat (n - (8 - pos % 8)) v := by
        rw [← bitsOfNat_add]; congr 1; omega
      rw [e]
      simp only [List.append_assoc, bitsOf_nil, List.nil_append]
      congr 4
      congr 1; omega

end Verif.Bits
