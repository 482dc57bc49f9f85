import Verif.Spec.BitList

namespace Verif.Spec

@[simp] theorem length_bitsOfNat (n v : Nat) : (bitsOfNat n v).length = n := by
  induction n with
  | zero => rfl
  | succ n ih => simp [bitsOfNat, ih]

@[simp] theorem length_byteBits (b : UInt8) : (byteBits b).length = 8 := by simp [byteBits]

@[simp] theorem bitsOf_nil : bitsOf [] = [] := rfl
@[simp] theorem bitsOf_cons (b : UInt8) (l : Bytes) : bitsOf (b :: l) = byteBits b ++ bitsOf l := by
  simp [bitsOf]
@[simp] theorem bitsOf_append (a b : Bytes) : bitsOf (a ++ b) = bitsOf a ++ bitsOf b := by
  simp [bitsOf]

@[simp] theorem length_bitsOf (l : Bytes) : (bitsOf l).length = 8 * l.length := by
  induction l with
  | nil => rfl
  | cons b l ih => simp [ih]; omega

theorem natOfBits_lt (l : List Bool) : natOfBits l < 2 ^ l.length := by
  induction l with
  | nil => simp [natOfBits]
  | cons b l ih =>
    simp only [natOfBits, List.length_cons, Nat.pow_succ]
    cases b <;> simp <;> omega

theorem natOfBits_append (a b : List Bool) :
    natOfBits (a ++ b) = natOfBits a * 2 ^ b.length + natOfBits b := by
  induction a with
  | nil => simp [natOfBits]
  | cons x a ih =>
    simp only [List.cons_append, natOfBits, ih, List.length_append, Nat.pow_add, Nat.add_mul]
    rw [Nat.mul_assoc]; omega

theorem natOfBits_bitsOfNat (n v : Nat) : natOfBits (bitsOfNat n v) = v % 2 ^ n := by
  induction n with
  | zero => simp [bitsOfNat, natOfBits, Nat.mod_one]
  | succ n ih =>
    simp only [bitsOfNat, natOfBits, length_bitsOfNat, ih]
    rw [Nat.pow_succ, Nat.mod_mul, Nat.add_comm]
    congr 1
    rw [Nat.mul_comm]
    congr 1
    rcases Nat.mod_two_eq_zero_or_one (v / 2 ^ n) with h | h <;> simp [h]

theorem bitsOfNat_add (n k v : Nat) : bitsOfNat (n + k) v = bitsOfNat n (v / 2 ^ k) ++ bitsOfNat k v := by
  induction n with
  | zero => simp [bitsOfNat]
  | succ n ih =>
    rw [Nat.succ_add]
    simp only [bitsOfNat, ih, List.cons_append]
    rw [Nat.div_div_eq_div_mul, ← Nat.pow_add, Nat.add_comm]

theorem bitsOfNat_mod (n k v : Nat) (h : n ≤ k) : bitsOfNat n (v % 2 ^ k) = bitsOfNat n v := by
  induction n with
  | zero => rfl
  | succ n ih =>
    simp only [bitsOfNat]
    rw [ih (by omega)]
    congr 2
    have e : 2 ^ k = 2 ^ n * 2 ^ (k - n) := by rw [← Nat.pow_add]; congr 1; omega
    rw [e, Nat.mod_mul_right_div_self, Nat.mod_mod_of_dvd]
    exact ⟨2 ^ (k - n - 1), by rw [← Nat.pow_succ']; congr 1; omega⟩

theorem bitsOfNat_natOfBits (l : List Bool) : bitsOfNat l.length (natOfBits l) = l := by
  induction l with
  | nil => rfl
  | cons b l ih =>
    have hlt := natOfBits_lt l
    simp only [List.length_cons, bitsOfNat, natOfBits]
    have h1 : (b.toNat * 2 ^ l.length + natOfBits l) / 2 ^ l.length = b.toNat := by
      rw [Nat.add_comm, Nat.add_mul_div_right _ _ (Nat.two_pow_pos _), Nat.div_eq_of_lt hlt]; omega
    rw [h1]
    have h2 : bitsOfNat l.length (b.toNat * 2 ^ l.length + natOfBits l) = l := by
      rw [← bitsOfNat_mod _ _ _ (Nat.le_refl _), Nat.add_comm, Nat.add_mul_mod_self_right,
        Nat.mod_eq_of_lt hlt, ih]
    rw [h2]
    cases b <;> simp

theorem natOfBits_inj {a b : List Bool} (hl : a.length = b.length) (h : natOfBits a = natOfBits b) : a = b := by
  rw [← bitsOfNat_natOfBits a, ← bitsOfNat_natOfBits b, h, hl]

theorem natOfBits_take (l : List Bool) (n : Nat) :
    natOfBits (l.take n) = natOfBits l / 2 ^ (l.length - n) := by
  have e : natOfBits l = natOfBits (l.take n) * 2 ^ (l.drop n).length + natOfBits (l.drop n) := by
    rw [← natOfBits_append, List.take_append_drop]
  have hl : (l.drop n).length = l.length - n := by simp
  have hlt := natOfBits_lt (l.drop n)
  rw [e, hl, Nat.add_comm, Nat.add_mul_div_right _ _ (Nat.two_pow_pos _),
    Nat.div_eq_of_lt (by rwa [hl] at hlt)]
  omega

theorem natOfBits_drop (l : List Bool) (n : Nat) :
    natOfBits (l.drop n) = natOfBits l % 2 ^ (l.length - n) := by
  have e : natOfBits l = natOfBits (l.take n) * 2 ^ (l.drop n).length + natOfBits (l.drop n) := by
    rw [← natOfBits_append, List.take_append_drop]
  have hl : (l.drop n).length = l.length - n := by simp
  have hlt := natOfBits_lt (l.drop n)
  rw [e, hl, Nat.add_comm, Nat.add_mul_mod_self_right, Nat.mod_eq_of_lt (by rwa [hl] at hlt)]

@[simp] theorem natOfBits_byteBits (b : UInt8) : natOfBits (byteBits b) = b.toNat := by
  rw [byteBits, natOfBits_bitsOfNat]
  exact Nat.mod_eq_of_lt b.toNat_lt

theorem natOfBits_replicate_false (n : Nat) : natOfBits (List.replicate n false) = 0 := by
  induction n with
  | zero => rfl
  | succ n ih => simp [List.replicate_succ, natOfBits, ih]

theorem byteBits_inj {a b : UInt8} (h : byteBits a = byteBits b) : a = b := by
  have := congrArg natOfBits h
  simp at this
  exact UInt8.toNat_inj.mp this

theorem bitsOf_inj {a b : Bytes} (h : bitsOf a = bitsOf b) : a = b := by
  induction a generalizing b with
  | nil =>
    cases b with
    | nil => rfl
    | cons y b => have := congrArg List.length h; simp at this; omega
  | cons x a ih =>
    cases b with
    | nil => have := congrArg List.length h; simp at this
    | cons y b =>
      simp only [bitsOf_cons] at h
      obtain ⟨h1, h2⟩ := List.append_inj h (by simp)
      rw [byteBits_inj h1, ih h2]

/-- Dropping to the middle of byte `i`. -/
theorem drop_bitsOf {buf : Bytes} {pos : Nat} (h : pos / 8 < buf.length) :
    (bitsOf buf).drop pos
      = (byteBits buf[pos / 8]).drop (pos % 8) ++ bitsOf (buf.drop (pos / 8 + 1)) := by
  have e : buf = buf.take (pos/8) ++ buf[pos/8] :: buf.drop (pos / 8 + 1) := by
    simp
  have hl : (bitsOf (buf.take (pos/8))).length = 8 * (pos / 8) := by
    simp; omega
  conv => lhs; rw [e]
  rw [bitsOf_append, List.drop_append, hl, bitsOf_cons]
  rw [List.drop_eq_nil_of_le (by rw [hl]; omega), List.nil_append, List.drop_append]
  have h8 : pos - 8 * (pos / 8) = pos % 8 := by omega
  have h9 : pos % 8 - (byteBits buf[pos / 8]).length = 0 := by simp; omega
  rw [h8, h9, List.drop_zero]

end Verif.Spec
