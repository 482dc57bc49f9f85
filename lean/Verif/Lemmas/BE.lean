import Verif.Lemmas.BitWrite
import Verif.Lemmas.Util
import Verif.Lemmas.Avcc

/-!
Big-endian fields as bit lists.
-/

namespace Verif
open Verif.Spec Verif.Bits
open Verif.H264 (or4)

theorem exists_cons {α} {n : Nat} {l : List α} (h : n + 1 ≤ l.length) : ∃ a t, l = a :: t ∧ n ≤ t.length := by
  cases l with
  | nil => simp at h
  | cons a t => exact ⟨a, t, rfl, by simpa using h⟩

theorem shiftLeft_or (a b k : Nat) (h : b < 2 ^ k) : a <<< k ||| b = a * 2 ^ k + b := by
  rw [← Nat.shiftLeft_add_eq_or_of_lt h, Nat.shiftLeft_eq]

theorem or2 (a b : UInt8) : a.toNat <<< 8 ||| b.toNat = a.toNat * 2 ^ 8 + b.toNat :=
  shiftLeft_or _ _ _ b.toNat_lt

theorem or3 (a b c : UInt8) :
    a.toNat <<< 16 ||| b.toNat <<< 8 ||| c.toNat = a.toNat * 2 ^ 16 + b.toNat * 2 ^ 8 + c.toNat := by
  have := or4 0 a.toNat b.toNat c.toNat a.toNat_lt b.toNat_lt c.toNat_lt
  simpa using this

/-- A field cut after its first bits. -/
theorem bitsOfNat_cut (n k a b : Nat) (hb : b < 2 ^ k) :
    bitsOfNat (n + k) (a * 2 ^ k + b) = bitsOfNat n a ++ bitsOfNat k b := by
  rw [bitsOfNat_add]
  have hp : 0 < 2 ^ k := Nat.pow_pos (by decide)
  congr 1
  · rw [Nat.mul_comm, Nat.mul_add_div hp, Nat.div_eq_of_lt hb, Nat.add_zero]
  · rw [← bitsOfNat_mod k k (a * 2 ^ k + b) (Nat.le_refl _), Nat.mul_comm, Nat.mul_add_mod,
      Nat.mod_eq_of_lt hb]

theorem byteBits_eq (b : UInt8) : byteBits b = bitsOfNat 8 b.toNat := rfl

theorem bits16_of (a b : UInt8) : bitsOfNat 16 (a.toNat <<< 8 ||| b.toNat) = byteBits a ++ byteBits b := by
  rw [or2, bitsOfNat_cut 8 8 _ _ b.toNat_lt]; rfl

theorem bits24_of (a b c : UInt8) :
    bitsOfNat 24 (a.toNat <<< 16 ||| b.toNat <<< 8 ||| c.toNat) = byteBits a ++ (byteBits b ++ byteBits c) := by
  have hb := b.toNat_lt
  have hc := c.toNat_lt
  rw [or3, Nat.add_assoc, bitsOfNat_cut 8 16 _ _ (by omega), bitsOfNat_cut 8 8 _ _ c.toNat_lt]; rfl

theorem bits32_of (a b c d : UInt8) :
    bitsOfNat 32 (a.toNat <<< 24 ||| b.toNat <<< 16 ||| c.toNat <<< 8 ||| d.toNat)
      = byteBits a ++ (byteBits b ++ (byteBits c ++ byteBits d)) := by
  have hb := b.toNat_lt
  have hc := c.toNat_lt
  have hd := d.toNat_lt
  rw [or4 _ _ _ _ hb hc hd, Nat.add_assoc, Nat.add_assoc, bitsOfNat_cut 8 24 _ _ (by omega),
    bitsOfNat_cut 8 16 _ _ (by omega), bitsOfNat_cut 8 8 _ _ hd]
  rfl

theorem bits16 (v : Nat) : bitsOfNat 16 v = byteBits (UInt8.ofNat (v >>> 8)) ++ byteBits (UInt8.ofNat v) := by
  rw [bitsOfNat_add 8 8, byteBits_ofNat, byteBits_ofNat, Nat.shiftRight_eq_div_pow]

theorem bits24 (v : Nat) : bitsOfNat 24 v
    = byteBits (UInt8.ofNat (v >>> 16)) ++ (byteBits (UInt8.ofNat (v >>> 8)) ++ byteBits (UInt8.ofNat v)) := by
  rw [bitsOfNat_add 8 16, bits16, byteBits_ofNat (v >>> 16), Nat.shiftRight_eq_div_pow v 16]

theorem bits32 (v : Nat) : bitsOfNat 32 v
    = byteBits (UInt8.ofNat (v >>> 24)) ++ (byteBits (UInt8.ofNat (v >>> 16)) ++
      (byteBits (UInt8.ofNat (v >>> 8)) ++ byteBits (UInt8.ofNat v))) := by
  rw [bitsOfNat_add 8 24, bits24, byteBits_ofNat (v >>> 24), Nat.shiftRight_eq_div_pow v 24]

/-- Fields are recovered from their bits one after the other. -/
theorem bitsOfNat_append_inj {n a b : Nat} {x y : List Bool} (ha : a < 2 ^ n) (hb : b < 2 ^ n)
    (h : bitsOfNat n a ++ x = bitsOfNat n b ++ y) : a = b ∧ x = y := by
  obtain ⟨h1, h2⟩ := List.append_inj h (by simp)
  have := congrArg natOfBits h1
  rw [natOfBits_bitsOfNat, natOfBits_bitsOfNat, Nat.mod_eq_of_lt ha, Nat.mod_eq_of_lt hb] at this
  exact ⟨this, h2⟩

theorem be16_back (v : Nat) (h : v < 2 ^ 16) :
    (UInt8.ofNat (v >>> 8)).toNat <<< 8 ||| (UInt8.ofNat v).toNat = v := by
  rw [or2]; simp only [UInt8.toNat_ofNat', Nat.shiftRight_eq_div_pow]; omega

theorem be24_back (v : Nat) (h : v < 2 ^ 24) :
    (UInt8.ofNat (v >>> 16)).toNat <<< 16 ||| (UInt8.ofNat (v >>> 8)).toNat <<< 8 ||| (UInt8.ofNat v).toNat
      = v := by
  rw [or3]; simp only [UInt8.toNat_ofNat', Nat.shiftRight_eq_div_pow]; omega

theorem be32_back (v : Nat) (h : v < 2 ^ 32) :
    (UInt8.ofNat (v >>> 24)).toNat <<< 24 ||| (UInt8.ofNat (v >>> 16)).toNat <<< 16 |||
      (UInt8.ofNat (v >>> 8)).toNat <<< 8 ||| (UInt8.ofNat v).toNat = v := by
  rw [or4 _ _ _ _ (UInt8.toNat_lt _) (UInt8.toNat_lt _) (UInt8.toNat_lt _)]
  simp only [UInt8.toNat_ofNat', Nat.shiftRight_eq_div_pow]; omega

end Verif
