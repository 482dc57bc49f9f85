import Verif.Model.MP4Boxes
import Verif.Props.FMP4RoundTrip

/-!
# Lemmas: fields of boxes
-/

namespace Verif.MP4Box
open Spec (beBytes)
open FMP4 (takeBE)
open ByteR (beBytes_length)

/-- Widths of a list of fields. -/
abbrev widths (fs : List (Nat × Nat)) : List Nat := fs.map (·.1)

theorem packNat_acc (fs : List (Nat × Nat)) (acc : Nat) : packNat fs acc = acc * 2 ^ (widths fs).sum + packNat fs 0 := by
  induction fs generalizing acc with
  | nil => simp [packNat, widths]
  | cons f l ih =>
    obtain ⟨w, v⟩ := f
    show packNat l (acc * 2 ^ w + v % 2 ^ w) = acc * 2 ^ (w + (widths l).sum) + packNat l (0 * 2 ^ w + v % 2 ^ w)
    rw [ih (acc * 2 ^ w + v % 2 ^ w), ih (0 * 2 ^ w + v % 2 ^ w), Nat.pow_add]
    generalize 2 ^ w = A
    generalize 2 ^ (widths l).sum = B
    generalize packNat l 0 = C
    generalize v % A = D
    rw [Nat.zero_mul, Nat.zero_add, Nat.add_mul, Nat.mul_assoc]
    omega

theorem packNat_lt (fs : List (Nat × Nat)) : packNat fs 0 < 2 ^ (widths fs).sum := by
  induction fs with
  | nil => simp [packNat, widths]
  | cons f l ih =>
    obtain ⟨w, v⟩ := f
    show packNat l (0 * 2 ^ w + v % 2 ^ w) < 2 ^ (w + (widths l).sum)
    rw [packNat_acc, Nat.pow_add]
    have hv : v % 2 ^ w < 2 ^ w := Nat.mod_lt _ (Nat.two_pow_pos w)
    revert hv ih
    generalize 2 ^ w = A
    generalize 2 ^ (widths l).sum = B
    generalize packNat l 0 = C
    generalize v % A = D
    intro ih hv
    have : (D + 1) * B ≤ A * B := Nat.mul_le_mul_right B hv
    rw [Nat.add_mul] at this
    rw [Nat.zero_mul, Nat.zero_add]
    omega

theorem unpackNat_packNat (fs : List (Nat × Nat)) (acc : Nat) : unpackNat (widths fs) (packNat fs acc) = fs.map fun f => f.2 % 2 ^ f.1 := by
  induction fs generalizing acc with
  | nil => rfl
  | cons f l ih =>
    obtain ⟨w, v⟩ := f
    show packNat l (acc * 2 ^ w + v % 2 ^ w) / 2 ^ (widths l).sum % 2 ^ w :: unpackNat (widths l) (packNat l (acc * 2 ^ w + v % 2 ^ w)) =
      v % 2 ^ w :: _
    rw [ih]
    congr 1
    rw [packNat_acc, Nat.add_comm, Nat.add_mul_div_right _ _ (Nat.two_pow_pos _), Nat.div_eq_of_lt (packNat_lt l), Nat.zero_add,
      Nat.add_comm, Nat.add_mul_mod_self_right, Nat.mod_mod]

theorem pack_length (fs : List (Nat × Nat)) : (pack fs).length = (widths fs).sum / 8 := beBytes_length _ _

/-- Fields of whole bytes are read as they were written. -/
theorem unpack_pack (fs : List (Nat × Nat)) (rest : Bytes) (h8 : (widths fs).sum % 8 = 0) :
    unpack (widths fs) (pack fs ++ rest) = .ok (fs.map (fun f => f.2 % 2 ^ f.1), rest) := by
  unfold unpack pack
  rw [Props.fmp4_takeBE _ _ _ (by
    have h := packNat_lt fs
    rw [show (256 : Nat) = 2 ^ 8 from rfl, ← Nat.pow_mul, Nat.mul_div_cancel' (Nat.dvd_of_mod_eq_zero h8)]
    exact h), Res.bind_ok]
  dsimp only
  rw [unpackNat_packNat]

theorem packNat_append (a b : List (Nat × Nat)) (acc : Nat) : packNat (a ++ b) acc = packNat b (packNat a acc) := by
  induction a generalizing acc with
  | nil => rfl
  | cons f l ih => exact ih _

/-- Several fields are one wide field. -/
theorem pack_group (a g b : List (Nat × Nat)) : pack (a ++ (g ++ b)) = pack (a ++ (((widths g).sum, packNat g 0) :: b)) := by
  unfold pack
  rw [packNat_append, packNat_append, packNat_append, packNat_acc g]
  show _ = beBytes _ (packNat b (packNat a 0 * 2 ^ (widths g).sum + packNat g 0 % 2 ^ (widths g).sum))
  rw [Nat.mod_eq_of_lt (packNat_lt g)]
  congr 2
  simp only [widths, List.map_append, List.map_cons, List.sum_append, List.sum_cons]

/-- Bytes of a known length, in fields that nobody looks at. -/
theorem unpack_skip (k : Nat) (b rest : Bytes) (h : b.length = k) : ∃ n, unpack [8 * k] (b ++ rest) = .ok ([n], rest) := by
  unfold unpack FMP4.takeBE
  rw [if_neg (by simp [h]), Res.bind_ok]
  refine ⟨(List.foldl (fun a x => a * 256 + x.toNat) 0 (List.take ([8 * k].sum / 8) (b ++ rest))) / 2 ^ 0 % 2 ^ (8 * k), ?_⟩
  simp only [unpackNat, List.sum_cons, List.sum_nil, Nat.add_zero, Nat.mul_div_cancel_left k (by decide : 0 < 8), List.drop_left' h]

theorem takeBytes_append (a rest : Bytes) : takeBytes a.length (a ++ rest) = .ok (a, rest) := by
  unfold takeBytes
  rw [if_neg (by simp)]
  simp

theorem beBytes_add (k m v : Nat) : beBytes (k + m) v = beBytes k (v / 256 ^ m) ++ beBytes m v := by
  induction k with
  | zero => rw [Nat.zero_add]; rfl
  | succ k ih =>
    rw [Nat.succ_add]
    show UInt8.ofNat (v / 256 ^ (k + m)) :: beBytes (k + m) v = UInt8.ofNat (v / 256 ^ m / 256 ^ k) :: (beBytes k (v / 256 ^ m) ++ _)
    rw [ih, Nat.div_div_eq_div_mul, ← Nat.pow_add, Nat.add_comm m k]

theorem beBytes_high (m x y : Nat) : beBytes m (x * 256 ^ m + y) = beBytes m y := by
  induction m generalizing x with
  | zero => rfl
  | succ m ih =>
    show UInt8.ofNat ((x * 256 ^ (m + 1) + y) / 256 ^ m) :: beBytes m (x * 256 ^ (m + 1) + y) = UInt8.ofNat (y / 256 ^ m) :: _
    rw [Nat.pow_succ, Nat.mul_comm (256 ^ m) 256, ← Nat.mul_assoc, ih, Nat.add_comm, Nat.add_mul_div_right _ _ (Nat.pow_pos (by decide))]
    congr 1
    apply UInt8.toNat_inj.1
    simp only [UInt8.toNat_ofNat']
    omega

/-- Whole bytes are written one after the other. -/
theorem pack_append (a b : List (Nat × Nat)) (ha : (widths a).sum % 8 = 0) (hb : (widths b).sum % 8 = 0) :
    pack (a ++ b) = pack a ++ pack b := by
  unfold pack
  rw [packNat_append, packNat_acc b, List.map_append, List.sum_append,
    show (List.map (·.1) a).sum + (List.map (·.1) b).sum = (widths a).sum + (widths b).sum from rfl,
    show ((widths a).sum + (widths b).sum) / 8 = (widths a).sum / 8 + (widths b).sum / 8 by omega, beBytes_add]
  have hp : 2 ^ (widths b).sum = 256 ^ ((widths b).sum / 8) := by
    rw [show (256 : Nat) = 2 ^ 8 from rfl, ← Nat.pow_mul, Nat.mul_div_cancel' (Nat.dvd_of_mod_eq_zero hb)]
  have hlt := packNat_lt b
  rw [hp] at hlt ⊢
  rw [beBytes_high, Nat.add_comm, Nat.add_mul_div_right _ _ (Nat.pow_pos (by decide)), Nat.div_eq_of_lt hlt, Nat.zero_add]

end Verif.MP4Box
