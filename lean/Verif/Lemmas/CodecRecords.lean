import Verif.Spec.CodecRecords
import Verif.Lemmas.MP4Boxes
import Verif.Lemmas.BE
import Verif.Lemmas.Grammar
import Verif.Lemmas.BitWrite

/-!
# Lemmas: records of fields
-/

namespace Verif.Records
open Spec Spec.Records
open MP4Box (pack packNat widths packNat_acc packNat_lt)

/-- The bits of the fields. -/
abbrev flat (fs : Fields) : List Bool := fs.flatMap fun f => bitsOfNat f.1 f.2

theorem flat_cons (f : Nat × Nat) (l : Fields) : flat (f :: l) = bitsOfNat f.1 f.2 ++ flat l := by simp [flat]

theorem flat_append (a b : Fields) : flat (a ++ b) = flat a ++ flat b := by simp [flat]

theorem bitsOf_beBytes (k v : Nat) : bitsOf (beBytes k v) = bitsOfNat (8 * k) v := by
  induction k with
  | zero => rfl
  | succ k ih =>
    show bitsOf (UInt8.ofNat (v / 256 ^ k) :: beBytes k v) = _
    rw [bitsOf_cons, ih, show 8 * (k + 1) = 8 + 8 * k by omega, bitsOfNat_add, Bits.byteBits_ofNat, Nat.pow_mul]

theorem bits_packNat (fs : Fields) : bitsOfNat (widths fs).sum (packNat fs 0) = flat fs := by
  induction fs with
  | nil => rfl
  | cons f l ih =>
    obtain ⟨w, v⟩ := f
    show bitsOfNat (w + (widths l).sum) (packNat l (0 * 2 ^ w + v % 2 ^ w)) = _
    rw [packNat_acc, bitsOfNat_cut _ _ _ _ (packNat_lt l), ih, flat_cons, Nat.zero_mul, Nat.zero_add,
      bitsOfNat_mod _ _ _ (Nat.le_refl _)]

theorem bits_pack (fs : Fields) (h : (widths fs).sum % 8 = 0) : bitsOf (pack fs) = flat fs := by
  unfold pack
  rw [bitsOf_beBytes, Nat.mul_div_cancel' (Nat.dvd_of_mod_eq_zero h)]
  exact bits_packNat fs

theorem flat_bytes (b : Bytes) : flat (bytes b) = bitsOf b := by
  induction b with
  | nil => rfl
  | cons x l ih =>
    rw [bitsOf_cons, ← ih]
    exact flat_cons _ _

theorem bytes_range (b : Bytes) : ∀ f ∈ bytes b, f.2 < 2 ^ f.1 := by
  intro f hf
  obtain ⟨x, _, rfl⟩ := List.mem_map.1 hf
  exact x.toNat_lt

theorem flat_length (fs : Fields) : (flat fs).length = (widths fs).sum := by
  induction fs with
  | nil => rfl
  | cons f l ih => rw [flat_cons, List.length_append, length_bitsOfNat, ih]; rfl

/-- Fields of the same widths with the same bits are the same. -/
theorem flat_inj (a b : Fields) (x y : List Bool) (hw : widths a = widths b) (ha : ∀ f ∈ a, f.2 < 2 ^ f.1) (hb : ∀ f ∈ b, f.2 < 2 ^ f.1)
    (h : flat a ++ x = flat b ++ y) : a = b := by
  induction a generalizing b with
  | nil =>
    cases b with
    | nil => rfl
    | cons _ _ => simp [widths] at hw
  | cons f l ih =>
    cases b with
    | nil => simp [widths] at hw
    | cons g m =>
      obtain ⟨w, v⟩ := f
      obtain ⟨w', v'⟩ := g
      have hw' : w = w' ∧ widths l = widths m := by simpa [widths] using hw
      obtain ⟨rfl, hw'⟩ := hw'
      rw [flat_cons, flat_cons, List.append_assoc, List.append_assoc] at h
      obtain ⟨e, h⟩ := bitsOfNat_append_inj (ha (w, v) (.head _)) (hb (w, v') (.head _)) h
      rw [show v = v' from e, ih m hw' (fun f hf => ha f (.tail _ hf)) (fun f hf => hb f (.tail _ hf)) h]

theorem field_eq {b : Bytes} {pos n v : Nat} {pre post : List Bool} (h : bitsOf b = pre ++ (bitsOfNat n v ++ post)) (hv : v < 2 ^ n)
    (hp : pre.length = pos) : field b pos n = v := by
  unfold field
  rw [h, List.drop_left' hp, List.take_left' (by simp), natOfBits_bitsOfNat, Nat.mod_eq_of_lt hv]

theorem carries_pack {fs gs : Fields} (h8 : (widths fs).sum % 8 = 0) (hr : ∀ f ∈ gs, f.2 < 2 ^ f.1) (h : flat fs = flat gs) :
    Carries (pack fs) gs := ⟨hr, by rw [bits_pack fs h8, h]⟩

theorem carries_append {a b : Bytes} {fs gs : Fields} (ha : Carries a fs) (hb : Carries b gs) : Carries (a ++ b) (fs ++ gs) := by
  refine ⟨fun f hf => ?_, ?_⟩
  · rcases List.mem_append.1 hf with h | h
    · exact ha.1 f h
    · exact hb.1 f h
  · rw [bitsOf_append, ha.2, hb.2]
    exact (flat_append _ _).symm

theorem carries_bytes (b : Bytes) : Carries b (bytes b) := ⟨bytes_range b, (flat_bytes b).symm⟩

/-- Fields as they were packed. -/
theorem carries_self {fs : Fields} (h8 : (widths fs).sum % 8 = 0) (hr : ∀ f ∈ fs, f.2 < 2 ^ f.1) : Carries (pack fs) fs :=
  carries_pack h8 hr rfl

/-- A number in the last bits of a field. -/
theorem flat_split (n k v : Nat) (l : Fields) : flat ((n + k, v) :: l) = flat ((n, v / 2 ^ k) :: (k, v) :: l) := by
  simp only [flat_cons, bitsOfNat_add, List.append_assoc]

/-- Two fields side by side are one. -/
theorem flat_join (n k a b : Nat) (hb : b < 2 ^ k) (l : Fields) : flat ((n, a) :: (k, b) :: l) = flat ((n + k, a * 2 ^ k + b) :: l) := by
  simp only [flat_cons, bitsOfNat_cut _ _ _ _ hb, List.append_assoc]

theorem flat_flags (l : List Bool) : flat (l.map fun c => (1, if c then 1 else 0)) = l := by
  induction l with
  | nil => rfl
  | cons c l ih =>
    rw [List.map_cons, flat_cons, ih]
    cases c <;> rfl

/-- A list of flags is their bits. -/
theorem times_flag {n : Nat} {l bits : List Bool} (h : Gr.times Gr.flag n l bits) : bits = l := by
  induction n generalizing l bits with
  | zero => obtain ⟨rfl, rfl⟩ := h; rfl
  | succ n ih =>
    obtain ⟨a, b1, b2, rfl, ⟨m, c1, c2, hm, ⟨rfl, rfl⟩, rfl⟩, rfl⟩ := h
    rw [ih hm, List.append_nil]
    rfl

end Verif.Records
