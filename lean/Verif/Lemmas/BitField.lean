import Verif.Lemmas.BE

/-!
Reading fixed-width fields one after the other: the bits still to be read are `(bitsOf buf).drop pos`.
-/

namespace Verif.Bits
open Verif.Spec

theorem drop_length {buf : Bytes} {pos : Nat} : ((bitsOf buf).drop pos).length = 8 * buf.length - pos := by simp

/-- Reading `n` bits takes them off the front of what is left. -/
theorem read_sound {buf : Bytes} {pos n : Nat} (h1 : 1 ≤ n) (hn : n ≤ 64) (hsp : pos + n ≤ 8 * buf.length) :
    ∃ v, readBitsUnsafe buf pos n = .ok (v, pos + n) ∧ v < 2 ^ n ∧
      (bitsOf buf).drop pos = bitsOfNat n v ++ (bitsOf buf).drop (pos + n) := by
  refine ⟨_, readBitsUnsafe_spec buf pos n hn (by omega) hsp, ?_, ?_⟩
  · have := natOfBits_lt (((bitsOf buf).drop pos).take n)
    rwa [List.length_take, drop_length, Nat.min_eq_left (by omega)] at this
  · have hlen : (((bitsOf buf).drop pos).take n).length = n := by
      rw [List.length_take, drop_length, Nat.min_eq_left (by omega)]
    have := bitsOfNat_natOfBits (((bitsOf buf).drop pos).take n)
    rw [hlen] at this
    rw [this, ← List.drop_drop, List.take_append_drop]

/-- Reading a field whose bits are known. -/
theorem read_field {buf : Bytes} {pos n v : Nat} {rest : List Bool} (h1 : 1 ≤ n) (hn : n ≤ 64) (hv : v < 2 ^ n)
    (h : (bitsOf buf).drop pos = bitsOfNat n v ++ rest) :
    readBitsUnsafe buf pos n = .ok (v, pos + n) ∧ (bitsOf buf).drop (pos + n) = rest ∧
      pos + n ≤ 8 * buf.length := by
  have hl := congrArg List.length h
  rw [drop_length, List.length_append, length_bitsOfNat] at hl
  have hsp : pos + n ≤ 8 * buf.length := by omega
  obtain ⟨w, hw, hwl, hd⟩ := read_sound h1 hn hsp
  rw [h] at hd
  obtain ⟨rfl, hr⟩ := bitsOfNat_append_inj hv hwl hd
  exact ⟨hw, hr.symm, hsp⟩

theorem flag_sound {buf : Bytes} {pos : Nat} (hsp : pos < 8 * buf.length) :
    ∃ b, readFlagUnsafe buf pos = .ok (b, pos + 1) ∧
      (bitsOf buf).drop pos = b :: (bitsOf buf).drop (pos + 1) := by
  refine ⟨_, readFlagUnsafe_spec hsp, ?_⟩
  rw [List.drop_eq_getElem_cons (by simp; omega)]

theorem flag_field {buf : Bytes} {pos : Nat} {b : Bool} {rest : List Bool}
    (h : (bitsOf buf).drop pos = b :: rest) :
    readFlagUnsafe buf pos = .ok (b, pos + 1) ∧ (bitsOf buf).drop (pos + 1) = rest ∧ pos + 1 ≤ 8 * buf.length := by
  have hl := congrArg List.length h
  rw [drop_length, List.length_cons] at hl
  obtain ⟨c, hc, hd⟩ := flag_sound (buf := buf) (pos := pos) (by omega)
  rw [h, List.cons.injEq] at hd
  obtain ⟨rfl, hd⟩ := hd
  exact ⟨hc, hd.symm, by omega⟩

/-- The checked versions. -/
theorem readBits_sound {buf : Bytes} {pos n : Nat} (h1 : 1 ≤ n) (hn : n ≤ 64) :
    (8 * buf.length < pos + n ∧ readBits buf pos n = .err "not enough bits") ∨
    ∃ v, readBits buf pos n = .ok (v, pos + n) ∧ v < 2 ^ n ∧ pos + n ≤ 8 * buf.length ∧
      (bitsOf buf).drop pos = bitsOfNat n v ++ (bitsOf buf).drop (pos + n) := by
  by_cases hsp : pos + n ≤ 8 * buf.length
  · right
    obtain ⟨v, hv, hl, hd⟩ := read_sound h1 hn hsp
    exact ⟨v, by rw [readBits, hasSpace_ok hsp, Res.bind_ok, hv], hl, hsp, hd⟩
  · exact .inl ⟨by omega, readBits_err (by omega)⟩

theorem readBits_field {buf : Bytes} {pos n v : Nat} {rest : List Bool} (h1 : 1 ≤ n) (hn : n ≤ 64)
    (hv : v < 2 ^ n) (h : (bitsOf buf).drop pos = bitsOfNat n v ++ rest) :
    readBits buf pos n = .ok (v, pos + n) ∧ (bitsOf buf).drop (pos + n) = rest := by
  obtain ⟨hr, hd, hs⟩ := read_field h1 hn hv h
  exact ⟨by rw [readBits, hasSpace_ok hs, Res.bind_ok, hr], hd⟩

theorem readFlag_sound {buf : Bytes} {pos : Nat} :
    (8 * buf.length ≤ pos ∧ readFlag buf pos = .err "not enough bits") ∨
    ∃ b, readFlag buf pos = .ok (b, pos + 1) ∧ pos + 1 ≤ 8 * buf.length ∧
      (bitsOf buf).drop pos = b :: (bitsOf buf).drop (pos + 1) := by
  by_cases hsp : pos < 8 * buf.length
  · right
    obtain ⟨v, hv, hd⟩ := flag_sound hsp
    exact ⟨v, by rw [readFlag, hasSpace_ok (by omega), Res.bind_ok, hv], by omega, hd⟩
  · exact .inl ⟨by omega, readFlag_err (by omega)⟩

theorem readFlag_field {buf : Bytes} {pos : Nat} {b : Bool} {rest : List Bool}
    (h : (bitsOf buf).drop pos = b :: rest) :
    readFlag buf pos = .ok (b, pos + 1) ∧ (bitsOf buf).drop (pos + 1) = rest := by
  obtain ⟨hr, hd, hs⟩ := flag_field h
  exact ⟨by rw [readFlag, hasSpace_ok hs, Res.bind_ok, hr], hd⟩

end Verif.Bits
