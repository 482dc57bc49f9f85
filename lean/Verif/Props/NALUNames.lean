import Verif.Model.NALUType
import Verif.Spec.NALUNames

/-!
# C100: names of NAL unit types

`NALUType.String` is called when errors and logs are written. All 256 values of the type are looked at.
-/

namespace Verif.Props
open NALUType Spec.NALUNames

/-- What the text of a type says: its place in the table of labels, or the number in it. -/
def naming_back (labels : List (Nat × List Char)) (s : List Char) : Option Nat :=
  match labels.find? (fun p => p.2 == s) with
  | some p => some p.1
  | none => if s.take 9 = "unknown (".toList then some (number s) else none

theorem naming_back264 : ∀ n, n < 256 → naming_back labels264 (string264 n) = some n := by decide +kernel

theorem naming_back265 : ∀ n, n < 256 → naming_back labels265 (string265 n) = some n := by decide +kernel

/-- **C100**: no two types of H264 have the same text. -/
theorem C100_h264_distinct (n m : Nat) (hn : n < 256) (hm : m < 256) (h : string264 n = string264 m) : n = m := by
  have a := naming_back264 n hn
  rw [h, naming_back264 m hm] at a
  exact (Option.some.inj a).symm

/-- **C100**: no two types of H265 have the same text. -/
theorem C100_h265_distinct (n m : Nat) (hn : n < 256) (hm : m < 256) (h : string265 n = string265 m) : n = m := by
  have a := naming_back265 n hn
  rw [h, naming_back265 m hm] at a
  exact (Option.some.inj a).symm

example : string264 5 = "IDR".toList ∧ string264 200 = "unknown (200)".toList ∧ string265 19 = "IDR_W_RADL".toList := by decide +kernel

/-- The digits of a number below 256. -/
theorem naming_decimal : ∀ n, n < 256 → (∀ c ∈ decimal n, c.isDigit) ∧ number (decimal n) = n := by decide +kernel

theorem naming_unknown (labels : List (Nat × List Char)) (n : Nat) (hn : n < 256) (h : labels.lookup n = none) : IsUnknown (toStr labels n) n :=
  ⟨decimal n, by simp [toStr, h], (naming_decimal n hn).1, (naming_decimal n hn).2⟩

theorem naming_lookup264 : ∀ n, n < 256 → (labels264.lookup n = none ↔ (names264[n]?.join) = none) := by decide +kernel

theorem naming_names264 : ∀ n, n < 30 → ∀ s ∈ names264[n]?.join, string264 n = s.toList := by decide +kernel

/-- **C100**, H264: a type with a name is called by it, all the others by their number. -/
theorem C100_h264 (n : Nat) (hn : n < 256) :
    (∀ s, names264[n]?.join = some s → string264 n = s.toList) ∧ (names264[n]?.join = none → IsUnknown (string264 n) n) := by
  refine ⟨fun s h => ?_, fun h => naming_unknown _ n hn ((naming_lookup264 n hn).2 h)⟩
  by_cases hk : n < 30
  · exact naming_names264 n hk s h
  · rw [List.getElem?_eq_none (Nat.not_lt.mp hk)] at h
    cases h

example : names264[7]?.join = some "SPS" ∧ names264[0]?.join = none ∧ names264[30]?.join = none := by decide +kernel

/-- Types that H.265 names and the library does not: reserved ones. -/
def Unlisted (n : Nat) : Prop := 24 ≤ n ∧ n ≤ 31

instance (n : Nat) : Decidable (Unlisted n) := inferInstanceAs (Decidable (_ ∧ _))

theorem naming_names265 : ∀ n, n < 41 → ((n = 5 ∨ n = 39 ∨ n = 40 ∨ Unlisted n) ∨ ∀ s ∈ names265[n]?, string265 n = s.toList) := by
  decide +kernel

theorem naming_lookup265 : ∀ n, n < 256 → (labels265.lookup n = none ↔ Unlisted n ∨ (40 < n ∧ n < 48) ∨ 50 < n) := by decide +kernel

/-- **C100**, H265. Full statement: all types from 0 to 40 are called as in table 7-1. It is missing 5, 39, 40 and the reserved types from
24 to 31, see `C100_false`. -/
theorem C100_h265_partial (n : Nat) (hn : n < 41) (h5 : n ≠ 5) (h39 : n ≠ 39) (h40 : n ≠ 40) (hu : ¬Unlisted n) (s : String)
    (hs : names265[n]? = some s) : string265 n = s.toList :=
  (naming_names265 n hn).elim (fun h => absurd h (by simp [h5, h39, h40, hu])) fun h => h s hs

/-- **C100**, H265: a type without label is called by its number: reserved types, from 41 to 47, and above the packet types of RFC 7798. -/
theorem C100_h265_unknown (n : Nat) (hn : n < 256) (h : Unlisted n ∨ (40 < n ∧ n < 48) ∨ 50 < n) : IsUnknown (string265 n) n :=
  naming_unknown _ n hn ((naming_lookup265 n hn).2 h)

example : names265[33]? = some "SPS_NUT" ∧ ¬Unlisted 33 := by decide +kernel

/-- **C100** is false for H265: three labels differ from table 7-1. `STSA_R` has a colon at its end, the messages have another spelling. -/
theorem C100_false :
    names265[5]? = some "STSA_R" ∧ string265 5 = "STSA_R:".toList ∧ string265 5 ≠ "STSA_R".toList ∧
      names265[39]? = some "PREFIX_SEI_NUT" ∧ string265 39 = "PrefixSEINUT".toList ∧
      names265[40]? = some "SUFFIX_SEI_NUT" ∧ string265 40 = "SuffixSEINUT".toList := by decide +kernel

/-- **C100** is false for H265: reserved types have names that are not used. -/
theorem C100_reserved_false : names265[24]? = some "RSV_VCL24" ∧ string265 24 = "unknown (24)".toList := by decide +kernel

end Verif.Props
