import Verif.Lemmas.Grammar

/-!
# Positions of bit reads of any size

`ReadBits` with sizes that come from the stream: zero bits, or more than 64.
-/

namespace Verif.Bits
open Verif.Spec

theorem readBitsTail_pos (buf : Bytes) (pos v n : Nat) (hp : pos % 8 = 0) (h : pos + n ≤ 8 * buf.length) :
    ∃ w, readBitsTail buf pos v n = .ok (w, pos + n) := by
  induction n using Nat.strongRecOn generalizing pos v with
  | ind n ih =>
    unfold readBitsTail
    have hs : pos >>> 3 = pos / 8 := by rw [Nat.shiftRight_eq_div_pow]
    by_cases h8 : 8 ≤ n
    · rw [if_pos h8, hs, idx_of_lt (by omega), Res.bind_ok]
      obtain ⟨w, e⟩ := ih (n - 8) (by omega) (pos + 8) ((v <<< 8) % 2 ^ 64 ||| (buf[pos / 8]'(by omega)).toNat) (by omega)
        (by omega)
      rw [e]
      exact ⟨w, by rw [show pos + 8 + (n - 8) = pos + n by omega]⟩
    · rw [if_neg h8]
      by_cases h0 : 0 < n
      · rw [if_pos h0, hs, idx_of_lt (by omega), Res.bind_ok]
        exact ⟨_, rfl⟩
      · rw [if_neg h0]
        exact ⟨v, by rw [show n = 0 by omega]; rfl⟩

/-- `ReadBits` of any size that fits, unless it is of size zero at the end of the buffer. -/
theorem readBits_pos (buf : Bytes) (pos n : Nat) (h : pos + n ≤ 8 * buf.length) (h0 : pos < 8 * buf.length) :
    ∃ w, readBits buf pos n = .ok (w, pos + n) := by
  unfold readBits
  rw [hasSpace_ok h, Res.bind_ok]
  unfold readBitsUnsafe
  have hs : pos >>> 3 = pos / 8 := by rw [Nat.shiftRight_eq_div_pow]
  have ha : pos &&& 7 = pos % 8 := Nat.and_two_pow_sub_one_eq_mod pos 3
  rw [hs, ha, idx_of_lt (by omega)]
  by_cases hn : n < 8 - pos % 8
  · rw [if_pos hn, Res.bind_ok]; exact ⟨_, rfl⟩
  · rw [if_neg hn, Res.bind_ok]
    obtain ⟨w, e⟩ := readBitsTail_pos buf (pos + (8 - pos % 8))
      ((buf[pos / 8]'(by omega)).toNat &&& (1 <<< (8 - pos % 8) - 1)) (n - (8 - pos % 8)) (by omega) (by omega)
    rw [e]
    exact ⟨w, by rw [show pos + (8 - pos % 8) + (n - (8 - pos % 8)) = pos + n by omega]⟩

/-- `ReadBits` of any size: an error, or the position moves by it. It does not panic if the size is not zero, or the position
is not at the end of a byte. -/
theorem readBits_any (buf : Bytes) (pos n : Nat) (hp : pos ≤ 8 * buf.length) (h0 : 0 < n ∨ pos % 8 ≠ 0) :
    (∃ e, readBits buf pos n = .err e) ∨ ∃ w, readBits buf pos n = .ok (w, pos + n) ∧ pos + n ≤ 8 * buf.length := by
  by_cases h : pos + n ≤ 8 * buf.length
  · obtain ⟨w, e⟩ := readBits_pos buf pos n h (by omega)
    exact .inr ⟨w, e, h⟩
  · refine .inl ⟨"not enough bits", ?_⟩
    unfold readBits hasSpace
    rw [if_pos (by omega)]
    rfl

/-- `ReadGolombUnsigned`: an error, or the position moves by an odd number of bits. -/
theorem readGolomb_any (buf : Bytes) (pos : Nat) (hp : pos ≤ 8 * buf.length) :
    (∃ e, readGolombUnsigned buf pos = .err e) ∨
    ∃ w k, readGolombUnsigned buf pos = .ok (w, pos + (2 * k + 1)) ∧ pos + (2 * k + 1) ≤ 8 * buf.length := by
  obtain ⟨h1, h2⟩ := BitM.Exact.readUE'.tot buf pos (by omega)
  cases e : BitM.readUE buf pos with
  | panic => exact absurd e h1
  | err m => exact .inl ⟨m, e⟩
  | ok r =>
    obtain ⟨_, ⟨w, _, _, rfl⟩, hl, _, hle⟩ := h2 r.1 r.2 e
    refine .inr ⟨r.1, Nat.log2 (w + 1), ?_⟩
    have hg : (golombBits w).length = 2 * Nat.log2 (w + 1) + 1 := by
      simp [golombBits]; omega
    rw [hg] at hl
    rw [← hl]
    exact ⟨e, hle⟩

end Verif.Bits

namespace Verif.BitM
open Verif.Spec

variable {α β : Type}

/-- At the position, the code does not panic, and if it succeeds the value and the new position are in `Q`. -/
def At (buf : Bytes) (pos : Nat) (p : BitM α) (Q : α → Nat → Prop) : Prop :=
  match p buf pos with
  | .ok r => Q r.1 r.2
  | .err _ => True
  | .panic => False

namespace At

variable {buf : Bytes} {pos : Nat}

theorem noPanic {p : BitM α} {Q : α → Nat → Prop} (h : At buf pos p Q) : (p buf pos).NoPanic := by
  intro e; unfold At at h; rw [e] at h; exact h

theorem bind {p : BitM α} {f : α → BitM β} {Q : α → Nat → Prop} {R : β → Nat → Prop} (h : At buf pos p Q)
    (hf : ∀ a q, Q a q → At buf q (f a) R) : At buf pos (p >>= f) R := by
  unfold At at h ⊢
  rw [bind_run]
  revert h
  cases p buf pos with
  | ok r => exact fun h => hf _ _ h
  | err m => exact fun h => h
  | panic => exact fun h => h

theorem pure {a : α} {Q : α → Nat → Prop} (h : Q a pos) : At buf pos (Pure.pure a) Q := h

theorem fail {m : String} {Q : α → Nat → Prop} : At buf pos (BitM.fail m) Q := trivial

theorem post {p : BitM α} {Q R : α → Nat → Prop} (h : At buf pos p Q) (hi : ∀ a q, Q a q → R a q) : At buf pos p R := by
  unfold At at h ⊢
  revert h
  cases p buf pos with
  | ok r => exact fun h => hi _ _ h
  | err m => exact fun h => h
  | panic => exact fun h => h

theorem readUE (hp : pos ≤ 8 * buf.length) :
    At buf pos BitM.readUE fun _ q => q ≤ 8 * buf.length ∧ pos < q ∧ q % 2 = (pos + 1) % 2 := by
  unfold At BitM.readUE
  rcases Bits.readGolomb_any buf pos hp with ⟨m, e⟩ | ⟨w, k, e, hl⟩
  · rw [e]; trivial
  · rw [e]; exact ⟨hl, by dsimp only; omega, by dsimp only; omega⟩

theorem readBits {n : Nat} (hp : pos ≤ 8 * buf.length) (h0 : 0 < n ∨ pos % 8 ≠ 0) :
    At buf pos (BitM.readBits n) fun _ q => q = pos + n ∧ q ≤ 8 * buf.length := by
  unfold At BitM.readBits
  rcases Bits.readBits_any buf pos n hp h0 with ⟨m, e⟩ | ⟨w, e, hl⟩
  · rw [e]; trivial
  · rw [e]; exact ⟨rfl, hl⟩

theorem exact {n : Nat} {p : BitM α} {G : Gr α} (h : Exact n p G) (hp : pos + n ≤ 8 * buf.length) :
    At buf pos p fun a q => q ≤ 8 * buf.length ∧ ∃ b, G a b := by
  unfold At
  obtain ⟨h1, h2⟩ := h.tot buf pos hp
  cases e : p buf pos with
  | panic => exact absurd e h1
  | err m => trivial
  | ok r =>
    obtain ⟨b, g, _, _, hl⟩ := h2 r.1 r.2 e
    exact ⟨hl, b, g⟩

end At

end Verif.BitM
