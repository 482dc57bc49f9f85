import Verif.Lemmas.BitWrite
import Verif.Lemmas.Golomb

/-!
# Properties C01–C04: pkg/bits

Specification: a buffer is the list of its bits (`Verif.Spec.bitsOf`), most significant bit of the
first byte first.
-/

namespace Verif.Props
open Verif.Bits Verif.Spec

/-! ## C01 -/

/-- C01: the reader returns the number written by the next `n` bits and advances by `n`, or reports
an error exactly when fewer than `n` bits are left. In particular it never panics. -/
theorem C01_readBits (buf : Bytes) (pos n : Nat) (h1 : 1 ≤ n) (h64 : n ≤ 64) :
    readBits buf pos n =
      if pos + n ≤ (bitsOf buf).length then
        .ok (natOfBits (((bitsOf buf).drop pos).take n), pos + n)
      else .err "not enough bits" := by
  split <;> rename_i h
  · exact readBits_ok h1 h64 (by simpa using h)
  · exact readBits_err (by simp at h; omega)

/-- C01: the single-bit reader is the case `n = 1`. -/
theorem C01_readFlag (buf : Bytes) (pos : Nat) :
    readFlag buf pos =
      match (bitsOf buf)[pos]? with
      | some b => .ok (b, pos + 1)
      | none => .err "not enough bits" := by
  by_cases h : pos < 8 * buf.length
  · rw [readFlag_ok h, List.getElem?_eq_getElem (by simpa using h)]
  · rw [readFlag_err (by omega), List.getElem?_eq_none (by simp; omega)]

/-- C01: reading `a` bits and then `b` bits is the same as reading `a + b` bits. -/
theorem C01_readBits_split (buf : Bytes) (pos a b : Nat) (ha : 1 ≤ a) (hb : 1 ≤ b) (hab : a + b ≤ 64) :
    readBits buf pos (a + b) =
      (do let (x, p) ← readBits buf pos a
          let (y, p) ← readBits buf p b
          .ok (x * 2 ^ b + y, p)) := by
  by_cases h : pos + (a + b) ≤ 8 * buf.length
  · rw [readBits_ok (by omega) hab h, readBits_ok ha (by omega) (by omega), Res.bind_ok]
    simp only
    rw [readBits_ok hb (by omega) (by omega), Res.bind_ok]
    simp only
    rw [natOfBits_split _ _ _ (by simp; omega), List.drop_drop, Nat.add_assoc]
  · rw [readBits_err (by omega)]
    by_cases h2 : pos + a ≤ 8 * buf.length
    · rw [readBits_ok ha (by omega) h2, Res.bind_ok]
      simp only
      rw [readBits_err (by omega), Res.bind_err]
    · rw [readBits_err (by omega), Res.bind_err]

/-- The unsafe reader, after the space check that its callers perform, never panics and agrees with
the bit list. -/
theorem C01_readBitsUnsafe (buf : Bytes) (pos n : Nat) (h1 : 1 ≤ n) (h64 : n ≤ 64)
    (hs : hasSpace buf pos n = .ok ()) :
    readBitsUnsafe buf pos n = .ok (natOfBits (((bitsOf buf).drop pos).take n), pos + n) := by
  have := hasSpace_eq_ok.mp hs
  exact readBitsUnsafe_spec _ _ _ h64 (by omega) this

/-- The bound `1 ≤ n` in C01 is needed: `ReadBits` with `n = 0` at the end of the buffer passes the
space check and then indexes past the end. -/
theorem C01_zero_width_panics : readBits [0xA8] 8 0 = .panic := by decide +kernel

example : readBits [0xA8, 0xC7, 0xD6] 3 13 = .ok (0x8C7 % 2^13, 16) := by decide +kernel
example : readBits [0xA8, 0xC7] 10 7 = .err "not enough bits" := by decide +kernel

/-! ## C02 -/

/-- C02: one write. The buffer is `pre` (the bits already written) followed by zero bits; after
writing `v < 2^n` it is `pre`, the `n`-bit form of `v`, and zero bits; its length does not change. -/
theorem C02_writeBits (buf : Bytes) (pre : List Bool) (room v n : Nat)
    (hbuf : bitsOf buf = pre ++ List.replicate room false) (h1 : 1 ≤ n) (hroom : n ≤ room) (hv : v < 2 ^ n) :
    ∃ buf', writeBitsUnsafe buf pre.length v n = .ok (buf', pre.length + n) ∧
      buf'.length = buf.length ∧
      bitsOf buf' = pre ++ bitsOfNat n v ++ List.replicate (room - n) false :=
  writeBitsUnsafe_spec buf _ v n room pre hbuf rfl (by omega) hroom hv

/-- C02: flags. -/
theorem C02_writeFlag (buf : Bytes) (pre : List Bool) (room : Nat) (v : Bool)
    (hbuf : bitsOf buf = pre ++ List.replicate room false) (hroom : 1 ≤ room) :
    ∃ buf', writeFlagUnsafe buf pre.length v = .ok (buf', pre.length + 1) ∧
      buf'.length = buf.length ∧
      bitsOf buf' = pre ++ v :: List.replicate (room - 1) false := by
  cases v
  · obtain ⟨b, h1, h2, h3⟩ := C02_writeBits buf pre room 0 1 hbuf (by omega) hroom (by omega)
    exact ⟨b, h1, h2, by simpa [bitsOfNat] using h3⟩
  · obtain ⟨b, h1, h2, h3⟩ := C02_writeBits buf pre room 1 1 hbuf (by omega) hroom (by omega)
    exact ⟨b, h1, h2, by simpa [bitsOfNat] using h3⟩

/-- A program of writes `(value, width)`. -/
def writeAll (buf : Bytes) (pos : Nat) : List (Nat × Nat) → Res (Bytes × Nat)
  | [] => .ok (buf, pos)
  | (v, n) :: l => do
    let (buf, pos) ← writeBitsUnsafe buf pos v n
    writeAll buf pos l

/-- A program of reads of the given widths. -/
def readAll (buf : Bytes) (pos : Nat) : List Nat → Res (List Nat × Nat)
  | [] => .ok ([], pos)
  | n :: l => do
    let (v, pos) ← readBits buf pos n
    let (vs, pos) ← readAll buf pos l
    .ok (v :: vs, pos)

theorem writeAll_spec (l : List (Nat × Nat)) (hl : ∀ x ∈ l, 1 ≤ x.2 ∧ x.2 ≤ 64 ∧ x.1 < 2 ^ x.2)
    (buf : Bytes) (pre : List Bool) (room : Nat)
    (hbuf : bitsOf buf = pre ++ List.replicate room false) (hroom : (l.map Prod.snd).sum ≤ room) :
    ∃ buf', writeAll buf pre.length l = .ok (buf', pre.length + (l.map Prod.snd).sum) ∧
      buf'.length = buf.length ∧
      bitsOf buf' = pre ++ l.flatMap (fun x => bitsOfNat x.2 x.1)
        ++ List.replicate (room - (l.map Prod.snd).sum) false := by
  induction l generalizing buf pre room with
  | nil => exact ⟨buf, rfl, rfl, by simpa using hbuf⟩
  | cons x l ih =>
    obtain ⟨v, n⟩ := x
    obtain ⟨hx1, hx2, hx3⟩ := hl (v, n) (by simp)
    simp only [List.map_cons, List.sum_cons] at hroom ⊢
    obtain ⟨b1, h1, h2, h3⟩ := C02_writeBits buf pre room v n hbuf hx1 (by omega) hx3
    obtain ⟨b2, g1, g2, g3⟩ := ih (fun y hy => hl y (List.mem_cons_of_mem _ hy)) b1 (pre ++ bitsOfNat n v)
      (room - n) h3 (by omega)
    refine ⟨b2, ?_, by omega, ?_⟩
    · rw [writeAll, h1, Res.bind_ok]
      simp only [List.length_append, length_bitsOfNat] at g1
      simp only [g1, Nat.add_assoc]
    · rw [g3]
      simp only [List.flatMap_cons, List.append_assoc]
      congr 4; omega

theorem readAll_spec (l : List (Nat × Nat)) (hl : ∀ x ∈ l, 1 ≤ x.2 ∧ x.2 ≤ 64 ∧ x.1 < 2 ^ x.2)
    (buf : Bytes) (pre suf : List Bool)
    (hbuf : bitsOf buf = pre ++ l.flatMap (fun x => bitsOfNat x.2 x.1) ++ suf) :
    readAll buf pre.length (l.map Prod.snd) = .ok (l.map Prod.fst, pre.length + (l.map Prod.snd).sum) := by
  induction l generalizing pre with
  | nil => rfl
  | cons x l ih =>
    obtain ⟨v, n⟩ := x
    obtain ⟨hx1, hx2, hx3⟩ := hl (v, n) (by simp)
    have hlen := congrArg List.length hbuf
    simp only [length_bitsOf, List.length_append, List.flatMap_cons, length_bitsOfNat] at hlen
    simp only [List.map_cons, List.sum_cons]
    rw [readAll, readBits_ok hx1 hx2 (by omega), Res.bind_ok]
    have h := ih (fun y hy => hl y (List.mem_cons_of_mem _ hy)) (pre ++ bitsOfNat n v)
      (by rw [hbuf]; simp only [List.flatMap_cons, List.append_assoc])
    simp only [List.length_append, length_bitsOfNat] at h
    simp only [h, Res.bind_ok]
    rw [hbuf, List.append_assoc, List.drop_left, List.flatMap_cons, List.append_assoc,
      List.take_append_of_le_length (by simp), List.take_of_length_le (by simp), natOfBits_bitsOfNat,
      Nat.mod_eq_of_lt hx3, Nat.add_assoc]

/-- C02: any program of writes into a zeroed buffer with room succeeds, and the matching program of
reads returns the values that were written. -/
theorem C02_write_read (l : List (Nat × Nat)) (hl : ∀ x ∈ l, 1 ≤ x.2 ∧ x.2 ≤ 64 ∧ x.1 < 2 ^ x.2)
    (size : Nat) (hroom : (l.map Prod.snd).sum ≤ 8 * size) :
    ∃ buf', writeAll (List.replicate size 0) 0 l = .ok (buf', (l.map Prod.snd).sum) ∧
      buf'.length = size ∧
      readAll buf' 0 (l.map Prod.snd) = .ok (l.map Prod.fst, (l.map Prod.snd).sum) := by
  obtain ⟨b, h1, h2, h3⟩ := writeAll_spec l hl (List.replicate size 0) [] (8 * size)
    (by rw [bitsOf_replicate_zero]; rfl) hroom
  refine ⟨b, by simpa using h1, by simpa using h2, ?_⟩
  have := readAll_spec l hl b [] _ h3
  simpa using this

/-- The bound `v < 2^n` in C02 is needed: the first byte is OR-ed without masking, so an oversized
value spills into bits already written. -/
theorem C02_oversized_value_spills : writeBitsUnsafe [0x00] 4 0x1F 4 = .ok ([0x1F], 8) := by decide +kernel

example : writeAll [0, 0, 0] 0 [(5, 3), (0xABC, 12), (1, 1)] = .ok ([0xB5, 0x79, 0], 16) := by decide +kernel
example : ∀ x ∈ [(5, 3), (0xABC, 12), (1, 1)], 1 ≤ x.2 ∧ x.2 ≤ 64 ∧ x.1 < 2 ^ x.2 := by decide

/-! ## C03 -/

/-- C03: the decoder inverts the Exp-Golomb code for every `v ≤ 2^32 - 2`. -/
theorem C03_golomb_inverts (buf : Bytes) (pos v : Nat) (rest : List Bool) (hv : v ≤ 2 ^ 32 - 2)
    (h : (bitsOf buf).drop pos = golombBits v ++ rest) :
    readGolombUnsigned buf pos = .ok (v, pos + (golombBits v).length) := by
  have hlog : Nat.log2 (v + 1) < 32 := (Nat.log2_lt (by omega)).mpr (by omega)
  rw [readGolombUnsigned_spec buf pos v rest (by omega) h, Nat.mod_eq_of_lt (by omega)]

/-- C03: on any input, from any position in the buffer, the decoder either consumes exactly one code
word of a number `v` with at most 32 leading zeros, which lies entirely inside the buffer, and
returns `v` modulo `2^32`; or it reports an error. It never panics. -/
theorem C03_golomb_total (buf : Bytes) (pos : Nat) (hp : pos ≤ (bitsOf buf).length) :
    (∃ v, Nat.log2 (v + 1) ≤ 32 ∧ golombBits v <+: (bitsOf buf).drop pos ∧
      readGolombUnsigned buf pos = .ok (v % 2 ^ 32, pos + (golombBits v).length)) ∨
    (∃ e, readGolombUnsigned buf pos = .err e) := by
  rcases readGolombUnsigned_result buf pos (by simpa using hp) with ⟨v, h1, h2, h3, h4⟩ | h
  · exact .inl ⟨v, h1, by rw [← h4]; exact List.take_prefix _ _, h3⟩
  · exact .inr h

/-- C03: the error cases are exactly the inputs that do not begin with a code word of at most 32
leading zeros (truncated input, or too many zeros). -/
theorem C03_golomb_error_iff (buf : Bytes) (pos : Nat) (hp : pos ≤ (bitsOf buf).length) :
    (∃ e, readGolombUnsigned buf pos = .err e) ↔
      ∀ v, Nat.log2 (v + 1) ≤ 32 → ¬ golombBits v <+: (bitsOf buf).drop pos := by
  constructor
  · rintro ⟨e, he⟩ v hv ⟨rest, hr⟩
    rw [readGolombUnsigned_spec buf pos v rest hv hr.symm] at he
    cases he
  · intro h
    rcases C03_golomb_total buf pos hp with ⟨v, h1, h2, _⟩ | h'
    · exact absurd h2 (h v h1)
    · exact h'

/-- The decoder accepts 32 leading zeros, where the value no longer fits: the code word of `2^32`
decodes to 0. -/
theorem C03_golomb_wraps :
    readGolombUnsigned [0, 0, 0, 0, 0x80, 0, 0, 0, 0x80] 0 = .ok (0, 65) := by decide +kernel

/-- The hypothesis `pos ≤ 8 * len` of C03 is needed: beyond the end the code panics. -/
theorem C03_golomb_beyond_end_panics : readGolombUnsigned [0xFF] 9 = .panic := by decide +kernel

example : golombBits 4 = [false, false, true, false, true] := by decide +kernel
example : readGolombUnsigned [0b11100101] 3 = .ok (4, 8) := by decide +kernel
example : (bitsOf [0b11100101]).drop 3 = golombBits 4 ++ [] := by decide +kernel
example : readGolombUnsigned [0, 0, 0, 0, 0] 0 = .err "invalid value" := by decide +kernel

/-! ## C04 -/

/-- C04, partial: the signed decoder inverts the signed mapping for `-2^30 ≤ k < 2^30`.
Full statement: the same for every `k` with `|k| ≤ 2^30`. Missing: `k = 2^30`, where the code is
wrong (`C04_wrong_at_two_pow_30`). -/
theorem C04_signed_golomb_inverts_partial (buf : Bytes) (pos : Nat) (k : Int) (rest : List Bool)
    (hk1 : -2 ^ 30 ≤ k) (hk2 : k < 2 ^ 30)
    (h : (bitsOf buf).drop pos = golombBits (golombOfInt k) ++ rest) :
    readGolombSigned buf pos = .ok (k, pos + (golombBits (golombOfInt k)).length) := by
  have hle : golombOfInt k ≤ 2 ^ 31 := by unfold golombOfInt; split <;> omega
  rw [readGolombSigned, C03_golomb_inverts buf pos _ rest (by omega) h, Res.bind_ok]
  simp only
  by_cases hp : 0 < k
  · have e : golombOfInt k = (2 * k - 1).toNat := by simp [golombOfInt, hp]
    have e2 : toInt32 (golombOfInt k) = 2 * k - 1 := by
      unfold toInt32; rw [if_pos (by omega)]; omega
    rw [e2, if_pos (by omega)]
    have e4 : wrapInt32 (2 * k - 1 + 1) = 2 * k := by
      unfold wrapInt32
      omega
    rw [e4]
    have : (2 * k).tdiv 2 = k := by rw [Int.tdiv_eq_ediv_of_nonneg (by omega)]; omega
    rw [this]
  · have e : golombOfInt k = (-2 * k).toNat := by simp [golombOfInt, hp]
    by_cases hm : k = -2 ^ 30
    · subst hm; rfl
    · have e2 : toInt32 (golombOfInt k) = -2 * k := by
        unfold toInt32; rw [if_pos (by omega)]; omega
      rw [e2, if_neg (by omega)]
      have e4 : wrapInt32 (-(-2 * k)) = -(2 * (-k)) := by
        unfold wrapInt32
        omega
      rw [e4, Int.neg_tdiv]
      have : (2 * (-k)).tdiv 2 = -k := by rw [Int.tdiv_eq_ediv_of_nonneg (by omega)]; omega
      rw [this, Int.neg_neg]

/-- C04 is false at the upper end: the code word of `2^30` decodes to `-2^30`
(`vi + 1` overflows `int32`). -/
theorem C04_wrong_at_two_pow_30 :
    bitsOf [0, 0, 0, 1, 0, 0, 0, 0] = golombBits (golombOfInt (2 ^ 30)) ++ [false] ∧
      readGolombSigned [0, 0, 0, 1, 0, 0, 0, 0] 0 = .ok (-2 ^ 30, 63) := by
  decide +kernel

/-- C04: the signed decoder fails exactly when the unsigned one does, with the same error, and
consumes the same code word. -/
theorem C04_signed_fails_iff (buf : Bytes) (pos : Nat) :
    (∀ e, readGolombSigned buf pos = .err e ↔ readGolombUnsigned buf pos = .err e) ∧
    (∀ p, (∃ k, readGolombSigned buf pos = .ok (k, p)) ↔ ∃ v, readGolombUnsigned buf pos = .ok (v, p)) := by
  unfold readGolombSigned
  rcases h : readGolombUnsigned buf pos with ⟨v, q⟩ | e | _
  · simp only [Res.bind_ok]
    split <;> simp
  · simp
  · simp

example : (bitsOf [0b00111_000]) = golombBits (golombOfInt (-3)) ++ [false, false, false] := by decide +kernel
example : readGolombSigned [0b00111_000] 0 = .ok (-3, 5) := by decide +kernel

end Verif.Props
