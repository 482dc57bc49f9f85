import Verif.Lemmas.G711

/-!
# Properties C27, C28: G711
-/

namespace Verif.Props
open Verif.G711

theorem index_lt (s : UInt16) : (s >>> 2).toNat < 16384 := by
  have := s.toNat_lt
  rw [UInt16.toNat_shiftRight]
  simp only [Nat.shiftRight_eq_div_pow]
  simp
  omega

theorem unmarshal_length (tbl : UInt8 → UInt16) (enc : Bytes) : (unmarshal tbl enc).length = 2 * enc.length := by
  induction enc with
  | nil => rfl
  | cons b l ih => simp only [unmarshal, List.length_cons, ih]; omega

theorem marshalLoop_length (enc : Nat → UInt8) (c : Bytes) : (marshalLoop enc c).length = c.length / 2 := by
  induction c using marshalLoop.induct with
  | case1 h l rest ih => simp only [marshalLoop, List.length_cons, ih]; omega
  | case2 l hl =>
    match l, hl with
    | [], _ => rfl
    | [a], _ => simp [marshalLoop]
    | a :: b :: l, hl => exact absurd rfl (hl a b l)

/-- Encoding a decoded string, for a table pair that maps every code to `f` of itself. -/
theorem marshal_unmarshal (tbl : UInt8 → UInt16) (enc : Nat → UInt8) (f : UInt8 → UInt8)
    (h : ∀ b, enc ((((tbl b >>> 8).toUInt8.toUInt16 <<< 8 ||| (tbl b).toUInt8.toUInt16) + 32768) >>> 2).toNat = f b)
    (s : Bytes) : marshal enc (unmarshal tbl s) = .ok (s.map f) := by
  unfold marshal
  rw [unmarshal_length, if_neg (by omega)]
  congr 1
  induction s with
  | nil => rfl
  | cons b l ih => simp only [unmarshal, marshalLoop, ih, List.map_cons, h b]

/-- C27: decoding any A-law string and encoding it again returns it. -/
theorem C27_alaw_lossless (s : Bytes) : marshal alawEncode (unmarshal alawDecode s) = .ok s := by
  rw [marshal_unmarshal alawDecode alawEncode id, List.map_id]
  intro b
  unfold alawEncode
  rw [invertTable_eq _ _ _ (index_lt _)]
  revert b
  exact forall_u8 (by decide +kernel)

/-- C27, C28: sizes. Encoding fails exactly on odd sizes. -/
theorem C27_sizes (tbl : UInt8 → UInt16) (enc : Nat → UInt8) (s : Bytes) :
    (unmarshal tbl s).length = 2 * s.length ∧
    (s.length % 2 = 1 → marshal enc s = .err "wrong sample size") ∧
    (s.length % 2 = 0 → ∃ out, marshal enc s = .ok out ∧ 2 * out.length = s.length) := by
  refine ⟨unmarshal_length tbl s, ?_, ?_⟩
  · intro h; unfold marshal; rw [if_pos (by omega)]
  · intro h
    refine ⟨_, by unfold marshal; rw [if_neg (by omega)], ?_⟩
    rw [marshalLoop_length]; omega

/-- C28: decoding any mu-law string and encoding it again returns it, with every negative zero (0x7F)
replaced by positive zero (0xFF). -/
theorem C28_mulaw_lossless (s : Bytes) :
    marshal mulawEncode (unmarshal mulawDecode s) = .ok (s.map (fun b => if b = 0x7F then 0xFF else b)) := by
  apply marshal_unmarshal
  intro b
  unfold mulawEncode
  rw [invertTable_eq _ _ _ (index_lt _)]
  revert b
  exact forall_u8 (by decide +kernel)

/-- C28: both zeros decode to the same sample, so the exception is unavoidable. -/
theorem C28_two_zeros : mulawDecode 0x7F = mulawDecode 0xFF ∧ mulawDecode 0xFF = 0 := by decide +kernel

example : unmarshal alawDecode [1, 2, 3, 255, 254, 253]
    = [0xeb, 0x80, 0xe8, 0x80, 0xe9, 0x80, 0x03, 0x50, 0x03, 0x70, 0x03, 0x10] := by decide +kernel
example : unmarshal mulawDecode [1, 2, 3, 255, 254, 253]
    = [0x86, 0x84, 0x8a, 0x84, 0x8e, 0x84, 0x00, 0x00, 0x00, 0x08, 0x00, 0x10] := by decide +kernel
example : marshal (entry alawDecode 0xD5) [1, 2, 3, 4, 5, 6] = .ok [0xc5, 0xfd, 0xe1] := by decide +kernel

end Verif.Props
