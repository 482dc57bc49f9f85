import Verif.Lemmas.AV1

/-!
# Properties C15–C18: AV1 LEB128 and low-overhead bitstream
-/

namespace Verif.Props
open Verif.AV1 Verif.Spec

/-! ## C15, C16 -/

/-- C15: the encoder writes the shortest LEB128 form, of exactly `MarshalSize` bytes, at the given
place and nothing else. -/
theorem C15_leb128_marshal (v : Nat) (hv : v < 2 ^ 32) (done : Bytes) (room : Nat) (hroom : leb128Size v ≤ room) :
    1 ≤ leb128Size v ∧ leb128Size v ≤ 5 ∧ (lebBytes v).length = leb128Size v ∧
    leb128MarshalTo (done ++ List.replicate room 0) done.length v
      = .ok (done ++ lebBytes v ++ List.replicate (room - leb128Size v) 0, done.length + leb128Size v) := by
  rw [leb128Size_eq] at *
  obtain ⟨pre, last, f1, f2, _⟩ := lebBytes_form v 4 (by omega)
  refine ⟨lebBytes_length_pos v, by rw [f1]; simp; omega, rfl, leb128MarshalTo_spec done room v hroom⟩

/-- C15: decoding the encoded form followed by anything returns the value and the size. -/
theorem C15_leb128_roundtrip (v : Nat) (hv : v < 2 ^ 32) (suffix : Bytes) :
    ∃ enc, leb128MarshalTo (makeBytes (leb128Size v)) 0 v = .ok (enc, leb128Size v) ∧
      enc.length = leb128Size v ∧
      leb128Unmarshal (enc ++ suffix) = .ok (v, leb128Size v) := by
  obtain ⟨_, _, h3, h4⟩ := C15_leb128_marshal v hv [] (leb128Size v) (Nat.le_refl _)
  refine ⟨lebBytes v, by simpa [makeBytes] using h4, h3, ?_⟩
  obtain ⟨pre, last, f1, f2, f3, f4, f5⟩ := lebBytes_form v 4 (by omega)
  rw [← h3, f1, List.append_assoc, List.singleton_append, leb128Unmarshal_leb _ ⟨by omega, f3, .inl f4⟩, f5,
    Nat.mod_eq_of_lt hv]
  simp

/-- C15: no shorter byte string is a LEB128 field of the same value. -/
theorem C15_leb128_shortest (v : Nat) (pre : Bytes) (last : UInt8) (h : lebVal (pre ++ [last]) = v) :
    leb128Size v ≤ pre.length + 1 := by
  have hb : ∀ l : Bytes, lebVal l < 128 ^ l.length := by
    intro l
    induction l with
    | nil => simp [lebVal]
    | cons b l ih => rw [lebVal, List.length_cons, Nat.pow_succ]; omega
  have := hb (pre ++ [last])
  rw [h, List.length_append, List.length_singleton] at this
  obtain ⟨p, l, f1, f2, _⟩ := lebBytes_form v pre.length this
  rw [leb128Size_eq, f1, List.length_append, List.length_singleton]
  omega

example : leb128MarshalTo [0, 0, 0] 0 300 = .ok ([0xAC, 0x02, 0], 2) := by decide +kernel
example : leb128Unmarshal [0xAC, 0x02, 0x77] = .ok (300, 2) := by decide +kernel

/-- C16: on every input the decoder returns the value modulo `2^32` of the LEB128 field at its start
and that field's length, or fails exactly when fewer than eight bytes are present and all of them
have the continuation bit. It never panics. -/
theorem C16_leb128_total (buf : Bytes) :
    (∃ pre last rest, buf = pre ++ last :: rest ∧ IsLeb pre last ∧
      leb128Unmarshal buf = .ok (lebVal (pre ++ [last]) % 2 ^ 32, pre.length + 1)) ∨
    (buf.length ≤ 7 ∧ (∀ b ∈ buf, 128 ≤ b.toNat) ∧ leb128Unmarshal buf = .err "not enough bytes") :=
  leb128Unmarshal_cases buf

/-- C16: consumed byte count. -/
theorem C16_leb128_consumed (buf : Bytes) (v n : Nat) (h : leb128Unmarshal buf = .ok (v, n)) :
    1 ≤ n ∧ n ≤ 8 ∧ n ≤ buf.length ∧ v = lebVal (buf.take n) % 2 ^ 32 ∧
    (∀ b ∈ buf.take (n - 1), 128 ≤ b.toNat) := by
  rcases leb128Unmarshal_cases buf with ⟨pre, last, rest, h1, h2, h3⟩ | ⟨_, _, h3⟩
  · rw [h] at h3
    injection h3 with h3
    injection h3 with h3 h4
    subst h1 h3 h4
    obtain ⟨g1, g2, _⟩ := h2
    refine ⟨by omega, by omega, by simp, ?_, ?_⟩
    · congr 2
      rw [List.take_append, List.take_of_length_le (by omega)]
      simp
    · rw [Nat.add_sub_cancel, List.take_left]; exact g2
  · rw [h] at h3; cases h3

/-- Values above 32 bits are silently truncated by the decoder. -/
theorem C16_leb128_truncates : leb128Unmarshal [0x80, 0x80, 0x80, 0x80, 0x10] = .ok (0, 5) := by decide +kernel

example : leb128Unmarshal [0xFF, 0xFF, 0xFF] = .err "not enough bytes" := by decide +kernel
example : IsLeb [0xAC] 0x02 := ⟨by decide, by decide, by decide⟩

/-! ## C17, C18 -/

/-- C17: bitstream round-trip for OBUs with a valid header and no size flag. -/
theorem C17_bitstream_roundtrip (bs : List Bytes) (hne : bs ≠ [])
    (hv : ∀ obu ∈ bs, ∃ (b : UInt8) (payload : Bytes), obu = b :: payload ∧ b.toNat / 128 = 0 ∧
      b.toNat / 4 % 2 = 0 ∧ b.toNat / 2 % 2 = 0 ∧ payload.length < 2 ^ 32) :
    (bitstreamMarshal bs >>= bitstreamUnmarshal) = .ok bs := by
  rw [bitstreamMarshal_spec bs hv, Res.bind_ok]
  apply bitstreamLoop_complete _ hne _ (by omega)
  clear hne
  induction bs with
  | nil => exact .nil
  | cons o bs ih =>
    rw [List.flatMap_cons]
    exact .cons (writeRec_isRecord (hv o (by simp))) (ih (fun o ho => hv o (List.mem_cons_of_mem _ ho)))

/-- C18: exact set of accepted inputs, and the result: the input is a non-empty sequence of OBU
records, completely consumed. -/
theorem C18_bitstream_accepts_iff (buf : Bytes) (obus : List Bytes) :
    bitstreamUnmarshal buf = .ok obus ↔ obus ≠ [] ∧ IsObuStream buf obus := by
  constructor
  · intro h
    rcases bitstreamLoop_cases (buf.length + 1) buf (by omega) with ⟨o, h1, h2, h3⟩ | ⟨e, he⟩
    · rw [bitstreamUnmarshal, h3] at h
      injection h with h
      subst h
      exact ⟨h1, h2⟩
    · rw [bitstreamUnmarshal, he] at h; cases h
  · rintro ⟨h1, h2⟩
    exact bitstreamLoop_complete h2 h1 _ (by omega)

/-- C18: no panic (and the loop ends within `len(buf)` rounds, which is the model's fuel). -/
theorem C18_bitstream_no_panic (buf : Bytes) : bitstreamUnmarshal buf ≠ .panic := by
  rcases bitstreamLoop_cases (buf.length + 1) buf (by omega) with ⟨o, _, _, h3⟩ | ⟨e, he⟩
  · rw [bitstreamUnmarshal, h3]; simp
  · rw [bitstreamUnmarshal, he]; simp

/-- C18: every OBU is non-empty with its size flag cleared; total size below the input size. -/
theorem C18_bitstream_bounds (buf : Bytes) (obus : List Bytes) (h : bitstreamUnmarshal buf = .ok obus) :
    1 ≤ obus.length ∧ (obus.map List.length).sum + obus.length ≤ buf.length ∧
    ∀ obu ∈ obus, ∃ b payload, obu = b :: payload ∧ b.toNat / 2 % 2 = 0 ∧ b.toNat < 128 := by
  obtain ⟨hne, hs⟩ := (C18_bitstream_accepts_iff buf obus).mp h
  refine ⟨by cases obus with | nil => exact absurd rfl hne | cons => simp, ?_⟩
  clear h hne
  induction hs with
  | nil => simp
  | cons h1 _ ih =>
    obtain ⟨ih1, ih2⟩ := ih
    have := record_pos h1
    refine ⟨by simp; omega, ?_⟩
    intro x hx
    rcases List.mem_cons.mp hx with rfl | hx
    · obtain ⟨b, pre, last, payload, g1, g2, g3, _, _, _, rfl⟩ := h1
      refine ⟨_, payload, rfl, ?_⟩
      rw [u8_small (by omega)]
      omega
    · exact ih2 x hx

example : (bitstreamMarshal [[0x08, 1, 2], [0x30]] >>= bitstreamUnmarshal) = .ok [[0x08, 1, 2], [0x30]] := by
  decide +kernel
example : bitstreamMarshal [[0x08, 1, 2], [0x30]] = .ok [0x0A, 2, 1, 2, 0x32, 0] := by decide +kernel
example : bitstreamUnmarshal [0x0A, 5, 1] = .err "not enough bytes" := by decide +kernel

end Verif.Props
