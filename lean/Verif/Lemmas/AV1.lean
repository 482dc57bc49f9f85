import Verif.Model.AV1
import Verif.Spec.AV1
import Verif.Lemmas.Buf
import Verif.Lemmas.Util

namespace Verif.AV1
open Verif.Spec

theorem and127 : ∀ b : UInt8, (b &&& 0b01111111).toNat = b.toNat % 128 := forall_u8 (by decide +kernel)
theorem and128 : ∀ b : UInt8, b &&& 0b10000000 = 0 ↔ b.toNat < 128 := forall_u8 (by decide +kernel)

theorem accum {L x i : Nat} (hL : L < 2 ^ (7 * i)) :
    (L % 2 ^ 32) ||| ((x <<< (i * 7)) % 2 ^ 32) = (L + x * 2 ^ (7 * i)) % 2 ^ 32 := by
  rw [← Nat.or_mod_two_pow, Nat.mul_comm i 7, Nat.or_comm, ← Nat.shiftLeft_add_eq_or_of_lt hL, Nat.shiftLeft_eq,
    Nat.add_comm]

theorem leb128Loop_complete (pre : Bytes) (last : UInt8) (rest : Bytes) (i L : Nat)
    (hi : i + pre.length ≤ 7) (hpre : ∀ b ∈ pre, 128 ≤ b.toNat) (hlast : last.toNat < 128 ∨ i + pre.length = 7)
    (hL : L < 2 ^ (7 * i)) :
    leb128Loop (pre ++ last :: rest) i (L % 2 ^ 32)
      = .ok ((L + 2 ^ (7 * i) * lebVal (pre ++ [last])) % 2 ^ 32, i + pre.length + 1) := by
  induction pre generalizing i L with
  | nil =>
    simp only [List.length_nil, Nat.add_zero] at hi hlast
    rw [List.nil_append]
    unfold leb128Loop
    rw [if_pos (by omega)]
    simp only [and127, accum hL, and128, List.nil_append, lebVal, Nat.mul_zero, Nat.add_zero, List.length_nil]
    rw [Nat.mul_comm (2 ^ (7 * i))]
    by_cases h : last.toNat < 128
    · rw [if_pos h]
    · rw [if_neg h]
      unfold leb128Loop
      rw [if_neg (by omega)]
  | cons b pre ih =>
    have hb := hpre b (by simp)
    simp only [List.length_cons] at hi hlast
    rw [List.cons_append]
    conv => lhs; unfold leb128Loop
    rw [if_pos (by omega)]
    simp only [and127, accum hL, and128]
    rw [if_neg (by omega), ih (i + 1) (L + b.toNat % 128 * 2 ^ (7 * i)) (by omega)
      (fun c hc => hpre c (List.mem_cons_of_mem _ hc)) (by omega) ?_]
    · simp only [List.cons_append, lebVal, List.length_cons]
      congr 2
      · congr 1
        rw [show 7 * (i + 1) = 7 * i + 7 by omega, Nat.pow_add, show (2 : Nat) ^ 7 = 128 from rfl, Nat.mul_add, Nat.mul_assoc,
          Nat.mul_comm (2 ^ (7 * i)) (b.toNat % 128)]
        omega
      · omega
    · rw [show 7 * (i + 1) = 7 * i + 7 by omega, Nat.pow_add]
      have h1 : b.toNat % 128 * 2 ^ (7 * i) ≤ 127 * 2 ^ (7 * i) := Nat.mul_le_mul_right _ (by omega)
      omega

theorem leb128Loop_err (buf : Bytes) (i l : Nat) (hi : i + buf.length ≤ 7) (h : ∀ b ∈ buf, 128 ≤ b.toNat) :
    leb128Loop buf i l = .err "not enough bytes" := by
  induction buf generalizing i l with
  | nil => unfold leb128Loop; rw [if_pos (by simp at hi; omega)]
  | cons b buf ih =>
    have hb := h b (by simp)
    simp only [List.length_cons] at hi
    unfold leb128Loop
    rw [if_pos (by omega)]
    simp only [and128]
    rw [if_neg (by omega)]
    exact ih _ _ (by omega) (fun c hc => h c (List.mem_cons_of_mem _ hc))

theorem leb_cases (n : Nat) (buf : Bytes) :
    (∃ pre last rest, buf = pre ++ last :: rest ∧ pre.length ≤ n ∧ (∀ b ∈ pre, 128 ≤ b.toNat) ∧
      (last.toNat < 128 ∨ pre.length = n)) ∨
    (buf.length ≤ n ∧ ∀ b ∈ buf, 128 ≤ b.toNat) := by
  induction n generalizing buf with
  | zero =>
    cases buf with
    | nil => exact .inr ⟨by simp, by simp⟩
    | cons b buf => exact .inl ⟨[], b, buf, rfl, by simp, by simp, .inr rfl⟩
  | succ n ih =>
    cases buf with
    | nil => exact .inr ⟨by simp, by simp⟩
    | cons b buf =>
      by_cases hb : b.toNat < 128
      · exact .inl ⟨[], b, buf, rfl, by simp, by simp, .inl hb⟩
      · rcases ih buf with ⟨pre, last, rest, h1, h2, h3, h4⟩ | ⟨h1, h2⟩
        · left
          refine ⟨b :: pre, last, rest, by rw [h1]; rfl, by simp; omega, ?_, ?_⟩
          · intro c hc
            rcases List.mem_cons.mp hc with rfl | hc
            · omega
            · exact h3 c hc
          · rcases h4 with h4 | h4
            · exact .inl h4
            · right; simp [h4]
        · right
          refine ⟨by simp; omega, ?_⟩
          intro c hc
          rcases List.mem_cons.mp hc with rfl | hc
          · omega
          · exact h2 c hc

theorem leb128Unmarshal_leb {pre : Bytes} {last : UInt8} (rest : Bytes) (h : IsLeb pre last) :
    leb128Unmarshal (pre ++ last :: rest) = .ok (lebVal (pre ++ [last]) % 2 ^ 32, pre.length + 1) := by
  have := leb128Loop_complete pre last rest 0 0 (by have := h.1; omega) h.2.1 (by have := h.2.2; omega) (by simp)
  simpa [leb128Unmarshal] using this

theorem leb128Unmarshal_cases (buf : Bytes) :
    (∃ pre last rest, buf = pre ++ last :: rest ∧ IsLeb pre last ∧
      leb128Unmarshal buf = .ok (lebVal (pre ++ [last]) % 2 ^ 32, pre.length + 1)) ∨
    (buf.length ≤ 7 ∧ (∀ b ∈ buf, 128 ≤ b.toNat) ∧ leb128Unmarshal buf = .err "not enough bytes") := by
  rcases leb_cases 7 buf with ⟨pre, last, rest, h1, h2, h3, h4⟩ | ⟨h1, h2⟩
  · left
    subst h1
    exact ⟨pre, last, rest, rfl, ⟨h2, h3, h4⟩, leb128Unmarshal_leb rest ⟨h2, h3, h4⟩⟩
  · right
    exact ⟨h1, h2, leb128Loop_err buf 0 0 (by omega) h2⟩

theorem u8_small {v : Nat} (h : v < 256) : (UInt8.ofNat v).toNat = v := by
  rw [UInt8.toNat_ofNat']; exact Nat.mod_eq_of_lt h

theorem and127_ofNat (v : Nat) : UInt8.ofNat v &&& 0b01111111 = UInt8.ofNat (v % 128) := by
  apply UInt8.toNat_inj.mp
  rw [and127, UInt8.toNat_ofNat', u8_small (by omega)]
  omega

theorem or128 : ∀ b : UInt8, b.toNat < 128 → b ||| 0b10000000 = UInt8.ofNat (b.toNat + 128) :=
  forall_u8 (by decide +kernel)

theorem lebBytes_small {v : Nat} (h : v < 128) : lebBytes v = [UInt8.ofNat v] := by
  unfold lebBytes; rw [if_pos h]
theorem lebBytes_big {v : Nat} (h : ¬ v < 128) :
    lebBytes v = UInt8.ofNat (v % 128 + 128) :: lebBytes (v / 128) := by
  conv => lhs; unfold lebBytes
  rw [if_neg h]

theorem leb128Size_eq (v : Nat) : leb128Size v = (lebBytes v).length := by
  induction v using Nat.strongRecOn with
  | ind v ih =>
    unfold leb128Size
    rw [Nat.shiftRight_eq_div_pow]
    by_cases h : v < 128
    · rw [if_pos (by omega), lebBytes_small h]; rfl
    · rw [if_neg (by omega), lebBytes_big h, ih _ (by omega)]; rfl

theorem leb128MarshalTo_spec (done : Bytes) (m v : Nat) (hm : (lebBytes v).length ≤ m) :
    leb128MarshalTo (done ++ List.replicate m 0) done.length v
      = .ok (done ++ lebBytes v ++ List.replicate (m - (lebBytes v).length) 0, done.length + (lebBytes v).length) := by
  induction v using Nat.strongRecOn generalizing done m with
  | ind v ih =>
    unfold leb128MarshalTo
    rw [Nat.shiftRight_eq_div_pow]
    by_cases h : v < 128
    · rw [lebBytes_small h] at hm ⊢
      rw [if_pos (by omega), setAt_append _ _ _ _ rfl (by simpa using hm), Res.bind_ok, and127_ofNat,
        Nat.mod_eq_of_lt h]
      rfl
    · rw [lebBytes_big h, List.length_cons] at hm
      rw [if_neg (by omega), setAt_append _ _ _ _ rfl (by omega), Res.bind_ok, and127_ofNat,
        or128 _ (by rw [u8_small (by omega)]; omega), u8_small (by omega), lebBytes_big h]
      have := ih (v / 2 ^ 7) (by omega) (done ++ [UInt8.ofNat (v % 128 + 128)]) (m - 1) (by simpa using by omega)
      rw [List.length_append, List.length_singleton] at this
      rw [this, show v / 2 ^ 7 = v / 128 by rfl]
      simp only [List.append_assoc, List.cons_append, List.nil_append, List.length_cons]
      rw [show m - 1 - (lebBytes (v / 128)).length = m - ((lebBytes (v / 128)).length + 1) by omega,
        show done.length + 1 + (lebBytes (v / 128)).length = done.length + ((lebBytes (v / 128)).length + 1) by omega]

theorem lebBytes_form (v : Nat) (n : Nat) (hv : v < 128 ^ (n + 1)) :
    ∃ pre last, lebBytes v = pre ++ [last] ∧ pre.length ≤ n ∧ (∀ b ∈ pre, 128 ≤ b.toNat) ∧ last.toNat < 128 ∧
      lebVal (pre ++ [last]) = v := by
  induction n generalizing v with
  | zero =>
    have h : v < 128 := by simpa using hv
    refine ⟨[], UInt8.ofNat v, by rw [lebBytes_small h]; rfl, by simp, by simp, by rw [u8_small (by omega)]; exact h, ?_⟩
    simp [lebVal, u8_small (show v < 256 by omega)]; omega
  | succ n ih =>
    by_cases h : v < 128
    · refine ⟨[], UInt8.ofNat v, by rw [lebBytes_small h]; rfl, by simp, by simp, by rw [u8_small (by omega)]; exact h, ?_⟩
      simp [lebVal, u8_small (show v < 256 by omega)]; omega
    · have hv2 : v / 128 < 128 ^ (n + 1) := by
        apply Nat.div_lt_of_lt_mul; rw [Nat.mul_comm]; simpa [Nat.pow_succ] using hv
      obtain ⟨pre, last, h1, h2, h3, h4, h5⟩ := ih (v / 128) hv2
      refine ⟨UInt8.ofNat (v % 128 + 128) :: pre, last, by rw [lebBytes_big h, h1]; rfl, by simp; omega, ?_, h4, ?_⟩
      · intro b hb
        rcases List.mem_cons.mp hb with rfl | hb
        · rw [u8_small (by omega)]; omega
        · exact h3 b hb
      · rw [List.cons_append, lebVal, h5, u8_small (by omega)]; omega

theorem lebBytes_length_pos (v : Nat) : 1 ≤ (lebBytes v).length := by
  unfold lebBytes; split <;> simp

/-! ### OBU header -/

theorem hdr_forbidden : ∀ b : UInt8, b >>> 7 ≠ 0 ↔ ¬ b.toNat / 128 = 0 := forall_u8 (by decide +kernel)
theorem hdr_ext : ∀ b : UInt8, (b >>> 2) &&& 1 ≠ 0 ↔ ¬ b.toNat / 4 % 2 = 0 := forall_u8 (by decide +kernel)
theorem hdr_size : ∀ b : UInt8, decide ((b >>> 1) &&& 1 ≠ 0) = decide (b.toNat / 2 % 2 = 1) :=
  forall_u8 (by decide +kernel)
theorem hdr_clear : ∀ b : UInt8, b.toNat / 2 % 2 = 1 → b &&& 0b11111101 = UInt8.ofNat (b.toNat - 2) :=
  forall_u8 (by decide +kernel)
theorem hdr_set : ∀ b : UInt8, (b.toNat / 128 = 0 ∧ b.toNat / 4 % 2 = 0 ∧ b.toNat / 2 % 2 = 0) →
    (b ||| 0b00000010).toNat / 128 = 0 ∧ (b ||| 0b00000010).toNat / 4 % 2 = 0 ∧
    (b ||| 0b00000010).toNat / 2 % 2 = 1 ∧ UInt8.ofNat ((b ||| 0b00000010).toNat - 2) = b :=
  forall_u8 (by decide +kernel)

theorem obuHeader_cons (b : UInt8) (t : Bytes) :
    obuHeaderUnmarshal (b :: t) =
      if ¬ b.toNat / 128 = 0 then .err "forbidden bit is set"
      else if ¬ b.toNat / 4 % 2 = 0 then .err "extension flag is not supported yet"
      else .ok ⟨b >>> 3, decide (b.toNat / 2 % 2 = 1)⟩ := by
  simp only [obuHeaderUnmarshal, hdr_forbidden, hdr_ext, hdr_size]

theorem step_record {r obu : Bytes} (rest : Bytes) (h : IsObuRecord r obu) :
    bitstreamStep (r ++ rest) = .ok (obu, rest) := by
  obtain ⟨b, pre, last, payload, h1, h2, h3, h4, h5, rfl, rfl⟩ := h
  unfold bitstreamStep
  rw [List.cons_append, obuHeader_cons, if_neg (by omega), if_neg (by omega), Res.bind_ok]
  simp only [h3, decide_true, Bool.not_true, Bool.false_eq_true, if_false]
  rw [sliceFrom_ok (by simp), Res.bind_ok, List.drop_one, List.tail_cons, List.append_assoc, List.cons_append,
    leb128Unmarshal_leb _ h4, Res.bind_ok]
  simp only [h5]
  have hlen : (b :: (pre ++ last :: (payload ++ rest))).length = 1 + payload.length + (pre.length + 1) + rest.length := by
    simp; omega
  rw [if_neg (by omega), idx_zero_cons, Res.bind_ok, hdr_clear b h3]
  have hs := setAt_append [] (1 + payload.length) (UInt8.ofNat (b.toNat - 2)) 0 rfl (by omega)
  rw [List.nil_append, List.nil_append] at hs
  rw [makeBytes, hs, Res.bind_ok, sliceFrom_ok (by omega), Res.bind_ok]
  have hd : (b :: (pre ++ last :: (payload ++ rest))).drop (1 + (pre.length + 1)) = payload ++ rest := by
    rw [show 1 + (pre.length + 1) = (pre.length + 1) + 1 by omega, List.drop_succ_cons, ← List.drop_drop,
      List.drop_left]
    rfl
  have hd2 : (b :: (pre ++ last :: (payload ++ rest))).drop (1 + payload.length + (pre.length + 1)) = rest := by
    rw [show 1 + payload.length + (pre.length + 1) = (1 + (pre.length + 1)) + payload.length by omega,
      ← List.drop_drop, hd, List.drop_left]
  rw [hd, copyAt, if_pos (by simp), show 1 + payload.length - 1 = payload.length by omega]
  simp only [Res.bind_ok]
  rw [sliceFrom_ok (by omega), hd2]
  simp; omega

theorem step_cases (buf : Bytes) :
    (∃ r obu rest, IsObuRecord r obu ∧ buf = r ++ rest ∧ bitstreamStep buf = .ok (obu, rest)) ∨
    (∃ e, bitstreamStep buf = .err e) := by
  cases buf with
  | nil => right; exact ⟨"not enough bytes", rfl⟩
  | cons b t =>
    by_cases h1 : b.toNat / 128 = 0
    rotate_left
    · right; unfold bitstreamStep; rw [obuHeader_cons, if_pos h1, Res.bind_err]; exact ⟨_, rfl⟩
    by_cases h2 : b.toNat / 4 % 2 = 0
    rotate_left
    · right; unfold bitstreamStep; rw [obuHeader_cons, if_neg (by omega), if_pos h2, Res.bind_err]; exact ⟨_, rfl⟩
    by_cases h3 : b.toNat / 2 % 2 = 1
    rotate_left
    · right; unfold bitstreamStep; rw [obuHeader_cons, if_neg (by omega), if_neg (by omega), Res.bind_ok]
      simp only [h3, decide_false, Bool.not_false, if_true]
      exact ⟨_, rfl⟩
    rcases leb128Unmarshal_cases t with ⟨pre, last, rest, g1, g2, g3⟩ | ⟨_, _, g3⟩
    · by_cases hl : lebVal (pre ++ [last]) % 2 ^ 32 ≤ rest.length
      · left
        have hrec : IsObuRecord (b :: (pre ++ last :: rest.take (lebVal (pre ++ [last]) % 2 ^ 32)))
            (UInt8.ofNat (b.toNat - 2) :: rest.take (lebVal (pre ++ [last]) % 2 ^ 32)) :=
          ⟨b, pre, last, _, h1, h2, h3, g2, by rw [List.length_take]; omega, rfl, rfl⟩
        have hb : b :: t = (b :: (pre ++ last :: rest.take (lebVal (pre ++ [last]) % 2 ^ 32)))
            ++ rest.drop (lebVal (pre ++ [last]) % 2 ^ 32) := by
          rw [g1]; simp
        refine ⟨_, _, _, hrec, hb, ?_⟩
        rw [hb]
        exact step_record _ hrec
      · right
        unfold bitstreamStep
        rw [obuHeader_cons, if_neg (by omega), if_neg (by omega), Res.bind_ok]
        simp only [h3, decide_true, Bool.not_true, Bool.false_eq_true, if_false]
        rw [sliceFrom_ok (by simp), Res.bind_ok, List.drop_one, List.tail_cons, g3, Res.bind_ok]
        simp only
        rw [if_pos (by rw [g1]; simp; omega)]
        exact ⟨_, rfl⟩
    · right
      unfold bitstreamStep
      rw [obuHeader_cons, if_neg (by omega), if_neg (by omega), Res.bind_ok]
      simp only [h3, decide_true, Bool.not_true, Bool.false_eq_true, if_false]
      rw [sliceFrom_ok (by simp), Res.bind_ok, List.drop_one, List.tail_cons, g3, Res.bind_err]
      exact ⟨_, rfl⟩

theorem record_pos {r obu : Bytes} (h : IsObuRecord r obu) : obu.length + 1 ≤ r.length := by
  obtain ⟨b, pre, last, payload, _, _, _, _, _, rfl, rfl⟩ := h
  simp

theorem bitstreamLoop_cases (fuel : Nat) (buf : Bytes) (hf : buf.length < fuel) :
    (∃ obus, obus ≠ [] ∧ IsObuStream buf obus ∧ bitstreamLoop fuel buf = .ok obus) ∨
    (∃ e, bitstreamLoop fuel buf = .err e) := by
  induction fuel generalizing buf with
  | zero => omega
  | succ fuel ih =>
    rw [bitstreamLoop]
    rcases step_cases buf with ⟨r, obu, rest, h1, h2, h3⟩ | ⟨e, he⟩
    · have hr := record_pos h1
      have hl := congrArg List.length h2
      rw [List.length_append] at hl
      rw [h3, Res.bind_ok]
      simp only
      by_cases h0 : rest.length = 0
      · left
        rw [if_pos h0]
        refine ⟨[obu], by simp, ?_, rfl⟩
        rw [List.length_eq_zero_iff.mp h0] at h2
        rw [h2]
        exact .cons h1 .nil
      · rw [if_neg h0]
        rcases ih rest (by omega) with ⟨obus, g1, g2, g3⟩ | ⟨e, he⟩
        · left
          exact ⟨obu :: obus, by simp, by rw [h2]; exact .cons h1 g2, by rw [g3, Res.bind_ok]⟩
        · right; rw [he, Res.bind_err]; exact ⟨_, rfl⟩
    · right; rw [he, Res.bind_err]; exact ⟨_, rfl⟩

theorem bitstreamLoop_complete {buf : Bytes} {obus : List Bytes} (h : IsObuStream buf obus) (hne : obus ≠ [])
    (fuel : Nat) (hf : buf.length < fuel) : bitstreamLoop fuel buf = .ok obus := by
  induction h generalizing fuel with
  | nil => exact absurd rfl hne
  | @cons r obu buf obus h1 h2 ih =>
    have hr := record_pos h1
    rw [List.length_append] at hf
    obtain ⟨fuel, rfl⟩ : ∃ k, fuel = k + 1 := ⟨fuel - 1, by omega⟩
    rw [bitstreamLoop, step_record _ h1, Res.bind_ok]
    simp only
    cases h2 with
    | nil => rfl
    | cons g1 g2 =>
      have hr2 := record_pos g1
      rw [if_neg (by rw [List.length_append]; omega), ih (by simp) fuel (by omega), Res.bind_ok]

/-! ### Marshal -/

/-- A valid header without the size flag. -/
def ValidObu (obu : Bytes) : Prop :=
  ∃ (b : UInt8) (payload : Bytes), obu = b :: payload ∧ b.toNat / 128 = 0 ∧ b.toNat / 4 % 2 = 0 ∧
    b.toNat / 2 % 2 = 0 ∧ payload.length < 2 ^ 32

/-- The record written for an OBU. -/
def writeRec : Bytes → Bytes
  | [] => []
  | b :: payload => (b ||| 0b00000010) :: (lebBytes payload.length ++ payload)

theorem writeRec_isRecord {obu : Bytes} (h : ValidObu obu) : IsObuRecord (writeRec obu) obu := by
  obtain ⟨b, payload, rfl, h1, h2, h3, h4⟩ := h
  obtain ⟨g1, g2, g3, g4⟩ := hdr_set b ⟨h1, h2, h3⟩
  obtain ⟨pre, last, f1, f2, f3, f4, f5⟩ := lebBytes_form payload.length 4 (by omega)
  refine ⟨b ||| 0b00000010, pre, last, payload, g1, g2, g3, ⟨by omega, f3, .inl f4⟩, ?_, ?_, by rw [g4]⟩
  · rw [f5, Nat.mod_eq_of_lt h4]
  · rw [writeRec, f1]; simp

theorem bitstreamSize_spec (bs : List Bytes) (hv : ∀ o ∈ bs, ValidObu o) (n : Nat) :
    bitstreamSize bs n = .ok (n + (bs.flatMap writeRec).length) := by
  induction bs generalizing n with
  | nil => rfl
  | cons o bs ih =>
    obtain ⟨b, payload, rfl, h1, h2, h3, h4⟩ := hv o (by simp)
    rw [bitstreamSize, obuHeader_cons, if_neg (by omega), if_neg (by omega), Res.bind_ok]
    simp only [h3, Nat.zero_ne_one, decide_false, Bool.not_false, if_true]
    rw [ih (fun o ho => hv o (List.mem_cons_of_mem _ ho)), leb128Size_eq]
    simp only [List.length_cons, Nat.add_sub_cancel, Nat.mod_eq_of_lt h4, List.flatMap_cons, List.length_append, writeRec]
    congr 1; omega

theorem bitstreamMarshalLoop_spec (bs : List Bytes) (hv : ∀ o ∈ bs, ValidObu o) (done : Bytes) (m : Nat)
    (hm : m = (bs.flatMap writeRec).length) :
    bitstreamMarshalLoop (done ++ List.replicate m 0) done.length bs = .ok (done ++ bs.flatMap writeRec) := by
  induction bs generalizing done m with
  | nil => simp at hm; subst hm; simp [bitstreamMarshalLoop]
  | cons o bs ih =>
    obtain ⟨b, payload, rfl, h1, h2, h3, h4⟩ := hv o (by simp)
    have hm' := hm
    simp only [List.flatMap_cons, List.length_append, writeRec, List.length_cons] at hm'
    have hh : obuHeaderUnmarshal (b :: payload) = .ok ⟨b >>> 3, false⟩ := by
      rw [obuHeader_cons, if_neg (by omega), if_neg (by omega)]
      simp [h3]
    rw [bitstreamMarshalLoop, hh]
    simp only [Bool.not_false, if_true]
    rw [idx_zero_cons, Res.bind_ok, setAt_append _ _ _ _ rfl (by omega), Res.bind_ok]
    have hleb := leb128MarshalTo_spec (done ++ [b ||| 0b00000010]) (m - 1) payload.length (by omega)
    rw [List.length_append, List.length_singleton] at hleb
    rw [List.length_cons, Nat.add_sub_cancel, Nat.mod_eq_of_lt h4, hleb, Res.bind_ok]
    simp only
    rw [sliceFrom_ok (by simp), Res.bind_ok, List.drop_one, List.tail_cons,
      copyAt_append _ _ _ _ (by simp; omega) (by omega), Res.bind_ok]
    simp only
    have := ih (fun o ho => hv o (List.mem_cons_of_mem _ ho))
      (done ++ [b ||| 0b00000010] ++ lebBytes payload.length ++ payload)
      (m - 1 - (lebBytes payload.length).length - payload.length) (by omega)
    rw [List.length_append, List.length_append, List.length_append, List.length_singleton] at this
    rw [this]
    simp [writeRec]

theorem bitstreamMarshal_spec (bs : List Bytes) (hv : ∀ o ∈ bs, ValidObu o) :
    bitstreamMarshal bs = .ok (bs.flatMap writeRec) := by
  rw [bitstreamMarshal, bitstreamSize_spec bs hv, Res.bind_ok, Nat.zero_add]
  have := bitstreamMarshalLoop_spec bs hv [] _ rfl
  simpa [makeBytes] using this

end Verif.AV1
