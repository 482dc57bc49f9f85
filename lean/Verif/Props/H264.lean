import Verif.Lemmas.Emulation
import Verif.Lemmas.AnnexB
import Verif.Model.AV1
import Verif.Lemmas.Util

/-!
# Properties C05–C10: NALU containers and random access detection
-/

namespace Verif.Props
open Verif.H264 Verif.Spec

/-! ## C05 -/

/-- C05: removal inverts the standard's insertion (and never panics). -/
theorem C05_remove_inverts_insert (rbsp : Bytes) :
    emulationPreventionRemove (epInsert 0 rbsp) = .ok rbsp := by
  rw [emulationPreventionRemove_eq, epRemove_epInsert]

/-- C05: input without `00 00 03` is returned unchanged. -/
theorem C05_unchanged (nalu : Bytes) (h : ¬ [0, 0, 3] <:+: nalu) :
    emulationPreventionRemove nalu = .ok nalu := by
  rw [emulationPreventionRemove_eq]
  congr 1
  have : ∀ (z : Nat) (l : Bytes), ¬ [0, 0, 3] <:+: List.replicate z 0 ++ l → epRemove z l = l := by
    intro z l
    induction l generalizing z with
    | nil => intro _; rfl
    | cons c l ih =>
      intro hn
      rw [epRemove, if_neg]
      · congr 1
        apply ih
        intro hs
        apply hn
        split at hs
        · rename_i hc
          rw [List.replicate_succ'] at hs
          subst hc
          simpa using hs
        · have : List.replicate 0 0 ++ l <:+: List.replicate z 0 ++ c :: l :=
            ⟨List.replicate z 0 ++ [c], [], by simp⟩
          exact List.IsInfix.trans hs this
      · rintro ⟨hz, rfl⟩
        apply hn
        refine ⟨List.replicate (z - 2) 0, l, ?_⟩
        have : List.replicate z (0 : UInt8) = List.replicate (z - 2) 0 ++ [0, 0] := by
          have e : z = (z - 2) + 2 := by omega
          conv => lhs; rw [e]
          rw [← List.replicate_append_replicate]; rfl
        rw [this]; simp
  exact this 0 nalu (by simpa using h)

/-- C05: the standard also appends `03` when the RBSP ends in two zero bytes (cabac_zero_words);
that byte is removed too. -/
theorem C05_trailing_cabac_zero_words (p : Bytes) (h : ¬ [0, 0, 3] <:+: p ++ [0, 0]) :
    emulationPreventionRemove (p ++ [0, 0] ++ [3]) = .ok (p ++ [0, 0]) := by
  have h1 := C05_unchanged _ h
  rw [emulationPreventionRemove_eq] at h1 ⊢
  rw [epRemove_snoc3 0 _ ⟨p, by simp⟩ (by injection h1)]

example : epInsert 0 [0, 0, 1, 0, 0, 0, 0, 3] = [0, 0, 3, 1, 0, 0, 3, 0, 0, 3, 3] := by decide +kernel
example : emulationPreventionRemove [0, 0, 3, 1, 0, 0, 3, 0, 0, 3, 3] = .ok [0, 0, 1, 0, 0, 0, 0, 3] := by
  decide +kernel

/-! ## C06, C07 -/

/-- C06: AVCC round-trip. -/
theorem C06_avcc_roundtrip (au : List Bytes) (h1 : 1 ≤ au.length) (h50 : au.length ≤ 50)
    (hne : ∀ nalu ∈ au, nalu ≠ []) (hsz : auBytes au ≤ 8 * 1024 * 1024) :
    (avccMarshal au >>= avccUnmarshal) = .ok au := by
  have hf : ne au = au := by
    simp only [ne, List.filter_eq_self]
    intro x hx; simpa using hne x hx
  have hlen : ∀ x ∈ au, x.length < 2 ^ 32 := by
    intro x hx
    have : x.length ≤ auBytes au := by
      unfold auBytes
      exact le_sum_of_mem (List.mem_map_of_mem hx)
    omega
  rw [avccMarshal_spec, Res.bind_ok, avccUnmarshal_complete au hlen hsz (by rw [hf]; exact h1)
    (by rw [hf]; exact h50), hf]

/-- C06, without the assumption that NALUs are non-empty: empty NALUs are dropped. -/
theorem C06_avcc_drops_empty (au : List Bytes) (hsz : auBytes au ≤ 8 * 1024 * 1024)
    (h1 : 1 ≤ (au.filter (· ≠ [])).length) (h50 : (au.filter (· ≠ [])).length ≤ 50) :
    (avccMarshal au >>= avccUnmarshal) = .ok (au.filter (· ≠ [])) := by
  have hlen : ∀ x ∈ au, x.length < 2 ^ 32 := by
    intro x hx
    have : x.length ≤ auBytes au := by
      unfold auBytes
      exact le_sum_of_mem (List.mem_map_of_mem hx)
    omega
  rw [avccMarshal_spec, Res.bind_ok, avccUnmarshal_complete au hlen hsz h1 h50]

/-- C07: exact set of accepted inputs and the result on each: the input is a sequence of complete
length-prefixed records, the result is its non-empty records, and the limits hold. -/
theorem C07_avcc_accepts_iff (buf : Bytes) (au : List Bytes) :
    avccUnmarshal buf = .ok au ↔
      ∃ recs : List Bytes, (∀ x ∈ recs, x.length < 2 ^ 32) ∧ buf = avccRecords recs ∧
        au = recs.filter (· ≠ []) ∧ 1 ≤ au.length ∧ au.length ≤ 50 ∧ auBytes au ≤ 8 * 1024 * 1024 := by
  constructor
  · intro h
    rcases avccUnmarshal_result buf with ⟨recs, h1, h2, h3, h4, h5, h6⟩ | ⟨e, he⟩
    · rw [h6] at h
      injection h with h
      subst h
      exact ⟨recs, h1, h2, rfl, h4, h5, by rw [auBytes_ne]; exact h3⟩
    · rw [he] at h; cases h
  · rintro ⟨recs, h1, rfl, rfl, h3, h4, h5⟩
    exact avccUnmarshal_complete recs h1 (by rw [auBytes_ne] at h5; exact h5) h3 h4

/-- C07: no input makes the decoder panic. -/
theorem C07_avcc_no_panic (buf : Bytes) : avccUnmarshal buf ≠ .panic := by
  rcases avccUnmarshal_result buf with ⟨recs, _, _, _, _, _, h6⟩ | ⟨e, he⟩
  · rw [h6]; simp
  · rw [he]; simp

/-- C07: bounds on the result. -/
theorem C07_avcc_bounds (buf : Bytes) (au : List Bytes) (h : avccUnmarshal buf = .ok au) :
    1 ≤ au.length ∧ au.length ≤ 50 ∧ (∀ nalu ∈ au, nalu ≠ []) ∧ auBytes au ≤ 8 * 1024 * 1024 := by
  obtain ⟨recs, _, _, rfl, h3, h4, h5⟩ := (C07_avcc_accepts_iff buf au).mp h
  refine ⟨h3, h4, ?_, h5⟩
  intro x hx
  simpa using (List.mem_filter.mp hx).2

example : avccUnmarshal [0, 0, 0, 2, 0x65, 0xAA, 0, 0, 0, 0, 0, 0, 0, 1, 0x41] = .ok [[0x65, 0xAA], [0x41]] := by
  decide +kernel
example : avccUnmarshal [0, 0, 0, 2, 0x65] = .err "invalid length" := by decide +kernel
example : avccRecords [[0x65, 0xAA], [0x41]] = [0, 0, 0, 2, 0x65, 0xAA, 0, 0, 0, 1, 0x41] := by decide +kernel

/-! ## C08, C09 -/

/-- C08: Annex-B round-trip, including NALUs that end with zero bytes. -/
theorem C08_annexb_roundtrip (au : List Bytes) (h1 : 1 ≤ au.length) (h50 : au.length ≤ 50)
    (hne : ∀ nalu ∈ au, nalu ≠ [] ∧ ¬ hasStartCode nalu) (hsz : auBytes au ≤ 8 * 1024 * 1024) :
    (annexbMarshal au >>= annexbUnmarshal) = .ok au := by
  have hm : (au.map (fun x => (true, x))).map Prod.snd = au := by rw [List.map_map]; exact List.map_id _
  rw [annexbMarshal_spec, Res.bind_ok, annexbUnmarshal_complete, hm]
  · rintro h
    rw [List.map_eq_nil_iff] at h
    subst h; simp at h1
  · intro x hx
    obtain ⟨y, hy, rfl⟩ := List.mem_map.mp hx
    exact hne y hy
  · exact annexbSeparable_four au
  · rw [List.length_map]; exact h50
  · rw [hm]; exact hsz

/-- C08: the encoder writes every NALU after a four-byte start code, nothing else. -/
theorem C08_annexb_marshal (au : List Bytes) :
    annexbMarshal au = .ok (au.flatMap (fun nalu => [0, 0, 0, 1] ++ nalu)) := by
  rw [annexbMarshal_spec, annexbStream, List.flatMap_map]
  rfl

/-- C09: safety and bounds on every input. -/
theorem C09_annexb_sound (buf : Bytes) :
    annexbUnmarshal buf ≠ .panic ∧
    ∀ au, annexbUnmarshal buf = .ok au →
      (∃ d body, buf = startCode d ++ body) ∧
      1 ≤ au.length ∧ au.length ≤ 50 ∧ auBytes au ≤ 8 * 1024 * 1024 ∧
      ∀ nalu ∈ au, nalu ≠ [] ∧ ¬ hasStartCode nalu ∧ nalu <:+: buf := by
  rcases annexbUnmarshal_result buf with ⟨au, h1, h2⟩ | ⟨e, he⟩
  · refine ⟨by rw [h1]; simp, ?_⟩
    intro au' h
    rw [h1] at h
    injection h with h
    subst h
    exact h2
  · refine ⟨by rw [he]; simp, ?_⟩
    intro au' h
    rw [he] at h; cases h

/-- C09: input without an initial start code is rejected. -/
theorem C09_annexb_initial_delimiter (buf : Bytes) (h : ∀ d body, buf ≠ startCode d ++ body) :
    annexbUnmarshal buf = .err "initial delimiter not found" := by
  rcases initial_delim buf with ⟨d, body, hb, _⟩ | ⟨_, h1⟩
  · exact absurd hb (h d body)
  · rw [annexbUnmarshal, h1, Res.bind_err]

/-- C09: any mix of three- and four-byte start codes gives the same NALUs (a NALU before a
three-byte start code must not end in a zero byte, which the standard guarantees). -/
theorem C09_annexb_mixed_start_codes (l : List (Bool × Bytes)) (h1 : 1 ≤ l.length) (h50 : l.length ≤ 50)
    (hn : ∀ x ∈ l, x.2 ≠ [] ∧ ¬ hasStartCode x.2) (hsep : annexbSeparable l)
    (hsz : auBytes (l.map Prod.snd) ≤ 8 * 1024 * 1024) :
    annexbUnmarshal (annexbStream l) = .ok (l.map Prod.snd) :=
  annexbUnmarshal_complete l (by rintro rfl; simp at h1) hn hsep h50 hsz

/-- The side condition of C09 is needed: with a three-byte start code after a NALU that ends in a
zero byte, that byte is lost. -/
theorem C09_trailing_zero_lost :
    annexbUnmarshal (annexbStream [(true, [0x41, 0]), (false, [0x41])]) = .ok [[0x41], [0x41]] := by
  decide +kernel

example : annexbUnmarshal (annexbStream [(true, [0x65, 0]), (true, [0x41, 0, 0]), (true, [9])])
    = .ok [[0x65, 0], [0x41, 0, 0], [9]] := by decide +kernel
example : annexbUnmarshal (annexbStream [(false, [0x65, 1]), (true, [0x41, 0, 2]), (false, [9])])
    = .ok [[0x65, 1], [0x41, 0, 2], [9]] := by decide +kernel
example : annexbSeparable [(false, [0x65, 1]), (true, [0x41, 0, 2]), (false, [9])] := by
  simp [annexbSeparable]

/-! ## C10 -/

/-- `nal_unit_type` of an H264 NALU: the low five bits of its first byte (ITU-T H.264 7.3.1). -/
def nalType264 (nalu : Bytes) : Option Nat := nalu.head?.map (fun b => b.toNat % 32)
/-- `nal_unit_type` of an H265 NALU: bits 1..6 of its first byte (ITU-T H.265 7.3.1.2). -/
def nalType265 (nalu : Bytes) : Option Nat := nalu.head?.map (fun b => b.toNat / 2 % 64)
/-- `obu_type`: bits 3..6 of the first byte (AV1 5.3.2). -/
def obuType (obu : Bytes) : Option Nat := obu.head?.map (fun b => b.toNat / 8 % 16)

theorem type264_dec : ∀ b : UInt8, (b &&& 0x1F = 5) ↔ b.toNat % 32 = 5 := forall_u8 (by decide +kernel)
theorem type265_dec : ∀ b : UInt8,
    (((b >>> 1) &&& 0b111111 = 19) ∨ ((b >>> 1) &&& 0b111111 = 20) ∨ ((b >>> 1) &&& 0b111111 = 21)) ↔
      b.toNat / 2 % 64 ∈ [19, 20, 21] := forall_u8 (by decide +kernel)
theorem obuType_dec : ∀ b : UInt8, ((b >>> 3) &&& 0b1111 = 1) ↔ b.toNat / 8 % 16 = 1 := forall_u8 (by decide +kernel)

/-- C10 (H264): with non-empty NALUs, the answer is whether some NALU is an IDR (type 5). -/
theorem C10_h264 (au : List Bytes) (hne : ∀ nalu ∈ au, nalu ≠ []) :
    isRandomAccess au = .ok (decide (∃ nalu ∈ au, nalType264 nalu = some 5)) := by
  induction au with
  | nil => simp [isRandomAccess]
  | cons x l ih =>
    obtain ⟨b, t, rfl⟩ := List.exists_cons_of_ne_nil (hne x (by simp))
    rw [isRandomAccess, idx_zero_cons, Res.bind_ok]
    by_cases hb : b &&& 0x1F = 5
    · have := (type264_dec b).mp hb
      simp [hb, nalType264, this]
    · have : ¬ b.toNat % 32 = 5 := fun h => hb ((type264_dec b).mpr h)
      rw [if_neg hb, ih (fun y hy => hne y (List.mem_cons_of_mem _ hy))]
      simp [nalType264, this]

/-- C10 (H265): whether some NALU is IDR_W_RADL (19), IDR_N_LP (20) or CRA (21). -/
theorem C10_h265 (au : List Bytes) (hne : ∀ nalu ∈ au, nalu ≠ []) :
    isRandomAccess265 au = .ok (decide (∃ nalu ∈ au, nalType265 nalu ∈ [some 19, some 20, some 21])) := by
  induction au with
  | nil => simp [isRandomAccess265]
  | cons x l ih =>
    obtain ⟨b, t, rfl⟩ := List.exists_cons_of_ne_nil (hne x (by simp))
    rw [isRandomAccess265, idx_zero_cons, Res.bind_ok]
    by_cases hb : b.toNat / 2 % 64 ∈ [19, 20, 21]
    · have := (type265_dec b).mpr hb
      simp only [this, if_true]
      simp at hb
      simp [nalType265, hb]
    · have : ¬ _ := fun h => hb ((type265_dec b).mp h)
      simp only [this, if_false]
      rw [ih (fun y hy => hne y (List.mem_cons_of_mem _ hy))]
      simp at hb
      simp [nalType265, hb]

/-- C10 (AV1): whether some OBU is a sequence header (type 1); empty OBUs are skipped. -/
theorem C10_av1 (tu : List Bytes) :
    AV1.isRandomAccess2 tu = decide (∃ obu ∈ tu, obuType obu = some 1) := by
  induction tu with
  | nil => simp [AV1.isRandomAccess2]
  | cons x l ih =>
    cases x with
    | nil => simp [AV1.isRandomAccess2, ih, obuType]
    | cons b t =>
      rw [AV1.isRandomAccess2]
      by_cases hb : (b >>> 3) &&& 0b1111 = 1
      · have := (obuType_dec b).mp hb
        simp [hb, obuType, this]
      · have : ¬ b.toNat / 8 % 16 = 1 := fun h => hb ((obuType_dec b).mpr h)
        rw [if_neg hb, ih]
        simp [obuType, this]

/-- The hypothesis of C10 is needed: an empty NALU makes `IsRandomAccess` panic. -/
theorem C10_empty_nalu_panics : isRandomAccess [[]] = .panic ∧ isRandomAccess265 [[]] = .panic := by
  decide

example : isRandomAccess [[0x67, 1], [0x65, 2]] = .ok true ∧ isRandomAccess [[0x67, 1], [0x41, 2]] = .ok false := by
  decide +kernel

end Verif.Props
