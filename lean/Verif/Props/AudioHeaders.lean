import Verif.Model.AudioHeaders
import Verif.Spec.AudioHeaders
import Verif.Lemmas.BitField

/-!
# Properties C30 and C31: AC-3, E-AC-3 and MPEG-1/2 audio headers
-/

namespace Verif.Props
open Verif.Spec Verif.Bits

section AC3
open Verif.AC3

theorem ac3_frameSize : ∀ f < 3, ∀ c < 38,
    SyncInfo.frameSize ⟨UInt8.ofNat f, UInt8.ofNat c⟩ = .ok (ac3FrameBytes f c) ∧
    128 ≤ ac3FrameBytes f c ∧ ac3FrameBytes f c ≤ 3840 ∧
    SyncInfo.sampleRate ⟨UInt8.ofNat f, UInt8.ofNat c⟩ = ac3Rate f := by decide +kernel

/-- C30: AC-3 synchronization information. Accepted exactly: five bytes, sync word, a known sampling rate code and
frame size code. The frame size is the number of bytes that 1536 samples take at the nominal bit rate. -/
theorem C30_ac3_sync (frame : Bytes) :
    (SyncInfo.unmarshal frame).NoPanic ∧
    (∀ s, SyncInfo.unmarshal frame = .ok s →
      [0x0B, 0x77] <+: frame ∧ (∃ b, frame[4]? = some b ∧ b.toNat = 64 * s.fscod.toNat + s.frmsizecod.toNat) ∧
      s.fscod.toNat < 3 ∧ s.frmsizecod.toNat < 38 ∧
      s.frameSize = .ok (ac3FrameBytes s.fscod.toNat s.frmsizecod.toNat) ∧
      128 ≤ ac3FrameBytes s.fscod.toNat s.frmsizecod.toNat ∧ ac3FrameBytes s.fscod.toNat s.frmsizecod.toNat ≤ 3840 ∧
      s.sampleRate = ac3Rate s.fscod.toNat) ∧
    (∀ b, [0x0B, 0x77] <+: frame → frame[4]? = some b → b.toNat / 64 < 3 → b.toNat % 64 < 38 →
      ∃ s, SyncInfo.unmarshal frame = .ok s) := by
  by_cases hl : frame.length < 5
  · have : SyncInfo.unmarshal frame = .err "not enough bits" := by unfold SyncInfo.unmarshal; rw [if_pos hl]
    rw [this]
    refine ⟨by simp, by simp, ?_⟩
    intro b _ h
    rw [List.getElem?_eq_none (by omega)] at h
    cases h
  have hl : 5 ≤ frame.length := by omega
  obtain ⟨b0, buf, rfl, hl0⟩ := exists_cons hl
  obtain ⟨b1, buf, rfl, hl1⟩ := exists_cons hl0
  obtain ⟨b2, buf, rfl, hl2⟩ := exists_cons hl1
  obtain ⟨b3, buf, rfl, hl3⟩ := exists_cons hl2
  obtain ⟨b4, buf, rfl, hl4⟩ := exists_cons hl3
  have e1 : ∀ b : UInt8, (b >>> 6 ≥ 3 ↔ ¬ b.toNat / 64 < 3) ∧ (b &&& 0x3f ≥ 38 ↔ ¬ b.toNat % 64 < 38) ∧
      b >>> 6 = UInt8.ofNat (b.toNat / 64) ∧ b &&& 0x3f = UInt8.ofNat (b.toNat % 64) ∧
      (b >>> 6).toNat = b.toNat / 64 ∧ (b &&& 0x3f).toNat = b.toNat % 64 := forall_u8 (by decide +kernel)
  obtain ⟨ha, hb, hc, hd, he, hf⟩ := e1 b4
  unfold SyncInfo.unmarshal
  rw [if_neg (by simp)]
  simp only [idx_zero_cons, idx_succ_cons, Res.bind_ok, ha, hb]
  by_cases hs : b0 ≠ 0x0B ∨ b1 ≠ 0x77
  · rw [if_pos hs]
    refine ⟨by simp, by simp, ?_⟩
    rintro b ⟨t, ht⟩
    simp only [List.cons_append, List.nil_append, List.cons.injEq] at ht
    rcases hs with h | h
    · exact absurd ht.1.symm h
    · exact absurd ht.2.1.symm h
  rw [if_neg hs]
  by_cases h1 : b4.toNat / 64 < 3
  · rw [if_neg (by omega)]
    by_cases h2 : b4.toNat % 64 < 38
    · rw [if_neg (by omega)]
      obtain ⟨g1, g2, g3, g4⟩ := ac3_frameSize _ h1 _ h2
      refine ⟨by simp, ?_, fun _ _ _ _ _ => ⟨_, rfl⟩⟩
      intro s hs'
      cases hs'
      simp only [ne_eq, not_or, Decidable.not_not] at hs
      simp only [he, hf]
      rw [← hc, ← hd] at g1 g4
      refine ⟨⟨b2 :: b3 :: b4 :: buf, by simp [hs.1, hs.2]⟩, ⟨b4, rfl, by omega⟩, h1, h2, g1, g2, g3, g4⟩
    · rw [if_pos h2]
      refine ⟨by simp, by simp, ?_⟩
      intro b _ h _ h'
      simp only [List.getElem?_cons_succ, List.getElem?_cons_zero, Option.some.injEq] at h
      subst h; exact absurd h' h2
  · rw [if_pos h1]
    refine ⟨by simp, by simp, ?_⟩
    intro b _ h h' _
    simp only [List.getElem?_cons_succ, List.getElem?_cons_zero, Option.some.injEq] at h
    subst h; exact absurd h' h1

example : SyncInfo.unmarshal [0x0b, 0x77, 0x47, 0x11, 0x4d] = .ok ⟨1, 13⟩ := by decide +kernel
example : ac3FrameBytes 1 13 = 418 := by decide +kernel

theorem skip2_ok {c : Bool} {buf : Bytes} {pos : Nat} (h : pos + 2 ≤ 8 * buf.length) :
    skip2 c buf pos = .ok (pos + if c then 2 else 0) := by
  unfold skip2
  cases c
  · rfl
  · obtain ⟨v, hv, _⟩ := read_sound (n := 2) (by decide) (by decide) h
    simp [hv]

/-- C30: AC-3 bit stream information. Decoding reads the A/52 layout, fails exactly below two bytes or above bsid 8,
never panics, and the channel count is the table 5.8 one plus the low-frequency channel. -/
theorem C30_ac3_bsi (buf : Bytes) :
    (BSI.unmarshal buf).NoPanic ∧
    (∀ b, BSI.unmarshal buf = .ok b →
      (∃ mix rest, mix.length = ac3MixBits b.acmod.toNat ∧
        bitsOf buf = bsiBits b.bsid.toNat b.bsmod.toNat b.acmod.toNat mix b.lfeOn ++ rest) ∧
      b.bsid.toNat ≤ 8 ∧ b.bsmod.toNat < 8 ∧ b.acmod.toNat < 8 ∧
      b.channelCount = acmodChannels b.acmod.toNat + b.lfeOn.toNat ∧ 1 ≤ b.channelCount ∧ b.channelCount ≤ 6) ∧
    (∀ b, buf.head? = some b → 2 ≤ buf.length → b.toNat / 8 ≤ 8 → ∃ r, BSI.unmarshal buf = .ok r) := by
  by_cases hl : buf.length < 2
  · have : BSI.unmarshal buf = .err "not enough bits" := by unfold BSI.unmarshal; rw [if_pos hl]
    rw [this]
    exact ⟨by simp, by simp, fun _ _ h => absurd h (by omega)⟩
  have hl : 2 ≤ buf.length := by omega
  obtain ⟨b0, buf, rfl, hl0⟩ := exists_cons hl
  have e0 : ∀ b : UInt8, (b >>> 3 > 8 ↔ ¬ b.toNat / 8 ≤ 8) ∧ (b >>> 3).toNat = b.toNat / 8 ∧
      (b &&& 0b111).toNat < 8 ∧
      byteBits b = bitsOfNat 5 (b >>> 3).toNat ++ bitsOfNat 3 (b &&& 0b111).toNat := forall_u8 (by decide +kernel)
  obtain ⟨ha, hb, hc, hd⟩ := e0 b0
  unfold BSI.unmarshal
  rw [if_neg (by simp; omega), sliceFrom_ok (by simp)]
  simp only [idx_zero_cons, Res.bind_ok, ha, List.drop_succ_cons, List.drop_zero]
  by_cases h8 : b0.toNat / 8 ≤ 8
  case neg =>
    rw [if_pos h8]
    refine ⟨by simp, by simp, ?_⟩
    intro b h _ h'
    simp only [List.head?_cons, Option.some.injEq] at h
    subst h; exact absurd h' h8
  rw [if_neg (by omega)]
  obtain ⟨a, har, hal, had⟩ := read_sound (buf := buf) (pos := 0) (n := 3) (by decide) (by decide) (by omega)
  rw [har]
  simp only [Res.bind_ok, Nat.zero_add]
  have hat : (UInt8.ofNat a).toNat = a := by simp; omega
  have hmix : ∀ a < 8,
      (if decide (UInt8.ofNat a &&& 0x1 ≠ 0 ∧ UInt8.ofNat a ≠ 0x1) = true then 2 else 0) +
      (if decide (UInt8.ofNat a &&& 0x4 ≠ 0) = true then 2 else 0) +
      (if decide (UInt8.ofNat a = 0x2) = true then 2 else 0) = ac3MixBits a ∧ ac3MixBits a ≤ 4 := by decide +kernel
  obtain ⟨hm, hm4⟩ := hmix a hal
  generalize hA : decide (UInt8.ofNat a &&& 0x1 ≠ 0 ∧ UInt8.ofNat a ≠ 0x1) = A at hm ⊢
  generalize hB : decide (UInt8.ofNat a &&& 0x4 ≠ 0) = B at hm ⊢
  generalize hC : decide (UInt8.ofNat a = 0x2) = C at hm ⊢
  rw [skip2_ok (by omega)]
  simp only [Res.bind_ok]
  rw [skip2_ok (by split <;> omega)]
  simp only [Res.bind_ok]
  have hskip : skip2 C buf (3 + (if A = true then 2 else 0) + (if B = true then 2 else 0))
      = .ok (3 + ac3MixBits a) := by
    by_cases hCC : C = true
    · rw [skip2_ok (by rw [if_pos hCC] at hm; omega), Nat.add_assoc, Nat.add_assoc, ← hm, Nat.add_assoc]
    · unfold skip2
      rw [if_neg hCC]
      rw [if_neg hCC] at hm
      congr 1; omega
  rw [hskip]
  simp only [Res.bind_ok]
  obtain ⟨f, hf, hfd⟩ := flag_sound (buf := buf) (pos := 3 + ac3MixBits a) (by omega)
  rw [hf]
  simp only [Res.bind_ok]
  refine ⟨by simp, ?_, fun _ _ _ _ => ⟨_, rfl⟩⟩
  intro b h
  cases h
  simp only [hb, hat]
  have hch : ∀ a < 8, ∀ f : Bool, BSI.channelCount ⟨b0 >>> 3, b0 &&& 7, UInt8.ofNat a, f⟩
      = acmodChannels a + f.toNat ∧ 1 ≤ acmodChannels a ∧ acmodChannels a ≤ 5 := by
    intro a ha f
    have : ∀ a < 8, ∀ f : Bool, BSI.channelCount ⟨0, 0, UInt8.ofNat a, f⟩
      = acmodChannels a + f.toNat ∧ 1 ≤ acmodChannels a ∧ acmodChannels a ≤ 5 := by decide +kernel
    exact this a ha f
  obtain ⟨hc1, hc2, hc3⟩ := hch a hal f
  refine ⟨⟨((bitsOf buf).drop 3).take (ac3MixBits a), (bitsOf buf).drop (3 + ac3MixBits a + 1), ?_, ?_⟩, h8, hc,
    hal, hc1, ?_, ?_⟩
  · simp; omega
  · simp only [bsiBits, bitsOf_cons, hd, hb, List.append_assoc]
    congr 2
    rw [List.drop_zero, Nat.zero_add] at had
    refine had.trans ?_
    congr 1
    rw [List.cons_append, List.nil_append, ← hfd, ← List.drop_drop, List.take_append_drop]
  · rw [hc1]; omega
  · rw [hc1]; have := f.toNat_le; omega

example : BSI.unmarshal [0x40, 0xeb] = .ok ⟨8, 0, 7, true⟩ := by decide +kernel
example : BSI.channelCount ⟨8, 0, 7, true⟩ = 6 := by decide +kernel

end AC3

section EAC3
open Verif.EAC3

/-- The value of the two bits after `fscod`. -/
def blkField (s : SyncInfo) : UInt8 := if s.fscod = 3 then s.fscod2 else s.numblkscod

/-- C30: decoding an E-AC-3 header reads the TS 102 366 layout and never panics; on success every accessor is
defined and in the range of the standard. -/
theorem C30_eac3 (frame : Bytes) :
    (SyncInfo.unmarshal frame).NoPanic ∧
    (∀ s, SyncInfo.unmarshal frame = .ok s →
      (∃ rest, bitsOf frame = eac3Bits s.strmtyp.toNat s.substreamid.toNat s.frmsiz s.fscod.toNat (blkField s).toNat
        s.acmod.toNat s.lfeon s.bsid.toNat ++ rest) ∧
      s.strmtyp.toNat < 4 ∧ s.substreamid.toNat < 8 ∧ s.frmsiz < 2 ^ 11 ∧ s.acmod.toNat < 8 ∧ s.bsid = 16 ∧
      s.frameSize = 2 * (s.frmsiz + 1) ∧ 2 ≤ s.frameSize ∧ s.frameSize ≤ 4096 ∧
      s.sampleRate = .ok (if s.fscod.toNat = 3 then ac3Rate s.fscod2.toNat / 2 else ac3Rate s.fscod.toNat) ∧
      s.channelCount = acmodChannels s.acmod.toNat + s.lfeon.toNat ∧ 1 ≤ s.channelCount ∧ s.channelCount ≤ 6 ∧
      s.numBlocks ∈ [1, 2, 3, 6] ∧ (s.fscod.toNat = 3 → s.numBlocks = 6 ∧ s.fscod2.toNat < 3)) := by
  by_cases hl : frame.length < 8
  · have : SyncInfo.unmarshal frame = .err "not enough bytes" := by unfold SyncInfo.unmarshal; rw [if_pos hl]
    rw [this]
    exact ⟨by simp, by simp⟩
  have hl8 : 8 ≤ frame.length := by omega
  unfold SyncInfo.unmarshal
  rw [if_neg hl, idx_of_lt (show 0 < frame.length by omega), idx_of_lt (show 1 < frame.length by omega)]
  simp only [Res.bind_ok]
  by_cases hs : frame[0] ≠ 0x0B ∨ frame[1] ≠ 0x77
  · rw [if_pos hs]; exact ⟨by simp, by simp⟩
  rw [if_neg hs]
  simp only [ne_eq, not_or, Decidable.not_not] at hs
  have hsync : bitsOf frame = bitsOfNat 16 0x0B77 ++ (bitsOf frame).drop 16 := by
    obtain ⟨b0, t, rfl, hl0⟩ := exists_cons hl8
    obtain ⟨b1, t, rfl, hl1⟩ := exists_cons hl0
    simp only [List.getElem_cons_zero, List.getElem_cons_succ] at hs
    obtain ⟨rfl, rfl⟩ := hs
    rw [bitsOf_cons, bitsOf_cons, ← List.append_assoc, List.drop_left' (by simp)]
    congr 1
  obtain ⟨v1, h1, l1, d1⟩ := read_sound (buf := frame) (pos := 16) (n := 2) (by decide) (by decide) (by omega)
  rw [h1]; simp only [Res.bind_ok]
  obtain ⟨v2, h2, l2, d2⟩ := read_sound (buf := frame) (pos := 18) (n := 3) (by decide) (by decide) (by omega)
  rw [h2]; simp only [Res.bind_ok]
  obtain ⟨v3, h3, l3, d3⟩ := read_sound (buf := frame) (pos := 21) (n := 11) (by decide) (by decide) (by omega)
  rw [h3]; simp only [Res.bind_ok]
  obtain ⟨v4, h4, l4, d4⟩ := read_sound (buf := frame) (pos := 32) (n := 2) (by decide) (by decide) (by omega)
  rw [h4]; simp only [Res.bind_ok]
  obtain ⟨v5, h5, l5, d5⟩ := read_sound (buf := frame) (pos := 34) (n := 2) (by decide) (by decide) (by omega)
  obtain ⟨v6, h6, l6, d6⟩ := read_sound (buf := frame) (pos := 36) (n := 3) (by decide) (by decide) (by omega)
  obtain ⟨v7, h7, d7⟩ := flag_sound (buf := frame) (pos := 39) (by omega)
  obtain ⟨v8, h8, l8, d8⟩ := read_sound (buf := frame) (pos := 40) (n := 5) (by decide) (by decide) (by omega)
  have hu : ∀ v < 256, (UInt8.ofNat v).toNat = v := by intro v hv; simp; omega
  have heq : ∀ v < 256, ∀ w < 256, (UInt8.ofNat v = UInt8.ofNat w ↔ v = w) := by
    intro v hv w hw
    rw [← UInt8.toNat_inj, hu v hv, hu w hw]
  have e3 : UInt8.ofNat v4 = 3 ↔ v4 = 3 := heq v4 (by omega) 3 (by omega)
  have e5 : UInt8.ofNat v5 = 3 ↔ v5 = 3 := heq v5 (by omega) 3 (by omega)
  have e16 : UInt8.ofNat v8 = 16 ↔ v8 = 16 := heq v8 (by omega) 16 (by omega)
  by_cases hbad : v4 = 3 ∧ v5 = 3
  · have : readBlks frame (32 + 2) (UInt8.ofNat v4) = .err "invalid fscod2" := by
      unfold readBlks
      rw [if_pos (e3.2 hbad.1), h5]
      simp only [Res.bind_ok]
      rw [if_pos (e5.2 hbad.2)]
    rw [this]
    exact ⟨by simp, by simp⟩
  have hblk : readBlks frame (32 + 2) (UInt8.ofNat v4)
      = .ok (if v4 = 3 then UInt8.ofNat v5 else 0, if v4 = 3 then 3 else UInt8.ofNat v5, 36) := by
    unfold readBlks
    by_cases hv : v4 = 3
    · rw [if_pos (e3.2 hv), h5]
      simp only [Res.bind_ok, if_pos hv]
      rw [if_neg (fun h => hbad ⟨hv, e5.1 h⟩)]
    · rw [if_neg (fun h => hv (e3.1 h)), h5]
      simp only [Res.bind_ok, if_neg hv]
  rw [hblk]; simp only [Res.bind_ok]
  rw [h6]; simp only [Res.bind_ok]
  rw [h7]; simp only [Res.bind_ok]
  rw [h8]; simp only [Res.bind_ok]
  by_cases h16 : UInt8.ofNat v8 ≠ 16
  · rw [if_pos h16]; exact ⟨by simp, by simp⟩
  rw [if_neg h16]
  simp only [ne_eq, Decidable.not_not] at h16
  refine ⟨by simp, ?_⟩
  intro s h
  cases h
  have hb : blkField ⟨UInt8.ofNat v1, UInt8.ofNat v2, v3 % 2 ^ 16, UInt8.ofNat v4,
      if v4 = 3 then UInt8.ofNat v5 else 0, if v4 = 3 then 3 else UInt8.ofNat v5, UInt8.ofNat v6, v7,
      UInt8.ofNat v8⟩ = UInt8.ofNat v5 := by
    unfold blkField
    simp only [e3]
    split <;> rfl
  rw [hb]
  simp only [hu v1 (by omega), hu v2 (by omega), hu v4 (by omega), hu v5 (by omega), hu v6 (by omega),
    hu v8 (by omega), Nat.mod_eq_of_lt (show v3 < 2 ^ 16 by omega)]
  refine ⟨⟨(bitsOf frame).drop 45, ?_⟩, l1, l2, l3, l6, h16, by simp [SyncInfo.frameSize, Nat.mul_comm],
    by simp only [SyncInfo.frameSize]; omega, by simp only [SyncInfo.frameSize]; omega, ?_, ?_, ?_, ?_, ?_, ?_⟩
  · refine hsync.trans ?_
    rw [d1, d2, d3, d4, d5, d6, d7, d8]
    simp only [eac3Bits, List.append_assoc, List.cons_append]
  · have : ∀ a < 4, ∀ b < 4, ¬ (a = 3 ∧ b = 3) → SyncInfo.sampleRate ⟨0, 0, 0, UInt8.ofNat a,
        if a = 3 then UInt8.ofNat b else 0, 0, 0, false, 0⟩
        = .ok (if a = 3 then ac3Rate (if a = 3 then UInt8.ofNat b else 0).toNat / 2 else ac3Rate a) := by decide +kernel
    exact this v4 l4 v5 l5 hbad
  · have : ∀ a < 8, ∀ f : Bool, SyncInfo.channelCount ⟨0, 0, 0, 0, 0, 0, UInt8.ofNat a, f, 0⟩
        = acmodChannels a + f.toNat := by decide +kernel
    exact this v6 l6 v7
  · have : ∀ a < 8, ∀ f : Bool, 1 ≤ SyncInfo.channelCount ⟨0, 0, 0, 0, 0, 0, UInt8.ofNat a, f, 0⟩ := by decide +kernel
    exact this v6 l6 v7
  · have : ∀ a < 8, ∀ f : Bool, SyncInfo.channelCount ⟨0, 0, 0, 0, 0, 0, UInt8.ofNat a, f, 0⟩ ≤ 6 := by decide +kernel
    exact this v6 l6 v7
  · have : ∀ n : UInt8, SyncInfo.numBlocks ⟨0, 0, 0, 0, 0, n, 0, false, 0⟩ ∈ [1, 2, 3, 6] := forall_u8 (by decide +kernel)
    exact this _
  · intro hv
    simp only [hv, if_true, hu v5 (by omega)]
    exact ⟨rfl, by omega⟩

/-- C30: the rate of any value of the structure, also of one that was not obtained from a header: nothing is indexed out of its table, and reserved
codes have the rate 0. -/
theorem C30_eac3_rate (s : SyncInfo) :
    s.sampleRate = .ok (if s.fscod.toNat = 3 then if s.fscod2.toNat < 3 then ac3Rate s.fscod2.toNat / 2 else 0
      else if s.fscod.toNat < 3 then ac3Rate s.fscod.toNat else 0) := by
  have h3 : s.fscod = 3 ↔ s.fscod.toNat = 3 := ⟨fun h => by rw [h]; rfl, fun h => UInt8.toNat_inj.1 (by rw [h]; rfl)⟩
  have key : ∀ n : Nat, n < 3 → idx sampleRates n = .ok (ac3Rate n) ∧ idx sampleRates2 n = .ok (ac3Rate n / 2) := by
    intro n hn
    match n, hn with
    | 0, _ => exact ⟨rfl, rfl⟩
    | 1, _ => exact ⟨rfl, rfl⟩
    | 2, _ => exact ⟨rfl, rfl⟩
  unfold SyncInfo.sampleRate
  rw [show sampleRates2.length = 3 from rfl, show sampleRates.length = 3 from rfl]
  by_cases h : s.fscod.toNat = 3
  · rw [if_pos (h3.2 h), if_pos h]
    by_cases h2 : s.fscod2.toNat < 3
    · rw [if_pos h2, if_pos h2, (key _ h2).2]
    · rw [if_neg h2, if_neg h2]
  · rw [if_neg (fun e => h (h3.1 e)), if_neg h]
    by_cases h2 : s.fscod.toNat < 3
    · rw [if_pos h2, if_pos h2, (key _ h2).1]
    · rw [if_neg h2, if_neg h2]

example : (⟨0, 0, 0, 3, 1, 3, 0, false, 16⟩ : SyncInfo).sampleRate = .ok 22050 ∧ (⟨0, 0, 0, 9, 0, 0, 0, false, 16⟩ : SyncInfo).sampleRate = .ok 0 := by
  decide +kernel

/-- C30: every header of the TS 102 366 layout with bsid 16 and no reserved rate is accepted and its fields are
returned. -/
theorem C30_eac3_complete (frame : Bytes) (strmtyp substreamid frmsiz fscod blk acmod : Nat) (lfe : Bool)
    (rest : List Bool) (h1 : strmtyp < 4) (h2 : substreamid < 8) (h3 : frmsiz < 2 ^ 11) (h4 : fscod < 4)
    (h5 : blk < 4) (h6 : acmod < 8) (hv : ¬ (fscod = 3 ∧ blk = 3)) (hl : 8 ≤ frame.length)
    (h : bitsOf frame = eac3Bits strmtyp substreamid frmsiz fscod blk acmod lfe 16 ++ rest) :
    SyncInfo.unmarshal frame = .ok ⟨UInt8.ofNat strmtyp, UInt8.ofNat substreamid, frmsiz, UInt8.ofNat fscod,
      if fscod = 3 then UInt8.ofNat blk else 0, if fscod = 3 then 3 else UInt8.ofNat blk, UInt8.ofNat acmod, lfe, 16⟩ := by
  unfold eac3Bits at h
  simp only [List.append_assoc, List.cons_append] at h
  obtain ⟨b0, t, rfl, hl0⟩ := exists_cons hl
  obtain ⟨b1, t, rfl, hl1⟩ := exists_cons hl0
  have hd : (bitsOf (b0 :: b1 :: t)).drop 16 = bitsOf t := by
    rw [bitsOf_cons, bitsOf_cons, ← List.append_assoc, List.drop_left' (by simp)]
  have hb : b0 = 0x0B ∧ b1 = 0x77 := by
    have := congrArg (List.take 16) h
    rw [List.take_left' (by simp), bitsOf_cons, bitsOf_cons, ← List.append_assoc, List.take_left' (by simp)] at this
    have hsp : bitsOfNat 16 0x0B77 = byteBits 0x0B ++ byteBits 0x77 := by decide +kernel
    have h' : bitsOf [b0, b1] = bitsOf [0x0B, 0x77] := by
      rw [hsp] at this
      simpa using this
    have := bitsOf_inj h'
    simp only [List.cons.injEq, and_true] at this
    exact this
  have h16 := congrArg (List.drop 16) h
  rw [List.drop_left' (by simp)] at h16
  obtain ⟨r1, d1, _⟩ := read_field (by decide) (by decide) h1 h16
  obtain ⟨r2, d2, _⟩ := read_field (by decide) (by decide) h2 d1
  obtain ⟨r3, d3, _⟩ := read_field (by decide) (by decide) h3 d2
  obtain ⟨r4, d4, _⟩ := read_field (by decide) (by decide) h4 d3
  obtain ⟨r5, d5, _⟩ := read_field (by decide) (by decide) h5 d4
  obtain ⟨r6, d6, _⟩ := read_field (by decide) (by decide) h6 d5
  obtain ⟨r7, d7, _⟩ := flag_field d6
  obtain ⟨r8, d8, _⟩ := read_field (by decide) (by decide) (by decide) d7
  have e3 : ∀ v < 4, (UInt8.ofNat v = 3 ↔ v = 3) := by decide +kernel
  have hblk : readBlks (b0 :: b1 :: t) (16 + 2 + 3 + 11 + 2) (UInt8.ofNat fscod)
      = .ok (if fscod = 3 then UInt8.ofNat blk else 0, if fscod = 3 then 3 else UInt8.ofNat blk,
          16 + 2 + 3 + 11 + 2 + 2) := by
    unfold readBlks
    rw [r5]
    by_cases hf : fscod = 3
    · rw [if_pos ((e3 _ h4).2 hf)]
      simp only [Res.bind_ok, if_pos hf]
      rw [if_neg (fun h => hv ⟨hf, (e3 _ h5).1 h⟩)]
    · rw [if_neg (fun h => hf ((e3 _ h4).1 h))]
      simp only [Res.bind_ok, if_neg hf]
  unfold SyncInfo.unmarshal
  rw [if_neg (by simp at hl ⊢; omega)]
  simp only [idx_zero_cons, idx_succ_cons, Res.bind_ok]
  rw [if_neg (by simp [hb.1, hb.2]), r1]
  simp only [Res.bind_ok]
  rw [r2]; simp only [Res.bind_ok]
  rw [r3]; simp only [Res.bind_ok]
  rw [r4]; simp only [Res.bind_ok]
  rw [hblk]; simp only [Res.bind_ok]
  rw [r6]; simp only [Res.bind_ok]
  rw [r7]; simp only [Res.bind_ok]
  rw [r8]; simp only [Res.bind_ok]
  rw [if_neg (by decide), Nat.mod_eq_of_lt (by omega)]
  rfl

example : SyncInfo.unmarshal [0x0b, 0x77, 0x02, 0xff, 0x3f, 0x86, 0, 0]
    = .ok ⟨0, 0, 767, 0, 0, 3, 7, true, 16⟩ := by decide +kernel
example : (bitsOf [0x0b, 0x77, 0x02, 0xff, 0x3f, 0x86, 0, 0]).take 45 = eac3Bits 0 0 767 0 3 7 true 16 := by
  decide +kernel

end EAC3

section MPEG1Audio
open Verif.MPEG1Audio

/-- What the decoder looks up for a valid choice of codes. -/
theorem mpa_tables : ∀ m : Bool, ∀ l < 4, 2 ≤ l → ∀ b < 15, b ≠ 0 → ∀ r < 3,
    (do let t ← idx bitrates (mpegIndex m); let t ← idx t (l - 1); idx t (b - 1))
      = .ok (mpaKbps m l b * 1000) ∧
    (do let t ← idx sampleRates (mpegIndex m); idx t r) = .ok (mpaRate m r) ∧ 8 ≤ mpaKbps m l b ∧
    48 ≤ 144 * (mpaKbps m l b * 1000) / mpaRate m r ∧ 144 * (mpaKbps m l b * 1000) / mpaRate m r ≤ 1728 ∧
    mpaRate m r ≠ 0 := by
  have h1 : ∀ m : Bool, ∀ l < 2, ∀ b < 14,
      (idx bitrates (mpegIndex m) >>= fun t => idx t (l + 1) >>= fun t => idx t b)
        = Res.ok (mpaKbps m (l + 2) (b + 1) * 1000) ∧ 8 ≤ mpaKbps m (l + 2) (b + 1) := by decide +kernel
  have h2 : ∀ m : Bool, ∀ r < 3,
      (idx sampleRates (mpegIndex m) >>= fun t => idx t r) = Res.ok (mpaRate m r) ∧ mpaRate m r ≠ 0 := by
    decide +kernel
  have h3 : ∀ m : Bool, ∀ l < 2, ∀ b < 14, ∀ r < 3,
      48 ≤ 144 * (mpaKbps m (l + 2) (b + 1) * 1000) / mpaRate m r ∧
      144 * (mpaKbps m (l + 2) (b + 1) * 1000) / mpaRate m r ≤ 1728 := by decide +kernel
  intro m l hl hl2 b hb hb0 r hr
  obtain ⟨l, rfl⟩ : ∃ k, l = k + 2 := ⟨l - 2, by omega⟩
  obtain ⟨b, rfl⟩ : ∃ k, b = k + 1 := ⟨b - 1, by omega⟩
  exact ⟨(h1 m l (by omega) b (by omega)).1, (h2 m r hr).1, (h1 m l (by omega) b (by omega)).2,
    (h3 m l (by omega) b (by omega) r hr).1, (h3 m l (by omega) b (by omega) r hr).2, (h2 m r hr).2⟩

/-- A header as the standard describes it, with the decoded value. -/
def HeaderOf (buf : Bytes) (h : FrameHeader) : Prop :=
  ∃ prot bi ri priv mode tail rest,
    bitsOf buf = mpaBits h.mpeg2 h.layer.toNat prot bi ri h.padding priv mode tail ++ rest ∧
    h.layer ∈ [2, 3] ∧ 1 ≤ bi ∧ bi ≤ 14 ∧ ri < 3 ∧ mode < 4 ∧ tail < 64 ∧
    h.bitrate = mpaKbps h.mpeg2 h.layer.toNat bi * 1000 ∧ h.sampleRate = mpaRate h.mpeg2 ri ∧
    h.channelMode.toNat = mode

theorem mpa_b1 : ∀ b1 : UInt8, ((4 : UInt8) - ((b1 >>> 1) &&& 0b11) ≤ 1 ∨ (4 : UInt8) - ((b1 >>> 1) &&& 0b11) ≥ 4) ∨
    ((4 : UInt8) - ((b1 >>> 1) &&& 0b11) = 2 ∨ (4 : UInt8) - ((b1 >>> 1) &&& 0b11) = 3) := forall_u8 (by decide +kernel)

theorem mpa_sync (b0 b1 : UInt8) : b0.toUInt16 <<< 4 ||| b1.toUInt16 >>> 4 = 0x0FFF ↔ b0 = 0xFF ∧ b1.toNat / 16 = 15 := by
  have h0 := b0.toNat_lt
  have h1 := b1.toNat_lt
  rw [← UInt16.toNat_inj, UInt16.toNat_or, UInt16.toNat_shiftLeft, UInt16.toNat_shiftRight, ← UInt8.toNat_inj]
  simp only [UInt8.toNat_toUInt16, show (4 : UInt16).toNat = 4 from rfl, show (0x0FFF : UInt16).toNat = 4095 from rfl,
    show (0xFF : UInt8).toNat = 255 from rfl, show 4 % 16 = 4 from rfl]
  rw [Nat.mod_eq_of_lt (by rw [Nat.shiftLeft_eq]; omega), Nat.shiftRight_eq_div_pow,
    shiftLeft_or _ _ _ (by omega)]
  omega

theorem mpa_b1_bits : ∀ b1 : UInt8, b1.toNat / 16 = 15 →
    ((4 : UInt8) - ((b1 >>> 1) &&& 0b11) = 2 ∨ (4 : UInt8) - ((b1 >>> 1) &&& 0b11) = 3) →
    byteBits b1 = bitsOfNat 4 15 ++ ((!decide ((b1 >>> 3) &&& 0x01 = 0)) ::
      (bitsOfNat 2 (4 - ((4 : UInt8) - ((b1 >>> 1) &&& 0b11)).toNat) ++ [decide (b1.toNat % 2 = 1)])) := forall_u8 (by decide +kernel)

theorem mpa_b2_bits : ∀ b2 : UInt8, byteBits b2 = bitsOfNat 4 (b2 >>> 4).toNat ++
    (bitsOfNat 2 ((b2 >>> 2) &&& 0b11).toNat ++ [decide ((b2 >>> 1) &&& 0b1 ≠ 0), decide (b2.toNat % 2 = 1)]) ∧
    (b2 >>> 4).toNat < 16 ∧ ((b2 >>> 2) &&& 0b11).toNat < 4 := forall_u8 (by decide +kernel)

theorem mpa_b3_bits : ∀ b3 : UInt8, byteBits b3 = bitsOfNat 2 (b3 >>> 6).toNat ++ bitsOfNat 6 (b3.toNat % 64) ∧
    (b3 >>> 6).toNat < 4 := forall_u8 (by decide +kernel)

theorem mpa_lookup (m : Bool) (layer : UInt8) (bi ri : Nat) (hl : layer = 2 ∨ layer = 3) (hb : bi < 15) (hb0 : bi ≠ 0)
    (hr : ri < 3) {β} (f : Nat → Nat → Res β) :
    (do let t ← idx bitrates (mpegIndex m)
        let t ← idx t (layer - 1).toNat
        let br ← idx t (bi - 1)
        let t ← idx sampleRates (mpegIndex m)
        let sr ← idx t ri
        f br sr) = f (mpaKbps m layer.toNat bi * 1000) (mpaRate m ri) := by
  have hl' : layer.toNat < 4 ∧ 2 ≤ layer.toNat ∧ (layer - 1).toNat = layer.toNat - 1 := by
    rcases hl with rfl | rfl <;> decide
  obtain ⟨h1, h2, _⟩ := mpa_tables m layer.toNat hl'.1 hl'.2.1 bi hb hb0 ri hr
  rw [hl'.2.2]
  rw [Res.bind_eq_ok] at h1
  obtain ⟨t1, e1, h1⟩ := h1
  rw [Res.bind_eq_ok] at h1
  obtain ⟨t2, e2, h1⟩ := h1
  rw [Res.bind_eq_ok] at h2
  obtain ⟨t3, e3, h2⟩ := h2
  simp only [e1, e2, h1, e3, h2, Res.bind_ok]

/-- C31: decoding never panics, and what it accepts is a standard header. -/
theorem C31_decode (buf : Bytes) :
    (FrameHeader.unmarshal buf).NoPanic ∧
    (∀ h, FrameHeader.unmarshal buf = .ok h → 5 ≤ buf.length ∧ HeaderOf buf h) := by
  by_cases hl : buf.length < 5
  · have : FrameHeader.unmarshal buf = .err "not enough bytes" := by unfold FrameHeader.unmarshal; rw [if_pos hl]
    rw [this]; exact ⟨by simp, by simp⟩
  have hl : 5 ≤ buf.length := by omega
  obtain ⟨b0, buf, rfl, hl0⟩ := exists_cons hl
  obtain ⟨b1, buf, rfl, hl1⟩ := exists_cons hl0
  obtain ⟨b2, buf, rfl, hl2⟩ := exists_cons hl1
  obtain ⟨b3, buf, rfl, hl3⟩ := exists_cons hl2
  unfold FrameHeader.unmarshal
  rw [if_neg (by simp; omega)]
  simp only [idx_zero_cons, idx_succ_cons, Res.bind_ok]
  by_cases hs : b0.toUInt16 <<< 4 ||| b1.toUInt16 >>> 4 ≠ 0x0FFF
  · rw [if_pos hs]; exact ⟨by simp, by simp⟩
  rw [if_neg hs]
  simp only [ne_eq, Decidable.not_not, mpa_sync] at hs
  rcases mpa_b1 b1 with h | hlay
  · rw [if_pos h]; exact ⟨by simp, by simp⟩
  have hlay' : ¬ ((4 : UInt8) - ((b1 >>> 1) &&& 0b11) ≤ 1 ∨ (4 : UInt8) - ((b1 >>> 1) &&& 0b11) ≥ 4) := by
    rcases hlay with h | h <;> rw [h] <;> decide
  rw [if_neg hlay']
  by_cases hb : b2 >>> 4 = 0 ∨ b2 >>> 4 ≥ 15
  · rw [if_pos hb]; exact ⟨by simp, by simp⟩
  rw [if_neg hb]
  have e2 : ∀ b : UInt8, ¬ (b >>> 4 = 0 ∨ b >>> 4 ≥ 15) →
      (b >>> 4).toNat < 15 ∧ (b >>> 4).toNat ≠ 0 ∧ (b >>> 4 - 1).toNat = (b >>> 4).toNat - 1 :=
    forall_u8 (by decide +kernel)
  obtain ⟨f1, f2, f3⟩ := e2 b2 hb
  have hb1 := mpa_b1_bits b1 hs.2 hlay
  generalize (4 : UInt8) - ((b1 >>> 1) &&& 0b11) = layer at hlay hb1 ⊢
  generalize decide ((b1 >>> 3) &&& 0x01 = 0) = m at hb1 ⊢
  by_cases hr : (b2 >>> 2) &&& 0b11 ≥ 3
  · rw [f3]
    simp only [if_pos hr]
    obtain ⟨h1, -⟩ := mpa_tables m layer.toNat (by rcases hlay with rfl | rfl <;> decide)
      (by rcases hlay with rfl | rfl <;> decide) _ f1 f2 0 (by decide)
    rw [show layer.toNat - 1 = (layer - 1).toNat by rcases hlay with rfl | rfl <;> decide, Res.bind_eq_ok] at h1
    obtain ⟨t1, e1, h1⟩ := h1
    rw [Res.bind_eq_ok] at h1
    obtain ⟨t2, e2, h1⟩ := h1
    simp only [e1, e2, h1, Res.bind_ok]
    exact ⟨by simp, by simp⟩
  · have hr' : ((b2 >>> 2) &&& 0b11).toNat < 3 := by
      rw [ge_iff_le, UInt8.le_iff_toNat_le] at hr
      simpa using hr
    simp only [if_neg hr]
    rw [f3, mpa_lookup m layer _ _ hlay f1 f2 hr']
    refine ⟨by simp, ?_⟩
    intro h hh
    cases hh
    refine ⟨hl, b1.toNat % 2 = 1, (b2 >>> 4).toNat, ((b2 >>> 2) &&& 0b11).toNat, b2.toNat % 2 = 1, (b3 >>> 6).toNat,
      b3.toNat % 64, bitsOf buf, ?_, by simpa using hlay, by omega, by omega, hr',
      (mpa_b3_bits b3).2, by omega, rfl, rfl, rfl⟩
    simp only [bitsOf_cons, hb1, (mpa_b2_bits b2).1, (mpa_b3_bits b3).1, hs.1, mpaBits, List.append_assoc,
      List.cons_append, List.nil_append]
    have : bitsOfNat 12 0xFFF = byteBits 0xFF ++ bitsOfNat 4 15 := by decide +kernel
    rw [this, List.append_assoc]

/-- C31: an accepted header describes a frame of at least 48 and at most 1729 bytes; the accessors do not panic. -/
theorem C31_frame_len (buf : Bytes) (h : FrameHeader) (hh : FrameHeader.unmarshal buf = .ok h) :
    (∃ fl, h.frameLen = .ok fl ∧ 48 ≤ fl ∧ fl ≤ 1729) ∧
    h.sampleCount = .ok (mpaSamples h.mpeg2 h.layer.toNat) := by
  obtain ⟨_, prot, bi, ri, priv, mode, tail, rest, _, hl, h1, h2, h3, _, _, h4, h5, _⟩ := (C31_decode buf).2 h hh
  have hl' : h.layer.toNat < 4 ∧ 2 ≤ h.layer.toNat := by
    simp only [List.mem_cons, List.not_mem_nil, or_false] at hl
    rcases hl with hl | hl <;> rw [hl] <;> decide
  obtain ⟨_, _, _, g1, g2, g3⟩ := mpa_tables h.mpeg2 h.layer.toNat hl'.1 hl'.2 bi (by omega) (by omega) ri h3
  constructor
  · unfold FrameHeader.frameLen
    rw [h4, h5, if_neg g3]
    split
    · exact ⟨_, rfl, by omega, by omega⟩
    · exact ⟨_, rfl, by omega, by omega⟩
  · unfold FrameHeader.sampleCount
    simp only [List.mem_cons, List.not_mem_nil, or_false] at hl
    rcases hl with hl | hl <;> rw [hl] <;> cases h.mpeg2 <;> rfl

/-- C31: except for MPEG-2 layer III, the length is the one of the standard. -/
theorem C31_frame_len_standard (buf : Bytes) (h : FrameHeader) (hh : FrameHeader.unmarshal buf = .ok h)
    (hne : ¬ (h.mpeg2 = true ∧ h.layer = 3)) :
    h.frameLen = .ok (mpaFrameBytes h.mpeg2 h.layer.toNat h.bitrate h.sampleRate h.padding) := by
  obtain ⟨_, prot, bi, ri, priv, mode, tail, rest, _, hl, h1, h2, h3, _, _, h4, h5, _⟩ := (C31_decode buf).2 h hh
  have hl' : h.layer.toNat < 4 ∧ 2 ≤ h.layer.toNat := by
    simp only [List.mem_cons, List.not_mem_nil, or_false] at hl
    rcases hl with hl | hl <;> rw [hl] <;> decide
  obtain ⟨_, _, _, g1, g2, g3⟩ := mpa_tables h.mpeg2 h.layer.toNat hl'.1 hl'.2 bi (by omega) (by omega) ri h3
  have : mpaSamples h.mpeg2 h.layer.toNat = 1152 := by
    unfold mpaSamples
    rw [if_neg]
    rintro ⟨a, b⟩
    exact hne ⟨a, UInt8.toNat_inj.1 b⟩
  unfold FrameHeader.frameLen mpaFrameBytes
  rw [this, if_neg (by rw [h5]; exact g3)]
  cases h.padding <;> rfl

/-- C31, a defect: for MPEG-2 layer III (576 samples per frame) the length is computed as for 1152 samples, twice the
standard's. This 64 kbit/s, 24 kHz header gives 384 bytes instead of 192. -/
theorem C31_mpeg2_layer3_wrong : ∃ h, FrameHeader.unmarshal [0xFF, 0xF3, 0x84, 0xC0, 0] = .ok h ∧
    h.mpeg2 = true ∧ h.layer = 3 ∧ h.frameLen = .ok 384 ∧
    mpaFrameBytes h.mpeg2 h.layer.toNat h.bitrate h.sampleRate h.padding = 192 := by
  refine ⟨_, rfl, ?_⟩
  decide +kernel

/-- A complete frame: it starts with a header that announces its length. -/
def IsFrame (f : Bytes) : Prop := ∃ h, FrameHeader.unmarshal f = .ok h ∧ h.frameLen = .ok f.length

/-- The header only depends on the first bytes. -/
theorem unmarshal_append (f rest : Bytes) (hf : 5 ≤ f.length) :
    FrameHeader.unmarshal (f ++ rest) = FrameHeader.unmarshal f := by
  obtain ⟨b0, f, rfl, hl0⟩ := exists_cons hf
  obtain ⟨b1, f, rfl, hl1⟩ := exists_cons hl0
  obtain ⟨b2, f, rfl, hl2⟩ := exists_cons hl1
  obtain ⟨b3, f, rfl, hl3⟩ := exists_cons hl2
  unfold FrameHeader.unmarshal
  rw [if_neg (by simp; omega), if_neg (by simp; omega)]
  simp only [List.cons_append, idx_zero_cons, idx_succ_cons]

theorem splitLoop_spec (fuel : Nat) (data : Bytes) (acc : List Bytes) (hf : data.length ≤ fuel) :
    (splitLoop fuel data acc).NoPanic ∧
    ∀ out, splitLoop fuel data acc = .ok out →
      ∃ new, out = acc ++ new ∧ new.flatten = data ∧ ∀ f ∈ new, IsFrame f := by
  induction fuel generalizing data acc with
  | zero =>
    have : data = [] := List.length_eq_zero_iff.1 (by omega)
    subst this
    refine ⟨by simp [splitLoop], ?_⟩
    intro out h
    simp only [splitLoop, List.length_nil, if_true, Res.ok.injEq] at h
    exact ⟨[], by simp [h], rfl, by simp⟩
  | succ fuel ih =>
    unfold splitLoop
    by_cases h0 : data.length = 0
    · rw [if_pos h0]
      have : data = [] := List.length_eq_zero_iff.1 h0
      subst this
      refine ⟨by simp, ?_⟩
      intro out h
      simp only [Res.ok.injEq] at h
      exact ⟨[], by simp [h], rfl, by simp⟩
    rw [if_neg h0]
    cases hh : FrameHeader.unmarshal data with
    | panic => exact absurd hh (C31_decode data).1
    | err e => exact ⟨by simp, by simp⟩
    | ok h =>
      obtain ⟨⟨fl, hfl, h48, _⟩, _⟩ := C31_frame_len data h hh
      rw [Res.bind_ok, hfl, Res.bind_ok]
      by_cases hlt : data.length < fl
      · rw [if_pos hlt]; exact ⟨by simp, by simp⟩
      rw [if_neg hlt, slice_ok (by omega) (by omega), sliceFrom_ok (by omega)]
      simp only [Res.bind_ok, List.drop_zero, Nat.sub_zero]
      obtain ⟨hp, ho⟩ := ih (data.drop fl) (acc ++ [data.take fl]) (by simp; omega)
      refine ⟨hp, ?_⟩
      intro out hout
      obtain ⟨new, h1, h2, h3⟩ := ho out hout
      refine ⟨data.take fl :: new, by simp [h1], by simp [h2], ?_⟩
      intro f hf
      rcases List.mem_cons.1 hf with rfl | hf
      · refine ⟨h, ?_, ?_⟩
        · rw [← unmarshal_append _ (data.drop fl) (by simp; omega), List.take_append_drop, hh]
        · rw [hfl, List.length_take, Nat.min_eq_left (by omega)]
      · exact h3 f hf

/-- C31: splitting a buffer terminates without panicking; the frames it hands out are complete frames and are
exactly the bytes of the buffer. -/
theorem C31_split_sound (data : Bytes) : (split data).NoPanic ∧
    ∀ frames, split data = .ok frames → frames.flatten = data ∧ ∀ f ∈ frames, IsFrame f := by
  obtain ⟨h1, h2⟩ := splitLoop_spec data.length data [] (Nat.le_refl _)
  refine ⟨h1, ?_⟩
  intro frames hf
  obtain ⟨new, e, h, h'⟩ := h2 frames hf
  rw [List.nil_append] at e
  subst e
  exact ⟨h, h'⟩

theorem isFrame_length {f : Bytes} (h : IsFrame f) : 48 ≤ f.length := by
  obtain ⟨h, h1, h2⟩ := h
  obtain ⟨⟨fl, h3, h4, _⟩, _⟩ := C31_frame_len f h h1
  rw [h2] at h3
  cases h3
  exact h4

theorem splitLoop_complete (fuel : Nat) (frames : List Bytes) (acc : List Bytes) (hf : frames.flatten.length ≤ fuel)
    (h : ∀ f ∈ frames, IsFrame f) : splitLoop fuel frames.flatten acc = .ok (acc ++ frames) := by
  induction frames generalizing fuel acc with
  | nil => cases fuel <;> simp [splitLoop]
  | cons f l ih =>
    have hlen := isFrame_length (h f (by simp))
    obtain ⟨hd, h1, h2⟩ := h f (by simp)
    rw [List.flatten_cons, List.length_append] at hf
    obtain ⟨fuel, rfl⟩ : ∃ k, fuel = k + 1 := ⟨fuel - 1, by omega⟩
    rw [List.flatten_cons, splitLoop, if_neg (by rw [List.length_append]; omega), unmarshal_append _ _ (by omega), h1,
      Res.bind_ok, h2, Res.bind_ok, if_neg (by rw [List.length_append]; omega),
      slice_ok (by omega) (by rw [List.length_append]; omega), sliceFrom_ok (by rw [List.length_append]; omega)]
    simp only [Res.bind_ok, List.drop_zero, Nat.sub_zero, List.take_left, List.drop_left]
    rw [ih fuel _ (by omega) (fun g hg => h g (by simp [hg]))]
    simp

/-- C31: every concatenation of complete frames is split back into them. -/
theorem C31_split_complete (frames : List Bytes) (h : ∀ f ∈ frames, IsFrame f) :
    split frames.flatten = .ok frames := by
  rw [split, splitLoop_complete _ _ _ (Nat.le_refl _) h, List.nil_append]

/-- A 32 kbit/s, 48 kHz layer II frame: 96 bytes. -/
def exampleFrame : Bytes := [0xFF, 0xFD, 0x14, 0xC0] ++ List.replicate 92 7

example : IsFrame exampleFrame := ⟨⟨false, 2, 32000, 48000, false, 3⟩, by decide +kernel, by decide +kernel⟩
example : split (exampleFrame ++ exampleFrame) = .ok [exampleFrame, exampleFrame] := by decide +kernel

end MPEG1Audio
end Verif.Props
