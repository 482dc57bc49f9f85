import Verif.Spec.Prefix
import Verif.Props.SliceHeader
import Verif.Props.VP9
import Verif.Props.AV1Seq
import Verif.Props.ASC
import Verif.Props.AudioHeaders
import Verif.Props.FlacOpus
import Verif.Props.StreamMux
import Verif.Props.TSOpus

/-!
# C119: headers do not depend on what follows them
-/

namespace Verif.Props
open Verif.Spec

/-! ## Results that are kept when bytes are appended -/

/-- The values of `x` are values of `y`. -/
def PfxKept {α : Type} (x y : Res α) : Prop := ∀ v, x = .ok v → y = .ok v

theorem pfx_refl {α : Type} (x : Res α) : PfxKept x x := fun _ h => h

theorem pfx_bind {α β : Type} {x y : Res α} {f g : α → Res β} (h1 : PfxKept x y) (h2 : ∀ v, x = .ok v → PfxKept (f v) (g v)) :
    PfxKept (x >>= f) (y >>= g) := by
  intro v e
  obtain ⟨w, hw, e⟩ := Res.bind_eq_ok.1 e
  rw [h1 w hw]
  exact h2 w hw v e

theorem pfx_err {α : Type} (s : String) (y : Res α) : PfxKept (.err s) y := fun _ h => by cases h

theorem pfx_ite {α : Type} {c : Prop} [Decidable c] {a b x y : Res α} (h1 : c → PfxKept a x) (h2 : ¬ c → PfxKept b y) :
    PfxKept (if c then a else b) (if c then x else y) := by
  by_cases h : c
  · rw [if_pos h, if_pos h]; exact h1 h
  · rw [if_neg h, if_neg h]; exact h2 h

/-- A check of the length. -/
theorem pfx_short {α : Type} {a b : Bytes} {n : Nat} {s : String} {x y : Res α} (h : PfxKept x y) :
    PfxKept (if a.length < n then .err s else x) (if (a ++ b).length < n then .err s else y) := by
  by_cases h1 : a.length < n
  · rw [if_pos h1]; exact pfx_err _ _
  · rw [if_neg h1, if_neg (by rw [List.length_append]; omega)]; exact h

theorem pfx_idx {α : Type} (a b : List α) (i : Nat) : PfxKept (idx a i) (idx (a ++ b) i) := by
  intro v e
  by_cases h : i < a.length
  · rw [idx_of_lt (by rw [List.length_append]; omega), List.getElem_append_left h, ← idx_of_lt h]; exact e
  · rw [idx_of_ge (by omega)] at e; cases e

theorem pfx_slice (a b : Bytes) (i j : Nat) : PfxKept (slice a i j) (slice (a ++ b) i j) := by
  intro v e
  unfold slice at e ⊢
  split at e
  · rename_i h
    rw [if_pos ⟨h.1, by rw [List.length_append]; omega⟩, ← e, List.drop_append_of_le_length (by omega),
      List.take_append_of_le_length (by rw [List.length_drop]; omega)]
  · cases e

theorem pfx_tail (a b : Bytes) : ∀ n pos v, PfxKept (Bits.readBitsTail a pos v n) (Bits.readBitsTail (a ++ b) pos v n) := by
  intro n
  induction n using Nat.strongRecOn with
  | _ n ih =>
    intro pos v
    unfold Bits.readBitsTail
    refine pfx_ite (fun h => ?_) (fun h => pfx_ite (fun h => ?_) (fun _ => pfx_refl _))
    · exact pfx_bind (pfx_idx a b _) fun w _ => ih (n - 8) (by omega) _ _
    · exact pfx_bind (pfx_idx a b _) fun w _ => pfx_refl _

theorem pfx_bits (a b : Bytes) (pos n : Nat) : PfxKept (Bits.readBitsUnsafe a pos n) (Bits.readBitsUnsafe (a ++ b) pos n) := by
  unfold Bits.readBitsUnsafe
  exact pfx_ite (fun h => pfx_bind (pfx_idx a b _) fun w _ => pfx_refl _)
    (fun h => pfx_bind (pfx_idx a b _) fun w _ => pfx_tail a b _ _ _)

theorem pfx_flag (a b : Bytes) (pos : Nat) : PfxKept (Bits.readFlagUnsafe a pos) (Bits.readFlagUnsafe (a ++ b) pos) :=
  pfx_bind (pfx_idx a b _) fun w _ => pfx_refl _

/-- What follows does not matter and there are no panics: cuts are harmless. -/
theorem pfx_head {α : Type} {f : Bytes → Res α} (h : ∀ a b, PfxKept (f a) (f (a ++ b))) (hp : ∀ a, (f a).NoPanic) :
    HeadOnly f := by
  refine ⟨fun a b x => h a b x, fun a k x e => ?_⟩
  cases hc : f (a.take k) with
  | ok y =>
    have := h (a.take k) (a.drop k) y hc
    rw [List.take_append_drop, e] at this
    cases this
    exact .inl rfl
  | err s => exact .inr ⟨s, rfl⟩
  | panic => exact absurd hc (hp _)

/-- The same of decoders that are defined by what the bits start with. -/
theorem pfx_bitsOf {α : Type} {f : Bytes → Res α} {P : α → List Bool → Prop}
    (h : ∀ buf x, f buf = .ok x ↔ ∃ bits rest, P x bits ∧ bitsOf buf = bits ++ rest) (a b : Bytes) : PfxKept (f a) (f (a ++ b)) := by
  intro x e
  obtain ⟨bits, rest, g, hb⟩ := (h a x).1 e
  exact (h _ x).2 ⟨bits, rest ++ bitsOf b, g, by rw [bitsOf_append, hb, List.append_assoc]⟩

theorem pfx_ep (a b : Bytes) (z : Nat) : ∃ r, epRemove z (a ++ b) = epRemove z a ++ r := by
  obtain ⟨r, hr⟩ := epRemove_take (a ++ b) z a.length
  rw [List.take_left] at hr
  exact ⟨r, hr⟩

/-! ## Video -/

/-- C119: `SPS.Unmarshal` of H264, on a struct that may have been used before. -/
theorem C119_h264_sps (s : H264.SPS) : HeadOnly s.unmarshal := by
  refine pfx_head (fun a b x e => ?_) (C50_no_panic s)
  obtain ⟨rbsp, bits, rest, ⟨h, t, rfl, ht, rfl⟩, g, hb⟩ := (C50_decode s x a).1 e
  obtain ⟨r, hr⟩ := pfx_ep t b 0
  exact (C50_decode s x _).2 ⟨_, bits, rest ++ bitsOf r, ⟨h, t ++ b, rfl, ht, rfl⟩, g, by
    rw [hr, bitsOf_append, hb, List.append_assoc]⟩

/-- RBSPs of H265 NAL units that are longer. -/
theorem pfx_nal {type : Nat} {a rbsp : Bytes} (b : Bytes) (h : Spec.H265.IsNAL type a rbsp) :
    ∃ r, Spec.H265.IsNAL type (a ++ b) (rbsp ++ r) := by
  obtain ⟨h0, h1, t, rfl, ht, rfl⟩ := h
  obtain ⟨r, hr⟩ := pfx_ep (h1 :: t) b 0
  refine ⟨r, h0, h1, t ++ b, rfl, ht, ?_⟩
  rw [List.cons_append] at hr
  rw [hr, List.drop_append_of_le_length]
  unfold epRemove
  rw [if_neg (by omega)]
  simp

/-- C119: `SPS.Unmarshal` of H265, on a struct that may have been used before. -/
theorem C119_h265_sps (s : H265.SPS) : HeadOnly s.unmarshal := by
  refine pfx_head (fun a b x e => ?_) (C51_no_panic s)
  obtain ⟨rbsp, bits, rest, hn, g, hb⟩ := (C51_decode s x a).1 e
  obtain ⟨r, hr⟩ := pfx_nal b hn
  exact (C51_decode s x _).2 ⟨_, bits, rest ++ bitsOf r, hr, g, by rw [bitsOf_append, hb, List.append_assoc]⟩

/-- C119: `PPS.Unmarshal` of H265. -/
theorem C119_h265_pps : HeadOnly H265.PPS.unmarshal := by
  refine pfx_head (fun a b x e => ?_) C51_pps_no_panic
  obtain ⟨rbsp, bits, rest, hn, g, hb⟩ := (C51_pps_decode x a).1 e
  obtain ⟨r, hr⟩ := pfx_nal b hn
  exact (C51_pps_decode x _).2 ⟨_, bits, rest ++ bitsOf r, hr, g, by rw [bitsOf_append, hb, List.append_assoc]⟩

/-- C119: `Header.Unmarshal` of VP9, on a struct that may have been used before. -/
theorem C119_vp9 (h : VP9.Header) : HeadOnly h.unmarshal := by
  refine pfx_head (fun a b x e => ?_) (C53_no_panic h)
  obtain ⟨info, bits, rest, g, hb, hx⟩ := (C53_decode h x a).1 e
  exact (C53_decode h x _).2 ⟨info, bits, rest ++ bitsOf b, g, by rw [bitsOf_append, hb, List.append_assoc], hx⟩

/-- C119: `SequenceHeader.Unmarshal` of AV1, of OBUs without size field. -/
theorem C119_av1 (h0 h : AV1.SequenceHeader) (n : UInt8) (hn : n.toNat / 2 % 2 = 0) (a b : Bytes) (e : h0.unmarshal (n :: a) = .ok h) :
    h0.unmarshal (n :: (a ++ b)) = .ok h := by
  obtain ⟨payload, hs, grain, bits, rest, ⟨h', h1, h2, ho⟩, g, hb, rfl⟩ := (C52_decode h0 h _).1 e
  rcases ho with ⟨h3, ho⟩ | ⟨h3, pre, last, -, -, ho⟩
  · cases ho
    exact (C52_decode h0 _ _).2 ⟨a ++ b, hs, grain, bits, rest ++ bitsOf b, ⟨n, h1, h2, .inl ⟨h3, rfl⟩⟩, g, by
      rw [bitsOf_append, hb]; simp, rfl⟩
  · cases ho; omega

/-- C119: an OBU with size field is refused if anything follows it. -/
theorem C119_av1_sized (h0 h : AV1.SequenceHeader) (n : UInt8) (hn : n.toNat / 2 % 2 = 1) (a b : Bytes) (hb : b ≠ [])
    (e : h0.unmarshal (n :: a) = .ok h) : ∃ s, h0.unmarshal (n :: (a ++ b)) = .err s := by
  obtain ⟨payload, hs, grain, bits, rest, ⟨h', h1, h2, ho⟩, g, -, rfl⟩ := (C52_decode h0 h _).1 e
  cases hc : h0.unmarshal (n :: (a ++ b)) with
  | err s => exact ⟨s, rfl⟩
  | panic => exact absurd hc (C52_no_panic _ _)
  | ok y =>
    exfalso
    obtain ⟨payload', _, _, _, _, ⟨h'', _, _, ho'⟩, -, -, -⟩ := (C52_decode h0 y _).1 hc
    rcases ho with ⟨h3, ho⟩ | ⟨h3, pre, last, hl, hv, ho⟩
    · cases ho; omega
    rcases ho' with ⟨h4, ho'⟩ | ⟨h4, pre', last', hl', hv', ho'⟩
    · cases ho'; omega
    cases ho
    injection ho' with _ ho'
    rw [List.append_assoc, List.cons_append] at ho'
    have e1 := AV1.leb128Unmarshal_leb (payload ++ b) hl
    have e2 := AV1.leb128Unmarshal_leb payload' hl'
    rw [ho', e2] at e1
    injection e1 with e1
    injection e1 with e1 e3
    have := congrArg List.length ho'
    have hb' : 0 < b.length := List.length_pos_iff.2 hb
    simp only [List.length_append, List.length_cons] at this
    omega

/-- C119: a sequence header of AV1 that is cut is refused, unless only bytes that do not matter were cut. -/
theorem C119_av1_cut (h0 h : AV1.SequenceHeader) (a : Bytes) (k : Nat) (e : h0.unmarshal a = .ok h) :
    h0.unmarshal (a.take k) = .ok h ∨ ∃ s, h0.unmarshal (a.take k) = .err s := by
  cases hc : h0.unmarshal (a.take k) with
  | err s => exact .inr ⟨s, rfl⟩
  | panic => exact absurd hc (C52_no_panic _ _)
  | ok y =>
    refine .inl ?_
    have ha := List.take_append_drop k a
    cases ht : a.take k with
    | nil => rw [ht] at hc; cases hc
    | cons n t =>
      rw [ht] at hc ha
      rw [← ha, List.cons_append] at e
      rcases Nat.mod_two_eq_zero_or_one (n.toNat / 2) with hn | hn
      · rw [C119_av1 h0 y n hn t (a.drop k) hc] at e
        exact e
      · by_cases hd : a.drop k = []
        · rw [hd, List.append_nil, hc] at e
          exact e
        · obtain ⟨s, hs⟩ := C119_av1_sized h0 y n hn t _ hd hc
          rw [hs] at e; cases e

/-! ## Audio -/

/-- C119: `AudioSpecificConfig.Unmarshal`. -/
theorem C119_asc : HeadOnly MPEG4Audio.ASC.unmarshal :=
  pfx_head (pfx_bitsOf C22_decode) C23_no_panic

/-- C119: `SyncInfo.Unmarshal` of AC-3. -/
theorem C119_ac3_sync : HeadOnly AC3.SyncInfo.unmarshal := by
  refine pfx_head (fun a b => ?_) fun a => (C30_ac3_sync a).1
  unfold AC3.SyncInfo.unmarshal
  refine pfx_short (pfx_bind (pfx_idx a b _) fun f0 _ => pfx_bind (pfx_idx a b _) fun f1 _ => ?_)
  refine pfx_ite (fun _ => pfx_err _ _) fun _ => pfx_bind (pfx_idx a b _) fun f4 _ => pfx_refl _

theorem pfx_skip2 (c : Bool) (a b : Bytes) (pos : Nat) : PfxKept (AC3.skip2 c a pos) (AC3.skip2 c (a ++ b) pos) := by
  unfold AC3.skip2
  exact pfx_ite (fun _ => pfx_bind (pfx_bits a b _ _) fun _ _ => pfx_refl _) fun _ => pfx_refl _

/-- C119: `BSI.Unmarshal` of AC-3. -/
theorem C119_ac3_bsi : HeadOnly AC3.BSI.unmarshal := by
  refine pfx_head (fun a b => ?_) fun a => (C30_ac3_bsi a).1
  unfold AC3.BSI.unmarshal
  by_cases hl : a.length < 2
  · rw [if_pos hl]; exact pfx_err _ _
  refine pfx_short (pfx_bind (pfx_idx a b _) fun b0 _ => pfx_ite (fun _ => pfx_err _ _) fun _ => ?_)
  rw [sliceFrom_ok (by omega), sliceFrom_ok (by rw [List.length_append]; omega), Res.bind_ok, Res.bind_ok,
    List.drop_append_of_le_length (by omega)]
  refine pfx_bind (pfx_bits _ b _ _) fun v _ => ?_
  refine pfx_bind (pfx_skip2 _ _ b _) fun p1 _ => pfx_bind (pfx_skip2 _ _ b _) fun p2 _ =>
    pfx_bind (pfx_skip2 _ _ b _) fun p3 _ => pfx_bind (pfx_flag _ b _) fun _ _ => pfx_refl _

theorem pfx_blks (a b : Bytes) (pos : Nat) (c : UInt8) : PfxKept (EAC3.readBlks a pos c) (EAC3.readBlks (a ++ b) pos c) := by
  unfold EAC3.readBlks
  exact pfx_ite (fun _ => pfx_bind (pfx_bits a b _ _) fun _ _ => pfx_refl _)
    fun _ => pfx_bind (pfx_bits a b _ _) fun _ _ => pfx_refl _

/-- C119: `SyncInfo.Unmarshal` of E-AC-3. -/
theorem C119_eac3 : HeadOnly EAC3.SyncInfo.unmarshal := by
  refine pfx_head (fun a b => ?_) fun a => (C30_eac3 a).1
  unfold EAC3.SyncInfo.unmarshal
  refine pfx_short (pfx_bind (pfx_idx a b _) fun f0 _ => pfx_bind (pfx_idx a b _) fun f1 _ => ?_)
  refine pfx_ite (fun _ => pfx_err _ _) fun _ => ?_
  refine pfx_bind (pfx_bits a b _ _) fun v1 _ => pfx_bind (pfx_bits a b _ _) fun v2 _ => ?_
  refine pfx_bind (pfx_bits a b _ _) fun v3 _ => pfx_bind (pfx_bits a b _ _) fun v4 _ => ?_
  refine pfx_bind (pfx_blks a b _ _) fun v5 _ => pfx_bind (pfx_bits a b _ _) fun v6 _ => ?_
  refine pfx_bind (pfx_flag a b _) fun v7 _ => pfx_bind (pfx_bits a b _ _) fun v8 _ => pfx_refl _

/-- C119: `FrameHeader.Unmarshal` of MPEG-1 audio. -/
theorem C119_mpeg1 : HeadOnly MPEG1Audio.FrameHeader.unmarshal := by
  refine pfx_head (fun a b => ?_) fun a => (C31_decode a).1
  unfold MPEG1Audio.FrameHeader.unmarshal
  refine pfx_short (pfx_bind (pfx_idx a b _) fun b0 _ => pfx_bind (pfx_idx a b _) fun b1 _ => ?_)
  refine pfx_ite (fun _ => pfx_err _ _) fun _ => pfx_ite (fun _ => pfx_err _ _) fun _ => ?_
  refine pfx_bind (pfx_idx a b _) fun b2 _ => pfx_ite (fun _ => pfx_err _ _) fun _ => ?_
  refine pfx_bind (pfx_refl _) fun t1 _ => pfx_bind (pfx_refl _) fun t2 _ => pfx_bind (pfx_refl _) fun t3 _ => ?_
  refine pfx_ite (fun _ => pfx_err _ _) fun _ => ?_
  refine pfx_bind (pfx_refl _) fun t4 _ => pfx_bind (pfx_refl _) fun t5 _ => pfx_bind (pfx_idx a b _) fun b3 _ => pfx_refl _

/-- C119: `StreamInfo.Unmarshal` of FLAC. -/
theorem C119_flac : HeadOnly Flac.unmarshal := by
  refine pfx_head (fun a b => ?_) C29_no_panic
  unfold Flac.unmarshal
  refine pfx_short ?_
  iterate 18 refine pfx_bind (pfx_idx a b _) fun _ _ => ?_
  exact pfx_bind (pfx_slice a b _ _) fun _ _ => pfx_refl _

/-- C119: `OpusAccessUnit.Unmarshal` of MPEG-TS; the size that it returns is that of the access unit. -/
theorem C119_opus_unit : HeadOnly TSOpus.AccessUnit.unmarshal := by
  refine pfx_head (fun a b x e => ?_) fun a => (C40_decode_sound a).1
  obtain ⟨⟨c, packet⟩, n⟩ := x
  obtain ⟨start, stop, ext, r, r1, r2, hdr, rest, h1, h2, h3, rfl, rfl, -⟩ := (C40_decode_sound a).2 _ n e
  dsimp only at h2 h3 ⊢
  rw [List.append_assoc (hdr ++ packet), C40_decode_complete _ start stop ext r r1 r2 hdr packet (rest ++ b) h1 rfl h3, h2]

/-- Headers that are accepted, and cuts of them: one that is refused, and one that is accepted. -/
example : ({} : H264.SPS).unmarshal h264Mono = .ok h264MonoSPS ∧
    ({} : H264.SPS).unmarshal (h264Mono ++ [0, 0, 3, 1, 0xFF]) = .ok h264MonoSPS ∧
    ({} : H264.SPS).unmarshal (h264Mono.take 8) = .err "not enough bits" := by decide +kernel
example : ({} : H265.SPS).unmarshal (h265Two ++ [0, 0, 3]) = .ok h265TwoSPS :=
  (C119_h265_sps {}).followed _ _ _ h265Two_decoded
example : ∃ e, ({} : H265.SPS).unmarshal (h265Two.take 20) = .err e :=
  ((C119_h265_sps {}).cut h265Two 20 h265TwoSPS h265Two_decoded).resolve_left (by decide +kernel)
example : H265.PPS.unmarshal [0x44, 0x01, 0xc1, 0x72, 0xb4, 0x62, 0x40] = .ok {} ∧
    H265.PPS.unmarshal [0x44, 0x01, 0xc1] = .ok {} ∧ H265.PPS.unmarshal [0x44, 0x01] = .err "not enough bits" := by decide +kernel
example : ({} : VP9.Header).unmarshal [0x82, 0x49, 0x83, 0x42, 0x00, 0x77, 0xf0, 0x32, 0x34] =
    ({} : VP9.Header).unmarshal ([0x82, 0x49, 0x83, 0x42, 0x00, 0x77, 0xf0, 0x32, 0x34] ++ [1, 2, 3]) ∧
    (({} : VP9.Header).unmarshal [0x82, 0x49, 0x83, 0x42, 0x00, 0x77, 0xf0, 0x32, 0x34]).isOk = true := by decide +kernel
example : AV1.SequenceHeader.unmarshal {} [0x08, 0x18, 0, 0, 0, 0x60, 7] = .ok av1ReducedValue ∧
    AV1.SequenceHeader.unmarshal {} [0x0A, 5, 0x18, 0, 0, 0, 0x60] = .ok av1ReducedValue ∧
    AV1.SequenceHeader.unmarshal {} [0x0A, 5, 0x18, 0, 0, 0, 0x60, 7] = .err "wrong buffer size" := by decide +kernel
example : MPEG4Audio.ASC.unmarshal ([0x11, 0x90] ++ [0x56, 0xE5, 0x00]) = .ok ⟨2, 48000, 2, 2, 0, 0, false, false, 0⟩ :=
  C119_asc.followed _ _ _ (by decide +kernel)
example : AC3.SyncInfo.unmarshal ([0x0b, 0x77, 0x47, 0x11, 0x4d] ++ [0x40]) = .ok ⟨1, 13⟩ :=
  C119_ac3_sync.followed _ _ _ (by decide +kernel)
example : AC3.BSI.unmarshal ([0x40, 0xeb] ++ [0x84]) = .ok ⟨8, 0, 7, true⟩ := C119_ac3_bsi.followed _ _ _ (by decide +kernel)
example : EAC3.SyncInfo.unmarshal ([0x0b, 0x77, 0x02, 0xff, 0x3f, 0x86, 0, 0] ++ [0xFF]) = .ok ⟨0, 0, 767, 0, 0, 3, 7, true, 16⟩ :=
  C119_eac3.followed _ _ _ (by decide +kernel)
example : (MPEG1Audio.FrameHeader.unmarshal [0xFF, 0xFB, 0x90, 0x64, 0]).isOk = true ∧
    MPEG1Audio.FrameHeader.unmarshal [0xFF, 0xFB, 0x90, 0x64, 0, 9, 9] = MPEG1Audio.FrameHeader.unmarshal [0xFF, 0xFB, 0x90, 0x64, 0] ∧
    MPEG1Audio.FrameHeader.unmarshal [0xFF, 0xFB, 0x90, 0x64] = .err "not enough bytes" := by decide +kernel
example : (Flac.unmarshal (List.replicate 34 1)).isOk = true ∧
    Flac.unmarshal (List.replicate 34 1 ++ [2]) = Flac.unmarshal (List.replicate 34 1) := by decide +kernel
example : TSOpus.AccessUnit.unmarshal ([0x7F, 0xE0, 2, 0xAA, 0xBB] ++ [0xCC]) = .ok (⟨⟨2, false, false, false, 0, 0, 0⟩, [0xAA, 0xBB]⟩, 5) ∧
    TSOpus.AccessUnit.unmarshal [0x7F, 0xE0, 2, 0xAA] = .err "buffer is too small" := by decide +kernel

/-! ## Where it is not so -/

/-- C119 is false of `StreamMuxConfig.Unmarshal`: a configuration that is cut may be accepted with another buffer fullness. -/
theorem C119_mux_false : ¬ HeadOnly MPEG4Audio.StreamMuxConfig.unmarshal := by
  intro h
  have := h.followed [0x40, 0x00, 0x26, 0x20] [0x20, 0x00]
    ⟨0, [[⟨some ⟨2, 24000, 2, 2, 0, 0, false, false, 0⟩, 0, 255, 0, 0, false⟩]], false, 0, false, 0⟩ (by decide +kernel)
  revert this
  decide +kernel

/-- C119 is false of `IDHeader.Unmarshal` of Opus: what follows the header becomes its channel mapping table. -/
theorem C119_opus_head_false : ¬ HeadOnly Opus.IDHeader.unmarshal := by
  intro h
  have := h.followed [0x4F, 0x70, 0x75, 0x73, 0x48, 0x65, 0x61, 0x64, 1, 2, 0x38, 1, 0x80, 0xBB, 0, 0, 0, 0, 0] [0]
    ⟨1, 2, 0x3801, 0x80BB0000, 0, 0, []⟩ (by decide +kernel)
  revert this
  decide +kernel

end Verif.Props
