import Verif.Props.Receivers
import Verif.Model.H265SPS
import Verif.Props.VP9
import Verif.Model.Float64

/-!
# C103: decoding into a value that has been used before, parameter sets and headers of video

The models of `SPS.Unmarshal` and of the VP9 `Header.Unmarshal` take the receiver; `{}` is a fresh one.
-/

namespace Verif.Props
open Verif.BitM

/-! ## H264 -/

section
open H264

/-- What is decoded, with the lists that are appended to. -/
def staleH264 (old c : SPS) : SPS :=
  { c with scalingList4x4 := old.scalingList4x4 ++ c.scalingList4x4,
           useDefaultScalingMatrix4x4Flag := old.useDefaultScalingMatrix4x4Flag ++ c.useDefaultScalingMatrix4x4Flag,
           scalingList8x8 := old.scalingList8x8 ++ c.scalingList8x8,
           useDefaultScalingMatrix8x8Flag := old.useDefaultScalingMatrix8x8Flag ++ c.useDefaultScalingMatrix8x8Flag }

/-- `s` and `t` agree on what has been read before `readChroma`. -/
def staleHead (s t : SPS) : Prop :=
  s.profileIdc = t.profileIdc ∧ s.constraintSet0Flag = t.constraintSet0Flag ∧ s.constraintSet1Flag = t.constraintSet1Flag ∧
  s.constraintSet2Flag = t.constraintSet2Flag ∧ s.constraintSet3Flag = t.constraintSet3Flag ∧ s.constraintSet4Flag = t.constraintSet4Flag ∧
  s.constraintSet5Flag = t.constraintSet5Flag ∧ s.levelIdc = t.levelIdc

theorem stale_h264M (s t old : SPS) (h : staleHead s t) (ht : t.scalingList4x4 = [] ∧ t.useDefaultScalingMatrix4x4Flag = [] ∧ t.scalingList8x8 = [] ∧
    t.useDefaultScalingMatrix8x8Flag = []) (ho : s.scalingList4x4 = old.scalingList4x4 ∧ s.useDefaultScalingMatrix4x4Flag = old.useDefaultScalingMatrix4x4Flag ∧
    s.scalingList8x8 = old.scalingList8x8 ∧ s.useDefaultScalingMatrix8x8Flag = old.useDefaultScalingMatrix8x8Flag) :
    s.unmarshalM = (t.unmarshalM >>= fun c => pure (staleH264 old c)) := by
  obtain ⟨h1, h2, h3, h4, h5, h6, h7, h8⟩ := h
  obtain ⟨t1, t2, t3, t4⟩ := ht
  obtain ⟨o1, o2, o3, o4⟩ := ho
  unfold SPS.unmarshalM
  simp only [bind_assoc]
  refine bind_congr fun id => ?_
  unfold readChroma readHigh readPoc readPoc0 readPoc1 readFrame
  dsimp only
  rw [h1]
  simp only [bind_assoc, pure_bind, stale_ite, stale_fail, h2, h3, h4, h5, h6, h7, h8, t1, t2, t3, t4, o1, o2, o3, o4, staleH264, List.nil_append,
    List.append_nil]

/-- sps.go:470-477. -/
def staleStart (s : SPS) (b0 b1 b2 : UInt8) : SPS :=
  { s with profileIdc := b0.toNat, constraintSet0Flag := (b1 >>> 7) == 1, constraintSet1Flag := (b1 >>> 6 &&& 0x01) == 1,
           constraintSet2Flag := (b1 >>> 5 &&& 0x01) == 1, constraintSet3Flag := (b1 >>> 4 &&& 0x01) == 1,
           constraintSet4Flag := (b1 >>> 3 &&& 0x01) == 1, constraintSet5Flag := (b1 >>> 2 &&& 0x01) == 1, levelIdc := b2.toNat }

/-- **C103**, H264 SPS: exactly what stays. -/
theorem C103_h264 (old : SPS) (buf : Bytes) : old.unmarshal buf = (({} : SPS).unmarshal buf >>= fun c => .ok (staleH264 old c)) := by
  unfold SPS.unmarshal
  by_cases h1 : buf.length < 1
  · rw [if_pos h1, if_pos h1]; rfl
  rw [if_neg h1, if_neg h1]
  simp only [Bind.bind]
  cases idx buf 0 with
  | err e => rfl
  | panic => rfl
  | ok b =>
  simp only [Res.bind]
  by_cases h2 : b &&& 0x1F ≠ 7
  · rw [if_pos h2, if_pos h2]
  rw [if_neg h2, if_neg h2]
  cases sliceFrom buf 1 with
  | err e => rfl
  | panic => rfl
  | ok buf =>
  dsimp only
  cases emulationPreventionRemove buf with
  | err e => rfl
  | panic => rfl
  | ok buf =>
  dsimp only
  unfold SPS.unmarshalRBSP
  by_cases h3 : buf.length < 3
  · rw [if_pos h3, if_pos h3]
  rw [if_neg h3, if_neg h3]
  simp only [Bind.bind]
  cases idx buf 0 with
  | err e => rfl
  | panic => rfl
  | ok b0 =>
  simp only [Res.bind]
  cases idx buf 1 with
  | err e => rfl
  | panic => rfl
  | ok b1 =>
  dsimp only
  cases idx buf 2 with
  | err e => rfl
  | panic => rfl
  | ok b2 =>
  dsimp only
  cases sliceFrom buf 3 with
  | err e => rfl
  | panic => rfl
  | ok buf =>
  dsimp only
  have e := congrFun (congrFun (stale_h264M (staleStart old b0 b1 b2) (staleStart {} b0 b1 b2) old ⟨rfl, rfl, rfl, rfl, rfl, rfl, rfl, rfl⟩
    ⟨rfl, rfl, rfl, rfl⟩ ⟨rfl, rfl, rfl, rfl⟩) buf) 0
  dsimp only [staleStart] at e
  rw [e]
  simp only [Bind.bind, Pure.pure]
  generalize SPS.unmarshalM _ buf 0 = x
  cases x <;> rfl

/-- **C103**, H264 SPS: width, height and frame rate are the same, whatever the value held. -/
theorem C103_h264_answers (old : SPS) (buf : Bytes) : (old.unmarshal buf >>= fun s => .ok (s.width, s.height, s.fps)) =
    (({} : SPS).unmarshal buf >>= fun s => .ok (s.width, s.height, s.fps)) := by
  rw [C103_h264]
  cases ({} : SPS).unmarshal buf <;> rfl

/-- A baseline SPS of 640x480. -/
def staleBaseline : Bytes := [0x67, 66, 0xc0, 0x1e, 0xda, 0x02, 0x80, 0xf6, 0x40]

/-- **C103** is false for the H264 SPS: scaling lists that are held stay in front. -/
theorem C103_h264_false : (({} : SPS).unmarshal staleBaseline >>= fun c => .ok (c.scalingList4x4, c.width, c.height)) = .ok ([], 640, 480) ∧
    (({ scalingList4x4 := [[1]] } : SPS).unmarshal staleBaseline >>= fun c => .ok (c.scalingList4x4, c.width, c.height)) = .ok ([[1]], 640, 480) ∧
    ¬Forgets SPS.unmarshal := by
  refine ⟨by decide +kernel, by decide +kernel, fun h => ?_⟩
  exact absurd (h {} { scalingList4x4 := [[1]] } staleBaseline) (by decide +kernel)

end

/-! ## H265 -/

section
open H265

/-- The profile, tier and level: the last constraint flag stays unless the profile has it, and so do the flags of sub-layers when there are none. -/
def stalePTL (old c : ProfileTierLevel) (max : Nat) : ProfileTierLevel :=
  { c with generalMax14BitConstraintFlag :=
             if hasMax14 c.generalProfileIdc c.generalProfileCompatibilityFlag = true then c.generalMax14BitConstraintFlag else old.generalMax14BitConstraintFlag,
           subLayerProfilePresentFlag := if max > 0 then c.subLayerProfilePresentFlag else old.subLayerProfilePresentFlag,
           subLayerLevelPresentFlag := if max > 0 then c.subLayerLevelPresentFlag else old.subLayerLevelPresentFlag }

/-- What is decoded, with the fields that stay. -/
def staleH265 (old c : SPS) : SPS :=
  { c with profileTierLevel := stalePTL old.profileTierLevel c.profileTierLevel c.maxSubLayersMinus1,
           separateColourPlaneFlag := if (c.chromaFormatIdc == 3) = true then c.separateColourPlaneFlag else old.separateColourPlaneFlag,
           scalingListData := c.scalingListData.or old.scalingListData,
           pcmSampleBitDepthLumaMinus1 := if c.pcmEnabledFlag = true then c.pcmSampleBitDepthLumaMinus1 else old.pcmSampleBitDepthLumaMinus1,
           pcmSampleBitDepthChromaMinus1 := if c.pcmEnabledFlag = true then c.pcmSampleBitDepthChromaMinus1 else old.pcmSampleBitDepthChromaMinus1,
           log2MinPcmLumaCodingBlockSizeMinus3 :=
             if c.pcmEnabledFlag = true then c.log2MinPcmLumaCodingBlockSizeMinus3 else old.log2MinPcmLumaCodingBlockSizeMinus3,
           log2DiffMaxMinPcmLumaCodingBlockSize :=
             if c.pcmEnabledFlag = true then c.log2DiffMaxMinPcmLumaCodingBlockSize else old.log2DiffMaxMinPcmLumaCodingBlockSize,
           pcmLoopFilterDisabledFlag := if c.pcmEnabledFlag = true then c.pcmLoopFilterDisabledFlag else old.pcmLoopFilterDisabledFlag }

theorem stale_max14 (c a b : Bool) : readMax14 c a = (readMax14 c b >>= fun v => pure (if c = true then v else a)) := by
  cases c <;> simp [readMax14]

theorem stale_ptl (p q : ProfileTierLevel) (max : Nat) : p.unmarshal max = (q.unmarshal max >>= fun c => pure (stalePTL p c max)) := by
  unfold ProfileTierLevel.unmarshal ProfileTierLevel.readGeneral ProfileTierLevel.readSubLayers
  simp only [stale_max14 _ p.generalMax14BitConstraintFlag q.generalMax14BitConstraintFlag, bind_assoc, pure_bind, stale_ite, stalePTL]
  by_cases h : max > 0
  · simp only [h, if_true]
  · simp only [h, if_false]

theorem stale_scaling (sl : Bool) (old : Option ScalingListData) :
    BitM.cond sl (readScalingData old) old = (BitM.cond sl (readScalingData none) none >>= fun v => pure (v.or old)) := by
  cases sl
  · rfl
  · simp only [BitM.cond, if_true, readScalingData, bind_assoc]
    refine bind_congr fun p => ?_
    cases p
    · rfl
    · simp only [if_true, H264.some', bind_assoc, pure_bind, Option.some_or]

theorem stale_h265M (old : SPS) : old.unmarshalM = (({} : SPS).unmarshalM >>= fun c => pure (staleH265 old c)) := by
  unfold SPS.unmarshalM readFormat readOrdering readTools readRefs
  simp only [stale_ptl old.profileTierLevel ({} : SPS).profileTierLevel, stale_scaling _ old.scalingListData,
    stale_cond _ _ old.separateColourPlaneFlag ({} : SPS).separateColourPlaneFlag,
    stale_cond _ readPcm (old.pcmSampleBitDepthLumaMinus1, old.pcmSampleBitDepthChromaMinus1,
      old.log2MinPcmLumaCodingBlockSizeMinus3, old.log2DiffMaxMinPcmLumaCodingBlockSize, old.pcmLoopFilterDisabledFlag) (0, 0, 0, 0, false),
    bind_assoc, pure_bind, stale_ite, stale_fail, staleH265, apply_ite Prod.fst, apply_ite Prod.snd]

/-- **C103**, H265 SPS: exactly what stays. -/
theorem C103_h265 (old : SPS) (buf : Bytes) : old.unmarshal buf = (({} : SPS).unmarshal buf >>= fun c => .ok (staleH265 old c)) := by
  unfold SPS.unmarshal
  by_cases h1 : buf.length < 2
  · rw [if_pos h1, if_pos h1]; rfl
  rw [if_neg h1, if_neg h1]
  simp only [Bind.bind]
  cases idx buf 0 with
  | err e => rfl
  | panic => rfl
  | ok b =>
  simp only [Res.bind]
  by_cases h2 : (b >>> 1) &&& 0x3F ≠ 33
  · rw [if_pos h2, if_pos h2]
  rw [if_neg h2, if_neg h2]
  cases sliceFrom buf 1 with
  | err e => rfl
  | panic => rfl
  | ok buf =>
  dsimp only
  cases H264.emulationPreventionRemove buf with
  | err e => rfl
  | panic => rfl
  | ok buf =>
  dsimp only
  rw [stale_h265M]
  simp only [Bind.bind, Pure.pure]
  generalize SPS.unmarshalM _ buf 8 = x
  cases x <;> rfl

/-- **C103**, H265 SPS: width, height and frame rate are the same, whatever the value held. -/
theorem C103_h265_answers (old : SPS) (buf : Bytes) : (old.unmarshal buf >>= fun s => .ok (s.width, s.height, s.fps)) =
    (({} : SPS).unmarshal buf >>= fun s => .ok (s.width, s.height, s.fps)) := by
  rw [C103_h265]
  cases ({} : SPS).unmarshal buf <;> rfl

/-- **C103** is false for the H265 SPS: a flag that only 4:4:4 has stays, and so do the parameters of PCM. -/
theorem C103_h265_false : ∃ buf, (({} : SPS).unmarshal buf >>= fun c => .ok (c.chromaFormatIdc, c.separateColourPlaneFlag, c.pcmSampleBitDepthLumaMinus1, c.width)) =
      .ok (1, false, 0, .ok 1920) ∧
    (({ separateColourPlaneFlag := true, pcmSampleBitDepthLumaMinus1 := 7 } : SPS).unmarshal buf >>= fun c =>
      .ok (c.chromaFormatIdc, c.separateColourPlaneFlag, c.pcmSampleBitDepthLumaMinus1, c.width)) = .ok (1, true, 7, .ok 1920) ∧
    ¬Forgets SPS.unmarshal := by
  refine ⟨[66, 1, 1, 1, 96, 0, 0, 3, 0, 144, 0, 0, 3, 0, 0, 3, 0, 120, 160, 3, 192, 128, 16, 229, 150, 102, 105, 36, 202, 224, 16, 0, 0, 3, 0, 16, 0, 0, 3, 1, 224, 128],
    by decide +kernel, by decide +kernel, fun h => ?_⟩
  exact absurd (h {} { pcmSampleBitDepthLumaMinus1 := 7 }
    [66, 1, 1, 1, 96, 0, 0, 3, 0, 144, 0, 0, 3, 0, 0, 3, 0, 120, 160, 3, 192, 128, 16, 229, 150, 102, 105, 36, 202, 224, 16, 0, 0, 3, 0, 16, 0, 0, 3, 1, 224, 128])
    (by decide +kernel)

end

/-! ## VP9 -/

section
open VP9

/-- What is decoded, with the fields that stay. -/
def staleVP9 (old c : Header) : Header :=
  { c with frameToShowMapIdx := if c.showExistingFrame = true then c.frameToShowMapIdx else old.frameToShowMapIdx,
           nonKeyFrame := if c.showExistingFrame = true then old.nonKeyFrame else c.nonKeyFrame,
           showFrame := if c.showExistingFrame = true then old.showFrame else c.showFrame,
           errorResilientMode := if c.showExistingFrame = true then old.errorResilientMode else c.errorResilientMode,
           colorConfig := c.colorConfig.or old.colorConfig, frameSize := c.frameSize.or old.frameSize }

theorem stale_vp9M (old : Header) : old.unmarshalM = (({} : Header).unmarshalM >>= fun c => pure (staleVP9 old c)) := by
  unfold Header.unmarshalM
  simp only [bind_assoc, stale_ite, stale_fail]
  refine bind_congr fun _ => ?_
  refine bind_congr fun m => ?_
  split
  · rfl
  refine bind_congr fun lo => ?_
  refine bind_congr fun hi => ?_
  refine bind_congr fun _ => ?_
  refine bind_congr fun ex => ?_
  cases ex
  · simp only [Bool.false_eq_true, if_false, Header.unmarshalFrame, bind_assoc]
    refine bind_congr fun _ => ?_
    refine bind_congr fun nk => ?_
    refine bind_congr fun sf => ?_
    refine bind_congr fun re => ?_
    cases nk
    · simp only [Bool.not_false, if_true, Header.unmarshalKey, bind_assoc, stale_ite, stale_fail, pure_bind, staleVP9, Bool.false_eq_true, if_false,
        Option.some_or]
    · simp only [Bool.not_true, Bool.false_eq_true, if_false, pure_bind, staleVP9, Option.none_or]
  · simp only [if_true, Header.unmarshalExisting, bind_assoc, pure_bind, staleVP9, Option.none_or]

/-- **C103**, VP9 header: exactly what stays. -/
theorem C103_vp9 (old : Header) (buf : Bytes) : old.unmarshal buf = (({} : Header).unmarshal buf >>= fun c => .ok (staleVP9 old c)) := by
  unfold Header.unmarshal
  rw [stale_vp9M]
  exact stale_run _ _ _ _

/-- **C103**, VP9 header: after a key frame the size and the chroma subsampling are those of the frame. Full statement: they do not depend on what
was held, see `C103_vp9_false`. -/
theorem C103_vp9_partial (old h : Header) (buf : Bytes) (e : old.unmarshal buf = .ok h) (h1 : h.showExistingFrame = false) (h2 : h.nonKeyFrame = false) :
    ∃ c, ({} : Header).unmarshal buf = .ok c ∧ h.width = c.width ∧ h.height = c.height ∧ h.chromaSubsampling = c.chromaSubsampling := by
  rw [C103_vp9] at e
  have hk : ∀ c, ({} : Header).unmarshal buf = .ok c → c.showExistingFrame = false → c.nonKeyFrame = false → c.frameSize ≠ none ∧ c.colorConfig ≠ none := by
    intro c hc k1 k2
    obtain ⟨info, bits, rest, g, hb, rfl⟩ := (C53_decode {} c buf).1 hc
    cases info with
    | existing p i => cases k1
    | frame p s r => cases k2
    | key p s r cc fs => exact ⟨Option.some_ne_none _, Option.some_ne_none _⟩
  cases hc : ({} : Header).unmarshal buf with
  | err e' => rw [hc] at e; cases e
  | panic => rw [hc] at e; cases e
  | ok c =>
    rw [hc] at e
    simp only [Bind.bind, Res.bind, Res.ok.injEq] at e
    subst e
    have k1 : c.showExistingFrame = false := h1
    have k2 : c.nonKeyFrame = false := by simpa [staleVP9, k1] using h2
    obtain ⟨f1, f2⟩ := hk c hc k1 k2
    obtain ⟨p, x, i, n, sh, er, cc, fs⟩ := c
    cases cc with
    | none => exact absurd rfl f2
    | some cc =>
      cases fs with
      | none => exact absurd rfl f1
      | some fs => exact ⟨_, rfl, rfl, rfl, rfl⟩

/-- A key frame of 1920x804, and a frame that is not a key frame. -/
def staleKey : Bytes := [0x82, 0x49, 0x83, 0x42, 0x00, 0x77, 0xf0, 0x32, 0x34]
def staleInter : Bytes := [0x86, 0x00]

/-- **C103** is false for the VP9 header: the size after a frame that is not a key frame is the one of the key frame before it. -/
theorem C103_vp9_false : ∃ k i, ({} : Header).unmarshal staleKey = .ok k ∧ k.width = 1920 ∧ k.unmarshal staleInter = .ok i ∧ i.width = 1920 ∧
    (({} : Header).unmarshal staleInter >>= fun h => .ok h.width) = .ok 0 ∧ ¬Forgets Header.unmarshal := by
  refine ⟨⟨0, false, 0, false, true, false, some ⟨false, 8, 0, false, true, true⟩, some ⟨1919, 803⟩⟩,
    ⟨0, false, 0, true, true, false, some ⟨false, 8, 0, false, true, true⟩, some ⟨1919, 803⟩⟩,
    by decide +kernel, by decide +kernel, by decide +kernel, by decide +kernel, by decide +kernel, fun h => ?_⟩
  exact absurd (h {} ⟨0, false, 0, false, true, false, some ⟨false, 8, 0, false, true, true⟩, some ⟨1919, 803⟩⟩ staleInter) (by decide +kernel)

end

end Verif.Props
