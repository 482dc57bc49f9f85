import Verif.Props.FMP4InitTree
import Verif.Props.CodecWrite
import Verif.Props.ASC
import Verif.Props.AV1
import Verif.Props.FlacOpus
import Verif.Props.FMP4InitSamples

/-!
# Round trip of initialization segments
-/

namespace Verif.Props
open FMP4Init MP4Codec MP4Box MP4Writer
open FMP4 (readBoxInfo BoxInfo full writeBoxStart_full writeBoxEnd_full writeBox_full box_length u32)
open Spec (beBytes)
open Spec.FMP4 (box)
open ByteR (beBytes_length)
open Readers (SBuf)
open Verif.BitM (Sat)

/-! ## Specification -/

/-- What a codec must satisfy for its parameters to fit the boxes. -/
def Kept : Codec → Prop
  | .av1 sh => ∃ (b : UInt8) (payload : Bytes), sh = b :: payload ∧ b.toNat / 2 = 4 ∧ payload.length < 2 ^ 32
  | .vp9 c => (0 < c.width ∧ c.width < 2 ^ 16) ∧ (0 < c.height ∧ c.height < 2 ^ 16) ∧ c.profile < 2 ^ 8 ∧ c.bitDepth < 2 ^ 4 ∧
      c.chromaSubsampling < 2 ^ 3
  | .h265 vps sps pps => vps.length < 2 ^ 16 ∧ sps.length < 2 ^ 16 ∧ pps.length < 2 ^ 16
  | .h264 sps pps => sps.length < 2 ^ 16 ∧ pps.length < 2 ^ 16
  | .mpeg4Video config => config.length < 2 ^ 28 - 32
  | .mpeg1Video config => config.length < 2 ^ 28 - 32
  | .mjpeg w h => (0 < w ∧ w < 2 ^ 16) ∧ (0 < h ∧ h < 2 ^ 16)
  | .opus cc => 0 ≤ cc ∧ cc < 2 ^ 8
  | .flac si => ∀ s, si = some s → StreamInfoInRange s
  | .mpeg4Audio c => ASCValid c
  | .mpeg1Audio rate cc => (0 ≤ rate ∧ rate < 2 ^ 16) ∧ (0 ≤ cc ∧ cc < 2 ^ 16)
  | .ac3 c => (0 ≤ c.channelCount ∧ c.channelCount < 2 ^ 16) ∧ c.bsid < 2 ^ 5 ∧ c.bsmod < 2 ^ 3 ∧ c.acmod < 2 ^ 3 ∧ c.bitRateCode < 2 ^ 5
  | .eac3 c => (0 ≤ c.channelCount ∧ c.channelCount < 2 ^ 16) ∧ c.dataRate < 2 ^ 13 ∧ c.bsmod < 2 ^ 3 ∧ c.acmod < 2 ^ 3 ∧
      c.numDepSub < 2 ^ 4 ∧ c.chanLoc < 2 ^ 9 ∧ (c.numDepSub = 0 → c.chanLoc = 0)
  | .lpcm c => (0 ≤ c.bitDepth ∧ c.bitDepth < 2 ^ 8) ∧ (0 ≤ c.sampleRate ∧ c.sampleRate < 2 ^ 16) ∧
      (0 ≤ c.channelCount ∧ c.channelCount < 2 ^ 16)

/-- What is read back: the same codec, except that the channel count and the channel configuration of MPEG-4 audio are made consistent and
`Fscod` of AC-3 becomes the code of the sample rate. -/
def restoredCodec : Codec → Codec
  | .mpeg4Audio c => .mpeg4Audio (ascNormal c)
  | .ac3 c => .ac3 { c with fscod := if c.sampleRate = 48000 then 0 else if c.sampleRate = 44100 then 1 else 2 }
  | c => c

/-! ## Codec boxes -/

theorem h265_compat_sat (p : H265.ProfileTierLevel) (max : Nat) :
    Sat (Spec.H265.profileTierLevel p max) fun x => x.generalProfileCompatibilityFlag.length = 32 := by
  refine Sat.bind (P := fun x => x.generalProfileCompatibilityFlag.length = 32) ?_ fun q hq => ?_
  · refine Sat.skip fun _ => Sat.skip fun _ => Sat.skip fun _ => Sat.bind Sat.times fun l hl => ?_
    refine Sat.skip fun _ => Sat.skip fun _ => Sat.skip fun _ => Sat.skip fun _ => Sat.skip fun _ => Sat.skip fun _ =>
      Sat.skip fun _ => Sat.skip fun _ => Sat.skip fun _ => Sat.skip fun _ => Sat.skip fun _ => Sat.skip fun _ =>
      Sat.skip fun _ => Sat.skip fun _ => Sat.skip fun _ => Sat.skip fun _ => Sat.pure ?_
    exact hl
  · refine Sat.ite (fun _ => Sat.pure hq) fun _ => Sat.skip fun _ => Sat.skip fun _ => Sat.pure hq

theorem h265_compat (s x : H265.SPS) (buf : Bytes) (e : s.unmarshal buf = .ok x) :
    x.profileTierLevel.generalProfileCompatibilityFlag.length = 32 := by
  obtain ⟨_, bits, _, _, g, _⟩ := (C51_decode s x buf).1 e
  suffices h : Sat (Spec.H265.spsData s) fun x => x.profileTierLevel.generalProfileCompatibilityFlag.length = 32 from h x bits g
  refine Sat.skip fun vps => Sat.skip fun max => Sat.skip fun nest => Sat.bind (h265_compat_sat _ _) fun p hp => ?_
  refine Sat.bind (P := fun (x : H265.SPS) => x.profileTierLevel = p) ?_ fun a ha => ?_
  · refine Sat.skip fun _ => Sat.skip fun chroma => Sat.skip fun _ => Sat.skip fun _ => Sat.skip fun _ => Sat.skip fun _ => ?_
    exact Sat.skip fun _ => Sat.skip fun _ => Sat.skip fun _ => Sat.skip fun _ => Sat.pure rfl
  refine Sat.bind (P := fun (x : H265.SPS) => x.profileTierLevel = p) ?_ fun b hb => ?_
  · exact Sat.skip fun f => Sat.skip fun l => Sat.pure ha
  refine Sat.bind (P := fun (x : H265.SPS) => x.profileTierLevel = p) ?_ fun c hc => ?_
  · refine Sat.skip fun _ => Sat.skip fun _ => Sat.skip fun _ => Sat.skip fun _ => Sat.skip fun _ => Sat.skip fun _ =>
      Sat.skip fun _ => Sat.skip fun _ => Sat.skip fun _ => Sat.skip fun _ => Sat.skip fun _ => Sat.skip fun _ => Sat.pure hb
  · refine Sat.skip fun n => Sat.skip fun _ => Sat.skip fun _ => ?_
    refine Sat.skip fun _ => Sat.skip fun _ => Sat.skip fun _ => Sat.skip fun _ => Sat.skip fun _ => Sat.skip fun _ => Sat.pure ?_
    show c.profileTierLevel.generalProfileCompatibilityFlag.length = 32
    rw [hc, hp]

theorem init_visual (w h : Nat) (rest : Bytes) : decodeVisual (encodeVisual w h ++ rest) = .ok (w % 2 ^ 16, h % 2 ^ 16) := by
  unfold decodeVisual encodeVisual
  rw [pack_read _ _ _ (by rfl) (by simp [widths]), Res.bind_ok]
  rfl

theorem init_audio (cc sz rate : Nat) (rest : Bytes) :
    decodeAudio (encodeAudio cc sz rate ++ rest) = .ok (cc % 2 ^ 16, rate % 2 ^ 32) := by
  unfold decodeAudio encodeAudio
  rw [pack_read _ _ _ (by rfl) (by simp [widths]), Res.bind_ok]
  rfl

theorem init_visual_length (w h : Nat) : (encodeVisual w h).length = 78 := by
  unfold encodeVisual; rw [pack_length]; simp [widths]

theorem init_audio_length (cc sz rate : Nat) : (encodeAudio cc sz rate).length = 28 := by
  unfold encodeAudio; rw [pack_length]; simp [widths]

/-- The reader of the codec boxes finds `c` in a sample entry and a configuration box. -/
structure CodecReads (typ entry ctyp config : Bytes) (c : Codec) : Prop where
  typ4 : typ.length = 4
  ctyp4 : ctyp.length = 4
  size : ∀ rest, isoFields typ (entry ++ rest) = some entry.length
  reads : ∃ r, (∀ rest, ({} : CodecReader).readBox typ (entry ++ rest) = .ok (.expand r)) ∧ r.readBox ctyp config = r.found c

theorem init_u16 (v : Int) (h : 0 ≤ v ∧ v < 2 ^ 16) : ((u16 v % 2 ^ 16 : Nat) : Int) = v := by unfold u16; omega

theorem init_u8 (v : Int) (h : 0 ≤ v ∧ v < 2 ^ 8) : ((u8 v % 2 ^ 8 : Nat) : Int) = v := by unfold u8; omega

theorem init_rate (v : Int) (h : 0 ≤ v ∧ v < 2 ^ 16) : ((u32 (v * 65536) % 2 ^ 32 / 65536 : Nat) : Int) = v := by unfold u32; omega

theorem init_bit (v : Bool) : (decide (bit v % 2 ^ 1 ≠ 0)) = v := by cases v <;> rfl

theorem init_enter_vp09 (w h : Nat) (rest : Bytes) (hw : w % 2 ^ 16 ≠ 0) (hh : h % 2 ^ 16 ≠ 0) :
    ({} : CodecReader).readBox typVp09 (encodeVisual w h ++ rest) =
      .ok (.expand { width := w % 2 ^ 16, height := h % 2 ^ 16, state := .waitingVpcC }) := by
  show CodecReader.enterVp09 {} _ = _
  unfold CodecReader.enterVp09
  rw [if_neg (by simp), init_visual, Res.bind_ok]
  dsimp only
  rw [if_neg (by omega)]

theorem init_enter_mp4v (w h : Nat) (rest : Bytes) : ({} : CodecReader).readBox typMp4v (encodeVisual w h ++ rest) =
    .ok (.expand { width := w % 2 ^ 16, height := h % 2 ^ 16, state := .waitingVideoEsds }) := by
  show CodecReader.enterMp4v {} _ = _
  unfold CodecReader.enterMp4v
  rw [if_neg (by simp), init_visual, Res.bind_ok]

theorem init_enterAudio (next : RState) (cc sz rate : Nat) (rest : Bytes) :
    ({} : CodecReader).enterAudio (encodeAudio cc sz rate ++ rest) next =
      .ok (.expand { sampleRate := rate % 2 ^ 32 / 65536, channelCount := cc % 2 ^ 16, state := next }) := by
  unfold CodecReader.enterAudio
  rw [if_neg (by simp), init_audio, Res.bind_ok]

theorem init_is_avcC (r : CodecReader) (p : Bytes) : r.readBox typAvcC p = r.readAvcC p := rfl
theorem init_is_vpcC (r : CodecReader) (p : Bytes) : r.readBox typVpcC p = r.readVpcC p := rfl
theorem init_is_hvcC (r : CodecReader) (p : Bytes) : r.readBox typHvcC p = r.readHvcC p := rfl
theorem init_is_av1C (r : CodecReader) (p : Bytes) : r.readBox typAv1C p = r.readAv1C p := rfl
theorem init_is_dOps (r : CodecReader) (p : Bytes) : r.readBox typDOps p = r.readDOps p := rfl
theorem init_is_dfLa (r : CodecReader) (p : Bytes) : r.readBox typDfLa p = r.readDfLa p := rfl
theorem init_is_esds (r : CodecReader) (p : Bytes) : r.readBox typEsds p = r.readEsds p := rfl
theorem init_is_dac3 (r : CodecReader) (p : Bytes) : r.readBox typDac3 p = r.readDac3 p := rfl
theorem init_is_dec3 (r : CodecReader) (p : Bytes) : r.readBox typDec3 p = r.readDec3 p := rfl
theorem init_is_pcmC (r : CodecReader) (p : Bytes) : r.readBox typPcmC p = r.readPcmC p := rfl

theorem init_av1 (sh : Bytes) (info : CodecInfo) (id : Int) (avg max : Nat) (typ entry ctyp config : Bytes) (hk : Kept (.av1 sh))
    (hf : fill (some (.av1 sh)) = .ok info) (he : sampleEntry info (.av1 sh) = .ok (typ, entry))
    (hc : configBox id info avg max (.av1 sh) = .ok (ctyp, config)) : CodecReads typ entry ctyp config (.av1 sh) := by
  cases he
  obtain ⟨obus, h1, hc⟩ := Res.bind_eq_ok.1 hc
  obtain ⟨h, h2, hc⟩ := Res.bind_eq_ok.1 hc
  obtain ⟨p, h3, hc⟩ := Res.bind_eq_ok.1 hc
  cases hc
  refine ⟨rfl, rfl, fun rest => by rw [init_visual_length]; rfl, { state := .waitingAv1C }, fun rest => rfl, ?_⟩
  rw [init_is_av1C]
  unfold CodecReader.readAv1C
  rw [if_neg (by simp)]
  obtain ⟨level, h4, h3⟩ := Res.bind_eq_ok.1 h3
  obtain ⟨tier, h5, h3⟩ := Res.bind_eq_ok.1 h3
  cases h3
  rw [box_av1C, Res.bind_ok]
  obtain ⟨b, payload, e, hb, hp⟩ := hk
  have hrt := C17_bitstream_roundtrip [sh] (by simp) (by
    intro obu ho
    rw [List.mem_singleton.1 ho]
    exact ⟨b, payload, e, by omega, by omega, by omega, hp⟩)
  rw [h1, Res.bind_ok] at hrt
  have hs : firstSequenceHeader [sh] = .ok sh := by
    unfold firstSequenceHeader
    obtain ⟨x, hx, _⟩ := Res.bind_eq_ok.1 hf
    rw [hx, e]
    have hb' : ((b >>> 3) &&& 0b1111) = 1 := by
      clear e
      revert hb
      revert b
      exact forall_u8 (by decide +kernel)
    show (if (b >>> 3) &&& 0b1111 = 1 then _ else _) = _
    rw [if_pos hb']
    rfl
  unfold av1FindSequenceHeader
  rw [hrt]
  show (firstSequenceHeader [sh] >>= _) = _
  rw [hs, Res.bind_ok]

theorem init_vp9 (c : VP9) (info : CodecInfo) (id : Int) (avg max : Nat) (typ entry ctyp config : Bytes) (hk : Kept (.vp9 c))
    (hf : fill (some (.vp9 c)) = .ok info) (he : sampleEntry info (.vp9 c) = .ok (typ, entry))
    (hc : configBox id info avg max (.vp9 c) = .ok (ctyp, config)) : CodecReads typ entry ctyp config (.vp9 c) := by
  cases he; cases hc
  obtain ⟨hw, hh, hp, hb, hs⟩ := hk
  have hi : info = { width := c.width, height := c.height } := by
    have hf : (if c.width = 0 then _ else _) = Res.ok info := hf
    rw [if_neg (by omega)] at hf
    cases hf; rfl
  subst hi
  refine ⟨rfl, rfl, fun rest => by rw [init_visual_length]; rfl, _, fun rest => init_enter_vp09 _ _ _ ?_ ?_, ?_⟩
  · show u16 c.width % 2 ^ 16 ≠ 0; unfold u16; omega
  · show u16 c.height % 2 ^ 16 ≠ 0; unfold u16; omega
  · rw [init_is_vpcC]
    unfold CodecReader.readVpcC
    rw [if_neg (by simp), box_vpcC, Res.bind_ok]
    dsimp only
    rw [init_u16 _ (by omega), init_u16 _ (by omega), Nat.mod_eq_of_lt hp, Nat.mod_eq_of_lt hb, Nat.mod_eq_of_lt hs, init_bit]

theorem init_h265 (vps sps pps : Bytes) (info : CodecInfo) (id : Int) (avg max : Nat) (typ entry ctyp config : Bytes)
    (hk : Kept (.h265 vps sps pps)) (hf : fill (some (.h265 vps sps pps)) = .ok info)
    (he : sampleEntry info (.h265 vps sps pps) = .ok (typ, entry))
    (hc : configBox id info avg max (.h265 vps sps pps) = .ok (ctyp, config)) : CodecReads typ entry ctyp config (.h265 vps sps pps) := by
  cases he
  obtain ⟨hv, hs, hp⟩ := hk
  have hf : (if vps.length = 0 ∨ sps.length = 0 ∨ pps.length = 0 then _ else _) = Res.ok info := hf
  by_cases hne : vps.length = 0 ∨ sps.length = 0 ∨ pps.length = 0
  · rw [if_pos hne] at hf; cases hf
  rw [if_neg hne] at hf
  obtain ⟨s, h1, hf⟩ := Res.bind_eq_ok.1 hf
  obtain ⟨w, _, hf⟩ := Res.bind_eq_ok.1 hf
  obtain ⟨h, _, hf⟩ := Res.bind_eq_ok.1 hf
  cases hf
  obtain ⟨s', h2, hc⟩ := Res.bind_eq_ok.1 hc
  cases h2
  obtain ⟨p, h3, hc⟩ := Res.bind_eq_ok.1 hc
  cases hc
  obtain ⟨cs, h4, h3⟩ := Res.bind_eq_ok.1 h3
  cases h3
  have h6 : cs.length = 6 := by
    unfold constraintBytes at h4
    obtain ⟨_, _, h4⟩ := Res.bind_eq_ok.1 h4
    obtain ⟨_, _, h4⟩ := Res.bind_eq_ok.1 h4
    obtain ⟨_, _, h4⟩ := Res.bind_eq_ok.1 h4
    obtain ⟨_, _, h4⟩ := Res.bind_eq_ok.1 h4
    obtain ⟨_, _, h4⟩ := Res.bind_eq_ok.1 h4
    obtain ⟨_, _, h4⟩ := Res.bind_eq_ok.1 h4
    cases h4; rfl
  refine ⟨rfl, rfl, fun rest => by rw [init_visual_length]; rfl, { state := .waitingHvcC }, fun rest => rfl, ?_⟩
  rw [init_is_hvcC]
  unfold CodecReader.readHvcC
  rw [if_neg (by simp), box_hvcC _ _ _ _ _ _ _ _ _ _ (h265_compat _ _ _ h1) h6 hv hs hp, Res.bind_ok]
  unfold h265FindParams h265Arrays h265Arrays h265Arrays h265Arrays h265Array
  simp only [idx, List.getElem?_cons_zero, Res.bind_ok, h1, orError]
  simp [Res.bind_ok, CodecReader.found]
  simp only [List.length_eq_zero_iff] at hne
  rw [if_neg (fun e => hne (.inl e)), if_neg (fun e => hne (.inr (.inl e))), if_neg (fun e => hne (.inr (.inr e))), Res.bind_ok]

theorem init_h264 (sps pps : Bytes) (info : CodecInfo) (id : Int) (avg max : Nat) (typ entry ctyp config : Bytes)
    (hk : Kept (.h264 sps pps)) (hf : fill (some (.h264 sps pps)) = .ok info) (he : sampleEntry info (.h264 sps pps) = .ok (typ, entry))
    (hc : configBox id info avg max (.h264 sps pps) = .ok (ctyp, config)) : CodecReads typ entry ctyp config (.h264 sps pps) := by
  cases he
  obtain ⟨hs, hp⟩ := hk
  have hf : (if sps.length = 0 ∨ pps.length = 0 then _ else _) = Res.ok info := hf
  by_cases hne : sps.length = 0 ∨ pps.length = 0
  · rw [if_pos hne] at hf; cases hf
  rw [if_neg hne] at hf
  obtain ⟨s, h1, hf⟩ := Res.bind_eq_ok.1 hf
  cases hf
  obtain ⟨s', h2, hc⟩ := Res.bind_eq_ok.1 hc
  cases h2
  obtain ⟨p, h3, hc⟩ := Res.bind_eq_ok.1 hc
  cases hc
  obtain ⟨b2, h4, h3⟩ := Res.bind_eq_ok.1 h3
  cases h3
  refine ⟨rfl, rfl, fun rest => by rw [init_visual_length]; rfl, { state := .waitingAvcC }, fun rest => rfl, ?_⟩
  rw [init_is_avcC]
  unfold CodecReader.readAvcC
  rw [if_neg (by simp), box_avcC _ _ _ _ _ hs hp, Res.bind_ok]
  unfold h264FindParams
  simp [idx, h1, orError, Res.bind_ok, CodecReader.found]
  simp only [List.length_eq_zero_iff] at hne
  rw [if_neg (fun e => hne (.inr e)), Res.bind_ok]

theorem init_esds_data (r : CodecReader) (id ot st mx av : Nat) (spec : Bytes) (h : spec.length < 2 ^ 28 - 32) (ho : ot < 2 ^ 8) :
    r.readBox typEsds (encodeEsds id ot st mx av spec) =
      match r.state with
      | .waitingVideoEsds => r.videoEsds ot spec
      | .waitingAudioEsds => r.audioEsds ot spec
      | _ => .err "unexpected box" := by
  rw [init_is_esds]
  unfold CodecReader.readEsds
  rw [box_esds _ _ _ _ _ _ (by omega) ho, Res.bind_ok]
  simp only [esdsFindDecoderConf, esdsFindDecoderSpecificInfo, if_true]
  rfl

theorem init_esds_bare (r : CodecReader) (id ot st mx av : Nat) (ho : ot < 2 ^ 8) :
    r.readBox typEsds (encodeEsdsBare id ot st mx av) =
      match r.state with
      | .waitingVideoEsds => r.videoEsds ot []
      | .waitingAudioEsds => r.audioEsds ot []
      | _ => .err "unexpected box" := by
  rw [init_is_esds]
  unfold CodecReader.readEsds
  rw [box_esdsBare _ _ _ _ _ ho, Res.bind_ok]
  simp only [esdsFindDecoderConf, esdsFindDecoderSpecificInfo]
  rfl

theorem init_mpeg4Video (spec : Bytes) (info : CodecInfo) (id : Int) (avg max : Nat) (typ entry ctyp config : Bytes)
    (hk : Kept (.mpeg4Video spec)) (hf : fill (some (.mpeg4Video spec)) = .ok info)
    (he : sampleEntry info (.mpeg4Video spec) = .ok (typ, entry))
    (hc : configBox id info avg max (.mpeg4Video spec) = .ok (ctyp, config)) : CodecReads typ entry ctyp config (.mpeg4Video spec) := by
  cases he; cases hc
  have hf : (if spec.length = 0 then _ else _) = Res.ok info := hf
  by_cases hne : spec.length = 0
  · rw [if_pos hne] at hf; cases hf
  refine ⟨rfl, rfl, fun rest => by rw [init_visual_length]; rfl, _, fun rest => init_enter_mp4v _ _ _, ?_⟩
  rw [init_esds_data _ _ _ _ _ _ _ hk (by decide)]
  simp only [CodecReader.videoEsds]
  rw [if_pos trivial, if_neg hne]

theorem init_mpeg1Video (spec : Bytes) (info : CodecInfo) (id : Int) (avg max : Nat) (typ entry ctyp config : Bytes)
    (hk : Kept (.mpeg1Video spec)) (hf : fill (some (.mpeg1Video spec)) = .ok info)
    (he : sampleEntry info (.mpeg1Video spec) = .ok (typ, entry))
    (hc : configBox id info avg max (.mpeg1Video spec) = .ok (ctyp, config)) : CodecReads typ entry ctyp config (.mpeg1Video spec) := by
  cases he; cases hc
  have hf : (if spec.length = 0 then _ else _) = Res.ok info := hf
  by_cases hne : spec.length = 0
  · rw [if_pos hne] at hf; cases hf
  refine ⟨rfl, rfl, fun rest => by rw [init_visual_length]; rfl, _, fun rest => init_enter_mp4v _ _ _, ?_⟩
  rw [init_esds_data _ _ _ _ _ _ _ hk (by decide)]
  simp only [CodecReader.videoEsds]
  rw [if_neg (by decide), if_pos trivial, if_neg hne]

theorem init_mjpeg (w h : Int) (info : CodecInfo) (id : Int) (avg max : Nat) (typ entry ctyp config : Bytes)
    (hk : Kept (.mjpeg w h)) (hf : fill (some (.mjpeg w h)) = .ok info) (he : sampleEntry info (.mjpeg w h) = .ok (typ, entry))
    (hc : configBox id info avg max (.mjpeg w h) = .ok (ctyp, config)) : CodecReads typ entry ctyp config (.mjpeg w h) := by
  cases he; cases hc
  obtain ⟨hw, hh⟩ := hk
  have hf : (if w = 0 then _ else _) = Res.ok info := hf
  rw [if_neg (by omega)] at hf
  cases hf
  refine ⟨rfl, rfl, fun rest => by rw [init_visual_length]; rfl, _, fun rest => init_enter_mp4v _ _ _, ?_⟩
  rw [init_esds_bare _ _ _ _ _ _ (by decide)]
  simp only [CodecReader.videoEsds]
  have w1 : u16 w % 2 ^ 16 ≠ 0 := by unfold u16; omega
  have h1 : u16 h % 2 ^ 16 ≠ 0 := by unfold u16; omega
  rw [if_neg (by decide), if_neg (by decide), if_pos trivial, if_neg (by omega), init_u16 _ (by omega), init_u16 _ (by omega)]

theorem init_opus (cc : Int) (info : CodecInfo) (id : Int) (avg max : Nat) (typ entry ctyp config : Bytes)
    (hk : Kept (.opus cc)) (he : sampleEntry info (.opus cc) = .ok (typ, entry))
    (hc : configBox id info avg max (.opus cc) = .ok (ctyp, config)) : CodecReads typ entry ctyp config (.opus cc) := by
  cases he; cases hc
  refine ⟨rfl, rfl, fun rest => by rw [init_audio_length]; rfl, { state := .waitingDOps }, fun rest => rfl, ?_⟩
  rw [init_is_dOps]
  unfold CodecReader.readDOps
  rw [if_neg (by simp), box_dOps, Res.bind_ok, init_u8 _ hk]

theorem init_flac (si : Option Flac.StreamInfo) (info : CodecInfo) (id : Int) (avg max : Nat) (typ entry ctyp config : Bytes)
    (hk : Kept (.flac si)) (he : sampleEntry info (.flac si) = .ok (typ, entry))
    (hc : configBox id info avg max (.flac si) = .ok (ctyp, config)) : CodecReads typ entry ctyp config (.flac si) := by
  obtain ⟨s, h1, he⟩ := Res.bind_eq_ok.1 he
  cases he
  obtain ⟨s', h2, hc⟩ := Res.bind_eq_ok.1 hc
  cases hc
  rw [h1] at h2
  cases h2
  cases si with
  | none => cases h1
  | some x =>
    cases h1
    have hr := hk s rfl
    refine ⟨rfl, rfl, fun rest => by rw [init_audio_length]; rfl, _, fun rest => init_enterAudio .waitingDfLa _ _ _ _, ?_⟩
    rw [init_is_dfLa]
    unfold CodecReader.readDfLa flacConfig
    rw [if_neg (by simp), box_dfLa, Res.bind_ok]
    have h4 : (pack [(8, 0x80), (24, (Flac.marshal s).length)]).length = 4 := by rw [pack_length]; simp [widths]
    have h5 := C29_round_trip s hr []
    rw [List.append_nil] at h5
    rw [if_neg (by rw [List.length_append]; omega), sliceFrom_ok (by rw [List.length_append]; omega), Res.bind_ok,
      List.drop_left' h4, h5]
    rfl

theorem init_mpeg4Audio (c : MPEG4Audio.ASC) (info : CodecInfo) (id : Int) (avg max : Nat) (typ entry ctyp config : Bytes)
    (hk : Kept (.mpeg4Audio c)) (he : sampleEntry info (.mpeg4Audio c) = .ok (typ, entry))
    (hc : configBox id info avg max (.mpeg4Audio c) = .ok (ctyp, config)) :
    CodecReads typ entry ctyp config (.mpeg4Audio (ascNormal c)) := by
  obtain ⟨cc, h1, he⟩ := Res.bind_eq_ok.1 he
  cases he
  obtain ⟨enc, h2, hc⟩ := Res.bind_eq_ok.1 hc
  cases hc
  have hr := C22_round_trip_normal c hk
  obtain ⟨buf, h3, h4⟩ := Res.bind_eq_ok.1 hr
  unfold ascBytes at h2
  rw [h3] at h2
  cases h2
  have hl : enc.length < 100 := by
    obtain ⟨bits, _, g2, g3⟩ := asc_writes c hk
    have hc8 := ceil8_le c.marshalSizeBits
    obtain ⟨buf, e1, e2, _⟩ := g2.run (MPEG4Audio.ceil8 c.marshalSizeBits) (by omega)
    unfold MPEG4Audio.ASC.marshal makeBytes at h3
    rw [e1] at h3
    cases h3
    have hsz : ∀ r, MPEG4Audio.rateSize r ≤ 28 := by
      intro r; unfold MPEG4Audio.rateSize; split <;> omega
    have h1 := hsz c.sampleRate
    have h2 := hsz c.extensionSampleRate
    have : c.marshalSizeBits ≤ 100 := by
      unfold MPEG4Audio.ASC.marshalSizeBits
      split <;> split <;> omega
    show buf.length < 100
    omega
  have hne : enc.length ≠ 0 := by
    intro e
    rw [List.length_eq_zero_iff] at e
    subst e
    cases h4
  refine ⟨rfl, rfl, fun rest => by rw [init_audio_length]; rfl, _, fun rest => init_enterAudio .waitingAudioEsds _ _ _ _, ?_⟩
  rw [init_esds_data _ _ _ _ _ _ _ (by omega) (by decide)]
  simp only [CodecReader.audioEsds]
  rw [if_pos trivial, if_neg hne, h4]
  rfl

theorem init_mpeg1Audio (rate cc : Int) (info : CodecInfo) (id : Int) (avg max : Nat) (typ entry ctyp config : Bytes)
    (hk : Kept (.mpeg1Audio rate cc)) (he : sampleEntry info (.mpeg1Audio rate cc) = .ok (typ, entry))
    (hc : configBox id info avg max (.mpeg1Audio rate cc) = .ok (ctyp, config)) :
    CodecReads typ entry ctyp config (.mpeg1Audio rate cc) := by
  cases he; cases hc
  refine ⟨rfl, rfl, fun rest => by rw [init_audio_length]; rfl, _, fun rest => init_enterAudio .waitingAudioEsds _ _ _ _, ?_⟩
  rw [init_esds_bare _ _ _ _ _ _ (by decide)]
  simp only [CodecReader.audioEsds]
  rw [if_neg (by decide), if_pos trivial, init_u16 _ hk.2, init_rate _ hk.1]

theorem init_fscod (rate : Int) (n : Nat) (h : fscodOf rate = .ok n) :
    (0 ≤ rate ∧ rate < 2 ^ 16) ∧ n % 2 ^ 2 = if rate = 48000 then 0 else if rate = 44100 then 1 else 2 := by
  unfold fscodOf at h
  repeat' split at h
  all_goals cases h
  all_goals simp_all

theorem init_ac3 (c : AC3) (info : CodecInfo) (id : Int) (avg max : Nat) (typ entry ctyp config : Bytes)
    (hk : Kept (.ac3 c)) (he : sampleEntry info (.ac3 c) = .ok (typ, entry))
    (hc : configBox id info avg max (.ac3 c) = .ok (ctyp, config)) : CodecReads typ entry ctyp config (restoredCodec (.ac3 c)) := by
  cases he
  obtain ⟨fscod, h1, hc⟩ := Res.bind_eq_ok.1 hc
  cases hc
  obtain ⟨k1, k2, k3, k4, k5⟩ := hk
  obtain ⟨hr, hn⟩ := init_fscod _ _ h1
  refine ⟨rfl, rfl, fun rest => by rw [init_audio_length]; rfl, _, fun rest => init_enterAudio .waitingDac3 _ _ _ _, ?_⟩
  rw [init_is_dac3]
  unfold CodecReader.readDac3
  rw [if_neg (by simp), box_dac3, Res.bind_ok, hn, Nat.mod_eq_of_lt k2, Nat.mod_eq_of_lt k3, Nat.mod_eq_of_lt k4, Nat.mod_eq_of_lt k5]
  simp only [List.getD_cons_zero, List.getD_cons_succ]
  rw [init_u16 _ k1, init_rate _ hr, init_bit]
  rfl

theorem init_eac3 (c : EAC3) (info : CodecInfo) (id : Int) (avg max : Nat) (typ entry ctyp config : Bytes)
    (hk : Kept (.eac3 c)) (he : sampleEntry info (.eac3 c) = .ok (typ, entry))
    (hc : configBox id info avg max (.eac3 c) = .ok (ctyp, config)) : CodecReads typ entry ctyp config (.eac3 c) := by
  cases he
  obtain ⟨fscod, h1, hc⟩ := Res.bind_eq_ok.1 hc
  cases hc
  obtain ⟨k1, k2, k3, k4, k5, k6, k7⟩ := hk
  obtain ⟨hr, hn⟩ := init_fscod _ _ h1
  refine ⟨rfl, rfl, fun rest => by rw [init_audio_length]; rfl, _, fun rest => init_enterAudio .waitingDec3 _ _ _ _, ?_⟩
  rw [init_is_dec3]
  unfold CodecReader.readDec3
  have hl : (if c.numDepSub = 0 then 0 else c.chanLoc % 2 ^ 9) = c.chanLoc := by
    split
    · rw [k7 ‹_›]
    · exact Nat.mod_eq_of_lt k6
  rw [if_neg (by simp), box_dec3 _ _ _ _ _ _ _ _ k5, Res.bind_ok, hl, Nat.mod_eq_of_lt k2, Nat.mod_eq_of_lt k3, Nat.mod_eq_of_lt k4]
  dsimp only
  rw [if_neg (by simp)]
  simp only [idx, List.getElem?_cons_zero, Res.bind_ok]
  rw [init_u16 _ k1, init_rate _ hr, init_bit, init_bit]

theorem init_lpcm (c : LPCM) (info : CodecInfo) (id : Int) (avg max : Nat) (typ entry ctyp config : Bytes)
    (hk : Kept (.lpcm c)) (he : sampleEntry info (.lpcm c) = .ok (typ, entry))
    (hc : configBox id info avg max (.lpcm c) = .ok (ctyp, config)) : CodecReads typ entry ctyp config (.lpcm c) := by
  cases he; cases hc
  obtain ⟨k1, k2, k3⟩ := hk
  refine ⟨rfl, rfl, fun rest => by rw [init_audio_length]; rfl, _, fun rest => init_enterAudio .waitingPcmC _ _ _ _, ?_⟩
  rw [init_is_pcmC]
  unfold CodecReader.readPcmC
  rw [if_neg (by simp), box_pcmC, Res.bind_ok]
  dsimp only
  have hb : (decide (bit c.littleEndian % 2 ^ 8 % 2 = 1)) = c.littleEndian := by cases c.littleEndian <;> rfl
  rw [init_u16 _ k3, init_rate _ k2, init_u8 _ k1, hb]

/-- The codec boxes of a codec that fits are read back. -/
theorem init_codec (c : Codec) (info : CodecInfo) (id : Int) (avg max : Nat) (typ entry ctyp config : Bytes) (hk : Kept c)
    (hf : fill (some c) = .ok info) (he : sampleEntry info c = .ok (typ, entry))
    (hc : configBox id info avg max c = .ok (ctyp, config)) : CodecReads typ entry ctyp config (restoredCodec c) := by
  cases c with
  | av1 sh => exact init_av1 _ _ _ _ _ _ _ _ _ hk hf he hc
  | vp9 c => exact init_vp9 _ _ _ _ _ _ _ _ _ hk hf he hc
  | h265 => exact init_h265 _ _ _ _ _ _ _ _ _ _ _ hk hf he hc
  | h264 => exact init_h264 _ _ _ _ _ _ _ _ _ _ hk hf he hc
  | mpeg4Video => exact init_mpeg4Video _ _ _ _ _ _ _ _ _ hk hf he hc
  | mpeg1Video => exact init_mpeg1Video _ _ _ _ _ _ _ _ _ hk hf he hc
  | mjpeg => exact init_mjpeg _ _ _ _ _ _ _ _ _ _ hk hf he hc
  | opus => exact init_opus _ _ _ _ _ _ _ _ _ hk he hc
  | flac => exact init_flac _ _ _ _ _ _ _ _ _ hk he hc
  | mpeg4Audio => exact init_mpeg4Audio _ _ _ _ _ _ _ _ _ hk he hc
  | mpeg1Audio => exact init_mpeg1Audio _ _ _ _ _ _ _ _ _ _ hk he hc
  | ac3 => exact init_ac3 _ _ _ _ _ _ _ _ _ hk he hc
  | eac3 => exact init_eac3 _ _ _ _ _ _ _ _ _ hk he hc
  | lpcm => exact init_lpcm _ _ _ _ _ _ _ _ _ hk he hc

/-! ## Bytes of a track -/

/-- The bytes of a sample entry. -/
def initEntry (typ entry ctyp config : Bytes) (avg max : Nat) : Bytes :=
  box typ (entry ++ (box ctyp config ++ box typBtrt (encodeBtrt max avg)))

def initMediaHeader (c : Codec) : Bytes := if c.isVideo then box typVmhd encodeVmhd else box typSmhd encodeSmhd

def initDinf : Bytes := box typDinf (box typDref (encodeCount 1 ++ box typUrl encodeUrl))

def initStbl (entry : Bytes) : Bytes :=
  box typStbl (box typStsd (encodeCount 1 ++ entry) ++ (box typStts (encodeCount 0) ++ (box typStsc (encodeCount 0) ++
    (box typStsz encodeStsz ++ box typStco (encodeCount 0)))))

def initMinf (c : Codec) (entry : Bytes) : Bytes := box typMinf (initMediaHeader c ++ (initDinf ++ initStbl entry))

def initMdia (ts : Nat) (c : Codec) (entry : Bytes) : Bytes :=
  box typMdia (box typMdhd (encodeMdhd ts) ++ (box typHdlr (hdlrPayload c) ++ initMinf c entry))

def initTrak (id : Int) (ts : Nat) (c : Codec) (info : CodecInfo) (entry : Bytes) : Bytes :=
  box typTrak (box typTkhd (tkhdPayload id c info) ++ initMdia ts c entry)

theorem put_dinf (a : Bytes) (f : SBuf) (h : writeDinf (full a) = .ok f) : f = full (a ++ initDinf) := by
  unfold writeDinf at h
  have W := put_writers
  generalize writeBoxStart = start at W h
  generalize writeBox = one at W h
  generalize writeBoxEnd = stop at W h
  obtain ⟨⟨_, _⟩, e, h⟩ := Res.bind_eq_ok.1 h
  cases W.start _ _ _ _ e
  clear e
  dsimp only at h
  obtain ⟨⟨_, _⟩, e, h⟩ := Res.bind_eq_ok.1 h
  cases W.start _ _ _ _ e
  clear e
  dsimp only at h
  obtain ⟨⟨_, _⟩, e, h⟩ := Res.bind_eq_ok.1 h
  obtain rfl := W.one _ _ _ _ _ (by rfl) e
  clear e
  dsimp only at h
  obtain ⟨f4, h4, h⟩ := Res.bind_eq_ok.1 h
  obtain ⟨rfl, _⟩ := W.stop _ typDref (encodeCount 1 ++ box typUrl encodeUrl) _ _ (by rfl) (by simp only [List.append_assoc]) h4
  obtain ⟨rfl, _⟩ := W.stop _ typDinf (box typDref (encodeCount 1 ++ box typUrl encodeUrl)) _ _ (by rfl) (by simp only [List.append_nil, List.append_assoc]) h
  rfl

theorem put_stsd (a : Bytes) (it : InitTrack) (c : Codec) (info : CodecInfo) (f : SBuf) (hk : Kept c) (hf : fill (some c) = .ok info)
    (h : writeStsd (full a) it c info = .ok f) :
    ∃ typ entry ctyp config avg max, CodecReads typ entry ctyp config (restoredCodec c) ∧
      f = full (a ++ box typStsd (encodeCount 1 ++ initEntry typ entry ctyp config avg max)) := by
  unfold writeStsd writeCodecBoxes at h
  have W := put_writers
  generalize writeBoxStart = start at W h
  generalize writeBox = one at W h
  generalize writeBoxEnd = stop at W h
  obtain ⟨⟨_, _⟩, e, h⟩ := Res.bind_eq_ok.1 h
  cases W.start _ _ _ _ e
  clear e
  dsimp only at h
  generalize (if it.avgBitrate = 0 then defaultBitrate c else it.avgBitrate) = avg at h
  generalize (if it.maxBitrate = 0 then defaultBitrate c else it.maxBitrate) = max at h
  obtain ⟨⟨off, etyp, f2⟩, h2, h⟩ := Res.bind_eq_ok.1 h
  obtain ⟨⟨typ, entry⟩, g1, h2⟩ := Res.bind_eq_ok.1 h2
  obtain ⟨⟨_, _⟩, e, h2⟩ := Res.bind_eq_ok.1 h2
  cases W.start _ _ _ _ e
  clear e
  dsimp only at h2
  obtain ⟨⟨ctyp, config⟩, g3, h2⟩ := Res.bind_eq_ok.1 h2
  have hr := init_codec c info it.id _ _ typ entry ctyp config hk hf g1 g3
  obtain ⟨⟨_, _⟩, e, h2⟩ := Res.bind_eq_ok.1 h2
  obtain rfl := W.one _ _ _ _ _ hr.ctyp4 e
  clear e
  dsimp only at h2
  cases h2
  obtain ⟨⟨_, _⟩, e, h⟩ := Res.bind_eq_ok.1 h
  obtain rfl := W.one _ _ _ _ _ (by rfl) e
  clear e
  dsimp only at h
  obtain ⟨f6, h6, h⟩ := Res.bind_eq_ok.1 h
  obtain ⟨rfl, _⟩ := W.stop _ etyp (entry ++ (box ctyp config ++ box typBtrt (encodeBtrt max avg))) _ _ hr.typ4
    (by simp only [List.append_assoc]) h6
  obtain ⟨rfl, _⟩ := W.stop _ typStsd (encodeCount 1 ++ initEntry etyp entry ctyp config avg max) _ _ (by rfl)
    (by unfold initEntry; simp only [List.append_assoc]) h
  exact ⟨etyp, entry, ctyp, config, _, _, hr, rfl⟩

theorem put_stbl (a : Bytes) (it : InitTrack) (c : Codec) (info : CodecInfo) (f : SBuf) (hk : Kept c) (hf : fill (some c) = .ok info)
    (h : writeStbl (full a) it c info = .ok f) :
    ∃ typ entry ctyp config avg max, CodecReads typ entry ctyp config (restoredCodec c) ∧
      f = full (a ++ initStbl (initEntry typ entry ctyp config avg max)) := by
  unfold writeStbl at h
  have T := fun a f h => put_stsd a it c info f hk hf h
  generalize writeStsd = stsd at T h
  have W := put_writers
  generalize writeBoxStart = start at W h
  generalize writeBox = one at W h
  generalize writeBoxEnd = stop at W h
  obtain ⟨⟨_, _⟩, e, h⟩ := Res.bind_eq_ok.1 h
  cases W.start _ _ _ _ e
  clear e
  dsimp only at h
  obtain ⟨f2, h2, h⟩ := Res.bind_eq_ok.1 h
  obtain ⟨typ, entry, ctyp, config, avg, max, hr, rfl⟩ := T _ _ h2
  obtain ⟨⟨_, _⟩, e, h⟩ := Res.bind_eq_ok.1 h
  obtain rfl := W.one _ _ _ _ _ (by rfl) e
  clear e
  dsimp only at h
  obtain ⟨⟨_, _⟩, e, h⟩ := Res.bind_eq_ok.1 h
  obtain rfl := W.one _ _ _ _ _ (by rfl) e
  clear e
  dsimp only at h
  obtain ⟨⟨_, _⟩, e, h⟩ := Res.bind_eq_ok.1 h
  obtain rfl := W.one _ _ _ _ _ (by rfl) e
  clear e
  dsimp only at h
  obtain ⟨⟨_, _⟩, e, h⟩ := Res.bind_eq_ok.1 h
  obtain rfl := W.one _ _ _ _ _ (by rfl) e
  clear e
  dsimp only at h
  refine ⟨typ, entry, ctyp, config, avg, max, hr, ?_⟩
  unfold initStbl
  exact (W.stop _ _ _ _ _ (by rfl) (by simp only [List.append_nil, List.append_assoc]) h).1

theorem put_media (a : Bytes) (c : Codec) (r : Int × SBuf) (h : writeMediaHeader (full a) c = .ok r) :
    r.2 = full (a ++ initMediaHeader c) := by
  unfold writeMediaHeader at h
  unfold initMediaHeader
  split at h
  · rw [if_pos ‹_›]; exact (put_box _ _ _ _ (by rfl) h).1
  · rw [if_neg ‹_›]; exact (put_box _ _ _ _ (by rfl) h).1

/-- What is written for a track. -/
theorem put_track (a : Bytes) (it : InitTrack) (f : SBuf) (hk : ∀ c, it.codec = some c → Kept c) (h : marshalTrack (full a) it = .ok f) :
    ∃ c info typ entry ctyp config avg max, it.codec = some c ∧ CodecReads typ entry ctyp config (restoredCodec c) ∧
      f = full (a ++ initTrak it.id it.timeScale c info (initEntry typ entry ctyp config avg max)) ∧
      (initTrak it.id it.timeScale c info (initEntry typ entry ctyp config avg max)).length < 2 ^ 32 := by
  unfold marshalTrack at h
  have D := put_dinf
  generalize writeDinf = dinf at D h
  have M : ∀ a c o f, writeMediaHeader (full a) c = .ok (o, f) → f = full (a ++ initMediaHeader c) := fun a c o f h => put_media a c _ h
  generalize writeMediaHeader = header at M h
  have T := fun a c info f hk hf h => put_stbl a it c info f hk hf h
  generalize writeStbl = stbl at T h
  have W := put_writers
  generalize writeBoxStart = start at W h
  generalize writeBox = one at W h
  generalize writeBoxEnd = stop at W h
  obtain ⟨⟨_, _⟩, e, h⟩ := Res.bind_eq_ok.1 h
  cases W.start _ _ _ _ e
  clear e
  dsimp only at h
  obtain ⟨info, hf, h⟩ := Res.bind_eq_ok.1 h
  obtain ⟨c, hc, h⟩ := Res.bind_eq_ok.1 h
  cases hcd : it.codec with
  | none => rw [hcd] at hc; cases hc
  | some c' =>
    rw [hcd] at hc hf
    cases hc
    obtain ⟨⟨_, _⟩, e, h⟩ := Res.bind_eq_ok.1 h
    obtain rfl := W.one _ _ _ _ _ (by rfl) e
    clear e
    dsimp only at h
    obtain ⟨⟨_, _⟩, e, h⟩ := Res.bind_eq_ok.1 h
    cases W.start _ _ _ _ e
    clear e
    dsimp only at h
    obtain ⟨⟨_, _⟩, e, h⟩ := Res.bind_eq_ok.1 h
    obtain rfl := W.one _ _ _ _ _ (by rfl) e
    clear e
    dsimp only at h
    obtain ⟨⟨_, _⟩, e, h⟩ := Res.bind_eq_ok.1 h
    obtain rfl := W.one _ _ _ _ _ (by rfl) e
    clear e
    dsimp only at h
    obtain ⟨⟨_, _⟩, e, h⟩ := Res.bind_eq_ok.1 h
    cases W.start _ _ _ _ e
    clear e
    dsimp only at h
    obtain ⟨⟨_, _⟩, e, h⟩ := Res.bind_eq_ok.1 h
    obtain rfl := M _ _ _ _ e
    clear e
    dsimp only at h
    obtain ⟨f8, h8, h⟩ := Res.bind_eq_ok.1 h
    obtain rfl := D _ _ h8
    obtain ⟨f9, h9, h⟩ := Res.bind_eq_ok.1 h
    obtain ⟨typ, entry, ctyp, config, avg, max, hr, rfl⟩ := T _ _ _ _ (hk c hcd) hf h9
    obtain ⟨f10, h10, h⟩ := Res.bind_eq_ok.1 h
    obtain ⟨rfl, _⟩ := W.stop _ _ (initMediaHeader c ++ (initDinf ++ initStbl (initEntry typ entry ctyp config avg max))) _ _ (by rfl)
      (by simp only [List.append_nil, List.append_assoc]) h10
    obtain ⟨f11, h11, h⟩ := Res.bind_eq_ok.1 h
    obtain ⟨rfl, _⟩ := W.stop _ _ (box typMdhd (encodeMdhd it.timeScale) ++ (box typHdlr (hdlrPayload c) ++
      initMinf c (initEntry typ entry ctyp config avg max))) _ _ (by rfl)
      (by unfold initMinf; simp only [List.append_nil, List.append_assoc]) h11
    obtain ⟨rfl, hl⟩ := W.stop _ _ (box typTkhd (tkhdPayload it.id c info) ++
      initMdia it.timeScale c (initEntry typ entry ctyp config avg max)) _ _ (by rfl)
      (by unfold initMdia; simp only [List.append_nil, List.append_assoc]) h
    exact ⟨c, info, typ, entry, ctyp, config, avg, max, rfl, hr, rfl, hl⟩

/-! ## Reading a track -/

theorem init_is_tkhd (r : Reader) (p : Bytes) (e : Reader → Res Reader) : r.readBox typTkhd p e = r.readTkhd p := rfl
theorem init_is_mdhd (r : Reader) (p : Bytes) (e : Reader → Res Reader) : r.readBox typMdhd p e = r.readMdhd p := rfl

/-- A box that the reader of the codec boxes ignores. -/
theorem tree_codec_skip (typ body : Bytes) (depth : Nat) (ts : List InitTrack) (ud : List (Bytes × Bytes)) (c : CodecReader)
    (ht : typ.length = 4) (hl : (box typ body).length < 2 ^ 32) (hd : ¬ depth < 7) (hr : c.readBox typ body = .ok (.done c)) :
    Reads isoFields (handle isoFields) (box typ body) depth ⟨.readingCodec, ts, ud, some c⟩ ⟨.readingCodec, ts, ud, some c⟩ := by
  refine tree_leaf ht (by rwa [box_length _ _ ht] at hl) fun bi expand e => ?_
  show (deref (some c) >>= _) = _
  unfold deref
  rw [Res.bind_ok]
  unfold CodecReader.read
  rw [if_neg hd, e, hr, Res.bind_ok]
  rfl

/-- A box outside of codec boxes and user data that is ignored. -/
theorem tree_skip (typ body : Bytes) (depth : Nat) (r : Reader) (ht : typ.length = 4) (hl : (box typ body).length < 2 ^ 32)
    (h1 : r.state ≠ .readingUserData) (h2 : r.state ≠ .readingCodec) (hr : ∀ expand, r.readBox typ body expand = .ok r) :
    Reads isoFields (handle isoFields) (box typ body) depth r r := by
  refine tree_leaf ht (by rwa [box_length _ _ ht] at hl) fun bi expand e => ?_
  unfold handle
  split
  · exact absurd ‹_› h1
  · exact absurd ‹_› h2
  · rw [e, hr]

theorem tree_entry (typ entry ctyp config : Bytes) (avg max : Nat) (c : Codec) (ts : List InitTrack) (ud : List (Bytes × Bytes))
    (hr : CodecReads typ entry ctyp config c) (hl : (initEntry typ entry ctyp config avg max).length < 2 ^ 32) :
    ∃ cr : CodecReader, cr.codec = some c ∧ cr.state = .waitingAdditional ∧
      Reads isoFields (handle isoFields) (initEntry typ entry ctyp config avg max) 7 ⟨.readingCodec, ts, ud, some {}⟩
        ⟨.readingCodec, ts, ud, some cr⟩ := by
  obtain ⟨h1, h2, h3, r, h4, h5⟩ := hr
  unfold initEntry at hl ⊢
  have hl' := hl
  rw [box_length _ _ h1, List.length_append, List.length_append] at hl'
  refine ⟨{ r with codec := some c, state := .waitingAdditional }, rfl, rfl, ?_⟩
  refine tree_node h1 (by rwa [box_length _ _ h1] at hl) (h3 _) (fun bi expand e => ?_) (tree_append (r' :=
    ⟨.readingCodec, ts, ud, some { r with codec := some c, state := .waitingAdditional }⟩) ?_ ?_) (r1 := (⟨.readingCodec, ts, ud, some r⟩ : Reader))
  · show (deref (some ({} : CodecReader)) >>= _) = _
    unfold deref
    rw [Res.bind_ok]
    unfold CodecReader.read
    rw [if_neg (by decide), e, h4, Res.bind_ok]
    rfl
  · refine tree_leaf h2 ?_ fun bi expand e => ?_
    · rw [box_length _ _ h2] at hl'; omega
    show (deref (some r) >>= _) = _
    unfold deref
    rw [Res.bind_ok]
    unfold CodecReader.read
    rw [if_neg (by decide), e, h5]
    rfl
  · exact tree_codec_skip _ _ _ _ _ _ (by rfl) (by omega) (by decide) (by rfl)

theorem init_count_length (n : Nat) : (encodeCount n).length = 8 := by unfold encodeCount; rw [pack_length]; simp [widths]

theorem tree_stbl (typ entry ctyp config : Bytes) (avg max : Nat) (c : Codec) (ts : List InitTrack) (t : InitTrack) (ud : List (Bytes × Bytes))
    (cr0 : Option CodecReader) (hr : CodecReads typ entry ctyp config c)
    (hl : (initStbl (initEntry typ entry ctyp config avg max)).length < 2 ^ 32) :
    ∃ cr, Reads isoFields (handle isoFields) (initStbl (initEntry typ entry ctyp config avg max)) 5 ⟨.waitingStsd, ts ++ [t], ud, cr0⟩
      ⟨.waitingTrak, ts ++ [{ t with codec := some c }], ud, cr⟩ := by
  unfold initStbl at hl ⊢
  have hl' := hl
  rw [box_length _ _ (by rfl), List.length_append, List.length_append, List.length_append, List.length_append] at hl'
  have hs : (box typStsd (encodeCount 1 ++ initEntry typ entry ctyp config avg max)).length < 2 ^ 32 := by omega
  rw [box_length _ _ (by rfl)] at hs
  have he := hs
  rw [List.length_append] at he
  obtain ⟨cr, g1, g2, g3⟩ := tree_entry typ entry ctyp config avg max c (ts ++ [t]) ud hr (by omega)
  refine ⟨some cr, ?_⟩
  refine tree_node0 (by rfl) (by rwa [box_length _ _ (by rfl)] at hl) (fun _ => rfl)
    (fun bi b expand e => ?_) (tree_append (r' := (⟨.readingCodec, ts ++ [t], ud, some cr⟩ : Reader)) ?_
      (tree_append (r' := (⟨.waitingTrak, ts ++ [{ t with codec := some c }], ud, some cr⟩ : Reader)) ?_
        (tree_append (r' := (⟨.waitingTrak, ts ++ [{ t with codec := some c }], ud, some cr⟩ : Reader)) ?_
          (tree_append (r' := (⟨.waitingTrak, ts ++ [{ t with codec := some c }], ud, some cr⟩ : Reader)) ?_ ?_)))) (r1 := (⟨.waitingStsd, ts ++ [t], ud, cr0⟩ : Reader))
  · show Reader.readBox _ bi.typ _ expand = _
    rw [e]; rfl
  · refine tree_node (by rfl) hs (by rw [init_count_length]; rfl) (fun bi expand e => ?_) g3
    show Reader.readBox _ bi.typ _ expand = _
    rw [e]; rfl
  · refine tree_leaf (by rfl) (by rw [init_count_length]; decide) fun bi expand e => ?_
    show (deref (some cr) >>= _) = _
    unfold deref
    rw [Res.bind_ok]
    unfold CodecReader.read
    rw [if_pos (by decide), g2, if_neg (by simp), Res.bind_ok]
    show (Reader.codecEnded _ cr >>= _) = _
    unfold Reader.codecEnded
    rw [g1, if_pos (by simp)]
    unfold Reader.onTrack
    simp only [List.reverse_append, List.reverse_cons, List.reverse_nil, List.nil_append, List.singleton_append, List.reverse_reverse]
    rw [Res.bind_ok, e]
    rfl
  · exact tree_skip _ _ _ _ (by rfl) (by omega) (by simp) (by simp) fun _ => rfl
  · exact tree_skip _ _ _ _ (by rfl) (by omega) (by simp) (by simp) fun _ => rfl
  · exact tree_skip _ _ _ _ (by rfl) (by omega) (by simp) (by simp) fun _ => rfl

theorem tree_minf (typ entry ctyp config : Bytes) (avg max : Nat) (c c' : Codec) (ts : List InitTrack) (t : InitTrack)
    (ud : List (Bytes × Bytes)) (cr0 : Option CodecReader) (hr : CodecReads typ entry ctyp config c)
    (hl : (initMinf c' (initEntry typ entry ctyp config avg max)).length < 2 ^ 32) :
    ∃ cr, Reads isoFields (handle isoFields) (initMinf c' (initEntry typ entry ctyp config avg max)) 4 ⟨.waitingStsd, ts ++ [t], ud, cr0⟩
      ⟨.waitingTrak, ts ++ [{ t with codec := some c }], ud, cr⟩ := by
  unfold initMinf at hl ⊢
  have hl' := hl
  rw [box_length _ _ (by rfl), List.length_append, List.length_append] at hl'
  obtain ⟨cr, g⟩ := tree_stbl typ entry ctyp config avg max c ts t ud cr0 hr (by omega)
  refine ⟨cr, tree_node0 (by rfl) (by rwa [box_length _ _ (by rfl)] at hl) (fun _ => rfl) (fun bi b expand e => ?_)
    (tree_append (r' := (⟨.waitingStsd, ts ++ [t], ud, cr0⟩ : Reader)) ?_ (tree_append (r' := (⟨.waitingStsd, ts ++ [t], ud, cr0⟩ : Reader)) ?_ g))
    (r1 := (⟨.waitingStsd, ts ++ [t], ud, cr0⟩ : Reader))⟩
  · show Reader.readBox _ bi.typ _ expand = _
    rw [e]; rfl
  · have hm : (initMediaHeader c').length < 2 ^ 32 := by omega
    unfold initMediaHeader at hm ⊢
    split at hm
    · rw [if_pos ‹_›]; exact tree_skip _ _ _ _ (by rfl) hm (by simp) (by simp) fun _ => rfl
    · rw [if_neg ‹_›]; exact tree_skip _ _ _ _ (by rfl) hm (by simp) (by simp) fun _ => rfl
  · exact tree_skip _ _ _ _ (by rfl) (by unfold initDinf at hl'; omega) (by simp) (by simp) fun _ => rfl

theorem tree_mdia (time : Nat) (typ entry ctyp config : Bytes) (avg max : Nat) (c c' : Codec) (ts : List InitTrack) (t : InitTrack)
    (ud : List (Bytes × Bytes)) (cr0 : Option CodecReader) (ht : 0 < time ∧ time < 2 ^ 32) (hr : CodecReads typ entry ctyp config c)
    (hl : (initMdia time c' (initEntry typ entry ctyp config avg max)).length < 2 ^ 32) :
    ∃ cr, Reads isoFields (handle isoFields) (initMdia time c' (initEntry typ entry ctyp config avg max)) 3
      ⟨.waitingMdhd, ts ++ [t], ud, cr0⟩ ⟨.waitingTrak, ts ++ [{ t with timeScale := time, codec := some c }], ud, cr⟩ := by
  unfold initMdia at hl ⊢
  have hl' := hl
  rw [box_length _ _ (by rfl), List.length_append, List.length_append] at hl'
  obtain ⟨cr, g⟩ := tree_minf typ entry ctyp config avg max c c' ts { t with timeScale := time } ud cr0 hr (by omega)
  refine ⟨cr, tree_node0 (by rfl) (by rwa [box_length _ _ (by rfl)] at hl) (fun _ => rfl) (fun bi b expand e => ?_)
    (tree_append (r' := (⟨.waitingStsd, ts ++ [{ t with timeScale := time }], ud, cr0⟩ : Reader)) ?_
      (tree_append (r' := (⟨.waitingStsd, ts ++ [{ t with timeScale := time }], ud, cr0⟩ : Reader)) ?_ g))
    (r1 := (⟨.waitingMdhd, ts ++ [t], ud, cr0⟩ : Reader))⟩
  · show Reader.readBox _ bi.typ _ expand = _
    rw [e]; rfl
  · refine tree_leaf (by rfl) (by rw [box_length _ _ (by rfl)] at hl'; omega) fun bi expand e => ?_
    show Reader.readBox _ bi.typ _ expand = _
    rw [e]
    rw [init_is_mdhd]
    unfold Reader.readMdhd
    rw [if_neg (by simp), box_mdhd, Res.bind_ok, Nat.mod_eq_of_lt ht.2, if_neg (by omega)]
    unfold Reader.onTrack
    simp only [List.reverse_append, List.reverse_cons, List.reverse_nil, List.nil_append, List.singleton_append, List.reverse_reverse]
    rfl
  · exact tree_skip _ _ _ _ (by rfl) (by omega) (by simp) (by simp) fun _ => rfl

theorem init_tkhd (id : Int) (c : Codec) (info : CodecInfo) (hi : 0 ≤ id ∧ id < 2 ^ 32) :
    ∃ n : Nat, decodeTkhd (tkhdPayload id c info) = .ok n ∧ (n : Int) = id := by
  unfold tkhdPayload
  refine ⟨u32 id % 2 ^ 32, ?_, by unfold u32; omega⟩
  split <;> exact box_tkhd _ _ _ _ _

theorem tree_trak (id : Int) (time : Nat) (info : CodecInfo) (typ entry ctyp config : Bytes) (avg max : Nat) (c c' : Codec)
    (ts : List InitTrack) (ud : List (Bytes × Bytes)) (cr0 : Option CodecReader) (hi : 0 ≤ id ∧ id < 2 ^ 32)
    (ht : 0 < time ∧ time < 2 ^ 32) (hr : CodecReads typ entry ctyp config c)
    (hl : (initTrak id time c' info (initEntry typ entry ctyp config avg max)).length < 2 ^ 32) :
    ∃ cr, Reads isoFields (handle isoFields) (initTrak id time c' info (initEntry typ entry ctyp config avg max)) 2
      ⟨.waitingTrak, ts, ud, cr0⟩ ⟨.waitingTrak, ts ++ [{ id := id, timeScale := time, codec := some c }], ud, cr⟩ := by
  unfold initTrak at hl ⊢
  have hl' := hl
  rw [box_length _ _ (by rfl), List.length_append] at hl'
  obtain ⟨cr, g⟩ := tree_mdia time typ entry ctyp config avg max c c' ts { id := id } ud cr0 ht hr (by omega)
  refine ⟨cr, tree_node0 (by rfl) (by rwa [box_length _ _ (by rfl)] at hl) (fun _ => rfl) (fun bi b expand e => ?_)
    (tree_append (r' := (⟨.waitingMdhd, ts ++ [{ id := id }], ud, cr0⟩ : Reader)) ?_ g) (r1 := (⟨.waitingTkhd, ts ++ [({} : InitTrack)], ud, cr0⟩ : Reader))⟩
  · show Reader.readBox _ bi.typ _ expand = _
    rw [e]; rfl
  · refine tree_leaf (by rfl) (by rw [box_length _ _ (by rfl)] at hl'; omega) fun bi expand e => ?_
    show Reader.readBox _ bi.typ _ expand = _
    rw [e]
    rw [init_is_tkhd]
    unfold Reader.readTkhd
    obtain ⟨n, hn, hid⟩ := init_tkhd id c' info hi
    rw [if_neg (by simp), hn, Res.bind_ok, hid]
    unfold Reader.onTrack
    simp only [List.reverse_append, List.reverse_cons, List.reverse_nil, List.nil_append, List.singleton_append, List.reverse_reverse]
    rfl

/-! ## Whole segments -/

/-- What is read back of a track: bit rates are not. -/
def restoredTrack (t : InitTrack) : InitTrack := { id := t.id, timeScale := t.timeScale, codec := t.codec.map restoredCodec }

/-- What is read back. -/
def restoredInit (i : Init) : Init := ⟨i.tracks.map restoredTrack, i.userData⟩

/-- Segments that fit their boxes. -/
structure GoodInit (i : Init) : Prop where
  tracks : i.tracks ≠ []
  id : ∀ t ∈ i.tracks, 0 ≤ t.id ∧ t.id < 2 ^ 32
  time : ∀ t ∈ i.tracks, 0 < t.timeScale ∧ t.timeScale < 2 ^ 32
  codec : ∀ t ∈ i.tracks, ∀ c, t.codec = some c → Kept c
  userData : ∀ u ∈ i.userData, u.1.length = 4

theorem tree_tracks (l : List InitTrack) : ∀ (a : Bytes) (f : SBuf) (_ : ∀ t ∈ l, ∀ c, t.codec = some c → Kept c)
    (_ : ∀ t ∈ l, 0 ≤ t.id ∧ t.id < 2 ^ 32) (_ : ∀ t ∈ l, 0 < t.timeScale ∧ t.timeScale < 2 ^ 32)
    (_ : marshalTracks l (full a) = .ok f), ∃ b, f = full (a ++ b) ∧ ∀ ts ud cr0, ∃ cr, Reads isoFields (handle isoFields) b 2
      ⟨.waitingTrak, ts, ud, cr0⟩ ⟨.waitingTrak, ts ++ l.map restoredTrack, ud, cr⟩ := by
  induction l with
  | nil =>
    intro a f _ _ _ h
    cases h
    refine ⟨[], by rw [List.append_nil], fun ts ud cr0 => ⟨cr0, ?_⟩⟩
    rw [List.map_nil, List.append_nil]
    exact tree_nil _ _ _ _
  | cons t l ih =>
    intro a f hk hi ht h
    obtain ⟨f1, h1, h⟩ := Res.bind_eq_ok.1 h
    obtain ⟨c, info, typ, entry, ctyp, config, avg, max, hc, hr, rfl, hl⟩ := put_track a t f1 (hk t (by simp)) h1
    obtain ⟨b, hb, hreads⟩ := ih _ f (fun t h => hk t (by simp [h])) (fun t h => hi t (by simp [h])) (fun t h => ht t (by simp [h])) h
    refine ⟨initTrak t.id t.timeScale c info (initEntry typ entry ctyp config avg max) ++ b, by rw [hb, List.append_assoc], fun ts ud cr0 => ?_⟩
    obtain ⟨cr1, g1⟩ := tree_trak t.id t.timeScale info typ entry ctyp config avg max (restoredCodec c) c ts ud cr0 (hi t (by simp))
      (ht t (by simp)) hr hl
    obtain ⟨cr2, g2⟩ := hreads (ts ++ [{ id := t.id, timeScale := t.timeScale, codec := some (restoredCodec c) }]) ud cr1
    refine ⟨cr2, ?_⟩
    have e : restoredTrack t = { id := t.id, timeScale := t.timeScale, codec := some (restoredCodec c) } := by
      unfold restoredTrack; rw [hc]; rfl
    rw [List.map_cons, e]
    have := tree_append g1 g2
    rwa [List.append_assoc] at this

theorem put_trexs (l : List InitTrack) : ∀ (a : Bytes) (f : SBuf) (_ : writeTrexs l (full a) = .ok f), ∃ b, f = full (a ++ b) := by
  induction l with
  | nil => intro a f h; cases h; exact ⟨[], by rw [List.append_nil]⟩
  | cons t l ih =>
    intro a f h
    unfold writeTrexs at h
    have W := put_writers
    generalize writeBoxStart = start at W
    generalize writeBox = one at W h
    generalize writeBoxEnd = stop at W
    obtain ⟨⟨_, _⟩, e, h⟩ := Res.bind_eq_ok.1 h
    obtain rfl := W.one _ _ _ _ _ (by rfl) e
    clear e
    obtain ⟨b, hb⟩ := ih _ _ h
    rw [List.append_assoc] at hb
    exact ⟨_, hb⟩

/-- Boxes of user data. -/
theorem tree_all (l : List (Bytes × Bytes)) : ∀ (a : Bytes) (f : SBuf) (_ : ∀ u ∈ l, u.1.length = 4) (_ : writeAll l (full a) = .ok f),
    ∃ b, f = full (a ++ b) ∧ (b.length < 2 ^ 32 → ∀ ts ud cr, Reads isoFields (handle isoFields) b 3
      ⟨.readingUserData, ts, ud, cr⟩ ⟨.readingUserData, ts, ud ++ l, cr⟩) := by
  induction l with
  | nil =>
    intro a f _ h
    cases h
    refine ⟨[], by rw [List.append_nil], fun _ ts ud cr => ?_⟩
    rw [List.append_nil]
    exact tree_nil _ _ _ _
  | cons u l ih =>
    intro a f hu h
    obtain ⟨typ, payload⟩ := u
    have h4 : typ.length = 4 := hu (typ, payload) (by simp)
    unfold writeAll at h
    have W := put_writers
    generalize writeBoxStart = start at W
    generalize writeBox = one at W h
    generalize writeBoxEnd = stop at W
    obtain ⟨⟨_, _⟩, e, h⟩ := Res.bind_eq_ok.1 h
    obtain rfl := W.one _ _ _ _ _ h4 e
    clear e
    obtain ⟨b, hb, hr⟩ := ih _ _ (fun u h => hu u (by simp [h])) h
    refine ⟨box typ payload ++ b, by rw [hb, List.append_assoc], fun hl ts ud cr => ?_⟩
    rw [List.length_append] at hl
    have e : ud ++ (typ, payload) :: l = (ud ++ [(typ, payload)]) ++ l := by simp
    rw [e]
    refine tree_append (r' := (⟨.readingUserData, ts, ud ++ [(typ, payload)], cr⟩ : Reader)) ?_ (hr (by omega) _ _ _)
    rw [box_length _ _ h4] at hl
    refine tree_leaf h4 (by omega) fun bi expand e => ?_
    show Reader.readUserData _ isoFields bi.typ payload = _
    unfold Reader.readUserData
    have : ∃ n, isoFields bi.typ payload = some n := by
      unfold isoFields; repeat' split
      all_goals exact ⟨_, rfl⟩
    obtain ⟨n, hn⟩ := this
    rw [hn, e]

theorem tree_userData (l : List (Bytes × Bytes)) (a : Bytes) (f : SBuf) (hu : ∀ u ∈ l, u.1.length = 4)
    (h : writeUserData l (full a) = .ok f) : ∃ b, f = full (a ++ b) ∧ (b.length < 2 ^ 32 → ∀ ts cr, ∃ s, (s = .waitingTrak ∨ s = .readingUserData) ∧
      Reads isoFields (handle isoFields) b 2 ⟨.waitingTrak, ts, [], cr⟩ ⟨s, ts, l, cr⟩) := by
  unfold writeUserData at h
  by_cases hl : l.length ≠ 0
  · rw [if_pos hl] at h
    have W := put_writers
    have A := tree_all l
    generalize writeBoxStart = start at W h
    generalize writeBox = one at W
    generalize writeBoxEnd = stop at W h
    generalize writeAll = all at A h
    obtain ⟨⟨_, _⟩, e, h⟩ := Res.bind_eq_ok.1 h
    cases W.start _ _ _ _ e
    clear e
    obtain ⟨f2, h2, h⟩ := Res.bind_eq_ok.1 h
    obtain ⟨b, rfl, hr⟩ := A _ _ hu h2
    obtain ⟨rfl, _⟩ := W.stop _ typUdta b _ _ (by rfl) (by simp only [List.append_nil, List.append_assoc]) h
    refine ⟨box typUdta b, rfl, fun hb ts cr => ⟨.readingUserData, .inr rfl, ?_⟩⟩
    rw [box_length _ _ (by rfl)] at hb
    refine tree_node0 (by rfl) hb (fun _ => rfl) (fun bi b expand e => ?_) (hr (by omega) ts [] cr)
    show Reader.readBox _ bi.typ _ expand = _
    rw [e]; rfl
  · rw [if_neg hl] at h
    cases h
    have : l = [] := by
      rw [← List.length_eq_zero_iff]; omega
    subst this
    exact ⟨[], by rw [List.append_nil], fun _ ts cr => ⟨.waitingTrak, .inl rfl, tree_nil _ _ _ _⟩⟩

theorem init_mvhd_length : encodeMvhd.length = 100 := by unfold encodeMvhd; rw [pack_length]; simp [widths, unity]

theorem init_ftyp_length : encodeFtyp.length = 24 := by unfold encodeFtyp; rw [pack_length]; simp [widths]

theorem init_mvhd_fields (b : Bytes) (h : b = encodeMvhd) : isoFields typMvhd b = some 100 := by
  have : b.head? = some 0 := by
    rw [h]
    unfold encodeMvhd
    exact pack_head 0 _ (by simp [widths, unity]) (by decide)
  show (if b.head? = some 0 then some 100 else some 112) = _
  rw [if_pos this]

/-- C76: a segment that is written is read back. -/
theorem C76_round_trip (i : Init) (f : SBuf) (hg : GoodInit i) (h : marshal ⟨[], 0⟩ i = .ok f) :
    unmarshal isoFields f.buf = .ok (restoredInit i) := by
  unfold marshal at h
  have h0 : (⟨[], 0⟩ : SBuf) = full [] := rfl
  rw [h0] at h
  have W := put_writers
  have T := tree_tracks i.tracks
  have X := put_trexs i.tracks
  have U := tree_userData i.userData
  generalize writeBoxStart = start at W h
  generalize writeBox = one at W h
  generalize writeBoxEnd = stop at W h
  generalize marshalTracks = tracks at T h
  generalize writeTrexs = trexs at X h
  generalize writeUserData = user at U h
  obtain ⟨⟨_, _⟩, e, h⟩ := Res.bind_eq_ok.1 h
  obtain rfl := W.one _ _ _ _ _ (by rfl) e
  clear e
  dsimp only at h
  obtain ⟨⟨_, _⟩, e, h⟩ := Res.bind_eq_ok.1 h
  cases W.start _ _ _ _ e
  clear e
  dsimp only at h
  obtain ⟨⟨_, _⟩, e, h⟩ := Res.bind_eq_ok.1 h
  obtain rfl := W.one _ _ _ _ _ (by rfl) e
  clear e
  dsimp only at h
  obtain ⟨f1, h1, h⟩ := Res.bind_eq_ok.1 h
  obtain ⟨bt, rfl, ht⟩ := T _ _ hg.codec hg.id hg.time h1
  obtain ⟨⟨_, _⟩, e, h⟩ := Res.bind_eq_ok.1 h
  cases W.start _ _ _ _ e
  clear e
  dsimp only at h
  obtain ⟨f2, h2, h⟩ := Res.bind_eq_ok.1 h
  obtain ⟨bx, rfl⟩ := X _ _ h2
  obtain ⟨f3, h3, h⟩ := Res.bind_eq_ok.1 h
  obtain ⟨rfl, _⟩ := W.stop _ typMvex bx _ _ (by rfl) (by simp only [List.append_nil, List.append_assoc]) h3
  obtain ⟨f4, h4, h⟩ := Res.bind_eq_ok.1 h
  obtain ⟨bu, rfl, hu⟩ := U _ _ hg.userData h4
  obtain ⟨rfl, hl⟩ := W.stop _ typMoov (box typMvhd encodeMvhd ++ (bt ++ (box typMvex bx ++ bu))) _ _ (by rfl)
    (by simp only [List.append_nil, List.append_assoc]) h
  clear h h1 h2 h3 h4 W T X U
  have hl' := hl
  rw [box_length _ _ (by rfl), List.length_append, List.length_append, List.length_append] at hl'
  obtain ⟨cr, g1⟩ := ht [] [] none
  obtain ⟨s, hs, g2⟩ := hu (by omega) (i.tracks.map restoredTrack) cr
  have key : Reads isoFields (handle isoFields) ([] ++ box typFtyp encodeFtyp ++ box typMoov (box typMvhd encodeMvhd ++ (bt ++
      (box typMvex bx ++ bu)))) 1 {} ⟨s, i.tracks.map restoredTrack, i.userData, cr⟩ := by
    rw [List.nil_append]
    refine tree_append (r' := (⟨.waitingMoov, [], [], none⟩ : Reader)) ?_ (tree_node0 (by rfl) (by rwa [box_length _ _ (by rfl)] at hl)
      (fun _ => rfl) (fun bi b expand e => ?_) (r1 := (⟨.waitingMvhd, [], [], none⟩ : Reader)) (tree_append ?_ (tree_append g1 (tree_append ?_ g2))))
    · refine tree_leaf (by rfl) (by rw [init_ftyp_length]; decide) fun bi expand e => ?_
      show Reader.readBox _ bi.typ _ expand = _
      rw [e]; rfl
    · show Reader.readBox _ bi.typ _ expand = _
      rw [e]; rfl
    · have := tree_node (fields := isoFields) (h := handle isoFields) (typ := typMvhd) (fs := encodeMvhd) (body := []) (depth := 2)
        (r := (⟨.waitingMvhd, [], [], none⟩ : Reader)) (r1 := (⟨.waitingTrak, [], [], none⟩ : Reader)) (r' := (⟨.waitingTrak, [], [], none⟩ : Reader)) (by rfl)
        (by rw [List.append_nil, init_mvhd_length]; decide) (by rw [init_mvhd_length]; exact init_mvhd_fields _ (List.append_nil _))
        (fun bi expand e => by
          show Reader.readBox _ bi.typ _ expand = _
          rw [e]; rfl) (tree_nil _ _ _ _)
      rwa [List.append_nil] at this
    · rw [List.nil_append]
      exact tree_skip _ _ _ _ (by rfl) (by omega) (by simp) (by simp) fun _ => rfl
  unfold unmarshal
  have hb : (full ([] ++ box typFtyp encodeFtyp ++ box typMoov (box typMvhd encodeMvhd ++ (bt ++ (box typMvex bx ++ bu))))).buf =
    [] ++ box typFtyp encodeFtyp ++ box typMoov (box typMvhd encodeMvhd ++ (bt ++ (box typMvex bx ++ bu))) := by unfold full; rfl
  rw [hb, tree_file key, Res.bind_ok]
  dsimp only
  have hn : (i.tracks.map restoredTrack).length ≠ 0 := by
    rw [List.length_map]
    exact fun e => hg.tracks (List.length_eq_zero_iff.1 e)
  rw [if_neg (by rcases hs with rfl | rfl <;> simp), if_neg hn]
  rfl

/-- C76: without bit rates and with consistent codecs, the segment that is read is the one that was written. -/
theorem C76_identity (i : Init) (f : SBuf) (hg : GoodInit i) (hb : ∀ t ∈ i.tracks, t.avgBitrate = 0 ∧ t.maxBitrate = 0)
    (hc : ∀ t ∈ i.tracks, ∀ c, t.codec = some c → restoredCodec c = c) (h : marshal ⟨[], 0⟩ i = .ok f) : unmarshal isoFields f.buf = .ok i := by
  rw [C76_round_trip i f hg h]
  unfold restoredInit
  have : i.tracks.map restoredTrack = i.tracks := by
    conv => rhs; rw [← List.map_id i.tracks]
    refine List.map_congr_left fun t ht => ?_
    obtain ⟨h1, h2⟩ := hb t ht
    unfold restoredTrack
    have h3 : t.codec.map restoredCodec = t.codec := by
      cases e : t.codec with
      | none => rfl
      | some c => rw [Option.map_some, hc t ht c e]
    rw [h3, ← h1]
    cases t
    simp only at h1 h2
    subst h1; subst h2; rfl
  rw [this]

/-- A video and an audio track with bit rates and a box of user data. -/
def initWithRates : Init :=
  { tracks := [⟨1, 90000, 3000000, 5000000, some (.h264 [103, 66, 192, 40, 217, 0, 120, 2, 39, 229, 132, 0, 0, 3, 0, 4, 0, 0, 3, 0, 240, 60, 96, 201, 32] [8])⟩,
      ⟨4294967295, 44100, 0, 0, some (.mpeg4Audio ⟨2, 44100, 0, 2, 0, 0, false, false, 0⟩)⟩],
    userData := [([116, 105, 116, 108], [1, 2, 3])] }

example : GoodInit initWithRates := by
  refine ⟨by decide, by decide, by decide, ?_, by decide⟩
  intro t ht c hc
  simp only [initWithRates, List.mem_cons, List.not_mem_nil, or_false] at ht
  rcases ht with rfl | rfl <;> cases hc
  · exact ⟨by decide, by decide⟩
  · exact ⟨rfl, by decide, .inl (by decide), by decide, .inl rfl, by decide, by decide, by decide, by decide⟩

example : ∃ f, marshal ⟨[], 0⟩ initWithRates = .ok f ∧ restoredInit initWithRates ≠ initWithRates := by
  have : ∃ f, marshal ⟨[], 0⟩ initWithRates = .ok f := by
    have h : (marshal ⟨[], 0⟩ initWithRates).bind (fun _ => .ok ()) = .ok () := by decide +kernel
    obtain ⟨f, hf, _⟩ := Res.bind_eq_ok.1 h
    exact ⟨f, hf⟩
  obtain ⟨f, hf⟩ := this
  exact ⟨f, hf, by decide +kernel⟩

/-- LPCM at 96 kHz. -/
def initWide : Init := { tracks := [{ id := 1, timeScale := 96000, codec := some (.lpcm ⟨false, 24, 96000, 2⟩) }] }

/-- Without `GoodInit` the claim is false: the sample rate of LPCM at 96 kHz wraps to 30464 Hz. -/
theorem C76_wide_false : ¬ ∀ (i : Init) (f : SBuf), marshal ⟨[], 0⟩ i = .ok f → unmarshal isoFields f.buf = .ok (restoredInit i) := by
  intro h
  have e : (marshal ⟨[], 0⟩ initWide).bind (fun f => unmarshal isoFields f.buf) =
      .ok { tracks := [{ id := 1, timeScale := 96000, codec := some (.lpcm ⟨false, 24, 30464, 2⟩) }] } := by decide +kernel
  obtain ⟨f, hf, e⟩ := Res.bind_eq_ok.1 e
  rw [h _ f hf] at e
  exact absurd e (by decide +kernel)

end Verif.Props
