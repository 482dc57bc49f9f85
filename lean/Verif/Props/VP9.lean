import Verif.Spec.VP9
import Verif.Lemmas.Grammar

/-!
# Property C53: VP9 frame header
-/

namespace Verif.Props
open Verif.Spec Verif.Spec.VP9 Verif.VP9 Verif.BitM

/-- The fields of a header that are set by what has been read; the others stay. -/
def vp9Apply (h : Header) : Info → Header
  | .existing p i => { h with profile := p, showExistingFrame := true, frameToShowMapIdx := i }
  | .frame p s r => { h with profile := p, showExistingFrame := false, nonKeyFrame := true, showFrame := s,
                             errorResilientMode := r }
  | .key p s r cc fs => { h with profile := p, showExistingFrame := false, nonKeyFrame := false, showFrame := s,
                                 errorResilientMode := r, colorConfig := some cc, frameSize := some fs }

theorem vp9_odd {p : Nat} (hp : p < 4) : (p == 1 || p == 3) = oddProfile p := by
  have : p = 0 ∨ p = 1 ∨ p = 2 ∨ p = 3 := by omega
  rcases this with rfl | rfl | rfl | rfl <;> rfl

theorem vp9_depth {p : Nat} (hp : p < 4) (b : Bool) : (if p ≥ 2 then (if b then 12 else 10) else 8) = bitDepthOf p b := by
  have : p = 0 ∨ p = 1 ∨ p = 2 ∨ p = 3 := by omega
  rcases this with rfl | rfl | rfl | rfl <;> cases b <;> rfl

theorem vp9_color {p : Nat} (hp : p < 4) : Exact 0 (ColorConfig.unmarshal p) (colorConfig p) := by
  unfold ColorConfig.unmarshal colorConfig
  refine Exact.bind (Exact.cond fun _ => Exact.readFlag') fun ten _ _ => ?_
  refine Exact.readBits (by omega) (by omega) fun space _ => ?_
  rw [vp9_depth hp]
  by_cases h : space = 7
  · rw [if_pos (show space = csRGB from h), if_neg (by simpa using h)]
    unfold readRGB
    rw [bind_assoc, vp9_odd hp]
    cases oddProfile p
    · simp only [BitM.cond, Gr.opt, if_false, Bool.false_eq_true, pure_bind]
      exact Exact.pure _
    · simp only [readReserved, BitM.cond, Gr.opt, if_true, bind_assoc, pure_bind]
      exact Exact.hasSpace (Exact.skip (by omega) (Exact.pure _))
  · rw [if_neg (show ¬ space = csRGB from h), if_pos h]
    unfold readRange
    simp only [bind_assoc, pure_bind]
    rw [vp9_odd hp]
    refine Exact.readFlag fun range => ?_
    refine Exact.bind (Exact.cond fun _ => ?_) fun _ _ _ => Exact.pure _
    exact Exact.hasSpace (Exact.readFlagU (by omega) fun x => Exact.readFlagU (by omega) fun y =>
      Exact.skip (by omega) (Exact.pure _))

theorem vp9_exact (h : Header) : Exact 0 h.unmarshalM (header >>= fun i => pure (vp9Apply h i)) := by
  unfold Header.unmarshalM header
  simp only [bind_assoc]
  refine Exact.hasSpace (Exact.lit (by omega) (by omega) (by omega) (by omega) ?_)
  refine Exact.readBitsU (by omega) (by omega) (by omega) fun lo hlo => ?_
  refine Exact.readBitsU (by omega) (by omega) (by omega) fun hi hhi => ?_
  have hp : hi <<< 1 + lo = 2 * hi + lo := by rw [Nat.shiftLeft_eq]; omega
  rw [hp]
  refine Exact.bind (Exact.cond fun _ => ?_) fun _ _ _ => ?_
  · exact Exact.hasSpace Exact.skip'
  refine Exact.readFlag fun existing => ?_
  cases existing
  · unfold Header.unmarshalFrame
    refine Exact.hasSpace ?_
    simp only [Bool.false_eq_true, if_false, bind_assoc]
    refine Exact.readFlagU (by omega) fun nonKey => ?_
    refine Exact.readFlagU (by omega) fun sf => ?_
    refine Exact.readFlagU (by omega) fun res => ?_
    cases nonKey
    · unfold Header.unmarshalKey keyFrame FrameSize.unmarshal
      simp only [Bool.false_eq_true, if_false, bind_assoc, pure_bind]
      refine Exact.hasSpace ?_
      refine Exact.lit (by omega) (by omega) (by omega) (by omega) ?_
      refine Exact.lit (by omega) (by omega) (by omega) (by omega) ?_
      refine Exact.lit (by omega) (by omega) (by omega) (by omega) ?_
      refine Exact.bind (vp9_color (by omega)) fun cc _ _ => ?_
      refine Exact.hasSpace ?_
      refine Exact.readBitsU (by omega) (by omega) (by omega) fun w hw => ?_
      refine Exact.readBitsU (by omega) (by omega) (by omega) fun v hv => ?_
      exact Exact.pure _
    · simp only [Bool.not_true, Bool.false_eq_true, if_true, if_false, pure_bind]
      exact Exact.pure _
  · unfold Header.unmarshalExisting
    simp only [if_true, bind_assoc, pure_bind]
    exact Exact.readBits (by omega) (by omega) fun i hi => Exact.pure _

/-- C53: `Header.Unmarshal`, on a header that may have been used before, accepts exactly the buffers that start with an
uncompressed header, and stores what it carries. -/
theorem C53_decode (h0 h : Header) (buf : Bytes) :
    h0.unmarshal buf = .ok h ↔ ∃ info bits rest, header info bits ∧ bitsOf buf = bits ++ rest ∧ h = vp9Apply h0 info := by
  have hr := (vp9_exact h0).run buf h
  unfold Header.unmarshal
  constructor
  · intro e
    obtain ⟨⟨a, pos⟩, he, e⟩ := Res.bind_eq_ok.1 e
    cases e
    obtain ⟨_, rest, ⟨i, b1, _, g, ⟨rfl, rfl⟩, rfl⟩, e⟩ := hr.1 ⟨pos, he⟩
    exact ⟨i, b1, rest, g, by simpa using e, rfl⟩
  · rintro ⟨i, bits, rest, g, e, rfl⟩
    obtain ⟨pos, he⟩ := hr.2 ⟨bits, rest, ⟨i, bits, [], g, ⟨rfl, rfl⟩, by simp⟩, e⟩
    rw [he]; rfl

/-- C53: `Header.Unmarshal` never panics. -/
theorem C53_no_panic (h0 : Header) (buf : Bytes) : (h0.unmarshal buf).NoPanic :=
  Res.noPanic_bind ((vp9_exact h0).noPanic buf) (by simp)

/-- C53: a key frame sets the dimensions to those it carries, which are between 1 and 65536. -/
theorem C53_key_frame (h0 h : Header) (buf : Bytes) (e : h0.unmarshal buf = .ok h) (hs : h.showExistingFrame = false)
    (hk : h.nonKeyFrame = false) :
    (1 ≤ h.width ∧ h.width ≤ 65536) ∧ (1 ≤ h.height ∧ h.height ≤ 65536) ∧
    ∃ pre rest : List Bool, bitsOf buf = pre ++ (bitsOfNat 16 (h.width - 1) ++ (bitsOfNat 16 (h.height - 1) ++ rest)) := by
  obtain ⟨info, bits, rest, g, hb, rfl⟩ := (C53_decode h0 h buf).1 e
  unfold header at g
  obtain ⟨_, b1, _, -, g, rfl⟩ := g
  obtain ⟨lo, b2, _, -, g, rfl⟩ := g
  obtain ⟨hi, b3, _, -, g, rfl⟩ := g
  obtain ⟨_, b4, _, -, g, rfl⟩ := g
  obtain ⟨existing, b5, _, -, g, rfl⟩ := g
  cases existing
  · obtain ⟨frameType, b6, _, -, g, rfl⟩ := g
    obtain ⟨sf, b7, _, -, g, rfl⟩ := g
    obtain ⟨res, b8, _, -, g, rfl⟩ := g
    cases frameType
    · obtain ⟨k, b9, _, g, ⟨rfl, rfl⟩, rfl⟩ := g
      unfold keyFrame at g
      obtain ⟨_, c1, _, -, g, rfl⟩ := g
      obtain ⟨_, c2, _, -, g, rfl⟩ := g
      obtain ⟨_, c3, _, -, g, rfl⟩ := g
      obtain ⟨cc, c4, _, -, g, rfl⟩ := g
      obtain ⟨w, _, _, ⟨hw, rfl⟩, g, rfl⟩ := g
      obtain ⟨v, _, _, ⟨hv, rfl⟩, ⟨rfl, rfl⟩, rfl⟩ := g
      simp only [vp9Apply, Header.width, Header.height]
      refine ⟨by omega, by omega, b1 ++ b2 ++ b3 ++ b4 ++ b5 ++ b6 ++ b7 ++ b8 ++ c1 ++ c2 ++ c3 ++ c4, rest, ?_⟩
      rw [hb]
      simp [List.append_assoc]
    · obtain ⟨rfl, rfl⟩ := g
      cases hk
  · obtain ⟨i, b6, _, -, ⟨rfl, rfl⟩, rfl⟩ := g
    cases hs

/-- C53: any other frame leaves the dimensions as they were. -/
theorem C53_other_frames (h0 h : Header) (buf : Bytes) (e : h0.unmarshal buf = .ok h)
    (hn : h.showExistingFrame = true ∨ h.nonKeyFrame = true) :
    h.width = h0.width ∧ h.height = h0.height ∧ h.chromaSubsampling = h0.chromaSubsampling := by
  obtain ⟨info, bits, rest, g, hb, rfl⟩ := (C53_decode h0 h buf).1 e
  cases info with
  | existing p i => exact ⟨rfl, rfl, rfl⟩
  | frame p s r => exact ⟨rfl, rfl, rfl⟩
  | key p s r cc fs => rcases hn with hn | hn <;> cases hn

/-- C53: the value for the `vpcC` box is 3 for 4:4:4, 2 for 4:2:2 and 1 for 4:2:0. The box has no value for 4:4:0, for which
the code returns 1 too. -/
theorem C53_chroma (h : Header) (c : ColorConfig) (hc : h.colorConfig = some c) :
    (h.chromaSubsampling = 3 ↔ c.subsamplingX = false ∧ c.subsamplingY = false) ∧
    (h.chromaSubsampling = 2 ↔ c.subsamplingX = true ∧ c.subsamplingY = false) ∧
    (h.chromaSubsampling = 1 ↔ c.subsamplingY = true) := by
  unfold Header.chromaSubsampling
  rw [hc]
  obtain ⟨d, s, r, k, x, y⟩ := c
  cases x <;> cases y <;> simp

/-- A 1920x804 key frame of profile 0 (header_test.go). -/
example : ((({} : Header).unmarshal [0x82, 0x49, 0x83, 0x42, 0x00, 0x77, 0xf0, 0x32, 0x34]).bind fun h =>
    .ok (h.width, h.height, h.chromaSubsampling, h.colorConfig.map (·.bitDepth))) = .ok (1920, 804, 1, some 8) := by
  decide +kernel

/-- A frame of profile 3 that shows an existing one. -/
example : ({} : Header).unmarshal [0xb5, 0x40] =
    .ok { profile := 3, showExistingFrame := true, frameToShowMapIdx := 2 } := by decide +kernel

example : ({} : Header).unmarshal [0x82, 0x49, 0x83] = .err "not enough bits" := by decide +kernel

end Verif.Props
