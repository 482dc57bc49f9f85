import Verif.Spec.AV1Seq
import Verif.Lemmas.AV1
import Verif.Lemmas.Grammar

/-!
# Property C52: AV1 sequence header
-/

namespace Verif.Props
open Verif.Spec Verif.AV1 Verif.BitM

theorem av1_depth (p : Nat) (high twelve : Bool) (d : Nat) :
    (if p = 2 ∧ high = true then (if twelve then 12 else 10) else if p ≤ 2 then (if high then 10 else 8) else d)
      = (Spec.AV1.bitDepthOf p high twelve).getD d := by
  match p with
  | 0 => cases high <;> cases twelve <;> rfl
  | 1 => cases high <;> cases twelve <;> rfl
  | 2 => cases high <;> cases twelve <;> rfl
  | p + 3 => rw [if_neg (by omega), if_neg (by omega)]; rfl

theorem av1_subsampling (p d : Nat) : Exact 0 (readSubsampling p d) (Spec.AV1.subsampling p d) := by
  match p with
  | 0 => exact Exact.pure _
  | 1 => exact Exact.pure _
  | p + 2 =>
    unfold readSubsampling Spec.AV1.subsampling readSubsampling12
    rw [if_neg (by omega), if_neg (by omega)]
    refine Exact.ite (fun _ => ?_) fun _ => Exact.pure _
    exact Exact.readFlag fun x => Exact.bind (Exact.cond fun _ => Exact.readFlag') fun _ _ _ => Exact.pure _

theorem av1_color (c : ColorConfig) (p : Nat) : Exact 0 (c.unmarshal p) (Spec.AV1.colorConfig p c) := by
  unfold ColorConfig.unmarshal Spec.AV1.colorConfig
  refine Exact.readFlag fun high => ?_
  refine Exact.bind (Exact.cond fun _ => Exact.readFlag') fun twelve _ _ => ?_
  refine Exact.bind (Exact.cond fun _ => Exact.readFlag') fun mono _ _ => ?_
  refine Exact.readFlag fun desc => ?_
  refine Exact.bind (Exact.cond fun _ => ?_) fun d _ _ => ?_
  · unfold readDescription Spec.AV1.description
    refine Exact.hasSpace ?_
    refine Exact.readBitsU (by omega) (by omega) (by omega) fun _ _ => ?_
    refine Exact.readBitsU (by omega) (by omega) (by omega) fun _ _ => ?_
    refine Exact.readBitsU (by omega) (by omega) (by omega) fun _ _ => Exact.pure _
  simp only [av1_depth]
  refine Exact.ite (fun _ => ?_) fun _ => Exact.ite (fun _ => Exact.pure _) fun _ => ?_
  · exact Exact.readFlag fun _ => Exact.pure _
  · unfold readColor
    refine Exact.readFlag fun range => ?_
    refine Exact.bind (av1_subsampling _ _) fun s _ _ => ?_
    exact Exact.bind (Exact.cond fun _ => Exact.readBits' (by omega) (by omega)) fun _ _ _ => Exact.pure _

theorem av1_timing : Exact 0 readTiming Spec.AV1.timingInfo := by
  unfold readTiming TimingInfo.unmarshal Spec.AV1.timingInfo
  simp only [bind_assoc, pure_bind]
  refine Exact.hasSpace ?_
  refine Exact.readBitsU (by omega) (by omega) (by omega) fun _ _ => ?_
  refine Exact.readBitsU (by omega) (by omega) (by omega) fun _ _ => ?_
  refine Exact.readFlagU (by omega) fun equal => ?_
  refine Exact.bind (Exact.cond fun _ => Exact.readUE') fun ticks _ _ => ?_
  refine Exact.zero ?_ Exact.never
  exact Exact.pure _

theorem av1_delay : Exact 0 readInitialDelay (fun _ _ => False) := by
  unfold readInitialDelay
  refine Exact.bindNever Exact.readFlag' fun p _ _ => ?_
  refine Exact.bindNever (Exact.cond fun _ => Exact.readBits' (by omega) (by omega)) fun _ _ _ => Exact.never

theorem av1_op : Exact 0 (readOp false) Spec.AV1.operatingPoint := by
  unfold readOp Spec.AV1.operatingPoint
  refine Exact.hasSpace ?_
  refine Exact.readBitsU (by omega) (by omega) (by omega) fun idc _ => ?_
  refine Exact.readBitsU (by omega) (by omega) (by omega) fun level _ => ?_
  refine Exact.bind (Exact.cond fun _ => Exact.readFlag') fun tier _ _ => ?_
  simp only [BitM.cond, Bool.false_eq_true, if_false, pure_bind]
  exact Exact.pure _

theorem av1_op_delay : Exact 0 (readOp true) (fun _ _ => False) := by
  unfold readOp
  refine Exact.hasSpace ?_
  refine Exact.congr (Exact.readBitsU (F := fun _ => fun _ _ => False) (by omega) (by omega) (by omega) fun idc _ => ?_)
    fun _ _ => ⟨fun ⟨_, _, _, _, h, _⟩ => h, fun h => h.elim⟩
  refine Exact.congr (Exact.readBitsU (F := fun _ => fun _ _ => False) (by omega) (by omega) (by omega) fun level _ => ?_)
    fun _ _ => ⟨fun ⟨_, _, _, _, h, _⟩ => h, fun h => h.elim⟩
  refine Exact.bindNever (Exact.cond fun _ => Exact.readFlag') fun tier _ _ => ?_
  simp only [BitM.cond, if_true]
  exact Exact.congr (Exact.bind (F := fun _ => pure _) av1_delay fun _ _ _ => Exact.pure _)
    fun _ _ => ⟨fun ⟨_, _, _, h, _⟩ => h, fun h => h.elim⟩

theorem av1_ops (h : SequenceHeader) (hr : h.reducedStillPictureHeader = false) :
    Exact 0 (readOps h) (Spec.AV1.operatingPoints h) := by
  unfold readOps Spec.AV1.operatingPoints
  simp only [hr, Bool.false_eq_true, if_false]
  refine Exact.readFlag fun timing => ?_
  refine Exact.bind (Exact.cond fun _ => av1_timing) fun t _ _ => ?_
  refine Exact.hasSpace (Exact.zeroU (by omega) ?_ ?_)
  · refine Exact.readBitsU (by omega) (by omega) (by omega) fun cnt _ => ?_
    refine Exact.bind (Exact.times av1_op _) fun ops _ g => ?_
    have hl := gr_times_length g
    have hm : ∀ {α : Type} (x : α), ops.map (fun _ => x) = List.replicate (cnt + 1) x := by
      intro α x; rw [List.map_const', hl]
    simp only [hm]
    exact Exact.pure _
  · refine Exact.congr (Exact.readBitsU (F := fun _ => fun _ _ => False) (by omega) (by omega) (by omega) fun cnt _ => ?_)
      fun _ _ => ⟨fun ⟨_, _, _, _, h, _⟩ => h, fun h => h.elim⟩
    refine Exact.bindNever (Exact.times av1_op_delay _) fun ops b g => ?_
    obtain ⟨_, _, _, g, _⟩ := g
    exact g.elim

theorem av1_frameSize (h : SequenceHeader) : Exact 0 (readFrameSize h) (Spec.AV1.frameSize h) := by
  unfold readFrameSize Spec.AV1.frameSize
  refine Exact.hasSpace ?_
  refine Exact.readBitsU (by omega) (by omega) (by omega) fun wb hw => ?_
  refine Exact.readBitsU (by omega) (by omega) (by omega) fun hb hh => ?_
  dsimp only
  refine Exact.hasSpace ?_
  refine Exact.readBitsU (by omega) (by omega) (by omega) fun _ _ => ?_
  exact Exact.readBitsU (by omega) (by omega) (by omega) fun _ _ => by
    rw [show wb + 1 + (hb + 1) - (wb + 1) - (hb + 1) = 0 by omega]
    exact Exact.pure _

theorem av1_frameIDs (h : SequenceHeader) : Exact 0 (readFrameIDs h) (Spec.AV1.frameIDs h) := by
  unfold readFrameIDs Spec.AV1.frameIDs
  refine Exact.bind (Exact.cond fun _ => Exact.readFlag') fun present _ _ => ?_
  cases present
  · simp only [BitM.cond, Bool.false_eq_true, if_false, pure_bind]
    exact Exact.pure _
  · simp only [BitM.cond, if_true, readIDLengths, bind_assoc, pure_bind]
    refine Exact.hasSpace ?_
    refine Exact.readBitsU (by omega) (by omega) (by omega) fun _ _ => ?_
    exact Exact.readBitsU (by omega) (by omega) (by omega) fun _ _ => Exact.pure _

theorem av1_intra (h : SequenceHeader) : Exact 0 (readIntra h) (Spec.AV1.intraTools h) := by
  unfold readIntra Spec.AV1.intraTools
  refine Exact.hasSpace ?_
  refine Exact.readFlagU (by omega) fun _ => ?_
  refine Exact.readFlagU (by omega) fun _ => ?_
  exact Exact.readFlagU (by omega) fun _ => Exact.pure _

theorem av1_tools (h : SequenceHeader) (hr : h.reducedStillPictureHeader = false) :
    Exact 0 (readTools h) (Spec.AV1.interTools h) := by
  unfold readTools Spec.AV1.interTools
  simp only [hr, Bool.false_eq_true, if_false]
  refine Exact.hasSpace ?_
  refine Exact.readFlagU (by omega) fun _ => ?_
  refine Exact.readFlagU (by omega) fun _ => ?_
  refine Exact.readFlagU (by omega) fun _ => ?_
  refine Exact.readFlagU (by omega) fun _ => ?_
  refine Exact.readFlagU (by omega) fun order => ?_
  refine Exact.bind (Exact.cond fun _ => ?_) fun o _ _ => ?_
  · unfold readOrderTools Spec.AV1.orderTools
    refine Exact.hasSpace ?_
    refine Exact.readFlagU (by omega) fun _ => ?_
    exact Exact.readFlagU (by omega) fun _ => Exact.pure _
  refine Exact.readFlag fun choose => ?_
  refine Exact.bind (Exact.cond fun _ => Exact.readBits' (by omega) (by omega)) fun force _ _ => ?_
  rw [show decide (force > 0) = (force != 0) by cases force <;> rfl]
  refine Exact.bind (Exact.cond fun _ => ?_) fun mv _ _ => ?_
  · unfold readIntegerMv Spec.AV1.integerMv
    refine Exact.readFlag fun c => ?_
    exact Exact.bind (Exact.cond fun _ => Exact.readBits' (by omega) (by omega)) fun _ _ _ => Exact.pure _
  exact Exact.bind (Exact.cond fun _ => Exact.readBits' (by omega) (by omega)) fun _ _ _ => Exact.pure _

theorem av1_last (h : SequenceHeader) : Exact 0 (readLast h) (do
    let h ← Spec.AV1.filtersAndColor h
    let grain ← Gr.flag
    pure { h with filmGrainParamsPresent := grain }) := by
  unfold readLast Spec.AV1.filtersAndColor
  simp only [bind_assoc, pure_bind]
  refine Exact.hasSpace ?_
  refine Exact.readFlagU (by omega) fun _ => ?_
  refine Exact.readFlagU (by omega) fun _ => ?_
  refine Exact.readFlagU (by omega) fun _ => ?_
  refine Exact.bind (av1_color _ _) fun cc _ _ => ?_
  refine Exact.hasSpace ?_
  exact Exact.readFlagU (by omega) fun _ => Exact.pure _

/-- What the Go code takes for a sequence header: after the color configuration there is one flag. -/
def av1Read (h : SequenceHeader) : Gr SequenceHeader := do
  let h ← Spec.AV1.start h
  let grain ← Gr.flag
  pure { h with filmGrainParamsPresent := grain }

theorem av1_exact (h : SequenceHeader) : Exact 0 h.unmarshalM (av1Read h) := by
  unfold SequenceHeader.unmarshalM av1Read Spec.AV1.start
  simp only [bind_assoc]
  refine Exact.hasSpace ?_
  refine Exact.readBitsU (by omega) (by omega) (by omega) fun profile _ => ?_
  refine Exact.readFlagU (by omega) fun still => ?_
  refine Exact.readFlagU (by omega) fun reduced => ?_
  refine Exact.bind ?_ fun h1 b1 g1 => ?_
  · unfold readOperatingPoints
    split
    · rename_i hr
      unfold Spec.AV1.operatingPoints
      rw [if_pos hr]
      exact Exact.hasSpace (Exact.readBitsU (by omega) (by omega) (by omega) fun _ _ => Exact.pure _)
    · exact av1_ops _ (Bool.eq_false_iff.2 ‹_›)
  refine Exact.bind (av1_frameSize _) fun h2 b2 g2 => ?_
  refine Exact.bind (av1_frameIDs _) fun h3 b3 g3 => ?_
  refine Exact.bind (av1_intra _) fun h4 b4 g4 => ?_
  refine Exact.bind ?_ fun h5 b5 g5 => av1_last h5
  unfold readInterTools
  split
  · rename_i hr
    unfold Spec.AV1.interTools
    rw [if_pos hr]
    exact Exact.pure _
  · exact av1_tools _ (Bool.eq_false_iff.2 ‹_›)

theorem obuPayload_iff (buf payload : Bytes) : obuPayload buf = .ok payload ↔ Spec.AV1.IsObu buf payload := by
  cases buf with
  | nil =>
    constructor
    · intro e; cases e
    · rintro ⟨h, _, _, ⟨_, e⟩ | ⟨_, _, _, _, _, e⟩⟩ <;> cases e
  | cons b t =>
    unfold obuPayload
    rw [obuHeader_cons]
    by_cases h1 : b.toNat / 128 = 0
    rotate_left
    · rw [if_pos h1]
      constructor
      · intro e; cases e
      · rintro ⟨h, h1', _, ⟨_, e⟩ | ⟨_, _, _, _, _, e⟩⟩ <;> cases e <;> exact absurd h1' h1
    by_cases h2 : b.toNat / 4 % 2 = 0
    rotate_left
    · rw [if_neg (by omega), if_pos h2]
      constructor
      · intro e; cases e
      · rintro ⟨h, _, h2', ⟨_, e⟩ | ⟨_, _, _, _, _, e⟩⟩ <;> cases e <;> exact absurd h2' h2
    rw [if_neg (by omega), if_neg (by omega), Res.bind_ok, sliceFrom_ok (by simp), Res.bind_ok, List.drop_one, List.tail_cons]
    by_cases h3 : b.toNat / 2 % 2 = 1
    · simp only [h3, decide_true, if_true]
      rcases leb128Unmarshal_cases t with ⟨pre, last, rest, g1, g2, g3⟩ | ⟨g1, g2, g3⟩
      · rw [g3, Res.bind_ok]
        dsimp only
        rw [sliceFrom_ok (by rw [g1]; simp), Res.bind_ok, g1, show pre ++ last :: rest = (pre ++ [last]) ++ rest by simp,
          show pre.length + 1 = (pre ++ [last]).length by simp, List.drop_left]
        constructor
        · intro e
          split at e
          · cases e
          · cases e
            rename_i hn
            exact ⟨b, h1, h2, .inr ⟨h3, pre, last, g2, (Decidable.not_not.1 hn).symm, by simp⟩⟩
        · rintro ⟨h, _, _, ⟨h3', e⟩ | ⟨_, pre', last', l1, l2, e⟩⟩
          · cases e; omega
          · injection e with e0 e
            subst e0
            have hu := leb128Unmarshal_leb payload l1
            rw [← e, ← List.append_cons, ← g1, g3] at hu
            injection hu with hu
            injection hu with hu1 hu2
            have hlen : (pre ++ [last]).length = (pre' ++ [last']).length := by simp; omega
            rw [show pre' ++ last' :: payload = (pre' ++ [last']) ++ payload by simp] at e
            obtain ⟨_, rfl⟩ := List.append_inj e hlen
            rw [if_neg (by omega)]
      · rw [g3]
        constructor
        · intro e; cases e
        · rintro ⟨h, _, _, ⟨h3', e⟩ | ⟨_, pre', last', l1, l2, e⟩⟩
          · cases e; omega
          · injection e with e0 e
            rw [e, leb128Unmarshal_leb payload l1] at g3
            cases g3
    · simp only [h3, decide_false, Bool.false_eq_true, if_false]
      constructor
      · intro e; cases e; exact ⟨b, h1, h2, .inl ⟨by omega, rfl⟩⟩
      · rintro ⟨h, _, _, ⟨h3', e⟩ | ⟨_, _, _, _, _, e⟩⟩
        · cases e; rfl
        · cases e; omega

theorem obuPayload_noPanic (buf : Bytes) : (obuPayload buf).NoPanic := by
  cases buf with
  | nil => exact fun e => by cases e
  | cons b t =>
    unfold obuPayload
    rw [obuHeader_cons]
    split
    · simp
    split
    · simp
    rw [Res.bind_ok, sliceFrom_ok (by simp), Res.bind_ok, List.drop_one, List.tail_cons]
    split
    · rcases leb128Unmarshal_cases t with ⟨pre, last, rest, g1, g2, g3⟩ | ⟨g1, g2, g3⟩
      · rw [g3, Res.bind_ok]
        dsimp only
        rw [sliceFrom_ok (by rw [g1]; simp), Res.bind_ok]
        split <;> simp
      · rw [g3]; simp
    · simp

/-- C52: `SequenceHeader.Unmarshal`, on a header that may have been used before, accepts exactly the OBUs whose payload
starts with a sequence header, up to the end of the color configuration and one more flag. -/
theorem C52_decode (h0 h : SequenceHeader) (buf : Bytes) :
    h0.unmarshal buf = .ok h ↔
      ∃ payload hs grain bits rest, Spec.AV1.IsObu buf payload ∧ Spec.AV1.start h0 hs bits ∧
        bitsOf payload = bits ++ grain :: rest ∧ h = { hs with filmGrainParamsPresent := grain } := by
  unfold SequenceHeader.unmarshal
  constructor
  · intro e
    obtain ⟨payload, hp, e⟩ := Res.bind_eq_ok.1 e
    obtain ⟨⟨a, pos⟩, he, e⟩ := Res.bind_eq_ok.1 e
    cases e
    obtain ⟨_, rest, ⟨hs, b1, _, g, ⟨grain, _, _, rfl, ⟨rfl, rfl⟩, rfl⟩, rfl⟩, e⟩ :=
      ((av1_exact h0).run payload _).1 ⟨pos, he⟩
    exact ⟨payload, hs, grain, b1, rest, (obuPayload_iff _ _).1 hp, g, by simpa using e, rfl⟩
  · rintro ⟨payload, hs, grain, bits, rest, hp, g, e, rfl⟩
    obtain ⟨pos, he⟩ := ((av1_exact h0).run payload { hs with filmGrainParamsPresent := grain }).2
      ⟨bits ++ [grain], rest, ⟨hs, bits, [grain], g, ⟨grain, [grain], [], rfl, ⟨rfl, rfl⟩, rfl⟩, rfl⟩, by simpa using e⟩
    rw [(obuPayload_iff _ _).2 hp, Res.bind_ok, he]; rfl

/-- C52: `SequenceHeader.Unmarshal` never panics. -/
theorem C52_no_panic (h0 : SequenceHeader) (buf : Bytes) : (h0.unmarshal buf).NoPanic :=
  Res.noPanic_bind (obuPayload_noPanic buf) fun payload _ => Res.noPanic_bind ((av1_exact h0).noPanic payload) (by simp)

/-- What holds of the lists of operating points and of the frame size. -/
structure Av1Shape (h : SequenceHeader) : Prop where
  cnt : h.operatingPointsCntMinus1 < 32
  idc : h.operatingPointIdc.length = h.operatingPointsCntMinus1 + 1
  level : h.seqLevelIdx.length = h.operatingPointsCntMinus1 + 1
  tier : h.seqTier.length = h.operatingPointsCntMinus1 + 1
  model : h.decoderModelPresentForThisOp.length = h.operatingPointsCntMinus1 + 1
  present : h.initialDisplayPresentForThisOp.length = h.operatingPointsCntMinus1 + 1
  delay : h.reducedStillPictureHeader = false → h.initialDisplayDelayMinus1.length = h.operatingPointsCntMinus1 + 1

theorem av1_ops_sat (h : SequenceHeader) : Sat (Spec.AV1.operatingPoints h) Av1Shape := by
  refine Sat.ite (fun hr => ?_) fun _ => ?_
  · exact Sat.skip fun _ => Sat.pure ⟨by simp, rfl, rfl, rfl, rfl, rfl, fun h => by simp [hr] at h⟩
  · refine Sat.skip fun _ => Sat.skip fun _ => Sat.skip fun _ => Sat.bind Sat.u fun cnt hc => Sat.bind Sat.times fun ops ho => ?_
    exact Sat.pure ⟨hc, by simpa using ho, by simpa using ho, by simpa using ho, by simpa using ho, by simpa using ho,
      fun _ => by simpa using ho⟩

theorem av1_start_sat (h : SequenceHeader) :
    Sat (Spec.AV1.start h) fun x => Av1Shape x ∧ x.maxFrameWidthMinus1 < 65536 ∧ x.maxFrameHeightMinus1 < 65536 := by
  refine Sat.skip fun _ => Sat.skip fun _ => Sat.skip fun _ => Sat.bind (av1_ops_sat _) fun h1 s1 => ?_
  have keep : ∀ {x y : SequenceHeader}, Av1Shape x → y.reducedStillPictureHeader = x.reducedStillPictureHeader →
      y.operatingPointsCntMinus1 = x.operatingPointsCntMinus1 → y.operatingPointIdc = x.operatingPointIdc →
      y.seqLevelIdx = x.seqLevelIdx → y.seqTier = x.seqTier →
      y.decoderModelPresentForThisOp = x.decoderModelPresentForThisOp →
      y.initialDisplayPresentForThisOp = x.initialDisplayPresentForThisOp →
      y.initialDisplayDelayMinus1 = x.initialDisplayDelayMinus1 → Av1Shape y := by
    intro x y h e1 e2 e3 e4 e5 e6 e7 e8
    exact ⟨by rw [e2]; exact h.cnt, by rw [e2, e3]; exact h.idc, by rw [e2, e4]; exact h.level, by rw [e2, e5]; exact h.tier,
      by rw [e2, e6]; exact h.model, by rw [e2, e7]; exact h.present, by rw [e2, e8, e1]; exact h.delay⟩
  have size : ∀ {n v : Nat}, n < 2 ^ 4 → v < 2 ^ (n + 1) → v < 65536 := by
    intro n v hn hv
    have : 2 ^ (n + 1) ≤ 2 ^ 16 := Nat.pow_le_pow_right (by omega) (by omega)
    omega
  refine Sat.bind (P := fun x => Av1Shape x ∧ x.maxFrameWidthMinus1 < 65536 ∧ x.maxFrameHeightMinus1 < 65536) ?_ fun h2 s2 => ?_
  · exact Sat.bind Sat.u fun wb hw => Sat.bind Sat.u fun hb hh => Sat.bind Sat.u fun w hw' => Sat.bind Sat.u fun v hv =>
      Sat.pure ⟨keep s1 rfl rfl rfl rfl rfl rfl rfl rfl, size hw hw', size hh hv⟩
  have next : ∀ {x y : SequenceHeader}, (Av1Shape x ∧ x.maxFrameWidthMinus1 < 65536 ∧ x.maxFrameHeightMinus1 < 65536) →
      Av1Shape y → y.maxFrameWidthMinus1 = x.maxFrameWidthMinus1 → y.maxFrameHeightMinus1 = x.maxFrameHeightMinus1 →
      (Av1Shape y ∧ y.maxFrameWidthMinus1 < 65536 ∧ y.maxFrameHeightMinus1 < 65536) := by
    intro x y h hy e1 e2
    exact ⟨hy, by rw [e1]; exact h.2.1, by rw [e2]; exact h.2.2⟩
  refine Sat.bind (P := fun x => Av1Shape x ∧ x.maxFrameWidthMinus1 < 65536 ∧ x.maxFrameHeightMinus1 < 65536) ?_ fun h3 s3 => ?_
  · refine Sat.skip fun _ => Sat.ite (fun _ => Sat.skip fun _ => Sat.skip fun _ => Sat.pure ?_) fun _ => Sat.pure ?_
    · exact next s2 (keep s2.1 rfl rfl rfl rfl rfl rfl rfl rfl) rfl rfl
    · exact next s2 (keep s2.1 rfl rfl rfl rfl rfl rfl rfl rfl) rfl rfl
  refine Sat.bind (P := fun x => Av1Shape x ∧ x.maxFrameWidthMinus1 < 65536 ∧ x.maxFrameHeightMinus1 < 65536) ?_ fun h4 s4 => ?_
  · exact Sat.skip fun _ => Sat.skip fun _ => Sat.skip fun _ => Sat.pure
      (next s3 (keep s3.1 rfl rfl rfl rfl rfl rfl rfl rfl) rfl rfl)
  refine Sat.bind (P := fun x => Av1Shape x ∧ x.maxFrameWidthMinus1 < 65536 ∧ x.maxFrameHeightMinus1 < 65536) ?_ fun h5 s5 => ?_
  · refine Sat.ite (fun _ => Sat.pure (next s4 (keep s4.1 rfl rfl rfl rfl rfl rfl rfl rfl) rfl rfl)) fun _ => ?_
    exact Sat.skip fun _ => Sat.skip fun _ => Sat.skip fun _ => Sat.skip fun _ => Sat.skip fun _ => Sat.skip fun _ =>
      Sat.skip fun _ => Sat.skip fun _ => Sat.skip fun _ => Sat.skip fun _ => Sat.pure
      (next s4 (keep s4.1 rfl rfl rfl rfl rfl rfl rfl rfl) rfl rfl)
  exact Sat.skip fun _ => Sat.skip fun _ => Sat.skip fun _ => Sat.skip fun _ => Sat.pure
      (next s5 (keep s5.1 rfl rfl rfl rfl rfl rfl rfl rfl) rfl rfl)

/-- C52 says that all the lists have the same length between 1 and 32. The list of the initial display delays is not set by
reduced still picture headers (`C52_false`); everything else holds. -/
theorem C52_bounds_partial (h0 h : SequenceHeader) (buf : Bytes) (e : h0.unmarshal buf = .ok h) :
    (1 ≤ h.width ∧ h.width ≤ 65536) ∧ (1 ≤ h.height ∧ h.height ≤ 65536) ∧
    ∃ n, 1 ≤ n ∧ n ≤ 32 ∧ h.operatingPointsCntMinus1 + 1 = n ∧ h.operatingPointIdc.length = n ∧ h.seqLevelIdx.length = n ∧
      h.seqTier.length = n ∧ h.decoderModelPresentForThisOp.length = n ∧ h.initialDisplayPresentForThisOp.length = n ∧
      (h.reducedStillPictureHeader = false → h.initialDisplayDelayMinus1.length = n) := by
  obtain ⟨payload, hs, grain, bits, rest, -, g, -, rfl⟩ := (C52_decode h0 h buf).1 e
  obtain ⟨s, hw, hh⟩ := av1_start_sat h0 hs bits g
  simp only [SequenceHeader.width, SequenceHeader.height]
  have := s.cnt
  exact ⟨by omega, by omega, hs.operatingPointsCntMinus1 + 1, by omega, by omega, rfl, s.idc, s.level, s.tier, s.model, s.present,
    s.delay⟩

/-- What precedes the frame size in a sequence header. -/
def av1Before (h : SequenceHeader) : Gr SequenceHeader := do
  let profile ← Gr.u 3
  let still ← Gr.flag
  let reduced ← Gr.flag
  Spec.AV1.operatingPoints { h with seqProfile := profile, stillPicture := still, reducedStillPictureHeader := reduced }

/-- C52, frame size: the width and the height are one more than the numbers that follow the operating points, in as many bits as the two
preceding 4-bit fields say. -/
theorem C52_size (h0 h : SequenceHeader) (buf : Bytes) (e : h0.unmarshal buf = .ok h) :
    ∃ payload h1 pre wb hb w v rest, Spec.AV1.IsObu buf payload ∧ av1Before h0 h1 pre ∧ wb < 16 ∧ hb < 16 ∧ w < 2 ^ (wb + 1) ∧
      v < 2 ^ (hb + 1) ∧
      bitsOf payload = pre ++ (bitsOfNat 4 wb ++ (bitsOfNat 4 hb ++ (bitsOfNat (wb + 1) w ++ (bitsOfNat (hb + 1) v ++ rest)))) ∧
      h.width = w + 1 ∧ h.height = v + 1 := by
  obtain ⟨payload, hs, grain, bits, rest, ho, g, hb, rfl⟩ := (C52_decode h0 h buf).1 e
  obtain ⟨-, lw, lh⟩ := av1_start_sat h0 hs bits g
  obtain ⟨profile, b1, _, g1, ⟨still, b2, _, g2, ⟨reduced, b3, _, g3, ⟨h1, b4, _, g4, ⟨h2, b5, b6, g5, g6, rfl⟩, rfl⟩, rfl⟩, rfl⟩, rfl⟩ := g
  obtain ⟨wb, _, _, ⟨k1, rfl⟩, ⟨hb', _, _, ⟨k2, rfl⟩, ⟨w, _, _, ⟨k3, rfl⟩, ⟨v, _, _, ⟨k4, rfl⟩, ⟨rfl, rfl⟩, rfl⟩, rfl⟩, rfl⟩, rfl⟩ := g5
  have keep : hs.maxFrameWidthMinus1 = w ∧ hs.maxFrameHeightMinus1 = v := by
    refine (?_ : Sat _ fun x : SequenceHeader => x.maxFrameWidthMinus1 = w ∧ x.maxFrameHeightMinus1 = v) hs b6 g6
    refine Sat.bind (P := fun x : SequenceHeader => x.maxFrameWidthMinus1 = w ∧ x.maxFrameHeightMinus1 = v) ?_ fun h3 s3 => ?_
    · exact Sat.skip fun _ => Sat.ite (fun _ => Sat.skip fun _ => Sat.skip fun _ => Sat.pure ⟨rfl, rfl⟩) fun _ => Sat.pure ⟨rfl, rfl⟩
    refine Sat.bind (P := fun x : SequenceHeader => x.maxFrameWidthMinus1 = w ∧ x.maxFrameHeightMinus1 = v) ?_ fun h4 s4 => ?_
    · exact Sat.skip fun _ => Sat.skip fun _ => Sat.skip fun _ => Sat.pure s3
    refine Sat.bind (P := fun x : SequenceHeader => x.maxFrameWidthMinus1 = w ∧ x.maxFrameHeightMinus1 = v) ?_ fun h5 s5 => ?_
    · refine Sat.ite (fun _ => Sat.pure s4) fun _ => ?_
      exact Sat.skip fun _ => Sat.skip fun _ => Sat.skip fun _ => Sat.skip fun _ => Sat.skip fun _ => Sat.skip fun _ =>
        Sat.skip fun _ => Sat.skip fun _ => Sat.skip fun _ => Sat.skip fun _ => Sat.pure s4
    exact Sat.skip fun _ => Sat.skip fun _ => Sat.skip fun _ => Sat.skip fun _ => Sat.pure s5
  refine ⟨payload, h1, b1 ++ (b2 ++ (b3 ++ b4)), wb, hb', w, v, b6 ++ grain :: rest, ho,
    ⟨profile, b1, _, g1, ⟨still, b2, _, g2, ⟨reduced, b3, _, g3, g4, rfl⟩, rfl⟩, rfl⟩, k1, k2, k3, k4, ?_, ?_, ?_⟩
  · rw [hb]
    simp only [List.append_assoc, List.nil_append]
  · simp only [SequenceHeader.width, keep.1]
    omega
  · simp only [SequenceHeader.height, keep.2]
    omega

/-- A reduced still picture header of a 1x1 picture. -/
def av1Reduced : Bytes := [0x08, 0x18, 0, 0, 0, 0x60]

/-- Its value, for the decoder. -/
def av1ReducedValue : SequenceHeader :=
  { stillPicture := true, reducedStillPictureHeader := true, operatingPointIdc := [0], seqLevelIdx := [0], seqTier := [false],
    decoderModelPresentForThisOp := [false], initialDisplayPresentForThisOp := [false], seqForceScreenContentTools := 2,
    seqForceIntegerMv := 2,
    colorConfig := { bitDepth := 8, colorPrimaries := 2, transferCharacteristics := 2, matrixCoefficients := 2,
                     subsamplingX := true, subsamplingY := true } }

/-- C52 is false of reduced still picture headers: the list of the initial display delays is left as it was. -/
theorem C52_false : ∃ buf h, SequenceHeader.unmarshal {} buf = .ok h ∧ h.operatingPointIdc.length = 1 ∧
    h.initialDisplayDelayMinus1.length = 0 :=
  ⟨av1Reduced, av1ReducedValue, by decide +kernel, rfl, rfl⟩

/-- The header of a WebRTC stream, 1920x804. -/
def av1WebRTC : SequenceHeader :=
  { operatingPointIdc := [0], seqLevelIdx := [8], seqTier := [false], decoderModelPresentForThisOp := [false],
    initialDisplayPresentForThisOp := [false], initialDisplayDelayMinus1 := [0], maxFrameWidthMinus1 := 1919,
    maxFrameHeightMinus1 := 803, seqChooseScreenContentTools := true, seqForceScreenContentTools := 2,
    seqChooseIntegerMv := true, seqForceIntegerMv := 2, enableCdef := true,
    colorConfig := { bitDepth := 8, colorPrimaries := 2, transferCharacteristics := 2, matrixCoefficients := 2,
                     subsamplingX := true, subsamplingY := true } }

example : SequenceHeader.unmarshal {} [8, 0, 0, 0, 66, 167, 191, 228, 96, 13, 0, 64] = .ok av1WebRTC ∧
    av1WebRTC.width = 1920 ∧ av1WebRTC.height = 804 := by decide +kernel

/-- A used header keeps what the new one does not carry. -/
example : SequenceHeader.unmarshal { deltaFrameIDLengthMinus2 := 3, initialDisplayDelayMinus1 := [1, 2] } av1Reduced
    = .ok { av1ReducedValue with deltaFrameIDLengthMinus2 := 3, initialDisplayDelayMinus1 := [1, 2] } := by decide +kernel

/-- The size in the OBU header must be right. -/
example : SequenceHeader.unmarshal {} [0x0A, 4, 0x18, 0, 0, 0, 0x60] = .err "wrong buffer size" := by decide +kernel
example : SequenceHeader.unmarshal {} [0x0A, 5, 0x18, 0, 0, 0, 0x60] = .ok av1ReducedValue := by decide +kernel

/-- C57, in full: a fresh header decodes every sequence header of the standard to its value. -/
def C57_statement : Prop :=
  ∀ (buf payload : Bytes) (h : SequenceHeader) (uv : Bool) (bits rest : List Bool),
    Spec.AV1.IsObu buf payload → Spec.AV1.sequenceHeader {} (h, uv) bits → bitsOf payload = bits ++ rest →
    SequenceHeader.unmarshal {} buf = .ok h

/-- C57 is false of the film grain flag (`C57_false`): the Go code skips `separate_uv_delta_q`, which precedes it in color
video, and stores it as the film grain flag. Every other field is right, and the film grain flag is that of the standard in
monochrome video. -/
theorem C57_partial (h0 : SequenceHeader) (buf payload : Bytes) (h : SequenceHeader) (uv : Bool) (bits rest : List Bool)
    (hp : Spec.AV1.IsObu buf payload) (g : Spec.AV1.sequenceHeader h0 (h, uv) bits) (e : bitsOf payload = bits ++ rest) :
    h0.unmarshal buf =
      .ok { h with filmGrainParamsPresent := if h.colorConfig.monoChrome then h.filmGrainParamsPresent else uv } := by
  obtain ⟨hs, b1, _, g1, ⟨uv', b2, _, g2, ⟨grain, _, _, rfl, ⟨he, rfl⟩, rfl⟩, rfl⟩, rfl⟩ := g
  cases he
  refine (C52_decode _ _ _).2 ?_
  cases hm : hs.colorConfig.monoChrome
  · simp only [Gr.opt, hm, Bool.not_false, if_true] at g2
    subst g2
    exact ⟨payload, hs, uv, b1, grain :: rest, hp, g1, by simpa using e, by simp⟩
  · simp only [Gr.opt, hm, Bool.not_true, Bool.false_eq_true, if_false] at g2
    obtain ⟨rfl, rfl⟩ := g2
    exact ⟨payload, hs, grain, b1, rest, hp, g1, by simpa using e, by simp⟩

/-- The bits of the reduced still picture header, with `separate_uv_delta_q = 0` and `film_grain_params_present = 1`. -/
def av1ReducedBits : List Bool :=
  [false, false, false, true, true, false, false, false, false, false, false, false, false, false, false, false, false, false,
   false, false, false, false, false, false, false, false, false, false, false, false, false, false, false, true]

theorem av1Reduced_standard :
    Spec.AV1.sequenceHeader {} ({ av1ReducedValue with filmGrainParamsPresent := true }, false) av1ReducedBits := by
  unfold Spec.AV1.sequenceHeader Spec.AV1.start
  simp only [bind_assoc]
  refine gr_u 0 (by decide) rfl (gr_flag true (gr_flag true ?_))
  simp only [Spec.AV1.operatingPoints, if_true, bind_assoc, pure_bind, Spec.AV1.frameSize]
  refine gr_u 0 (by decide) rfl (gr_u 0 (by decide) rfl (gr_u 0 (by decide) rfl (gr_u 0 (by decide) rfl
    (gr_u 0 (by decide) rfl ?_))))
  simp only [Spec.AV1.frameIDs, Gr.opt, Bool.not_true, Bool.false_eq_true, if_false, bind_assoc, pure_bind, Spec.AV1.intraTools]
  refine gr_flag false (gr_flag false (gr_flag false ?_))
  simp only [Spec.AV1.interTools, if_true, bind_assoc, pure_bind, Spec.AV1.filtersAndColor, Spec.AV1.colorConfig]
  refine gr_flag false (gr_flag false (gr_flag false (gr_flag false ?_)))
  simp only [Gr.opt, Bool.and_false, Bool.false_eq_true, if_false, pure_bind]
  refine gr_flag false (gr_flag false ?_)
  simp only [Bool.false_eq_true, if_false, pure_bind, bind_assoc, Spec.AV1.unspecified, Spec.AV1.cpBT709, Prod.mk.injEq,
    show ¬ ((2 : Nat) = 1) by decide, false_and]
  refine gr_flag false ?_
  simp only [Spec.AV1.subsampling, pure_bind, Bool.and_self, if_true, bind_assoc]
  refine gr_u 0 (by decide) rfl ?_
  simp only [Bool.not_false, if_true]
  exact gr_flag false (gr_flag true ⟨rfl, rfl⟩)

/-- C57 is false: the film grain flag of this header is set, and the Go code says that it is not. -/
theorem C57_false : ¬ C57_statement := by
  intro h
  have := h av1Reduced [0x18, 0, 0, 0, 0x60] { av1ReducedValue with filmGrainParamsPresent := true } false av1ReducedBits
    [true, false, false, false, false, false] ⟨0x08, by decide, by decide, .inl ⟨by decide, rfl⟩⟩ av1Reduced_standard
    (by decide +kernel)
  revert this
  decide +kernel

end Verif.Props
