import Verif.Spec.H264SPS
import Verif.Lemmas.Emulation
import Verif.Lemmas.Grammar

/-!
# Property C50: H264 sequence parameter set; C58: frame size
-/

namespace Verif.Props
open Verif.Spec Verif.H264 Verif.BitM

theorem h264_wrap {last d : Int} (h1 : -256 < last) (h2 : last < 256) (h3 : - 2 ^ 30 ≤ d) (h4 : d < 2 ^ 30) :
    Bits.wrapInt32 (last + d + 256) = last + d + 256 := by
  unfold Bits.wrapInt32; omega

theorem h264_tmod (x : Int) : -256 < x.tmod 256 ∧ x.tmod 256 < 256 := by
  have := Int.tmod_lt_of_pos x (b := 256) (by omega)
  have := Int.lt_tmod_of_pos x (b := 256) (by omega)
  omega

theorem scalingLoop_zero (n j : Nat) (last : Int) (flag : Bool) :
    scalingLoop n j last 0 flag = pure (List.replicate n last, flag) := by
  induction n generalizing j with
  | zero => rfl
  | succ n ih =>
    unfold scalingLoop scalingDelta
    rw [if_neg (by simp), pure_bind]
    simp only [if_true, ih, pure_bind, List.replicate_succ]

theorem scalingLoop_exact (n j : Nat) (last next : Int) (h0 : next ≠ 0) (h1 : -256 < last) (h2 : last < 256) (hj : j ≠ 0) :
    Exact 0 (scalingLoop n j last next false) (Spec.H264.scalingTail n last >>= fun l => pure (l, false)) := by
  induction n generalizing j last next with
  | zero =>
    unfold scalingLoop Spec.H264.scalingTail
    rw [pure_bind]; exact Exact.pure _
  | succ n ih =>
    unfold scalingLoop Spec.H264.scalingTail scalingDelta
    rw [if_pos h0]
    simp only [bind_assoc, pure_bind]
    refine Exact.readSE fun d h3 h4 => ?_
    rw [h264_wrap h1 h2 h3 h4]
    have hb := h264_tmod (last + d + 256)
    have hj' : (j == 0) = false := by simpa using hj
    simp only [hj', Bool.false_and]
    by_cases hz : (last + d + 256).tmod 256 = 0
    · rw [if_pos hz, if_pos hz, hz, scalingLoop_zero, pure_bind, pure_bind]
      exact Exact.pure _
    · rw [if_neg hz, if_neg hz]
      have := ih (j + 1) _ _ hz hb.1 hb.2 (by omega)
      have := Exact.bind this fun (l : List Int × Bool) _ _ =>
        Exact.pure ((last + d + 256).tmod 256 :: l.1, l.2)
      simpa only [bind_assoc, pure_bind] using this

theorem scalingList_exact (n : Nat) : Exact 0 (readScalingList (n + 1)) (Spec.H264.scalingList n) := by
  unfold readScalingList scalingLoop Spec.H264.scalingList scalingDelta
  rw [if_pos (by decide)]
  simp only [bind_assoc, pure_bind]
  refine Exact.readSE fun d h3 h4 => ?_
  rw [h264_wrap (by decide) (by decide) h3 h4]
  have hb := h264_tmod (8 + d + 256)
  by_cases hz : (8 + d + 256).tmod 256 = 0
  · rw [if_pos hz, if_pos hz, hz, scalingLoop_zero, pure_bind]
    exact Exact.pure _
  · rw [if_neg hz, if_neg hz]
    have hz' : ((8 + d + 256).tmod 256 == 0) = false := by simpa using hz
    rw [hz', Bool.and_false]
    have := scalingLoop_exact n 1 _ _ hz hb.1 hb.2 (by omega)
    have := Exact.bind this fun (l : List Int × Bool) _ _ => Exact.pure ((8 + d + 256).tmod 256 :: l.1, l.2)
    simpa only [bind_assoc, pure_bind] using this

theorem optional_exact' {α : Type} {q : BitM α} {G : Gr α} (h : Exact 0 q G) :
    Exact 0 (readFlag >>= fun p => cond p (some' q) none) (Spec.H264.optional G) := by
  unfold Spec.H264.optional
  refine Exact.readFlag fun p => ?_
  cases p
  · exact Exact.pure _
  · exact Exact.bind h fun _ _ _ => Exact.pure _

theorem optional_exact {α β : Type} {q : BitM α} {G : Gr α} {f : Bool → Option α → BitM β} {F : Option α → Gr β}
    (h : Exact 0 q G) (hf : ∀ o, Exact 0 (f o.isSome o) (F o)) :
    Exact 0 (readFlag >>= fun p => cond p (some' q) none >>= fun o => f p o) (Spec.H264.optional G >>= F) := by
  unfold Spec.H264.optional
  rw [bind_assoc]
  refine Exact.readFlag fun p => ?_
  cases p
  · simp only [BitM.cond, Bool.false_eq_true, if_false, pure_bind]
    exact hf none
  · simp only [BitM.cond, if_true, some', bind_assoc, pure_bind]
    exact Exact.bind h fun a _ _ => hf (some a)

theorem scalingMatrix_exact (chroma : Nat) :
    Exact 0 (readScalingMatrix chroma) (Gr.times (Spec.H264.optional (Spec.H264.scalingList 15)) 6 >>= fun a =>
      Gr.times (Spec.H264.optional (Spec.H264.scalingList 63)) (if chroma = 3 then 6 else 2) >>= fun b => pure (a ++ b)) := by
  have key : ∀ k, Exact 0 (each readScalingEntry (List.range (6 + k)))
      (Gr.times (Spec.H264.optional (Spec.H264.scalingList 15)) 6 >>= fun a =>
        Gr.times (Spec.H264.optional (Spec.H264.scalingList 63)) k >>= fun b => pure (a ++ b)) := by
    intro k
    have h := Exact.each (f := readScalingEntry)
      (F := fun i => Spec.H264.optional (Spec.H264.scalingList (if i < 6 then 15 else 63))) (l := List.range (6 + k)) ?_
    · rw [List.range_add, gr_each_append] at h
      rw [gr_each_times (G := Spec.H264.optional (Spec.H264.scalingList 15))] at h
      · rw [gr_each_times (G := Spec.H264.optional (Spec.H264.scalingList 63))] at h
        · rw [List.range_add]
          simpa only [List.length_range, List.length_map] using h
        · intro a ha
          obtain ⟨x, _, rfl⟩ := List.mem_map.1 ha
          rw [if_neg (by omega)]
      · intro a ha
        rw [if_pos (by simpa using ha)]
    · intro i _
      unfold readScalingEntry
      by_cases hi : i < 6
      · rw [if_pos hi, if_pos hi]; exact optional_exact' (scalingList_exact 15)
      · rw [if_neg hi, if_neg hi]; exact optional_exact' (scalingList_exact 63)
  unfold readScalingMatrix
  by_cases hc : chroma = 3
  · rw [if_neg (by omega), if_pos hc]; exact key 6
  · rw [if_pos hc, if_neg hc]; exact key 2

theorem high_exact (s : SPS) : Exact 0 (readHigh s) (Spec.H264.highFields s) := by
  unfold readHigh Spec.H264.highFields
  refine Exact.readUE fun chroma _ => ?_
  refine Exact.bind (Exact.cond fun _ => Exact.readFlag') fun sep _ _ => ?_
  refine Exact.readUE fun luma _ => ?_
  refine Exact.readUE fun chr _ => ?_
  refine Exact.readFlag fun q => ?_
  refine Exact.readFlag fun p => ?_
  cases p
  · simp only [BitM.cond, Gr.opt, Bool.false_eq_true, if_false, pure_bind]
    exact Exact.pure _
  · simp only [BitM.cond, Gr.opt, if_true]
    refine Exact.congr (Exact.bind (scalingMatrix_exact chroma) fun m _ _ => Exact.pure _) fun c b => ?_
    simp only [bind_assoc, pure_bind]
    constructor
    · rintro ⟨l4, b1, _, g1, ⟨l8, b2, _, g2, ⟨rfl, rfl⟩, rfl⟩, rfl⟩
      have hl := gr_times_length g1
      refine ⟨l4, b1, _, g1, ⟨l8, b2, _, g2, ⟨?_, rfl⟩, rfl⟩, rfl⟩
      simp only [lists4x4, lists8x8, Spec.H264.present, ← hl, List.take_left, List.drop_left]
    · rintro ⟨l4, b1, _, g1, ⟨l8, b2, _, g2, ⟨rfl, rfl⟩, rfl⟩, rfl⟩
      have hl := gr_times_length g1
      refine ⟨l4, b1, _, g1, ⟨l8, b2, _, g2, ⟨?_, rfl⟩, rfl⟩, rfl⟩
      simp only [lists4x4, lists8x8, Spec.H264.present, ← hl, List.take_left, List.drop_left]

theorem highProfiles_iff (p : Nat) : p ∈ highProfiles ↔ Spec.H264.HasChroma p := by
  simp only [highProfiles, Spec.H264.HasChroma, List.mem_cons, List.not_mem_nil, or_false]
  omega

theorem chroma_exact (s : SPS) : Exact 0 (readChroma s) (Spec.H264.chromaFields s) := by
  unfold readChroma Spec.H264.chromaFields
  by_cases h : s.profileIdc ∈ highProfiles
  · rw [if_pos h, if_pos ((highProfiles_iff _).1 h)]; exact high_exact s
  · rw [if_neg h, if_neg fun h' => h ((highProfiles_iff _).2 h')]; exact Exact.pure _

theorem gr_must_true {β : Type} {c : Prop} (h : c) (F : Unit → Gr β) : (Gr.must c >>= F) = F () := by
  funext a b
  apply propext
  constructor
  · rintro ⟨_, _, _, ⟨_, rfl⟩, g, rfl⟩; exact g
  · intro g; exact ⟨(), [], b, ⟨h, rfl⟩, g, rfl⟩

theorem gr_must_false {β : Type} {c : Prop} (h : ¬ c) (F : Unit → Gr β) : (Gr.must c >>= F) = fun _ _ => False := by
  funext a b
  apply propext
  exact ⟨fun ⟨_, _, _, ⟨hc, _⟩, _⟩ => h hc, fun h => h.elim⟩

theorem poc_exact (s : SPS) : Exact 0 (readPoc s) (Spec.H264.pocFields s) := by
  unfold readPoc Spec.H264.pocFields
  refine Exact.readUE fun f _ => ?_
  refine Exact.readUE fun t _ => ?_
  match t with
  | 0 =>
    rw [gr_must_true (by omega)]
    simp only [if_true, readPoc0, Gr.opt, Gr.times, beq_self_eq_true, show ((0 : Nat) == 1) = false from rfl,
      Bool.false_eq_true, if_false, pure_bind]
    refine Exact.readUE fun l _ => ?_
    rw [gr_must_true (by omega)]
    exact Exact.pure _
  | 1 =>
    rw [gr_must_true (by omega)]
    simp only [Nat.one_ne_zero, if_true, readPoc1, Gr.opt, beq_self_eq_true, show ((1 : Nat) == 0) = false from rfl,
      Bool.false_eq_true, if_false, pure_bind]
    refine Exact.readFlag fun z => ?_
    refine Exact.readSE fun a _ _ => ?_
    refine Exact.readSE fun b _ _ => ?_
    refine Exact.readUE fun n _ => ?_
    unfold readOffsets maxRefFrames
    by_cases hn : n > 255
    · rw [if_pos hn, gr_must_false (by omega)]; exact Exact.never
    · rw [if_neg hn, gr_must_true (by omega)]
      exact Exact.bind (Exact.times Exact.readSE' n) fun _ _ _ => Exact.pure _
  | 2 =>
    rw [gr_must_true (by omega)]
    simp only [show ¬ (2 : Nat) = 0 by decide, show ¬ (2 : Nat) = 1 by decide, show ((2 : Nat) == 0) = false from rfl,
      show ((2 : Nat) == 1) = false from rfl, if_true, Gr.opt, Gr.times,
      Bool.false_eq_true, if_false, pure_bind]
    rw [gr_must_true (by omega)]
    exact Exact.pure _
  | t + 3 =>
    rw [gr_must_false (by omega)]
    dsimp only
    rw [if_neg (by omega), if_neg (by omega), if_neg (by omega)]
    exact Exact.never

theorem hrd_exact : Exact 0 HRD.unmarshal Spec.H264.hrd := by
  unfold HRD.unmarshal HRD.unmarshalRest Spec.H264.hrd
  refine Exact.readUE fun cnt _ => ?_
  refine Exact.hasSpace (Exact.guard (by omega) fun _ => ?_)
  refine Exact.readBitsU (by omega) (by omega) (by omega) fun _ _ => ?_
  refine Exact.readBitsU (by omega) (by omega) (by omega) fun _ _ => ?_
  refine Exact.bind (Exact.times ?_ _) fun l _ _ => ?_
  · exact Exact.readUE fun _ _ => Exact.readUE fun _ _ => Exact.readFlag fun _ => Exact.pure _
  refine Exact.hasSpace ?_
  refine Exact.readBitsU (by omega) (by omega) (by omega) fun _ _ => ?_
  refine Exact.readBitsU (by omega) (by omega) (by omega) fun _ _ => ?_
  refine Exact.readBitsU (by omega) (by omega) (by omega) fun _ _ => ?_
  exact Exact.readBitsU (by omega) (by omega) (by omega) fun _ _ => Exact.pure _

theorem timing_exact : Exact 0 H264.TimingInfo.unmarshal Spec.H264.timing := by
  unfold H264.TimingInfo.unmarshal Spec.H264.timing
  refine Exact.hasSpace ?_
  refine Exact.readBitsU (by omega) (by omega) (by omega) fun _ _ => ?_
  refine Exact.readBitsU (by omega) (by omega) (by omega) fun _ _ => ?_
  exact Exact.readFlagU (by omega) fun _ => Exact.pure _

theorem restriction_exact : Exact 0 BitstreamRestriction.unmarshal Spec.H264.restriction :=
  Exact.readFlag fun _ => Exact.readUE fun _ _ => Exact.readUE fun _ _ => Exact.readUE fun _ _ =>
    Exact.readUE fun _ _ => Exact.readUE fun _ _ => Exact.readUE fun _ _ => Exact.pure _

theorem cropping_exact : Exact 0 FrameCropping.unmarshal Spec.H264.cropping :=
  Exact.readUE fun _ _ => Exact.readUE fun _ _ => Exact.readUE fun _ _ => Exact.readUE fun _ _ => Exact.pure _

theorem aspect_exact (c : Bool) : Exact 0 (cond c readAspectRatio (0, 0, 0)) (Gr.opt c (Gr.u 8) 0 >>= fun idc =>
    Gr.opt (idc == 255) (Gr.u 16) 0 >>= fun w => Gr.opt (idc == 255) (Gr.u 16) 0 >>= fun h => pure (idc, w, h)) := by
  cases c
  · simp only [BitM.cond, Gr.opt, Bool.false_eq_true, if_false, pure_bind, show ((0 : Nat) == 255) = false from rfl]
    exact Exact.pure _
  · simp only [BitM.cond, Gr.opt, if_true, readAspectRatio]
    refine Exact.readBits (by omega) (by omega) fun idc _ => ?_
    cases idc == 255
    · simp only [Bool.false_eq_true, if_false, pure_bind]
      exact Exact.pure _
    · simp only [if_true, readSar, bind_assoc, pure_bind]
      refine Exact.hasSpace ?_
      refine Exact.readBitsU (by omega) (by omega) (by omega) fun _ _ => ?_
      exact Exact.readBitsU (by omega) (by omega) (by omega) fun _ _ => Exact.pure _

theorem signal_exact (c : Bool) : Exact 0 (cond c readVideoSignal (0, false, false, 0, 0, 0))
    (Gr.opt c (Gr.u 3) 0 >>= fun f => Gr.opt c Gr.flag false >>= fun r => Gr.opt c Gr.flag false >>= fun d =>
      Gr.opt d (Gr.u 8) 0 >>= fun x => Gr.opt d (Gr.u 8) 0 >>= fun y => Gr.opt d (Gr.u 8) 0 >>= fun z =>
      pure (f, r, d, x, y, z)) := by
  cases c
  · simp only [BitM.cond, Gr.opt, Bool.false_eq_true, if_false, pure_bind]
    exact Exact.pure _
  · simp only [BitM.cond, Gr.opt, if_true, readVideoSignal]
    refine Exact.hasSpace ?_
    refine Exact.readBitsU (by omega) (by omega) (by omega) fun f _ => ?_
    refine Exact.readFlagU (by omega) fun r => ?_
    refine Exact.readFlagU (by omega) fun d => ?_
    cases d
    · simp only [Bool.false_eq_true, if_false, pure_bind]
      exact Exact.pure _
    · simp only [if_true, readColourDescription, bind_assoc, pure_bind]
      refine Exact.hasSpace ?_
      refine Exact.readBitsU (by omega) (by omega) (by omega) fun _ _ => ?_
      refine Exact.readBitsU (by omega) (by omega) (by omega) fun _ _ => ?_
      exact Exact.readBitsU (by omega) (by omega) (by omega) fun _ _ => Exact.pure _

theorem chromaLoc_exact (c : Bool) : Exact 0 (cond c readChromaLoc (0, 0)) (Gr.opt c Gr.ue 0 >>= fun t =>
    Gr.opt c Gr.ue 0 >>= fun b => pure (t, b)) := by
  cases c
  · simp only [BitM.cond, Gr.opt, Bool.false_eq_true, if_false, pure_bind]
    exact Exact.pure _
  · simp only [BitM.cond, Gr.opt, if_true, readChromaLoc]
    exact Exact.readUE fun _ _ => Exact.readUE fun _ _ => Exact.pure _

theorem vui_exact : Exact 0 VUI.unmarshal Spec.H264.vui := by
  unfold VUI.unmarshal Spec.H264.vui
  refine Exact.readFlag fun ar => ?_
  refine Exact.bind3 (aspect_exact ar) fun idc w h => ?_
  refine Exact.readFlag fun os => ?_
  refine Exact.bind (Exact.cond fun _ => Exact.readFlag') fun o _ _ => ?_
  refine Exact.readFlag fun vs => ?_
  refine Exact.bind6 (signal_exact vs) fun f r d x y z => ?_
  refine Exact.readFlag fun cl => ?_
  refine Exact.bind2 (chromaLoc_exact cl) fun top bottom => ?_
  refine optional_exact timing_exact fun t => ?_
  refine optional_exact hrd_exact fun n => ?_
  refine optional_exact hrd_exact fun m => ?_
  refine Exact.bind (Exact.cond fun _ => Exact.readFlag') fun ld _ _ => ?_
  refine Exact.readFlag fun ps => ?_
  exact optional_exact restriction_exact fun b => Exact.pure _

theorem frame_exact (s : SPS) : Exact 0 (readFrame s) (Spec.H264.frameFields s) := by
  unfold readFrame Spec.H264.frameFields
  refine Exact.readUE fun _ _ => ?_
  refine Exact.readFlag fun _ => ?_
  refine Exact.readUE fun _ _ => ?_
  refine Exact.readUE fun _ _ => ?_
  refine Exact.readFlag fun f => ?_
  refine Exact.bind (Exact.cond fun _ => Exact.readFlag') fun a _ _ => ?_
  refine Exact.readFlag fun d => ?_
  refine optional_exact cropping_exact fun c => ?_
  exact optional_exact vui_exact fun b => Exact.pure _

/-- Everything after the level. -/
def h264Rest (s : SPS) : Gr SPS := do
  let id ← Gr.ue
  let s ← Spec.H264.chromaFields { s with id := id }
  let s ← Spec.H264.pocFields s
  Spec.H264.frameFields s

theorem rest_exact (s : SPS) : Exact 0 s.unmarshalM (h264Rest s) :=
  Exact.readUE fun _ _ => Exact.bind (chroma_exact _) fun _ _ _ => Exact.bind (poc_exact _) fun _ _ _ => frame_exact _

/-- The fields of the first three bytes. -/
def h264Head (s : SPS) (p c l : UInt8) : SPS :=
  { s with profileIdc := p.toNat, constraintSet0Flag := c.toNat.testBit 7, constraintSet1Flag := c.toNat.testBit 6,
           constraintSet2Flag := c.toNat.testBit 5, constraintSet3Flag := c.toNat.testBit 4,
           constraintSet4Flag := c.toNat.testBit 3, constraintSet5Flag := c.toNat.testBit 2, levelIdc := l.toNat }

theorem h264_shift7 : ∀ b : UInt8, ((b >>> 7) == 1) = b.toNat.testBit 7 := forall_u8 (by decide +kernel)
theorem h264_shift6 : ∀ b : UInt8, ((b >>> 6 &&& 0x01) == 1) = b.toNat.testBit 6 := forall_u8 (by decide +kernel)
theorem h264_shift5 : ∀ b : UInt8, ((b >>> 5 &&& 0x01) == 1) = b.toNat.testBit 5 := forall_u8 (by decide +kernel)
theorem h264_shift4 : ∀ b : UInt8, ((b >>> 4 &&& 0x01) == 1) = b.toNat.testBit 4 := forall_u8 (by decide +kernel)
theorem h264_shift3 : ∀ b : UInt8, ((b >>> 3 &&& 0x01) == 1) = b.toNat.testBit 3 := forall_u8 (by decide +kernel)
theorem h264_shift2 : ∀ b : UInt8, ((b >>> 2 &&& 0x01) == 1) = b.toNat.testBit 2 := forall_u8 (by decide +kernel)

theorem rbsp_cons (s : SPS) (p c l : UInt8) (t : Bytes) :
    s.unmarshalRBSP (p :: c :: l :: t) = ((h264Head s p c l).unmarshalM t 0 >>= fun r => .ok r.1) := by
  unfold SPS.unmarshalRBSP h264Head
  rw [if_neg (by simp)]
  simp only [h264_shift7, h264_shift6, h264_shift5, h264_shift4, h264_shift3, h264_shift2]
  rfl

theorem byteBits_testBit : ∀ c : UInt8, byteBits c = [c.toNat.testBit 7, c.toNat.testBit 6, c.toNat.testBit 5,
    c.toNat.testBit 4, c.toNat.testBit 3, c.toNat.testBit 2, c.toNat.testBit 1, c.toNat.testBit 0] :=
  forall_u8 (by decide +kernel)

theorem exists_byteBits (l : List Bool) (h : l.length = 8) : ∃ c : UInt8, byteBits c = l := by
  refine ⟨UInt8.ofNat (natOfBits l), ?_⟩
  have hb := natOfBits_lt l
  rw [h] at hb
  rw [byteBits, UInt8.toNat_ofNat', Nat.mod_eq_of_lt (by omega), ← h, bitsOfNat_natOfBits]

theorem spsData_iff (s x : SPS) (bits : List Bool) : Spec.H264.spsData s x bits ↔
    ∃ (p c l : UInt8) (b : List Bool), h264Rest (h264Head s p c l) x b ∧ bits = bitsOf [p, c, l] ++ b := by
  constructor
  · rintro ⟨p, _, _, ⟨hp, rfl⟩, ⟨c0, _, _, rfl, ⟨c1, _, _, rfl, ⟨c2, _, _, rfl, ⟨c3, _, _, rfl, ⟨c4, _, _, rfl,
      ⟨c5, _, _, rfl, ⟨_, r, _, hr, ⟨l, _, b, ⟨hl, rfl⟩, g, rfl⟩, rfl⟩, rfl⟩, rfl⟩, rfl⟩, rfl⟩, rfl⟩, rfl⟩, rfl⟩
    obtain ⟨c, hc⟩ := exists_byteBits ([c0, c1, c2, c3, c4, c5] ++ r) (by
      have : r.length = 2 := hr
      simp [this])
    refine ⟨UInt8.ofNat p, c, UInt8.ofNat l, b, ?_, ?_⟩
    · rw [byteBits_testBit] at hc
      injection hc with e0 hc
      injection hc with e1 hc
      injection hc with e2 hc
      injection hc with e3 hc
      injection hc with e4 hc
      injection hc with e5 hc
      unfold h264Head
      rw [e0, e1, e2, e3, e4, e5, UInt8.toNat_ofNat', UInt8.toNat_ofNat', Nat.mod_eq_of_lt hp, Nat.mod_eq_of_lt hl]
      exact g
    · simp only [byteBits] at hc
      simp only [bitsOf_cons, hc, bitsOf_nil, List.append_assoc, byteBits, UInt8.toNat_ofNat',
        bitsOfNat_mod 8 8 _ (Nat.le_refl _), List.nil_append, List.cons_append]
  · rintro ⟨p, c, l, b, g, rfl⟩
    have hp := p.toNat_lt
    have hl := l.toNat_lt
    refine ⟨p.toNat, byteBits p, _, ⟨hp, rfl⟩, ⟨c.toNat.testBit 7, _, _, rfl, ⟨c.toNat.testBit 6, _, _, rfl,
      ⟨c.toNat.testBit 5, _, _, rfl, ⟨c.toNat.testBit 4, _, _, rfl, ⟨c.toNat.testBit 3, _, _, rfl,
      ⟨c.toNat.testBit 2, _, _, rfl, ⟨(), [c.toNat.testBit 1, c.toNat.testBit 0], _, rfl,
      ⟨l.toNat, byteBits l, b, ⟨hl, rfl⟩, g, rfl⟩, rfl⟩, rfl⟩, rfl⟩, rfl⟩, rfl⟩, rfl⟩, rfl⟩, ?_⟩
    simp only [bitsOf_cons, byteBits_testBit, bitsOf_nil, List.nil_append, List.cons_append]

theorem rbsp_iff (s x : SPS) (rbsp : Bytes) : s.unmarshalRBSP rbsp = .ok x ↔
    ∃ bits rest, Spec.H264.spsData s x bits ∧ bitsOf rbsp = bits ++ rest := by
  constructor
  · intro e
    match rbsp, e with
    | [], e => cases e
    | [_], e => cases e
    | [_, _], e => cases e
    | p :: c :: l :: t, e =>
      rw [rbsp_cons] at e
      obtain ⟨⟨a, pos⟩, he, e⟩ := Res.bind_eq_ok.1 e
      cases e
      obtain ⟨b, rest, g, e⟩ := ((rest_exact _).run t _).1 ⟨pos, he⟩
      refine ⟨_, rest, (spsData_iff _ _ _).2 ⟨p, c, l, b, g, rfl⟩, ?_⟩
      simp only [bitsOf_cons, e, bitsOf_nil, List.append_assoc, List.nil_append]
  · rintro ⟨bits, rest, g, e⟩
    obtain ⟨p, c, l, b, g', rfl⟩ := (spsData_iff _ _ _).1 g
    have hlen : 3 ≤ rbsp.length := by
      have := congrArg List.length e
      simp at this
      omega
    match rbsp, hlen, e with
    | p' :: c' :: l' :: t, _, e =>
      simp only [bitsOf_cons, bitsOf_nil, List.append_assoc, List.nil_append] at e
      obtain ⟨e1, e⟩ := List.append_inj e (by simp)
      obtain ⟨e2, e⟩ := List.append_inj e (by simp)
      obtain ⟨e3, e⟩ := List.append_inj e (by simp)
      rw [byteBits_inj e1, byteBits_inj e2, byteBits_inj e3, rbsp_cons]
      obtain ⟨pos, he⟩ := ((rest_exact _).run t x).2 ⟨b, rest, g', e⟩
      rw [he]; rfl

theorem sps_type : ∀ b : UInt8, (b &&& 0x1F ≠ 7) ↔ ¬ b.toNat % 32 = 7 := forall_u8 (by decide +kernel)

theorem sps_cons (s : SPS) (b : UInt8) (t : Bytes) :
    s.unmarshal (b :: t) = if ¬ b.toNat % 32 = 7 then .err "not a SPS" else s.unmarshalRBSP (epRemove 0 t) := by
  unfold SPS.unmarshal
  rw [if_neg (by simp), idx_zero_cons, Res.bind_ok]
  by_cases h : b.toNat % 32 = 7
  · rw [if_neg (by rw [sps_type]; simpa using h), if_neg (by simpa using h), sliceFrom_ok (by simp), Res.bind_ok, List.drop_one,
      List.tail_cons, emulationPreventionRemove_eq, Res.bind_ok]
  · rw [if_pos ((sps_type b).2 h), if_pos h]

/-- C50: `SPS.Unmarshal`, on a struct that may have been used before, accepts exactly the NAL units of type 7 whose RBSP
starts with the data of a sequence parameter set with at most 255 offsets and 32 HRD entries, and stores what it carries. -/
theorem C50_decode (s x : SPS) (buf : Bytes) : s.unmarshal buf = .ok x ↔
    ∃ rbsp bits rest, Spec.H264.IsSPS buf rbsp ∧ Spec.H264.spsData s x bits ∧ bitsOf rbsp = bits ++ rest := by
  cases buf with
  | nil =>
    constructor
    · intro e; cases e
    · rintro ⟨_, _, _, ⟨_, _, e, _⟩, _⟩; cases e
  | cons b t =>
    rw [sps_cons]
    by_cases h : b.toNat % 32 = 7
    · rw [if_neg (by simpa using h), rbsp_iff]
      constructor
      · rintro ⟨bits, rest, g, e⟩; exact ⟨_, bits, rest, ⟨b, t, rfl, h, rfl⟩, g, e⟩
      · rintro ⟨_, bits, rest, ⟨_, _, e', _, rfl⟩, g, e⟩; cases e'; exact ⟨bits, rest, g, e⟩
    · rw [if_pos h]
      constructor
      · intro e; cases e
      · rintro ⟨_, _, _, ⟨_, _, e, h', _⟩, _⟩; cases e; exact absurd h' h

/-- C50: `SPS.Unmarshal` never panics. -/
theorem C50_no_panic (s : SPS) (buf : Bytes) : (s.unmarshal buf).NoPanic := by
  cases buf with
  | nil => intro e; cases e
  | cons b t =>
    rw [sps_cons]
    split
    · simp
    · match epRemove 0 t with
      | [] => intro e; cases e
      | [_] => intro e; cases e
      | [_, _] => intro e; cases e
      | p :: c :: l :: t =>
        rw [rbsp_cons]
        exact Res.noPanic_bind ((rest_exact _).noPanic t) (by simp)

/-- The lists of an HRD have one entry for each of at most 32 schedules. -/
def h264HrdOk (h : HRD) : Prop :=
  h.cpbCntMinus1 ≤ 31 ∧ h.bitRateValueMinus1.length = h.cpbCntMinus1 + 1 ∧
  h.cpbSizeValueMinus1.length = h.cpbCntMinus1 + 1 ∧ h.cbrFlag.length = h.cpbCntMinus1 + 1

theorem hrd_sat : Sat Spec.H264.hrd h264HrdOk := by
  refine Sat.skip fun cnt => Sat.bind (P := fun _ => cnt ≤ 31) (fun _ _ h => h.1) fun _ hc => ?_
  refine Sat.skip fun _ => Sat.skip fun _ => Sat.bind Sat.times fun l hl => ?_
  exact Sat.skip fun _ => Sat.skip fun _ => Sat.skip fun _ => Sat.skip fun _ =>
    Sat.pure ⟨hc, by simpa using hl, by simpa using hl, by simpa using hl⟩

theorem optional_sat {α : Type} {G : Gr α} {P : α → Prop} (h : Sat G P) :
    Sat (Spec.H264.optional G) fun o => ∀ a, o = some a → P a := by
  refine Sat.skip fun p => Sat.ite (fun _ => Sat.bind h fun a ha => Sat.pure ?_) fun _ => Sat.pure ?_
  · rintro _ ⟨⟩; exact ha
  · rintro _ ⟨⟩

/-- The HRDs of VUI parameters. -/
def h264VuiOk (v : VUI) : Prop := ∀ h, v.nalHRD = some h ∨ v.vclHRD = some h → h264HrdOk h

theorem vui_sat : Sat Spec.H264.vui h264VuiOk := by
  refine Sat.skip fun _ => Sat.skip fun _ => Sat.skip fun _ => Sat.skip fun _ => Sat.skip fun _ => Sat.skip fun _ =>
    Sat.skip fun _ => Sat.skip fun _ => Sat.skip fun _ => Sat.skip fun _ => Sat.skip fun _ => Sat.skip fun _ =>
    Sat.skip fun _ => Sat.skip fun _ => Sat.skip fun _ => Sat.skip fun _ => Sat.skip fun _ =>
    Sat.bind (optional_sat hrd_sat) fun n hn => Sat.bind (optional_sat hrd_sat) fun v hv =>
    Sat.skip fun _ => Sat.skip fun _ => Sat.skip fun _ => Sat.pure ?_
  rintro h (e | e)
  · exact hn h e
  · exact hv h e

theorem scalingTail_sat (n : Nat) (last : Int) : Sat (Spec.H264.scalingTail n last) fun l => l.length = n := by
  induction n generalizing last with
  | zero => exact Sat.pure rfl
  | succ n ih =>
    unfold Spec.H264.scalingTail
    exact Sat.skip fun _ => Sat.ite (fun _ => Sat.pure (by simp)) fun _ => Sat.bind (ih _) fun l hl => Sat.pure (by simp [hl])

theorem scalingList_sat (n : Nat) : Sat (Spec.H264.scalingList n) fun r => r.1.length = n + 1 :=
  Sat.skip fun _ => Sat.ite (fun _ => Sat.pure (by simp)) fun _ =>
    Sat.bind (scalingTail_sat n _) fun l hl => Sat.pure (by simp [hl])

/-- What is added to a list of scaling lists. -/
def h264ListsOk (n size : Nat) (l : List (Option (List Int × Bool))) : Prop :=
  l.length ≤ n ∧ ∀ r ∈ Spec.H264.present l, r.1.length = size

theorem times_optional_sat (n k : Nat) :
    Sat (Gr.times (Spec.H264.optional (Spec.H264.scalingList k)) n) (h264ListsOk n (k + 1)) := by
  intro l b g
  refine ⟨Nat.le_of_eq (gr_times_length g), ?_⟩
  intro r hr
  obtain ⟨o, ho, e⟩ := List.mem_filterMap.1 hr
  obtain ⟨c, hc⟩ := gr_times_mem g o ho
  exact optional_sat (scalingList_sat k) o c hc r e

/-- What decoding has added to the scaling lists. -/
def h264Added (s x : SPS) : Prop :=
  ∃ l4 l8 : List (List Int × Bool), l4.length ≤ 6 ∧ l8.length ≤ 6 ∧ (∀ r ∈ l4, r.1.length = 16) ∧ (∀ r ∈ l8, r.1.length = 64) ∧
    x.scalingList4x4 = s.scalingList4x4 ++ l4.map (·.1) ∧
    x.useDefaultScalingMatrix4x4Flag = s.useDefaultScalingMatrix4x4Flag ++ l4.map (·.2) ∧
    x.scalingList8x8 = s.scalingList8x8 ++ l8.map (·.1) ∧
    x.useDefaultScalingMatrix8x8Flag = s.useDefaultScalingMatrix8x8Flag ++ l8.map (·.2)

theorem chroma_sat (s : SPS) : Sat (Spec.H264.chromaFields s) (h264Added s) := by
  refine Sat.ite (fun _ => ?_) fun _ => Sat.pure ⟨[], [], by simp⟩
  refine Sat.skip fun c => Sat.skip fun _ => Sat.skip fun _ => Sat.skip fun _ => Sat.skip fun _ => Sat.skip fun m => ?_
  have h1 : Sat (Gr.opt m (Gr.times (Spec.H264.optional (Spec.H264.scalingList 15)) 6) []) (h264ListsOk 6 16) :=
    Sat.ite (fun _ => times_optional_sat 6 15) fun _ => Sat.pure ⟨by simp, by simp [Spec.H264.present]⟩
  have h2 : Sat (Gr.opt m (Gr.times (Spec.H264.optional (Spec.H264.scalingList 63)) (if c = 3 then 6 else 2)) [])
      (h264ListsOk 6 64) :=
    Sat.ite (fun _ => (times_optional_sat _ 63).imp fun l h => ⟨Nat.le_trans h.1 (by split <;> omega), h.2⟩) fun _ =>
      Sat.pure ⟨by simp, by simp [Spec.H264.present]⟩
  have hle : ∀ l : List (Option (List Int × Bool)), (Spec.H264.present l).length ≤ l.length := fun l =>
    List.length_filterMap_le _ _
  exact Sat.bind h1 fun l4 g4 => Sat.bind h2 fun l8 g8 => Sat.pure
    ⟨_, _, Nat.le_trans (hle _) g4.1, Nat.le_trans (hle _) g8.1, g4.2, g8.2, rfl, rfl, rfl, rfl⟩

/-- C50: at most 255 offsets, at most 32 HRD entries, and at most 6 scaling lists of each kind, of 16 or 64 elements, are
decoded. -/
theorem C50_bounds (s x : SPS) (buf : Bytes) (e : s.unmarshal buf = .ok x) :
    x.offsetForRefFrames.length ≤ 255 ∧ (∀ v, x.vui = some v → h264VuiOk v) ∧ h264Added s x := by
  obtain ⟨_, bits, _, _, g, _⟩ := (C50_decode s x buf).1 e
  have keep : ∀ {s y z : SPS}, h264Added s y → z.scalingList4x4 = y.scalingList4x4 →
      z.useDefaultScalingMatrix4x4Flag = y.useDefaultScalingMatrix4x4Flag → z.scalingList8x8 = y.scalingList8x8 →
      z.useDefaultScalingMatrix8x8Flag = y.useDefaultScalingMatrix8x8Flag → h264Added s z := by
    rintro s y z ⟨l4, l8, h1, h2, h3, h4, h5, h6, h7, h8⟩ e1 e2 e3 e4
    exact ⟨l4, l8, h1, h2, h3, h4, e1.trans h5, e2.trans h6, e3.trans h7, e4.trans h8⟩
  have key : Sat (Spec.H264.spsData s) fun x =>
      x.offsetForRefFrames.length ≤ 255 ∧ (∀ v, x.vui = some v → h264VuiOk v) ∧ h264Added s x := by
    refine Sat.skip fun _ => Sat.skip fun _ => Sat.skip fun _ => Sat.skip fun _ => Sat.skip fun _ => Sat.skip fun _ =>
      Sat.skip fun _ => Sat.skip fun _ => Sat.skip fun _ => Sat.skip fun _ => Sat.bind (chroma_sat _) fun s1 h1 => ?_
    refine Sat.bind (P := fun y => y.offsetForRefFrames.length ≤ 255 ∧ h264Added s y) ?_ fun s2 h2 => ?_
    · refine Sat.skip fun _ => Sat.skip fun _ => Sat.skip fun _ => Sat.skip fun _ => Sat.skip fun _ => Sat.skip fun _ =>
        Sat.skip fun _ => Sat.skip fun n => Sat.bind (P := fun _ => n ≤ 255) (fun _ _ h => h.1) fun _ hn =>
        Sat.bind Sat.times fun l hl => Sat.pure ⟨?_, ?_⟩
      · show l.length ≤ 255
        omega
      · exact keep h1 rfl rfl rfl rfl
    · refine Sat.skip fun _ => Sat.skip fun _ => Sat.skip fun _ => Sat.skip fun _ => Sat.skip fun _ => Sat.skip fun _ =>
        Sat.skip fun _ => Sat.skip fun _ => Sat.bind (optional_sat vui_sat) fun v hv => Sat.pure ⟨h2.1, hv, ?_⟩
      exact keep h2.2 rfl rfl rfl rfl
  exact key x bits g

/-- C58, in full: `Width` and `Height` are those of the standard. -/
def C58_statement : Prop :=
  ∀ s : SPS, s.chromaFormatIdc ≤ 3 → Spec.H264.frameWidth s < 2 ^ 32 → Spec.H264.frameHeight s < 2 ^ 32 →
    Spec.H264.cropColumns s ≤ Spec.H264.frameWidth s → Spec.H264.cropRows s ≤ Spec.H264.frameHeight s →
    s.width = Spec.H264.frameWidth s - Spec.H264.cropColumns s ∧
    s.height = Spec.H264.frameHeight s - Spec.H264.cropRows s

theorem sub32_eq {a b : Nat} (ha : a < 2 ^ 32) (h : b ≤ a) : sub32 a b = a - b := by
  unfold sub32; omega

/-- C58 is false of the width of monochrome video and of video with separate colour planes, when columns are cropped
(`C58_false`). `Height` is right, and `Width` is right in every other case. -/
theorem C58_partial (s : SPS) (hc : s.chromaFormatIdc ≤ 3) (hw : Spec.H264.frameWidth s < 2 ^ 32)
    (hh : Spec.H264.frameHeight s < 2 ^ 32) (hcw : Spec.H264.cropColumns s ≤ Spec.H264.frameWidth s)
    (hch : Spec.H264.cropRows s ≤ Spec.H264.frameHeight s) :
    s.height = Spec.H264.frameHeight s - Spec.H264.cropRows s ∧
    (Spec.H264.chromaArrayType s ≠ 0 ∨ Spec.H264.cropColumns s = 0 →
      s.width = Spec.H264.frameWidth s - Spec.H264.cropColumns s) := by
  constructor
  · unfold SPS.height
    have hm : 16 * ((if s.frameMbsOnlyFlag = true then 1 else 2) * (s.picHeightInMapUnitsMinus1 + 1)) < 2 ^ 32 := hh
    have hu : (if s.chromaArrayType = 0 then (if s.frameMbsOnlyFlag = true then 1 else 2)
        else s.subHeightC * (if s.frameMbsOnlyFlag = true then 1 else 2)) = Spec.H264.cropUnitY s := by
      unfold Spec.H264.cropUnitY SPS.chromaArrayType SPS.subHeightC Spec.H264.chromaArrayType Spec.H264.subHeightC
      have : s.chromaFormatIdc = 0 ∨ s.chromaFormatIdc = 1 ∨ s.chromaFormatIdc = 2 ∨ s.chromaFormatIdc = 3 := by omega
      cases s.separateColourPlaneFlag <;> rcases this with h | h | h | h <;> simp [h]
    dsimp only
    rw [hu]
    unfold Spec.H264.cropRows Spec.H264.frameHeight at *
    cases hf : s.frameCropping with
    | none => simp only [hf, Option.map_none, Option.getD_none] at *; omega
    | some c =>
      simp only [hf, Option.map_some, Option.getD_some] at *
      rw [Nat.mod_eq_of_lt hm, sub32_eq hm hch]
  · intro h
    unfold SPS.width
    unfold Spec.H264.frameWidth at *
    dsimp only
    cases hf : s.frameCropping with
    | none =>
      unfold Spec.H264.cropColumns at *
      simp only [hf, Option.map_none, Option.getD_none] at *
      omega
    | some c =>
      dsimp only
      rw [show (s.picWidthInMbsMinus1 + 1) * 16 % 2 ^ 32 = 16 * (s.picWidthInMbsMinus1 + 1) by omega]
      have hu : (if s.chromaArrayType = 0 then 0 else s.subWidthC) * (c.leftOffset + c.rightOffset)
          = Spec.H264.cropColumns s := by
        unfold Spec.H264.cropColumns at *
        simp only [hf, Option.map_some, Option.getD_some] at *
        unfold Spec.H264.cropUnitX Spec.H264.chromaArrayType Spec.H264.subWidthC at *
        unfold SPS.chromaArrayType SPS.subWidthC
        have : s.chromaFormatIdc = 0 ∨ s.chromaFormatIdc = 1 ∨ s.chromaFormatIdc = 2 ∨ s.chromaFormatIdc = 3 := by omega
        cases hsep : s.separateColourPlaneFlag <;> rcases this with h' | h' | h' | h' <;>
          simp [hsep, h'] at h ⊢ <;> omega
      rw [hu, sub32_eq hw hcw]

/-- A monochrome 352x288 SPS in which the right 4 columns are cropped. -/
def h264Mono : Bytes := [0x67, 0x64, 0x00, 0x0c, 0xf2, 0xd0, 0x2c, 0x12, 0xf2, 0xe8]

def h264MonoSPS : SPS :=
  { profileIdc := 100, levelIdc := 12, picOrderCntType := 2, maxNumRefFrames := 1, picWidthInMbsMinus1 := 21,
    picHeightInMapUnitsMinus1 := 17, frameMbsOnlyFlag := true, direct8x8InferenceFlag := true,
    frameCropping := some { rightOffset := 4 } }

/-- C58 is false: the SPS above is decoded, its frames are 348 columns wide, and `Width` is 352. -/
theorem C58_false : ¬ C58_statement := by
  intro h
  have e := (h h264MonoSPS (by decide) (by decide) (by decide) (by decide) (by decide)).1
  exact absurd e (by decide)

example : ({} : SPS).unmarshal h264Mono = .ok h264MonoSPS := by decide +kernel

/-- An SPS of the repository's tests (1920x1080, baseline, cropped). -/
def h264Sample : Bytes :=
  [0x67, 0x42, 0xc0, 0x28, 0xd9, 0x00, 0x78, 0x02, 0x27, 0xe5, 0x84, 0x00, 0x00, 0x03, 0x00, 0x04, 0x00, 0x00, 0x03, 0x00,
   0xf0, 0x3c, 0x60, 0xc9, 0x20]

def h264SampleSPS : SPS :=
  { profileIdc := 66, chromaFormatIdc := 1, constraintSet0Flag := true, constraintSet1Flag := true, levelIdc := 40,
    picOrderCntType := 2, maxNumRefFrames := 3, picWidthInMbsMinus1 := 119, picHeightInMapUnitsMinus1 := 67,
    frameMbsOnlyFlag := true, direct8x8InferenceFlag := true, frameCropping := some { bottomOffset := 4 },
    vui := some { timingInfo := some { numUnitsInTick := 1, timeScale := 60 },
                  bitstreamRestriction := some { motionVectorsOverPicBoundariesFlag := true, log2MaxMvLengthHorizontal := 11,
                                                 log2MaxMvLengthVertical := 11, maxDecFrameBuffering := 3 } } }

example : ({} : SPS).unmarshal h264Sample = .ok h264SampleSPS := by decide +kernel
example : ({} : SPS).unmarshal [0x67, 0x64, 0x00] ≠ .panic := C50_no_panic _ _
example : h264SampleSPS.offsetForRefFrames.length ≤ 255 := (C50_bounds {} _ h264Sample (by decide +kernel)).1
example : h264SampleSPS.height = 1080 := by
  rw [(C58_partial h264SampleSPS (by decide) (by decide) (by decide) (by decide) (by decide)).1]; decide
example : h264SampleSPS.width = 1920 := by
  rw [(C58_partial h264SampleSPS (by decide) (by decide) (by decide) (by decide) (by decide)).2 (.inl (by decide))]; decide

end Verif.Props
