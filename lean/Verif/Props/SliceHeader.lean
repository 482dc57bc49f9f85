import Verif.Spec.SliceHeader
import Verif.Props.H264DTS
import Verif.Props.H265DTS

/-!
# C61: what the DTS extractors read of slice headers
-/

namespace Verif.Props
open Verif.Spec Verif.H264 Verif.BitM Verif.Spec.Slice
open Verif.Spec.DTS (type264 type265)

/-! ## Emulation prevention bytes and truncation -/

theorem epRemove_take (l : Bytes) : ∀ z k, ∃ r, epRemove z l = epRemove z (l.take k) ++ r := by
  induction l with
  | nil => intro z k; exact ⟨[], by simp [epRemove]⟩
  | cons b t ih =>
    intro z k
    cases k with
    | zero => exact ⟨epRemove z (b :: t), by simp [epRemove]⟩
    | succ k =>
      rw [List.take_succ_cons]
      unfold epRemove
      split
      · exact ih 0 k
      · obtain ⟨r, hr⟩ := ih (if b = 0 then z + 1 else 0) k
        exact ⟨r, by rw [hr]; rfl⟩

theorem epRemove_length (l : Bytes) : ∀ z, 2 * l.length ≤ 3 * (epRemove z l).length + min z 2 := by
  induction l with
  | nil => intro z; simp
  | cons b t ih =>
    intro z
    unfold epRemove
    split
    · have := ih 0
      simp only [List.length_cons]
      omega
    · have := ih (if b = 0 then z + 1 else 0)
      simp only [List.length_cons]
      split at this <;> rename_i h <;> simp only [h, if_true, if_false] <;> omega

theorem slice_ueMax {m : Nat} (hm : m ≤ 2 ^ 32 - 2) {v : Nat} {b : List Bool} (h : ueMax m v b) : Gr.ue v b := by
  obtain ⟨h1, h2⟩ := h
  refine ⟨v, ?_, ?_, h2⟩
  · have : v + 1 < 2 ^ 32 := by omega
    have h3 := (Nat.log2_lt (n := v + 1) (k := 32) (by omega)).2 this
    omega
  · rw [Nat.mod_eq_of_lt]; omega

theorem slice_ueMax_length {m k : Nat} (hm : m + 1 < 2 ^ (k + 1)) {v : Nat} {b : List Bool} (h : ueMax m v b) :
    b.length ≤ 2 * k + 1 := by
  obtain ⟨h1, rfl⟩ := h
  have : v + 1 < 2 ^ (k + 1) := by omega
  have h3 := (Nat.log2_lt (n := v + 1) (k := k + 1) (by omega)).2 this
  simp only [golombBits, List.length_append, List.length_replicate, List.length_cons, length_bitsOfNat]
  omega

/-- Truncation keeps a prefix of the bits. -/
theorem slice_take (l : Bytes) (z k : Nat) (bits rest : List Bool) (hb : bitsOf (epRemove z l) = bits ++ rest)
    (hl : bits.length ≤ 8 * (epRemove z (l.take k)).length) :
    ∃ r, bitsOf (epRemove z (l.take k)) = bits ++ r := by
  obtain ⟨r, hr⟩ := epRemove_take l z k
  rw [hr, bitsOf_append] at hb
  have h1 := congrArg (List.take bits.length) hb
  rw [List.take_append_of_le_length (by rw [length_bitsOf]; exact hl), List.take_left' rfl] at h1
  exact ⟨(bitsOf (epRemove z (l.take k))).drop bits.length, by
    conv => lhs; rw [← List.take_append_drop bits.length (bitsOf (epRemove z (l.take k))), h1]⟩

theorem slice_take_len (l : Bytes) (n k : Nat) (hl : n ≤ 8 * (epRemove 0 l).length) (hk : n ≤ 8 * ((2 * k + 2) / 3)) :
    n ≤ 8 * (epRemove 0 (l.take k)).length := by
  by_cases h : l.length ≤ k
  · rw [List.take_of_length_le h]; exact hl
  · have := epRemove_length (l.take k) 0
    rw [List.length_take, Nat.min_eq_left (by omega)] at this
    omega

/-! ## H264 -/

/-- The parameters are in the ranges of the standard (7.4.2.1.1). -/
structure Conforming264 (sps : SPS) : Prop where
  frameNum : sps.log2MaxFrameNumMinus4 ≤ 12
  poc : sps.log2MaxPicOrderCntLsbMinus4 ≤ 12

theorem slice_plus4 {v : Nat} (h : v ≤ 12) : plus4 v = v + 4 := Nat.mod_eq_of_lt (by omega)

theorem slice_exact264 (sps : SPS) (idr : Bool) (hc : Conforming264 sps) (hs : sps.separateColourPlaneFlag = false) :
    Exact 0 (readPOC sps idr) (header264 (fun _ => Gr.ue) sps idr >>= fun h => (pure h.pocLsb : Gr Nat)) := by
  have h1 := hc.frameNum
  have h2 := hc.poc
  unfold readPOC header264
  rw [slice_plus4 h1, slice_plus4 h2, hs]
  simp only [Gr.opt, Bool.false_eq_true, if_false, bind_assoc, pure_bind]
  refine Exact.readUE fun _ _ => Exact.readUE fun _ _ => Exact.readUE fun _ _ => Exact.readBits (by omega) (by omega)
    fun _ _ => Exact.bind (Exact.cond fun _ => Exact.readUE') fun _ _ _ => Exact.readBits (by omega) (by omega) fun v hv => ?_
  have : v % 2 ^ 32 = v := Nat.mod_eq_of_lt (Nat.lt_of_lt_of_le hv (Nat.pow_le_pow_right (by omega) (by omega)))
  rw [this]
  exact Exact.pure _

theorem slice_poc_eq (n : UInt8) (t : Bytes) (sps : SPS) (idr : Bool) :
    getPictureOrderCount (n :: t) sps idr = (readPOC sps idr (epRemove 0 (t.take 22)) 0 >>= fun r => .ok r.1) := by
  unfold getPictureOrderCount
  rw [sliceFrom_ok (by simp), Res.bind_ok, slice_ok (by omega) (by simp; omega), Res.bind_ok,
    emulationPreventionRemove_eq, Res.bind_ok]
  have : List.take (min (List.drop 1 (n :: t)).length maxBytesToGetPOC - 0) (List.drop 0 (List.drop 1 (n :: t))) = t.take 22 := by
    simp only [List.drop_succ_cons, List.drop_zero, maxBytesToGetPOC, Nat.sub_zero]
    rw [Nat.min_comm, ← List.take_eq_take_min]
  rw [← this]

/-- C61 (H264): what is returned is the pic_order_cnt_lsb of the slice header. -/
theorem C61_h264_sound (n : UInt8) (t : Bytes) (sps : SPS) (idr : Bool) (hc : Conforming264 sps)
    (hs : sps.separateColourPlaneFlag = false) (v : Nat) (he : getPictureOrderCount (n :: t) sps idr = .ok v) :
    ∃ h bits rest, header264 (fun _ => Gr.ue) sps idr h bits ∧ bitsOf (epRemove 0 t) = bits ++ rest ∧ v = h.pocLsb := by
  rw [slice_poc_eq] at he
  obtain ⟨⟨a, pos⟩, hp, e⟩ := Res.bind_eq_ok.1 he
  cases e
  obtain ⟨_, rest, ⟨h, b1, _, g, ⟨rfl, rfl⟩, rfl⟩, hb⟩ := ((slice_exact264 sps idr hc hs).run _ _).1 ⟨pos, hp⟩
  obtain ⟨r, hr⟩ := epRemove_take t 0 22
  refine ⟨h, b1, rest ++ bitsOf r, g, ?_, rfl⟩
  rw [hr, bitsOf_append, hb]
  simp

/-- C61 (H264): headers of up to 120 bits are found in the 22 bytes that are read, whatever the emulation prevention bytes. -/
theorem C61_h264_short (n : UInt8) (t : Bytes) (sps : SPS) (idr : Bool) (hc : Conforming264 sps)
    (hs : sps.separateColourPlaneFlag = false) (h : Header264) (bits rest : List Bool)
    (hh : header264 (fun _ => Gr.ue) sps idr h bits) (hb : bitsOf (epRemove 0 t) = bits ++ rest) (hl : bits.length ≤ 120) :
    getPictureOrderCount (n :: t) sps idr = .ok h.pocLsb := by
  have hlen : bits.length ≤ 8 * (epRemove 0 t).length := by
    have := congrArg List.length hb
    rw [length_bitsOf, List.length_append] at this
    omega
  obtain ⟨r, hr⟩ := slice_take t 0 22 bits rest hb (slice_take_len t _ 22 hlen (by omega))
  obtain ⟨pos, hp⟩ := ((slice_exact264 sps idr hc hs).run _ _).2 ⟨bits, r, ⟨h, bits, [], hh, ⟨rfl, rfl⟩, by simp⟩, hr⟩
  rw [slice_poc_eq, hp, Res.bind_ok]

/-- Every value of `G` is one of `F`. -/
def GrLe {α : Type} (G F : Gr α) : Prop := ∀ a b, G a b → F a b

theorem GrLe.refl {α : Type} (G : Gr α) : GrLe G G := fun _ _ h => h

theorem GrLe.bind {α β : Type} {G G' : Gr α} {F F' : α → Gr β} (h1 : GrLe G G') (h2 : ∀ a, GrLe (F a) (F' a)) :
    GrLe (G >>= F) (G' >>= F') := by
  rintro c _ ⟨a, b1, b2, g, k, rfl⟩
  exact ⟨a, b1, b2, h1 a b1 g, h2 a c b2 k, rfl⟩

theorem GrLe.opt {α : Type} {G G' : Gr α} {c : Bool} {d : α} (h : GrLe G G') : GrLe (Gr.opt c G d) (Gr.opt c G' d) := by
  unfold Gr.opt
  split
  · exact h
  · exact GrLe.refl _

theorem slice_mono264 (sps : SPS) (idr : Bool) : GrLe (header264 ueMax sps idr) (header264 (fun _ => Gr.ue) sps idr) := by
  have hu : ∀ m, m ≤ 2 ^ 32 - 2 → GrLe (ueMax m) Gr.ue := fun m hm _ _ h => slice_ueMax hm h
  unfold header264
  refine (hu _ (by decide)).bind fun _ => (hu _ (by decide)).bind fun _ => (hu _ (by decide)).bind fun _ =>
    (GrLe.refl _).bind fun _ => (GrLe.refl _).bind fun _ => (GrLe.opt (hu _ (by decide))).bind fun _ => GrLe.refl _

theorem slice_conforming264 (sps : SPS) (idr : Bool) (hc : Conforming264 sps) (h : Header264) (bits : List Bool)
    (hh : header264 ueMax sps idr h bits) : header264 (fun _ => Gr.ue) sps idr h bits ∧ bits.length ≤ 120 := by
  have h1 := hc.frameNum
  have h2 := hc.poc
  refine ⟨slice_mono264 sps idr h bits hh, ?_⟩
  unfold header264 at hh
  obtain ⟨mb, b1, _, g1, hh, rfl⟩ := hh
  obtain ⟨t, b2, _, g2, hh, rfl⟩ := hh
  obtain ⟨p, b3, _, g3, hh, rfl⟩ := hh
  obtain ⟨c, b4, _, g4, hh, rfl⟩ := hh
  obtain ⟨n, b5, _, g5, hh, rfl⟩ := hh
  obtain ⟨i, b6, _, g6, hh, rfl⟩ := hh
  obtain ⟨q, b7, _, g7, ⟨rfl, rfl⟩, rfl⟩ := hh
  have l4 : b4.length ≤ 2 := by
    unfold Gr.opt at g4
    split at g4
    · rw [g4.2, length_bitsOfNat]; omega
    · rw [g4.2]; simp
  have l6 : b6.length ≤ 33 := by
    unfold Gr.opt at g6
    split at g6
    · exact slice_ueMax_length (k := 16) (by decide) g6
    · rw [g6.2]; simp
  have l1 := slice_ueMax_length (k := 0) (by decide) g1
  have l2 := slice_ueMax_length (k := 3) (by decide) g2
  have l3 := slice_ueMax_length (k := 8) (by decide) g3
  have l5 : b5.length ≤ 16 := by rw [g5.2, length_bitsOfNat]; omega
  have l7 : b7.length ≤ 16 := by rw [g7.2, length_bitsOfNat]; omega
  simp only [List.length_append, List.length_nil]
  omega

/-- C61 (H264): the header of the first slice of a picture, as the standard says it, always fits in the 22 bytes that are
read, and its pic_order_cnt_lsb is returned. What is missing: sequences with separate colour planes, for which it is false. -/
theorem C61_h264_partial (n : UInt8) (t : Bytes) (sps : SPS) (idr : Bool) (hc : Conforming264 sps)
    (hs : sps.separateColourPlaneFlag = false) (h : Header264) (bits rest : List Bool)
    (hh : header264 ueMax sps idr h bits) (hb : bitsOf (epRemove 0 t) = bits ++ rest) :
    getPictureOrderCount (n :: t) sps idr = .ok h.pocLsb := by
  obtain ⟨h1, h2⟩ := slice_conforming264 sps idr hc h bits hh
  exact C61_h264_short n t sps idr hc hs h bits rest h1 hb h2

/-- C61 (H264) is false with separate colour planes: colour_plane_id is not skipped. Here pic_order_cnt_lsb is 1 and the code
returns 0. -/
theorem C61_h264_false : ¬ ∀ (n : UInt8) (t : Bytes) (sps : SPS) (idr : Bool) (h : Header264) (bits rest : List Bool),
    Conforming264 sps → header264 ueMax sps idr h bits → bitsOf (epRemove 0 t) = bits ++ rest →
    getPictureOrderCount (n :: t) sps idr = .ok h.pocLsb := by
  intro hall
  have := hall 0x41 [0xE0, 0x08] { chromaFormatIdc := 3, separateColourPlaneFlag := true } false ⟨0, 0, 0, 0, 0, 1⟩
    [true, true, true, false, false, false, false, false, false, false, false, false, true] [false, false, false]
    ⟨by decide, by decide⟩
    ⟨0, [true], _, ⟨by decide, rfl⟩, ⟨0, [true], _, ⟨by decide, rfl⟩, ⟨0, [true], _, ⟨by decide, rfl⟩,
      ⟨0, [false, false], _, ⟨by decide, rfl⟩, ⟨0, [false, false, false, false], _, ⟨by decide, rfl⟩,
      ⟨0, [], _, ⟨rfl, rfl⟩, ⟨1, [false, false, false, true], [], ⟨by decide, rfl⟩, ⟨rfl, rfl⟩, rfl⟩, rfl⟩, rfl⟩, rfl⟩, rfl⟩,
      rfl⟩, rfl⟩ (by decide +kernel)
  revert this
  decide +kernel

/-- A P slice with frame_num 2 of 4 bits and pic_order_cnt_lsb 6 of 6 bits. -/
example : header264 ueMax { log2MaxPicOrderCntLsbMinus4 := 2 } false ⟨0, 5, 0, 2, 0, 6⟩
      [true, false, false, true, true, false, true, false, false, true, false, false, false, false, true, true, false] ∧
    bitsOf (epRemove 0 [0x9A, 0x43, 0x40]) =
      [true, false, false, true, true, false, true, false, false, true, false, false, false, false, true, true, false] ++
        [true, false, false, false, false, false, false] ∧
    getPictureOrderCount [0x41, 0x9A, 0x43, 0x40] { log2MaxPicOrderCntLsbMinus4 := 2 } false = .ok 6 :=
  ⟨⟨0, [true], _, ⟨by decide, rfl⟩, ⟨5, [false, false, true, true, false], _, ⟨by decide, by decide +kernel⟩,
      ⟨0, [true], _, ⟨by decide, rfl⟩, ⟨0, [], _, ⟨rfl, rfl⟩, ⟨2, [false, false, true, false], _, ⟨by decide, rfl⟩,
      ⟨0, [], _, ⟨rfl, rfl⟩, ⟨6, [false, false, false, true, true, false], [], ⟨by decide, rfl⟩, ⟨rfl, rfl⟩, rfl⟩, rfl⟩, rfl⟩,
      rfl⟩, rfl⟩, rfl⟩, rfl⟩, by decide +kernel, by decide +kernel⟩

/-! ## H265 -/

open Verif.H265 (RPS PPS getPTSDTSDiff readSlice readSliceTail readSetIndex readSliceSet diffOfSlice firstS0 ceilLog2)

/-- The parameters are in the ranges of the standard (7.4.3.2.1). -/
structure Conforming265 (sps : H265.SPS) : Prop where
  poc : sps.log2MaxPicOrderCntLsbMinus4 ≤ 12
  count : sps.shortTermRefPicSets.length ≤ 64
  sets : ∀ r ∈ sps.shortTermRefPicSets, RpsWf r

/-- The index as the code reads it. -/
def sliceIndexG (sets : List RPS) (t : Nat) : Gr H265.SliceInfo :=
  if sets.length ≤ 1 then pure none else setIndex sets >>= fun r => pure (some (t, r))

/-- The tail of the header as the code reads it. -/
def sliceTailG (sps : H265.SPS) (pps : PPS) : Gr H265.SliceInfo := do
  let _ ← Gr.ue
  Gr.reserved pps.numExtraSliceHeaderBits
  let t ← Gr.ue
  let _ ← Gr.opt pps.outputFlagPresentFlag Gr.flag false
  let _ ← Gr.opt sps.separateColourPlaneFlag (Gr.u 2) 0
  let _ ← Gr.u (sps.log2MaxPicOrderCntLsbMinus4 + 4)
  let f ← Gr.flag
  if f then sliceIndexG sps.shortTermRefPicSets t
  else Spec.H265.refPicSet sps.shortTermRefPicSets true >>= fun r => pure (some (t, r))

theorem slice_ceilLog2 {n k : Nat} (hn : 2 ≤ n) : n ≤ 2 ^ k ∧ 2 ^ k < 2 * n ↔ k = ceilLog2 n := by
  unfold ceilLog2
  have hb : n - 1 ≠ 0 := by omega
  have h1 : 2 ^ Nat.log2 (n - 1) ≤ n - 1 := Nat.log2_self_le hb
  have h2 : n - 1 < 2 ^ (Nat.log2 (n - 1) + 1) := Nat.lt_log2_self
  constructor
  · rintro ⟨g1, g2⟩
    cases k with
    | zero => simp at g1; omega
    | succ k =>
      rw [Nat.pow_succ] at g1 g2
      have : Nat.log2 (n - 1) = k := by
        refine (Nat.log2_eq_iff hb).2 ⟨by omega, by rw [Nat.pow_succ]; omega⟩
      rw [this]
  · rintro rfl
    rw [Nat.pow_succ] at *
    omega

theorem slice_index (sets : List RPS) (hl : sets.length ≤ 64) (t : Nat) :
    Exact 0 (readSetIndex sets t) (sliceIndexG sets t) := by
  unfold readSetIndex sliceIndexG
  refine Exact.ite (fun _ => Exact.pure _) fun h => ?_
  have hk : 2 ^ ceilLog2 sets.length < 2 * sets.length := ((slice_ceilLog2 (by omega)).2 rfl).2
  have h64 : ceilLog2 sets.length ≤ 64 := by
    refine Nat.le_of_not_lt fun hc => ?_
    have := Nat.pow_le_pow_right (n := 2) (by omega) (Nat.le_of_lt hc)
    omega
  have : Exact 0 (readSetIndex sets t) (Gr.u (ceilLog2 sets.length) >>= fun i =>
      Gr.must (i < sets.length) >>= fun _ => (fun r b => some r = (sets[i]?.map fun r => some (t, r)) ∧ b = [])) := by
    unfold readSetIndex
    rw [if_neg h]
    refine Exact.readBits (by unfold ceilLog2; omega) h64 fun i _ => Exact.guard (by omega) fun hi => ?_
    refine Exact.lift (idx_of_lt (by omega)) ?_
    refine (Exact.pure _).congr fun a b => ?_
    rw [List.getElem?_eq_getElem (by omega)]
    simp [pure]
  unfold readSetIndex at this
  rw [if_neg h] at this
  refine this.congr fun a b => ?_
  constructor
  · rintro ⟨i, b1, _, g1, ⟨_, _, b2, ⟨hi, rfl⟩, ⟨g2, rfl⟩, rfl⟩, rfl⟩
    have hi : i < sets.length := hi
    rw [List.getElem?_eq_getElem hi] at g2
    refine ⟨sets[i], b1, [], ⟨ceilLog2 sets.length, i, ((slice_ceilLog2 (by omega)).2 rfl).1, hk,
      List.getElem?_eq_getElem hi, g1⟩, ⟨by simpa using g2, rfl⟩, by simp⟩
  · rintro ⟨r, b1, _, ⟨k, i, k1, k2, g1, g2⟩, ⟨rfl, rfl⟩, rfl⟩
    rw [(slice_ceilLog2 (by omega)).1 ⟨k1, k2⟩] at g2
    obtain ⟨hi, _⟩ := List.getElem?_eq_some_iff.1 g1
    exact ⟨i, b1, [], g2, ⟨(), [], [], ⟨hi, rfl⟩, ⟨by rw [g1]; rfl, rfl⟩, rfl⟩, rfl⟩

theorem slice_exact265 (sps : H265.SPS) (pps : PPS) (hc : Conforming265 sps) :
    Exact 0 (readSliceTail sps pps) (sliceTailG sps pps) := by
  have h1 := hc.poc
  have h2 := hc.count
  unfold readSliceTail sliceTailG
  rw [slice_plus4 h1]
  refine Exact.readUE fun _ _ => ?_
  have hx : Exact 0 (H265.skipExtra pps.numExtraSliceHeaderBits) (Gr.reserved pps.numExtraSliceHeaderBits) := by
    unfold H265.skipExtra
    split
    · exact Exact.hasSpace Exact.skip'
    · have : pps.numExtraSliceHeaderBits = 0 := by omega
      rw [this]
      refine (Exact.pure ()).congr fun a b => ?_
      simp [Gr.reserved, pure]
  refine Exact.bind hx fun _ _ _ => Exact.readUE fun t _ => Exact.bind (Exact.cond fun _ => Exact.readFlag') fun _ _ _ =>
    Exact.bind (Exact.cond fun _ => Exact.readBits' (by omega) (by omega)) fun _ _ _ =>
    Exact.readBits (by omega) (by omega) fun _ _ => Exact.readFlag fun f => Exact.ite (fun _ => ?_) fun _ => ?_
  · exact slice_index _ h2 t
  · have := refPicSet_exact sps.shortTermRefPicSets hc.sets true sps.shortTermRefPicSets.length (by omega) (by simp)
    unfold readSliceSet
    simp only [Nat.sub_self, List.replicate_zero, List.append_nil] at this
    exact Exact.bind this fun _ _ _ => Exact.pure _

theorem slice_split265 (type : Nat) (sps : H265.SPS) (pps : PPS) (h : Header265)
    (h1 : h.fromSPS = true → sps.shortTermRefPicSets.length ≠ 1) (bits : List Bool) (hh : header265 (fun _ => Gr.ue) type sps pps h bits) :
    ∃ b0 b1, bits = true :: (b0 ++ b1) ∧ b0.length = (if 16 ≤ type ∧ type ≤ 23 then 1 else 0) ∧
      sliceTailG sps pps (some (h.sliceType, h.set)) b1 := by
  unfold header265 at hh
  obtain ⟨_, _, _, rfl, hh, rfl⟩ := hh
  obtain ⟨_, b0, _, g0, hh, rfl⟩ := hh
  refine ⟨b0, _, rfl, g0, ?_⟩
  unfold sliceTailG
  obtain ⟨id, c1, _, k1, hh, rfl⟩ := hh
  refine ⟨id, c1, _, k1, ?_, rfl⟩
  obtain ⟨x, c2, _, k2, hh, rfl⟩ := hh
  refine ⟨x, c2, _, k2, ?_, rfl⟩
  obtain ⟨t, c3, _, k3, hh, rfl⟩ := hh
  refine ⟨t, c3, _, k3, ?_, rfl⟩
  obtain ⟨o, c4, _, k4, hh, rfl⟩ := hh
  refine ⟨o, c4, _, k4, ?_, rfl⟩
  obtain ⟨c, c5, _, k5, hh, rfl⟩ := hh
  refine ⟨c, c5, _, k5, ?_, rfl⟩
  obtain ⟨p, c6, _, k6, hh, rfl⟩ := hh
  refine ⟨p, c6, _, k6, ?_, rfl⟩
  obtain ⟨f, c7, _, k7, hh, rfl⟩ := hh
  refine ⟨f, c7, _, k7, ?_, rfl⟩
  obtain ⟨r, c8, _, k8, ⟨rfl, rfl⟩, rfl⟩ := hh
  cases f
  · exact ⟨r, c8, [], k8, ⟨rfl, rfl⟩, rfl⟩
  · have k8 : setIndex sps.shortTermRefPicSets r c8 := k8
    have : ¬ sps.shortTermRefPicSets.length ≤ 1 := by
      obtain ⟨k, i, q1, q2, _⟩ := k8
      have := Nat.pow_pos (n := k) (show 0 < 2 by omega)
      have := h1 rfl
      omega
    simp only [if_true, sliceIndexG, if_neg this]
    exact ⟨r, c8, [], k8, ⟨rfl, rfl⟩, rfl⟩

theorem slice_mono265 (type : Nat) (sps : H265.SPS) (pps : PPS) :
    GrLe (header265 ueMax type sps pps) (header265 (fun _ => Gr.ue) type sps pps) := by
  have hu : ∀ m, m ≤ 2 ^ 32 - 2 → GrLe (ueMax m) Gr.ue := fun m hm _ _ h => slice_ueMax hm h
  unfold header265
  refine (GrLe.refl _).bind fun _ => (GrLe.refl _).bind fun _ => (hu _ (by decide)).bind fun _ => (GrLe.refl _).bind fun _ =>
    (hu _ (by decide)).bind fun _ => GrLe.refl _

/-- The header is the flag, a bit for some types, and the tail. -/
theorem slice_whole265 (type : Nat) (sps : H265.SPS) (pps : PPS) (hc : Conforming265 sps) (r : H265.SliceInfo) (b0 b1 : List Bool)
    (hl : b0.length = (if 16 ≤ type ∧ type ≤ 23 then 1 else 0)) (g : sliceTailG sps pps r b1) :
    Parses (readSlice type sps pps) (true :: (b0 ++ b1)) r := by
  have ht := (slice_exact265 sps pps hc).parses _ _ g
  unfold readSlice
  refine Parses.bind (b1 := [true]) Parses.readFlag ?_
  simp only [if_true]
  refine Parses.bind (a := ()) ?_ ht
  unfold H265.skipOutput
  by_cases hp : 16 ≤ type ∧ type ≤ 23
  · rw [if_pos hp] at hl
    rw [if_pos (by simpa using hp), ← hl]
    exact Parses.skip
  · rw [if_neg hp] at hl
    rw [if_neg (by simpa using hp), List.length_eq_zero_iff.1 hl]
    exact Parses.pure _

theorem slice_parses265 (type : Nat) (sps : H265.SPS) (pps : PPS) (hc : Conforming265 sps)
    (h : Header265) (h1 : h.fromSPS = true → sps.shortTermRefPicSets.length ≠ 1) (bits : List Bool)
    (hh : header265 (fun _ => Gr.ue) type sps pps h bits) :
    Parses (readSlice type sps pps) bits (some (h.sliceType, h.set)) := by
  obtain ⟨b0, b1, rfl, hl, g⟩ := slice_split265 type sps pps h h1 bits hh
  exact slice_whole265 type sps pps hc _ b0 b1 hl g

/-- What is returned for an estimate. -/
def sliceResult : Option Int → Res Int
  | some v => .ok v
  | none => .err "invalid DeltaPocS0"

theorem slice_firstS0 (r : RPS) :
    firstS0 r = sliceResult (r.deltaPocS0.head?.map fun d => Spec.H265.wrap32 (- d - 1)) := by
  unfold firstS0
  cases e : r.deltaPocS0 with
  | nil => rfl
  | cons d l =>
    rw [if_neg (by simp), idx_zero_cons, Res.bind_ok]
    simp only [List.head?_cons, Option.map_some, sliceResult, wrap32_eq]
    congr 1
    unfold Spec.H265.wrap32
    omega

theorem slice_estimate (type : Nat) (h : Header265) : diffOfSlice type h.sliceType h.set = sliceResult (estimate type h) := by
  unfold diffOfSlice estimate
  rw [slice_firstS0]
  dsimp only
  split
  · split
    · rename_i h1; rcases h1 with rfl | rfl <;> rfl
    · rename_i h1
      split
      · rename_i h2
        have e : ∀ o : Option Int, (sliceResult o >>= fun v => Res.ok (v - (h.set.deltaPocS1.length : Int))) =
          sliceResult (o.map (· - (h.set.deltaPocS1.length : Int))) := by
          intro o; cases o <;> rfl
        rw [e]
        rcases h2 with rfl | rfl <;> rfl
      · split
        · omega
        · omega
        · omega
        · omega
        · rfl
  · rfl

/-- What is left of the header in the bytes that are read. -/
theorem slice_diff265 (n0 n1 : UInt8) (t : Bytes) (sps : H265.SPS) (pps : PPS) (hn : n1 ≠ 0) :
    getPTSDTSDiff (n0 :: n1 :: t) sps pps = (readSlice (n0.toNat / 2 % 64) sps pps (n1 :: epRemove 0 (t.take 11)) 8 >>= fun r =>
      match r.1 with
      | none => .ok 0
      | some (sliceType, rps) => diffOfSlice (n0.toNat / 2 % 64) sliceType rps) := by
  have ht : epRemove 0 (List.take (min (n1 :: t).length 12 - 0) (List.drop 0 (n1 :: t))) = n1 :: epRemove 0 (t.take 11) := by
    rw [Nat.sub_zero, List.drop_zero, Nat.min_comm, ← List.take_eq_take_min, List.take_succ_cons, epRemove_first, if_neg hn]
  unfold getPTSDTSDiff
  rw [idx_zero_cons, Res.bind_ok]
  dsimp only
  rw [sliceFrom_ok (by simp), Res.bind_ok, slice_ok (by omega) (by simp; omega), Res.bind_ok,
    emulationPreventionRemove_eq, Res.bind_ok, hdts_type]
  simp only [List.drop_succ_cons, List.drop_zero, H265.maxBytesToGetPOC] at ht ⊢
  rw [ht]
  rfl

theorem slice_drop8 (n1 : UInt8) (l : Bytes) : (bitsOf (n1 :: l)).drop 8 = bitsOf l := by
  rw [show n1 :: l = [n1] ++ l from rfl, bitsOf_append, List.drop_left' (by rw [length_bitsOf]; rfl)]

/-- C61 (H265): for slice headers inside of the 12 bytes that are read, the result is the estimate for the reference picture set they
carry, unless it is the only one of the sequence. The temporal identifier in the second byte of a NAL unit is not zero. What is missing is
wrong: `C61_h265_single` and `C61_h265_long`. -/
theorem C61_h265_partial (n0 n1 : UInt8) (t : Bytes) (sps : H265.SPS) (pps : PPS) (hc : Conforming265 sps)
    (hn : n1 ≠ 0) (h : Header265) (h1 : h.fromSPS = true → sps.shortTermRefPicSets.length ≠ 1) (bits rest : List Bool)
    (hh : header265 ueMax (n0.toNat / 2 % 64) sps pps h bits) (hb : bitsOf (epRemove 0 t) = bits ++ rest)
    (hl : bits.length ≤ 8 * (epRemove 0 (t.take 11)).length) :
    getPTSDTSDiff (n0 :: n1 :: t) sps pps = sliceResult (estimate (n0.toNat / 2 % 64) h) := by
  obtain ⟨r, hr⟩ := slice_take t 0 11 bits rest hb hl
  have hp := slice_parses265 _ sps pps hc h h1 bits (slice_mono265 _ sps pps h bits hh)
    (n1 :: epRemove 0 (t.take 11)) 8 r (by simp; omega) (by rw [slice_drop8, hr])
  rw [slice_diff265 n0 n1 t sps pps hn, hp, Res.bind_ok]
  exact slice_estimate _ h

/-- C61 (H265): headers of up to 64 bits are inside, whatever the emulation prevention bytes. -/
theorem C61_h265_short (n0 n1 : UInt8) (t : Bytes) (sps : H265.SPS) (pps : PPS) (hc : Conforming265 sps)
    (hn : n1 ≠ 0) (h : Header265) (h1 : h.fromSPS = true → sps.shortTermRefPicSets.length ≠ 1) (bits rest : List Bool)
    (hh : header265 ueMax (n0.toNat / 2 % 64) sps pps h bits) (hb : bitsOf (epRemove 0 t) = bits ++ rest)
    (hl : bits.length ≤ 64) :
    getPTSDTSDiff (n0 :: n1 :: t) sps pps = sliceResult (estimate (n0.toNat / 2 % 64) h) := by
  have hlen : bits.length ≤ 8 * (epRemove 0 t).length := by
    have := congrArg List.length hb
    rw [length_bitsOf, List.length_append] at this
    omega
  exact C61_h265_partial n0 n1 t sps pps hc hn h h1 bits rest hh hb (slice_take_len t _ 11 hlen (by omega))

/-- The tail of a header that refers to the only set. -/
theorem slice_single265 (type : Nat) (sps : H265.SPS) (pps : PPS) (h : Header265) (h0 : h.fromSPS = true)
    (h1 : sps.shortTermRefPicSets.length = 1) (bits : List Bool) (hh : header265 (fun _ => Gr.ue) type sps pps h bits) :
    ∃ b0 b1, bits = true :: (b0 ++ b1) ∧ b0.length = (if 16 ≤ type ∧ type ≤ 23 then 1 else 0) ∧ sliceTailG sps pps none b1 := by
  unfold header265 at hh
  obtain ⟨_, _, _, rfl, hh, rfl⟩ := hh
  obtain ⟨_, b0, _, g0, hh, rfl⟩ := hh
  refine ⟨b0, _, rfl, g0, ?_⟩
  unfold sliceTailG
  obtain ⟨id, c1, _, k1, hh, rfl⟩ := hh
  refine ⟨id, c1, _, k1, ?_, rfl⟩
  obtain ⟨x, c2, _, k2, hh, rfl⟩ := hh
  refine ⟨x, c2, _, k2, ?_, rfl⟩
  obtain ⟨t, c3, _, k3, hh, rfl⟩ := hh
  refine ⟨t, c3, _, k3, ?_, rfl⟩
  obtain ⟨o, c4, _, k4, hh, rfl⟩ := hh
  refine ⟨o, c4, _, k4, ?_, rfl⟩
  obtain ⟨c, c5, _, k5, hh, rfl⟩ := hh
  refine ⟨c, c5, _, k5, ?_, rfl⟩
  obtain ⟨p, c6, _, k6, hh, rfl⟩ := hh
  refine ⟨p, c6, _, k6, ?_, rfl⟩
  obtain ⟨f, c7, _, k7, hh, rfl⟩ := hh
  refine ⟨f, c7, _, k7, ?_, rfl⟩
  obtain ⟨r, c8, _, k8, ⟨rfl, rfl⟩, rfl⟩ := hh
  have h0 : f = true := h0
  subst h0
  have k8 : setIndex sps.shortTermRefPicSets r c8 := k8
  obtain ⟨k, i, q1, q2, _, q4, q5⟩ := k8
  rw [h1] at q2
  have hk : k = 0 := by
    cases k with
    | zero => rfl
    | succ k =>
      have := Nat.pow_pos (n := k) (show 0 < 2 by omega)
      rw [Nat.pow_succ] at q2
      omega
  subst hk
  simp only [if_true, sliceIndexG, if_pos (Nat.le_of_eq h1)]
  refine ⟨rfl, ?_⟩
  rw [q5]
  rfl

/-- C61 (H265), a single set: the result is zero, whatever the set. The header of `C61_h265_single_false` is an example. -/
theorem C61_h265_single (n0 n1 : UInt8) (t : Bytes) (sps : H265.SPS) (pps : PPS) (hc : Conforming265 sps)
    (hn : n1 ≠ 0) (h : Header265) (h0 : h.fromSPS = true) (h1 : sps.shortTermRefPicSets.length = 1) (bits rest : List Bool)
    (hh : header265 ueMax (n0.toNat / 2 % 64) sps pps h bits) (hb : bitsOf (epRemove 0 t) = bits ++ rest)
    (hl : bits.length ≤ 8 * (epRemove 0 (t.take 11)).length) :
    getPTSDTSDiff (n0 :: n1 :: t) sps pps = .ok 0 := by
  obtain ⟨r, hr⟩ := slice_take t 0 11 bits rest hb hl
  obtain ⟨b0, b1, rfl, g0, g⟩ := slice_single265 _ sps pps h h0 h1 bits (slice_mono265 _ sps pps h bits hh)
  have hp := slice_whole265 _ sps pps hc none b0 b1 g0 g (n1 :: epRemove 0 (t.take 11)) 8 r (by simp; omega) (by rw [slice_drop8, hr])
  rw [slice_diff265 n0 n1 t sps pps hn, hp, Res.bind_ok]

/-- The first bits of a header, with whatever the code makes of the tail. -/
theorem slice_any265 (type : Nat) (sps : H265.SPS) (pps : PPS) (h : Header265) (bits : List Bool)
    (hh : header265 (fun _ => Gr.ue) type sps pps h bits) :
    ∃ r b0 b1, bits = true :: (b0 ++ b1) ∧ b0.length = (if 16 ≤ type ∧ type ≤ 23 then 1 else 0) ∧ sliceTailG sps pps r b1 := by
  by_cases hs : h.fromSPS = true ∧ sps.shortTermRefPicSets.length = 1
  · exact ⟨_, slice_single265 type sps pps h hs.1 hs.2 bits hh⟩
  · exact ⟨_, slice_split265 type sps pps h (fun h0 h1 => hs ⟨h0, h1⟩) bits hh⟩

/-- A result comes from a header inside of the bytes. -/
theorem slice_inside265 (type : Nat) (sps : H265.SPS) (pps : PPS) (hc : Conforming265 sps) (n1 : UInt8) (buf : Bytes)
    (r : H265.SliceInfo) (pos : Nat) (h : readSlice type sps pps (n1 :: buf) 8 = .ok (r, pos)) :
    ∃ b0 b1 rest, bitsOf buf = true :: (b0 ++ b1) ++ rest ∧
      b0.length = (if 16 ≤ type ∧ type ≤ 23 then 1 else 0) ∧ sliceTailG sps pps r b1 := by
  unfold readSlice at h
  obtain ⟨⟨f, p1⟩, e1, h⟩ := Res.bind_eq_ok.1 h
  obtain ⟨_, rfl, rfl, g1, g2⟩ := ((Tot.readFlag' (n := 0) (P := fun b bits => bits = [b]) fun _ => rfl) (n1 :: buf) 8 (by simp; omega)).2 f p1 e1
  rw [slice_drop8] at g1
  cases buf with
  | nil => simp at g2
  | cons c buf =>
    cases f with
    | false => simp [BitM.fail] at h
    | true =>
      simp only [if_true] at h
      obtain ⟨⟨_, p2⟩, e2, h⟩ := Res.bind_eq_ok.1 h
      have e2 : p2 = 9 + (if 16 ≤ type ∧ type ≤ 23 then 1 else 0) := by
        unfold H265.skipOutput at e2
        by_cases hp : 16 ≤ type ∧ type ≤ 23
        · rw [if_pos (by simpa using hp)] at e2
          rw [if_pos hp]
          cases e2
          rfl
        · rw [if_neg (by simpa using hp)] at e2
          rw [if_neg hp]
          cases e2
          rfl
      have hk : (if 16 ≤ type ∧ type ≤ 23 then 1 else 0) ≤ 1 := by split <;> omega
      generalize hkk : (if 16 ≤ type ∧ type ≤ 23 then 1 else 0) = k at e2 hk
      obtain ⟨b1, rest, g3, g4⟩ := ((slice_exact265 sps pps hc).runAt (n1 :: c :: buf) p2 (by simp; omega) r).1 ⟨pos, h⟩
      refine ⟨((bitsOf (n1 :: c :: buf)).drop 9).take k, b1, rest, ?_, ?_, g3⟩
      · rw [g1]
        simp only [List.cons_append, List.nil_append, List.append_assoc, List.length_singleton]
        have : ∀ l : List Bool, l.drop (9 + k) = (l.drop 9).drop k := fun l => by rw [List.drop_drop]
        rw [← g4, e2, this, List.take_append_drop]
      · rw [List.length_take, List.length_drop, length_bitsOf]
        simp
        omega

/-- C61 (H265), long headers: they are refused. The header of `C61_h265_long_false` is an example. -/
theorem C61_h265_long (n0 n1 : UInt8) (t : Bytes) (sps : H265.SPS) (pps : PPS) (hc : Conforming265 sps)
    (hn : n1 ≠ 0) (h : Header265) (bits rest : List Bool)
    (hh : header265 ueMax (n0.toNat / 2 % 64) sps pps h bits) (hb : bitsOf (epRemove 0 t) = bits ++ rest)
    (hl : 8 * (epRemove 0 (t.take 11)).length < bits.length) :
    ∃ e, getPTSDTSDiff (n0 :: n1 :: t) sps pps = .err e := by
  have hnp := hdts_diff (n0 :: n1 :: t) (by simp) sps pps hc.sets (by have := hc.count; omega)
    (by rw [slice_plus4 hc.poc]; omega)
  cases e : getPTSDTSDiff (n0 :: n1 :: t) sps pps with
  | err m => exact ⟨m, rfl⟩
  | panic => exact absurd e hnp
  | ok v =>
    rw [slice_diff265 n0 n1 t sps pps hn] at e
    obtain ⟨⟨r, pos⟩, e, -⟩ := Res.bind_eq_ok.1 e
    obtain ⟨b0, b1, rest', g1, g2, g3⟩ := slice_inside265 _ sps pps hc n1 _ r pos e
    obtain ⟨r', c0, c1, rfl, g4, g5⟩ := slice_any265 _ sps pps h bits (slice_mono265 _ sps pps h bits hh)
    obtain ⟨tl, ht⟩ := epRemove_take t 0 11
    have p1 := slice_whole265 _ sps pps hc r b0 b1 g2 g3 (n1 :: epRemove 0 t) 8 (rest' ++ bitsOf tl) (by simp; omega)
      (by rw [slice_drop8, ht, bitsOf_append, g1, List.append_assoc])
    have p2 := slice_whole265 _ sps pps hc r' c0 c1 g4 g5 (n1 :: epRemove 0 t) 8 rest (by simp; omega) (by rw [slice_drop8, hb])
    rw [p1] at p2
    have p3 : (true :: (b0 ++ b1)).length = (true :: (c0 ++ c1)).length := by
      injection p2 with p2
      injection p2 with _ p2
      omega
    have := congrArg List.length g1
    rw [length_bitsOf, List.length_append, p3] at this
    omega

/-- C61 (H265) without limits on the length of the header and the number of reference picture sets. -/
def C61H265 : Prop :=
  ∀ (n0 n1 : UInt8) (t : Bytes) (sps : H265.SPS) (pps : PPS) (h : Header265) (bits rest : List Bool),
    Conforming265 sps → n1 ≠ 0 → header265 ueMax (n0.toNat / 2 % 64) sps pps h bits → bitsOf (epRemove 0 t) = bits ++ rest →
    getPTSDTSDiff (n0 :: n1 :: t) sps pps = sliceResult (estimate (n0.toNat / 2 % 64) h)

/-- A P picture of the sequence with a single reference picture set, of a picture 4 before. -/
def sliceSingle : H265.SPS := { shortTermRefPicSets := [{ numNegativePics := 1, deltaPocS0 := [-4], usedByCurrPicS0Flag := [true] }] }

theorem sliceSingle_conforming : Conforming265 sliceSingle :=
  ⟨by decide, by decide, fun r hr => by
    rw [List.mem_singleton.1 hr]
    exact ⟨rfl, rfl, rfl, rfl⟩⟩

/-- C61 (H265) is false with a single reference picture set: the code returns zero instead of using it. -/
theorem C61_h265_single_false : ¬ C61H265 := by
  intro hall
  have := hall 2 1 [0xD0, 0xE0] sliceSingle {} ⟨0, 1, 1, { numNegativePics := 1, deltaPocS0 := [-4], usedByCurrPicS0Flag := [true] }, true⟩
    _ [true, false, false, false, false, false] sliceSingle_conforming (by decide)
    ⟨(), _, _, rfl, ⟨(), [], _, rfl, ⟨0, _, _, ⟨by decide, rfl⟩, ⟨(), [], _, rfl, ⟨1, _, _, ⟨by decide, rfl⟩,
      ⟨false, [], _, ⟨rfl, rfl⟩, ⟨0, [], _, ⟨rfl, rfl⟩, ⟨1, _, _, ⟨by decide, rfl⟩, ⟨true, _, _, rfl,
      ⟨_, _, [], ⟨0, 0, by decide, by decide, rfl, ⟨by decide, rfl⟩⟩, ⟨rfl, rfl⟩, rfl⟩, rfl⟩, rfl⟩, rfl⟩, rfl⟩, rfl⟩, rfl⟩, rfl⟩,
      rfl⟩, rfl⟩ (by decide +kernel)
  revert this
  decide +kernel

/-- C61 (H265) is false for long headers: this one, of 132 bits, carries a set with four pictures at a distance of 8000 each,
and is refused because 12 bytes only are read. -/
theorem C61_h265_long_false : ¬ C61H265 := by
  intro hall
  have := hall 2 1 [0xD4, 0xE2, 0x00, 0xB0, 0x00, 0xFA, 0x04, 0x00, 0x3E, 0x81, 0x00, 0x0F, 0xA0, 0x40, 0x03, 0xE8, 0x18] { log2MaxPicOrderCntLsbMinus4 := 12 } {}
    ⟨0, 1, 40000, ⟨false, 0, false, 0, 4, 0, [-8000, -16000, -24000, -32000], [true, true, true, true], [], []⟩, false⟩
    _ [true, false, false, false] ⟨by decide, by decide, fun _ h => by cases h⟩ (by decide)
    ⟨(), _, _, rfl, ⟨(), [], _, rfl, ⟨0, _, _, ⟨by decide, rfl⟩, ⟨(), [], _, rfl, ⟨1, _, _, ⟨by decide, rfl⟩,
      ⟨false, [], _, ⟨rfl, rfl⟩, ⟨0, [], _, ⟨rfl, rfl⟩, ⟨40000, _, _, ⟨by decide, rfl⟩, ⟨false, _, _, rfl,
      ⟨_, _, _, ⟨false, [], _, ⟨rfl, rfl⟩, ⟨4, _, _, ⟨4, by decide, rfl, rfl⟩, ⟨0, _, _, ⟨0, by decide, rfl, rfl⟩,
      ⟨(), [], _, ⟨by decide, rfl⟩,
      ⟨[(-8000, true), (-16000, true), (-24000, true), (-32000, true)], _, _, ⟨7999, _, _, ⟨7999, by decide, rfl, rfl⟩,
      ⟨true, _, _, rfl, ⟨_, _, _, ⟨7999, _, _, ⟨7999, by decide, rfl, rfl⟩, ⟨true, _, _, rfl,
      ⟨_, _, _, ⟨7999, _, _, ⟨7999, by decide, rfl, rfl⟩, ⟨true, _, _, rfl,
      ⟨_, _, _, ⟨7999, _, _, ⟨7999, by decide, rfl, rfl⟩, ⟨true, _, _, rfl, ⟨_, _, _, ⟨rfl, rfl⟩,
      ⟨rfl, rfl⟩, rfl⟩, rfl⟩, rfl⟩, ⟨rfl, rfl⟩, rfl⟩, rfl⟩, rfl⟩, ⟨rfl, rfl⟩, rfl⟩, rfl⟩, rfl⟩,
      ⟨rfl, rfl⟩, rfl⟩, rfl⟩, rfl⟩, ⟨(), [], _, ⟨by decide, rfl⟩, ⟨[], [], _, ⟨rfl, rfl⟩,
      ⟨rfl, rfl⟩, rfl⟩, rfl⟩, rfl⟩, rfl⟩, rfl⟩, rfl⟩, rfl⟩,
      ⟨rfl, rfl⟩, rfl⟩, rfl⟩, rfl⟩, rfl⟩, rfl⟩, rfl⟩, rfl⟩, rfl⟩, rfl⟩, rfl⟩ (by decide +kernel)
  revert this
  decide +kernel

/-- A P picture with a reference picture 3 before. -/
example : (∃ bits, header265 ueMax 1 {} {} ⟨0, 1, 1, ⟨false, 0, false, 0, 1, 0, [-3], [true], [], []⟩, false⟩ bits ∧ bits.length = 18 ∧
      bitsOf (epRemove 0 [0xD0, 0x95, 0xE0]) = bits ++ [true, false, false, false, false, false]) ∧
    estimate 1 ⟨0, 1, 1, ⟨false, 0, false, 0, 1, 0, [-3], [true], [], []⟩, false⟩ = some 2 ∧
    getPTSDTSDiff [2, 1, 0xD0, 0x95, 0xE0] {} {} = .ok 2 := by
  refine ⟨⟨_, ⟨(), _, _, rfl, ⟨(), [], _, rfl, ⟨0, _, _, ⟨by decide, rfl⟩, ⟨(), [], _, rfl, ⟨1, _, _, ⟨by decide, rfl⟩,
    ⟨false, [], _, ⟨rfl, rfl⟩, ⟨0, [], _, ⟨rfl, rfl⟩, ⟨1, _, _, ⟨by decide, rfl⟩, ⟨false, _, _, rfl, ⟨_, _, _, ⟨false, [], _,
    ⟨rfl, rfl⟩, ⟨1, _, _, ⟨1, by decide, rfl, rfl⟩, ⟨0, _, _, ⟨0, by decide, rfl, rfl⟩, ⟨(), [], _, ⟨by decide, rfl⟩,
    ⟨[(-3, true)], _, _, ⟨2, _, _, ⟨2, by decide, rfl, rfl⟩, ⟨true, _, _, rfl, ⟨_, _, _, ⟨rfl, rfl⟩, ⟨rfl, rfl⟩, rfl⟩, rfl⟩, rfl⟩,
    ⟨(), [], _, ⟨by decide, rfl⟩, ⟨[], [], _, ⟨rfl, rfl⟩, ⟨rfl, rfl⟩, rfl⟩, rfl⟩, rfl⟩, rfl⟩, rfl⟩, rfl⟩, rfl⟩, ⟨rfl, rfl⟩,
    rfl⟩, rfl⟩, rfl⟩, rfl⟩, rfl⟩, rfl⟩, rfl⟩, rfl⟩, rfl⟩, rfl⟩, ?_, ?_⟩, ?_, ?_⟩ <;> decide +kernel

end Verif.Props
