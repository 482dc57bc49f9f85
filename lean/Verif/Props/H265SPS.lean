import Verif.Spec.H265SPS
import Verif.Props.H264SPS

/-!
# Property C51: H265 parameter sets; C60: sub-layer ordering information
-/

namespace Verif.Props
open Verif.Spec Verif.H265 Verif.BitM

theorem h265_scaling_exact (k : Nat) : Exact 0 (readScaling k) (Spec.H265.scaling k) := by
  unfold readScaling Spec.H265.scaling
  refine Exact.readFlag fun f => ?_
  cases f
  · simp only [Bool.not_false, if_true, Gr.opt, Bool.false_and, Bool.false_eq_true, if_false, Gr.times, pure_bind,
      readMatrixDelta]
    exact Exact.readUE fun _ _ => Exact.pure _
  · simp only [Bool.not_true, Bool.true_and, Bool.false_eq_true, if_false, Gr.opt, pure_bind, if_true, readCoefs]
    have hn : min 64 (1 <<< (4 + k <<< 1)) = if k = 0 then 16 else 64 := by
      match k with
      | 0 => rfl
      | k + 1 =>
        rw [if_neg (by omega), Nat.one_shiftLeft, Nat.shiftLeft_eq]
        have : 2 ^ 6 ≤ 2 ^ (4 + (k + 1) * 2 ^ 1) := Nat.pow_le_pow_right (by omega) (by omega)
        omega
    rw [hn]
    refine Exact.bind (Exact.cond fun _ => Exact.readSE') fun dc _ _ => ?_
    exact Exact.bind (Exact.times Exact.readSE' _) fun _ _ _ => Exact.pure _

theorem h265_scalingData_exact : Exact 0 ScalingListData.unmarshal Spec.H265.scalingListData := by
  refine Exact.bind (Exact.times (h265_scaling_exact 0) 6) fun _ _ _ => ?_
  refine Exact.bind (Exact.times (h265_scaling_exact 1) 6) fun _ _ _ => ?_
  refine Exact.bind (Exact.times (h265_scaling_exact 2) 6) fun _ _ _ => ?_
  refine Exact.bind (h265_scaling_exact 3) fun _ _ _ => ?_
  exact Exact.bind (h265_scaling_exact 3) fun _ _ _ => Exact.pure _

theorem h265_window_exact : Exact 0 Window.unmarshal Spec.H265.window :=
  Exact.readUE fun _ _ => Exact.readUE fun _ _ => Exact.readUE fun _ _ => Exact.readUE fun _ _ => Exact.pure _

theorem h265_timing_exact : Exact 0 H265.TimingInfo.unmarshal Spec.H265.timing := by
  unfold H265.TimingInfo.unmarshal Spec.H265.timing
  refine Exact.hasSpace ?_
  refine Exact.readBitsU (by omega) (by omega) (by omega) fun _ _ => ?_
  refine Exact.readBitsU (by omega) (by omega) (by omega) fun _ _ => ?_
  refine Exact.readFlagU (by omega) fun _ => ?_
  exact Exact.bind (Exact.cond fun _ => Exact.readUE') fun _ _ _ => Exact.pure _

theorem h265_vui_exact : Exact 0 H265.VUI.unmarshal Spec.H265.vui := by
  unfold H265.VUI.unmarshal Spec.H265.vui
  refine Exact.readFlag fun ar => ?_
  refine Exact.bind3 (aspect_exact ar) fun idc w h => ?_
  refine Exact.readFlag fun os => ?_
  refine Exact.bind (Exact.cond fun _ => Exact.readFlag') fun o _ _ => ?_
  refine Exact.readFlag fun vs => ?_
  refine Exact.bind6 (signal_exact vs) fun f r d x y z => ?_
  refine Exact.readFlag fun cl => ?_
  refine Exact.bind2 (chromaLoc_exact cl) fun top bottom => ?_
  refine Exact.readFlag fun _ => Exact.readFlag fun _ => Exact.readFlag fun _ => ?_
  refine optional_exact h265_window_exact fun t => ?_
  exact optional_exact h265_timing_exact fun b => Exact.pure _

theorem hasMax14_iff (idc : Nat) (compat : List Bool) : hasMax14 idc compat = decide (Spec.H265.HasMax14 idc compat) := by
  have hg : ∀ i, compat.getD i false = true ↔ compat[i]? = some true := by
    intro i
    rw [List.getD_eq_getElem?_getD]
    cases compat[i]? <;> simp
  rw [Bool.eq_iff_iff, decide_eq_true_iff]
  unfold hasMax14 Spec.H265.HasMax14
  simp only [Bool.or_eq_true, hg, beq_iff_eq, List.mem_cons, List.not_mem_nil, or_false, exists_eq_or_imp, exists_eq_left]
  constructor
  · rintro (((((((h | h) | h) | h) | h) | h) | h) | h) <;> simp [h]
  · rintro ((h | h | h | h) | (h | h | h | h)) <;> simp [h]

theorem flag_length : ∀ (a : Bool) (b : List Bool), Gr.flag a b → b.length = 1 := by rintro a _ rfl; rfl

theorem general_exact (p : ProfileTierLevel) : Exact 96 p.readGeneral (Spec.H265.general p) := by
  unfold ProfileTierLevel.readGeneral Spec.H265.general
  refine Exact.readBitsU (by omega) (by omega) (by omega) fun _ _ => ?_
  refine Exact.readBitsU (by omega) (by omega) (by omega) fun _ _ => ?_
  refine Exact.readBitsU (by omega) (by omega) (by omega) fun idc _ => ?_
  refine Exact.bindN (k := 32 * 1) (Exact.timesU Exact.readFlagU' flag_length 32) (fun _ _ g => gr_times_bits flag_length g)
    (by omega) fun compat _ _ => ?_
  refine Exact.readFlagU (by omega) fun _ => Exact.readFlagU (by omega) fun _ => Exact.readFlagU (by omega) fun _ =>
    Exact.readFlagU (by omega) fun _ => Exact.readFlagU (by omega) fun _ => Exact.readFlagU (by omega) fun _ =>
    Exact.readFlagU (by omega) fun _ => Exact.readFlagU (by omega) fun _ => Exact.readFlagU (by omega) fun _ =>
    Exact.readFlagU (by omega) fun _ => Exact.readFlagU (by omega) fun _ => Exact.readFlagU (by omega) fun _ =>
    Exact.readFlagU (by omega) fun _ => ?_
  rw [hasMax14_iff]
  by_cases h : Spec.H265.HasMax14 idc compat
  · simp only [h, decide_true, readMax14, Gr.opt, if_true, bind_assoc, pure_bind]
    refine Exact.readFlagU (by omega) fun _ => ?_
    refine Exact.skip (by omega) ?_
    exact Exact.readBitsU (by omega) (by omega) (by omega) fun _ _ => Exact.pure _
  · simp only [h, decide_false, readMax14, Gr.opt, Bool.false_eq_true, if_false, bind_assoc, pure_bind]
    refine Exact.skip (by omega) ?_
    exact Exact.readBitsU (by omega) (by omega) (by omega) fun _ _ => Exact.pure _

/-- The two flags of a sub-layer. -/
def subLayerGr : Gr (Bool × Bool) := do
  let a ← Gr.flag
  let b ← Gr.flag
  pure (a, b)

theorem subLayerGr_iff (a : Bool × Bool) (b : List Bool) : subLayerGr a b ↔ b = [a.1, a.2] := by
  constructor
  · rintro ⟨x, _, _, rfl, ⟨y, _, _, rfl, ⟨rfl, rfl⟩, rfl⟩, rfl⟩; rfl
  · rintro rfl; exact ⟨a.1, [a.1], [a.2], rfl, ⟨a.2, [a.2], [], rfl, ⟨rfl, rfl⟩, rfl⟩, rfl⟩

theorem subLayerGr_length (a : Bool × Bool) (b : List Bool) (h : subLayerGr a b) : b.length = 2 := by
  rw [(subLayerGr_iff a b).1 h]; rfl

theorem subLayers_zero (n : Nat) (l : List (Bool × Bool)) (b : List Bool) :
    (Gr.times subLayerGr n l b ∧ ∀ x ∈ l, x = (false, false)) ↔
      l = List.replicate n (false, false) ∧ b = List.replicate (2 * n) false := by
  induction n generalizing l b with
  | zero =>
    constructor
    · rintro ⟨⟨rfl, rfl⟩, _⟩; exact ⟨rfl, rfl⟩
    · rintro ⟨rfl, rfl⟩; exact ⟨⟨rfl, rfl⟩, by simp⟩
  | succ n ih =>
    constructor
    · rintro ⟨⟨x, _, _, g, ⟨t, _, _, h, ⟨rfl, rfl⟩, rfl⟩, rfl⟩, hz⟩
      obtain rfl := hz x (List.mem_cons_self ..)
      obtain ⟨rfl, rfl⟩ := (ih t _).1 ⟨h, fun y hy => hz y (List.mem_cons_of_mem _ hy)⟩
      rw [(subLayerGr_iff _ _).1 g]
      exact ⟨rfl, by rw [List.append_nil]; rfl⟩
    · rintro ⟨rfl, rfl⟩
      obtain ⟨h, _⟩ := (ih _ _).2 ⟨rfl, rfl⟩
      refine ⟨⟨(false, false), [false, false], _, (subLayerGr_iff _ _).2 rfl, ⟨_, _, [], h, ⟨rfl, rfl⟩, rfl⟩, ?_⟩, ?_⟩
      · rw [List.append_nil]; rfl
      · intro x hx; exact List.eq_of_mem_replicate hx

theorem checkSubLayers_exact {β : Type} {q : BitM β} {F : Unit → Gr β} (h : Exact 0 q (F ())) (l : List (Bool × Bool)) :
    Exact 0 (checkSubLayers l >>= fun _ => q) (Gr.must (∀ x ∈ l, x = (false, false)) >>= F) := by
  induction l with
  | nil => rw [gr_must_true (by simp)]; exact h
  | cons x l ih =>
    obtain ⟨p, q⟩ := x
    unfold checkSubLayers
    cases p
    · cases q
      · simp only [Bool.false_eq_true, if_false]
        refine Exact.congr ih fun a b => ?_
        simp
      · rw [gr_must_false (by simp)]
        exact Exact.bindNever (G := fun _ _ => False) Exact.never fun _ _ h => h.elim
    · rw [gr_must_false (by simp)]
      exact Exact.bindNever (G := fun _ _ => False) Exact.never fun _ _ h => h.elim

theorem subLayers_exact (p : ProfileTierLevel) (max : Nat) :
    Exact 0 (p.readSubLayers max) (Gr.lit (2 * max) 0 >>= fun _ => Gr.reserved (2 * (8 - max)) >>= fun _ =>
      pure { p with subLayerProfilePresentFlag := List.replicate max false,
                    subLayerLevelPresentFlag := List.replicate max false }) := by
  have h : Exact 0 (p.readSubLayers max) (Gr.times subLayerGr max >>= fun l => Gr.reserved ((8 - max) * 2) >>= fun _ =>
      Gr.must (∀ x ∈ l, x = (false, false)) >>= fun _ =>
      pure { p with subLayerProfilePresentFlag := l.map (·.1), subLayerLevelPresentFlag := l.map (·.2) }) := by
    unfold ProfileTierLevel.readSubLayers H265.readSubLayers
    simp only [bind_assoc, pure_bind]
    refine Exact.hasSpace ?_
    rw [Nat.mul_comm 2 max]
    refine Exact.bindN (Exact.timesU (p := readSubLayer) (G := subLayerGr) (k := 2) ?_ subLayerGr_length max)
      (fun _ _ g => gr_times_bits subLayerGr_length g) (Nat.le_refl _) fun l _ _ => ?_
    · exact Exact.readFlagU (by omega) fun _ => Exact.readFlagU (by omega) fun _ => Exact.pure _
    rw [Nat.sub_self]
    refine Exact.hasSpace (Exact.skip (Nat.le_refl _) ?_)
    rw [Nat.sub_self]
    exact checkSubLayers_exact (F := fun _ => pure _) (Exact.pure _) l
  refine Exact.congr h fun a b => ?_
  constructor
  · rintro ⟨l, _, _, g, ⟨_, _, _, hr, ⟨_, _, _, ⟨hz, rfl⟩, ⟨rfl, rfl⟩, rfl⟩, rfl⟩, rfl⟩
    obtain ⟨rfl, rfl⟩ := (subLayers_zero max l _).1 ⟨g, hz⟩
    rw [Nat.mul_comm] at hr
    refine ⟨(), _, _, rfl, ⟨(), _, _, hr, ⟨?_, rfl⟩, rfl⟩, ?_⟩
    · simp
    · rw [Bits.bitsOfNat_zero]; simp
  · rintro ⟨_, _, _, rfl, ⟨_, _, _, hr, ⟨rfl, rfl⟩, rfl⟩, rfl⟩
    obtain ⟨g, hz⟩ := (subLayers_zero max _ _).2 ⟨rfl, rfl⟩
    rw [Nat.mul_comm] at hr
    refine ⟨_, _, _, g, ⟨(), _, _, hr, ⟨(), _, _, ⟨hz, rfl⟩, ⟨?_, rfl⟩, rfl⟩, rfl⟩, ?_⟩
    · simp
    · rw [Bits.bitsOfNat_zero]; simp

/-- The same code with a check for 96 bits. -/
def ptl96 (p : ProfileTierLevel) (max : Nat) : BitM ProfileTierLevel := do
  hasSpace 96
  let p ← p.readGeneral
  if max > 0 then p.readSubLayers max else pure p

theorem general_bits (p a : ProfileTierLevel) (b : List Bool) (h : Spec.H265.general p a b) : 96 ≤ b.length :=
  (general_exact p).len a b h

theorem ptl96_exact (p : ProfileTierLevel) (max : Nat) : Exact 0 (ptl96 p max) (Spec.H265.profileTierLevel p max) := by
  unfold ptl96 Spec.H265.profileTierLevel
  refine Exact.hasSpace (Exact.bind (general_exact p) fun q _ _ => ?_)
  by_cases h : max = 0
  · rw [if_neg (by omega), if_pos h]; exact Exact.pure _
  · rw [if_pos (by omega), if_neg h]; exact subLayers_exact q max

theorem ptl_aligned (p : ProfileTierLevel) (max : Nat) (buf : Bytes) (pos : Nat) (h : pos % 8 = 0) :
    p.unmarshal max buf pos = ptl96 p max buf pos := by
  unfold ProfileTierLevel.unmarshal ptl96
  have e : BitM.hasSpace (8 + 32 + 12 + 34 + 8) buf pos = BitM.hasSpace 96 buf pos := by
    unfold BitM.hasSpace Bits.hasSpace
    by_cases hc : ((96 : Nat) : Int) > (buf.length * 8 : Int) - (pos : Int)
    · rw [if_pos hc, if_pos (by omega)]
    · rw [if_neg hc, if_neg (by omega)]
  rw [bind_run, bind_run, e]

/-! ## Reference picture sets -/

/-- The counts are those of the lists. -/
structure RpsWf (r : RPS) : Prop where
  neg : r.deltaPocS0.length = r.numNegativePics
  pos : r.deltaPocS1.length = r.numPositivePics
  usedNeg : r.usedByCurrPicS0Flag.length = r.numNegativePics
  usedPos : r.usedByCurrPicS1Flag.length = r.numPositivePics

theorem wrap32_eq (v : Int) : Bits.wrapInt32 v = Spec.H265.wrap32 v := rfl

theorem select_eq (neg : Bool) (flags : List (Bool × Bool)) (k : Nat) (hk : k < flags.length) (d : Int) :
    select neg (flags.map (·.2)) (flags.map (·.1)) k d =
      .ok (if flags[k].2 = true ∧ (if neg then d < 0 else d > 0) then some (d, flags[k].1) else none) := by
  unfold select
  by_cases hs : (if neg then d < 0 else d > 0)
  · rw [if_pos hs, idx_of_lt (by simpa using hk), Res.bind_ok]
    simp only [List.getElem_map]
    by_cases hu : flags[k].2 = true
    · rw [if_pos hu, if_pos ⟨hu, hs⟩, idx_of_lt (by simpa using hk), Res.bind_ok]
      simp only [List.getElem_map]
    · rw [if_neg hu, if_neg fun h => hu h.1]
  · rw [if_neg hs, if_neg fun h => hs h.2]

theorem gather_eq (neg : Bool) (flags : List (Bool × Bool)) (ref : List Int) (delta : Int) (off : Nat) (js : List Nat)
    (h : ∀ j ∈ js, j < ref.length ∧ off + j < flags.length) :
    gather neg (flags.map (·.2)) (flags.map (·.1)) ref delta off js =
      .ok ((js.map fun j => (ref.getD j 0, flags.getD (off + j) (false, false))).filterMap
        (Spec.H265.predicted delta neg)) := by
  induction js with
  | nil => rfl
  | cons j js ih =>
    obtain ⟨h1, h2⟩ := h j (List.mem_cons_self ..)
    unfold gather
    rw [idx_of_lt h1, Res.bind_ok, select_eq neg flags _ h2, Res.bind_ok, ih fun x hx => h x (List.mem_cons_of_mem _ hx),
      Res.bind_ok]
    rw [List.map_cons, List.filterMap_cons]
    have e1 : ref.getD j 0 = ref[j] := by simp [List.getD, h1]
    have e2 : flags.getD (off + j) (false, false) = flags[off + j] := by simp [List.getD, h2]
    rw [e1, e2]
    have e3 : Spec.H265.predicted delta neg (ref[j], flags[off + j]) = if flags[off + j].2 = true ∧
        (if neg = true then Bits.wrapInt32 (ref[j] + delta) < 0 else Bits.wrapInt32 (ref[j] + delta) > 0)
        then some (Bits.wrapInt32 (ref[j] + delta), flags[off + j].1) else none := rfl
    rw [e3]
    by_cases hc : flags[off + j].2 = true ∧
        (if neg = true then Bits.wrapInt32 (ref[j] + delta) < 0 else Bits.wrapInt32 (ref[j] + delta) > 0)
    · simp only [if_pos hc]; rfl
    · simp only [if_neg hc]; rfl

theorem zip_eq (ref : List Int) (flags : List (Bool × Bool)) (off : Nat) (h : off + ref.length ≤ flags.length) :
    (List.range ref.length).map (fun j => (ref.getD j 0, flags.getD (off + j) (false, false))) = ref.zip (flags.drop off) := by
  apply List.ext_getElem
  · simp; omega
  · intro i h1 h2
    simp at h1
    simp [List.getD, h1, show off + i < flags.length by omega]

theorem self_eq (flags : List (Bool × Bool)) (k : Nat) (h : k < flags.length) :
    [(0 : Int)].zip (flags.drop k) = [((0 : Int), flags[k])] := by
  rw [List.drop_eq_getElem_cons h]; rfl

theorem wrap32_self (x : Int) : Spec.H265.wrap32 (0 + Spec.H265.wrap32 x) = Spec.H265.wrap32 x := by
  unfold Spec.H265.wrap32; omega

theorem select_self (neg : Bool) (flags : List (Bool × Bool)) (k : Nat) (hk : k < flags.length) (x : Int) :
    ∃ o, select neg (flags.map (·.2)) (flags.map (·.1)) k (Spec.H265.wrap32 x) = .ok o ∧
      o.toList = ([(0 : Int)].zip (flags.drop k)).filterMap (Spec.H265.predicted (Spec.H265.wrap32 x) neg) := by
  refine ⟨_, select_eq neg flags k hk _, ?_⟩
  rw [self_eq flags k hk]
  simp only [List.filterMap_cons, Spec.H265.predicted, wrap32_self, List.filterMap_nil]
  split <;> rfl

theorem predictS0_eq (r : RPS) (hr : RpsWf r) (x : Int) (flags : List (Bool × Bool))
    (hf : flags.length = r.numNegativePics + r.numPositivePics + 1) :
    predictS0 r (Spec.H265.wrap32 x) (flags.map (·.2)) (flags.map (·.1)) =
      .ok (Spec.H265.predictedS0 r (Spec.H265.wrap32 x) flags) := by
  have h0 := hr.neg
  have h1 := hr.pos
  obtain ⟨o, e1, e2⟩ := select_self true flags (r.numNegativePics + r.numPositivePics) (by omega) x
  unfold predictS0
  rw [gather_eq, Res.bind_ok, e1, Res.bind_ok, gather_eq, Res.bind_ok, e2]
  · unfold Spec.H265.predictedS0 Spec.H265.after Spec.H265.before Spec.H265.self
    rw [h0, h1, List.filterMap_append, List.filterMap_append, List.map_reverse, ← h1, zip_eq, ← h0, zip_eq, List.drop_zero]
    · omega
    · omega
  · intro j hj
    have := List.mem_range.1 hj
    omega
  · intro j hj
    have := List.mem_range.1 (List.mem_reverse.1 hj)
    omega

theorem predictS1_eq (r : RPS) (hr : RpsWf r) (x : Int) (flags : List (Bool × Bool))
    (hf : flags.length = r.numNegativePics + r.numPositivePics + 1) :
    predictS1 r (Spec.H265.wrap32 x) (flags.map (·.2)) (flags.map (·.1)) =
      .ok (Spec.H265.predictedS1 r (Spec.H265.wrap32 x) flags) := by
  have h0 := hr.neg
  have h1 := hr.pos
  obtain ⟨o, e1, e2⟩ := select_self false flags (r.numNegativePics + r.numPositivePics) (by omega) x
  unfold predictS1
  rw [gather_eq, Res.bind_ok, e1, Res.bind_ok, gather_eq, Res.bind_ok, e2]
  · unfold Spec.H265.predictedS1 Spec.H265.after Spec.H265.before Spec.H265.self
    rw [h0, h1, List.filterMap_append, List.filterMap_append, List.map_reverse, ← h1, zip_eq, ← h0, zip_eq, List.drop_zero]
    · omega
    · omega
  · intro j hj
    have := List.mem_range.1 hj
    omega
  · intro j hj
    have := List.mem_range.1 (List.mem_reverse.1 hj)
    omega

theorem deltaRps_eq (sign : Bool) (abs : Nat) :
    Bits.wrapInt32 ((1 - 2 * (if sign = true then 1 else 0)) * Bits.wrapInt32 (Bits.toInt32 abs + 1)) =
      Spec.H265.wrap32 (if sign = true then - ((abs : Int) + 1) else (abs : Int) + 1) := by
  unfold Spec.H265.wrap32 Bits.wrapInt32 Bits.toInt32
  cases sign
  · simp only [Bool.false_eq_true, if_false]
    split <;> omega
  · simp only [if_true]
    split <;> omega

theorem usedFlags_exact : Exact 0 readUsed Spec.H265.usedFlags :=
  Exact.readFlag fun _ => Exact.bind (Exact.cond fun _ => Exact.readFlag') fun _ _ _ => Exact.pure _

theorem ref_index (n d : Nat) (hn : n < 2 ^ 32) (hd : d < 2 ^ 32) :
    H264.sub32 n ((d + 1) % 2 ^ 32) = if d < n then n - 1 - d else if d = 2 ^ 32 - 1 then n else n + 2 ^ 32 - 1 - d := by
  unfold H264.sub32
  split
  · omega
  · split <;> omega

theorem interSet_exact (sets : List RPS) (hs : ∀ r ∈ sets, RpsWf r) (inSlice : Bool) (num : Nat)
    (hn : num < 2 ^ 32) (hlen : if inSlice then sets.length = num else sets.length < num ∧ sets ≠ []) :
    Exact 0 (RPS.readInter sets.length num (sets.map some ++ List.replicate (num - sets.length) none))
      (Spec.H265.interSet sets inSlice) := by
  unfold RPS.readInter Spec.H265.interSet
  have hc : (sets.length == num) = inSlice := by
    cases inSlice
    · simp only [Bool.false_eq_true, if_false] at hlen; simp; omega
    · simpa using hlen
  rw [hc]
  have hle : sets.length ≤ num := by cases inSlice <;> simp at hlen <;> omega
  have hlen' : (sets.map some ++ List.replicate (num - sets.length) (none : Option RPS)).length = num := by simp; omega
  refine Exact.bind (Exact.cond (c := inSlice) fun _ => Exact.readUE') fun d b gd => ?_
  have hd : d < 2 ^ 32 ∧ (inSlice = false → d = 0) := by
    cases inSlice
    · obtain ⟨rfl, _⟩ := gd; exact ⟨by omega, fun _ => rfl⟩
    · obtain ⟨w, _, rfl, _⟩ := gd; exact ⟨Nat.mod_lt _ (by omega), by simp⟩
  refine Exact.readFlag fun sign => Exact.readUE fun abs _ => ?_
  simp only [deltaRps_eq, ref_index _ _ (show sets.length < 2 ^ 32 by omega) hd.1, hlen']
  by_cases hlt : d < sets.length
  · rw [if_pos hlt, if_neg (by omega)]
    have hrev : sets.reverse[d]? = some sets[sets.length - 1 - d] := by
      rw [List.getElem?_reverse hlt, List.getElem?_eq_getElem (by omega)]
    rw [hrev]
    have hi : idx (sets.map some ++ List.replicate (num - sets.length) (none : Option RPS)) (sets.length - 1 - d) =
        .ok (some sets[sets.length - 1 - d]) := by
      rw [idx_of_lt (by omega), List.getElem_append_left (by simp; omega), List.getElem_map]
    refine Exact.lift hi ?_
    have hr := hs sets[sets.length - 1 - d] (List.getElem_mem _)
    generalize sets[sets.length - 1 - d] = r at hr
    dsimp only
    unfold RPS.predict
    rw [hr.neg, hr.pos]
    refine Exact.bind (Exact.times usedFlags_exact _) fun flags _ gf => ?_
    have hf := gr_times_length gf
    refine Exact.lift (predictS0_eq r hr _ flags hf) ?_
    refine Exact.lift (predictS1_eq r hr _ flags hf) ?_
    exact Exact.pure _
  · have hin : inSlice = true := by
      cases inSlice
      · simp at hlen
        have := hd.2 rfl
        have := List.length_pos_iff.2 hlen.2
        omega
      · rfl
    rw [hin] at hlen
    simp at hlen
    have hge : (if d < sets.length then sets.length - 1 - d else if d = 2 ^ 32 - 1 then sets.length else
        sets.length + 2 ^ 32 - 1 - d) ≥ num := by
      split
      · omega
      · split <;> omega
    rw [if_pos hge]
    have hrev : sets.reverse[d]? = none := by
      rw [List.getElem?_eq_none_iff]; simp; omega
    rw [hrev]
    exact Exact.never

theorem s0_exact (n i : Nat) (prev : Int) (hp : i = 0 → prev = 0) :
    Exact 0 (readS0 n i prev) (Spec.H265.distances (-1) n prev) := by
  induction n generalizing i prev with
  | zero => exact Exact.pure _
  | succ n ih =>
    unfold readS0 Spec.H265.distances
    refine Exact.readUE fun v hv => ?_
    have e : (if i = 0 then Bits.wrapInt32 (- Bits.toInt32 ((v + 1) % 2 ^ 32))
        else Bits.wrapInt32 (prev - Bits.wrapInt32 (Bits.toInt32 v + 1))) = Spec.H265.wrap32 (prev + -1 * (v + 1)) := by
      unfold Bits.wrapInt32 Spec.H265.wrap32 Bits.toInt32
      by_cases h : i = 0
      · rw [if_pos h, hp h]; split <;> omega
      · rw [if_neg h]; split <;> omega
    rw [e]
    refine Exact.readFlag fun f => ?_
    exact Exact.bind (ih (i + 1) _ (by omega)) fun _ _ _ => Exact.pure _

theorem s1_exact (n i : Nat) (prev : Int) (hp : i = 0 → prev = 0) :
    Exact 0 (readS1 n i prev) (Spec.H265.distances 1 n prev) := by
  induction n generalizing i prev with
  | zero => exact Exact.pure _
  | succ n ih =>
    unfold readS1 Spec.H265.distances
    refine Exact.readUE fun v hv => ?_
    have e : (if i = 0 then Bits.wrapInt32 (Bits.toInt32 v + 1)
        else Bits.wrapInt32 (Bits.wrapInt32 (prev + Bits.toInt32 v) + 1)) = Spec.H265.wrap32 (prev + 1 * (v + 1)) := by
      unfold Bits.wrapInt32 Spec.H265.wrap32 Bits.toInt32
      by_cases h : i = 0
      · rw [if_pos h, hp h]; split <;> omega
      · rw [if_neg h]; split <;> omega
    rw [e]
    refine Exact.readFlag fun f => ?_
    exact Exact.bind (ih (i + 1) _ (by omega)) fun _ _ _ => Exact.pure _

theorem counted_exact {β : Type} {n : Nat} {e : String} {p : BitM (List (Int × Bool))} {G : Gr (List (Int × Bool))}
    {f : List (Int × Bool) → BitM β} {F : List (Int × Bool) → Gr β} (h0 : n = 0 → G = pure []) (h : Exact 0 p G)
    (hf : ∀ l, Exact 0 (f l) (F l)) :
    Exact 0 ((if n > 0 then (if n > 255 then fail e else p) else pure []) >>= f)
      (Gr.must (n ≤ 255) >>= fun _ => G >>= F) := by
  by_cases hn : n > 255
  · rw [if_pos (by omega), if_pos hn, gr_must_false (by omega)]
    exact Exact.bindNever (G := fun _ _ => False) Exact.never fun _ _ h => h.elim
  · rw [if_neg hn, gr_must_true (by omega)]
    by_cases hz : n = 0
    · rw [if_neg (by omega), h0 hz, pure_bind, pure_bind]; exact hf []
    · rw [if_pos (by omega)]; exact Exact.bind h fun l _ _ => hf l

theorem intraSet_exact : Exact 0 RPS.readIntra Spec.H265.intraSet := by
  unfold RPS.readIntra Spec.H265.intraSet readNegative readPositive
  refine Exact.readUE fun neg _ => Exact.readUE fun pos _ => ?_
  refine counted_exact (fun h => by rw [h]; rfl) (s0_exact neg 0 0 fun _ => rfl) fun s0 => ?_
  exact counted_exact (fun h => by rw [h]; rfl) (s1_exact pos 0 0 fun _ => rfl) fun s1 => Exact.pure _

theorem refPicSet_exact (sets : List RPS) (hs : ∀ r ∈ sets, RpsWf r) (inSlice : Bool) (num : Nat)
    (hn : num < 2 ^ 32) (hlen : if inSlice then sets.length = num else sets.length < num) :
    Exact 0 (RPS.unmarshal sets.length num (sets.map some ++ List.replicate (num - sets.length) none))
      (Spec.H265.refPicSet sets inSlice) := by
  unfold RPS.unmarshal Spec.H265.refPicSet
  have hc : (sets.length != 0) = !sets.isEmpty := by cases sets <;> rfl
  rw [hc]
  refine Exact.bind (Exact.cond fun _ => Exact.readFlag') fun inter b g => ?_
  cases inter
  · exact intraSet_exact
  · refine interSet_exact sets hs inSlice num hn ?_
    cases inSlice
    · simp only [Bool.false_eq_true, if_false] at hlen ⊢
      refine ⟨hlen, ?_⟩
      rintro rfl
      obtain ⟨h, _⟩ := g
      cases h
    · simpa using hlen

theorem distances_length (sign : Int) (n : Nat) (prev : Int) :
    Sat (Spec.H265.distances sign n prev) fun l => l.length = n := by
  induction n generalizing prev with
  | zero => exact Sat.pure rfl
  | succ n ih => exact Sat.skip fun _ => Sat.skip fun _ => Sat.bind (ih _) fun l hl => Sat.pure (by simp [hl])

/-- Pictures of a set. -/
def rpsSize (r : RPS) : Nat := r.numNegativePics + r.numPositivePics

theorem predicted_count (delta : Int) (l : List (Int × Bool × Bool)) :
    (l.filterMap (Spec.H265.predicted delta true)).length + (l.filterMap (Spec.H265.predicted delta false)).length ≤ l.length := by
  induction l with
  | nil => simp
  | cons x l ih =>
    simp only [List.filterMap_cons, Spec.H265.predicted, if_true, Bool.false_eq_true, if_false] at ih ⊢
    by_cases h1 : x.2.2 = true ∧ Spec.H265.wrap32 (x.1 + delta) < 0
    · rw [if_pos h1, if_neg (by omega)]; simp only [List.length_cons] at *; omega
    · rw [if_neg h1]
      by_cases h2 : x.2.2 = true ∧ Spec.H265.wrap32 (x.1 + delta) > 0
      · rw [if_pos h2]; simp only [List.length_cons] at *; omega
      · rw [if_neg h2]; simp only [List.length_cons] at *; omega

theorem predicted_size (r : RPS) (delta : Int) (flags : List (Bool × Bool)) :
    (Spec.H265.predictedS0 r delta flags).length + (Spec.H265.predictedS1 r delta flags).length ≤
      r.deltaPocS0.length + r.deltaPocS1.length + 1 := by
  unfold Spec.H265.predictedS0 Spec.H265.predictedS1
  simp only [List.filterMap_append, List.filterMap_reverse, List.length_append, List.length_reverse]
  have h1 := predicted_count delta (Spec.H265.after r flags)
  have h2 := predicted_count delta (Spec.H265.before r flags)
  have h3 := predicted_count delta (Spec.H265.self r flags)
  have e1 : (Spec.H265.after r flags).length ≤ r.deltaPocS1.length := by simp [Spec.H265.after]; omega
  have e2 : (Spec.H265.before r flags).length ≤ r.deltaPocS0.length := by simp [Spec.H265.before]; omega
  have e3 : (Spec.H265.self r flags).length ≤ 1 := by simp [Spec.H265.self]; omega
  omega

theorem intraSet_sat : Sat Spec.H265.intraSet fun r => RpsWf r ∧ rpsSize r ≤ 510 := by
  refine Sat.skip fun neg => Sat.skip fun pos => Sat.bind (P := fun _ => neg ≤ 255) (fun _ _ h => h.1) fun _ h1 =>
    Sat.bind (distances_length _ _ _) fun l0 e0 => Sat.bind (P := fun _ => pos ≤ 255) (fun _ _ h => h.1) fun _ h2 =>
    Sat.bind (distances_length _ _ _) fun l1 e1 => Sat.pure ⟨⟨?_, ?_, ?_, ?_⟩, ?_⟩
  · simpa using e0
  · simpa using e1
  · simpa using e0
  · simpa using e1
  · show neg + pos ≤ 510; omega

theorem interSet_sat (sets : List RPS) (inSlice : Bool) (k : Nat) (hs : ∀ r ∈ sets, RpsWf r ∧ rpsSize r ≤ k) :
    Sat (Spec.H265.interSet sets inSlice) fun r => RpsWf r ∧ rpsSize r ≤ k + 1 := by
  refine Sat.skip fun idx => Sat.skip fun sign => Sat.skip fun abs => ?_
  cases hr : sets.reverse[idx]? with
  | none => exact fun _ _ h => h.elim
  | some r =>
    obtain ⟨hw, hk⟩ := hs r (List.mem_reverse.1 (List.mem_of_getElem? hr))
    refine Sat.skip fun flags => Sat.pure ⟨⟨?_, ?_, ?_, ?_⟩, ?_⟩
    · simp
    · simp
    · simp
    · simp
    · refine Nat.le_trans (predicted_size r _ flags) ?_
      rw [hw.neg, hw.pos]
      exact Nat.succ_le_succ hk

theorem refPicSet_sat (sets : List RPS) (inSlice : Bool) (k : Nat) (hk : 510 ≤ k + 1)
    (hs : ∀ r ∈ sets, RpsWf r ∧ rpsSize r ≤ k) : Sat (Spec.H265.refPicSet sets inSlice) fun r => RpsWf r ∧ rpsSize r ≤ k + 1 :=
  Sat.skip fun _ => Sat.ite (fun _ => interSet_sat sets inSlice k hs) fun _ =>
    intraSet_sat.imp fun _ h => ⟨h.1, Nat.le_trans h.2 hk⟩

theorem refPicSets_sat (n : Nat) (sets : List RPS) (hs : ∀ r ∈ sets, RpsWf r ∧ rpsSize r ≤ 509 + sets.length) :
    Sat (Spec.H265.refPicSets n sets) fun l =>
      l.length = sets.length + n ∧ ∀ r ∈ l, RpsWf r ∧ rpsSize r ≤ 509 + (sets.length + n) := by
  induction n generalizing sets with
  | zero => exact Sat.pure ⟨rfl, hs⟩
  | succ n ih =>
    refine Sat.bind (refPicSet_sat sets false _ (by omega) hs) fun r hr => ?_
    refine (ih (sets ++ [r]) ?_).imp fun l hl => ?_
    · intro x hx
      simp only [List.mem_append, List.mem_singleton, List.length_append, List.length_singleton] at hx ⊢
      rcases hx with hx | rfl
      · exact ⟨(hs x hx).1, Nat.le_trans (hs x hx).2 (by omega)⟩
      · exact ⟨hr.1, Nat.le_trans hr.2 (by omega)⟩
    · simp only [List.length_append, List.length_singleton] at hl
      exact ⟨by omega, fun x hx => ⟨(hl.2 x hx).1, Nat.le_trans (hl.2 x hx).2 (by omega)⟩⟩

theorem readSets_exact (num n : Nat) (sets : List RPS) (hs : ∀ r ∈ sets, RpsWf r ∧ rpsSize r ≤ 509 + sets.length)
    (hn : sets.length + n = num) (hb : num < 2 ^ 32) :
    Exact 0 (readSets num n sets) (Spec.H265.refPicSets n sets) := by
  induction n generalizing sets with
  | zero => exact Exact.pure _
  | succ n ih =>
    unfold readSets Spec.H265.refPicSets
    refine Exact.bind (refPicSet_exact sets (fun r hr => (hs r hr).1) false num hb ?_) fun r b g => ?_
    · simp only [Bool.false_eq_true, if_false]; omega
    · have hr := refPicSet_sat sets false _ (by omega) hs r b g
      refine ih (sets ++ [r]) ?_ (by simp; omega)
      intro x hx
      simp only [List.mem_append, List.mem_singleton, List.length_append, List.length_singleton] at hx ⊢
      rcases hx with hx | rfl
      · exact ⟨(hs x hx).1, Nat.le_trans (hs x hx).2 (by omega)⟩
      · exact ⟨hr.1, Nat.le_trans hr.2 (by omega)⟩

/-! ## The parameter sets -/

theorem h265_format_exact (s : SPS) : Exact 0 (readFormat s) (Spec.H265.formatFields s) := by
  unfold readFormat Spec.H265.formatFields
  refine Exact.readUE fun id _ => Exact.readUE fun chroma _ => ?_
  by_cases h : chroma > 3
  · rw [if_pos h, gr_must_false (by omega)]; exact Exact.never
  · rw [if_neg h, gr_must_true (by omega)]
    refine Exact.bind (Exact.cond fun _ => Exact.readFlag') fun _ _ _ => ?_
    refine Exact.readUE fun _ _ => Exact.readUE fun _ _ => ?_
    refine optional_exact h265_window_exact fun _ => ?_
    exact Exact.readUE fun _ _ => Exact.readUE fun _ _ => Exact.readUE fun _ _ => Exact.pure _

theorem h265_ordering_exact (s : SPS) : Exact 0 (readOrdering s) (Spec.H265.orderingFields s) := by
  unfold readOrdering Spec.H265.orderingFields
  refine Exact.readFlag fun f => ?_
  have e : Exact 0 readOrderingEntry Spec.H265.ordering :=
    Exact.readUE fun _ _ => Exact.readUE fun _ _ => Exact.readUE fun _ _ => Exact.pure _
  have h := Exact.times e (if f then s.maxSubLayersMinus1 + 1 else 1)
  have hn : s.maxSubLayersMinus1 + 1 - (if f then 0 else s.maxSubLayersMinus1) = if f then s.maxSubLayersMinus1 + 1 else 1 := by
    cases f <;> simp
  dsimp only
  rw [hn]
  refine Exact.bind h fun l _ _ => ?_
  cases f
  · simp only [Bool.false_eq_true, if_false, List.map_append, List.map_replicate]
    exact Exact.pure _
  · simp only [if_true, List.replicate_zero, List.nil_append]
    exact Exact.pure _

theorem h265_pcm_exact : Exact 0 readPcm Spec.H265.pcm := by
  unfold readPcm Spec.H265.pcm
  refine Exact.hasSpace ?_
  refine Exact.readBitsU (by omega) (by omega) (by omega) fun _ _ => ?_
  refine Exact.readBitsU (by omega) (by omega) (by omega) fun _ _ => ?_
  exact Exact.readUE fun _ _ => Exact.readUE fun _ _ => Exact.readFlag fun _ => Exact.pure _

theorem h265_optData_exact {β : Type} (c : Bool) (old : Option ScalingListData) {f : Option ScalingListData → BitM β}
    {F : Option ScalingListData → Gr β} (h : ∀ o, Exact 0 (f (o <|> old)) (F o)) :
    Exact 0 (cond c (readScalingData old) old >>= f)
      (Gr.opt c (Spec.H264.optional Spec.H265.scalingListData) none >>= F) := by
  cases c
  · simp only [BitM.cond, Gr.opt, Bool.false_eq_true, if_false, pure_bind]
    exact h none
  · simp only [BitM.cond, Gr.opt, if_true]
    unfold readScalingData Spec.H264.optional
    simp only [bind_assoc]
    refine Exact.readFlag fun p => ?_
    cases p
    · simp only [BitM.cond, Bool.false_eq_true, if_false, pure_bind]
      exact h none
    · simp only [BitM.cond, if_true, H264.some', bind_assoc, pure_bind]
      exact Exact.bind h265_scalingData_exact fun o _ _ => h (some o)

theorem h265_tools_exact (s : SPS) : Exact 0 (readTools s) (Spec.H265.toolFields s) := by
  unfold readTools Spec.H265.toolFields
  refine Exact.readUE fun _ _ => Exact.readUE fun _ _ => Exact.readUE fun _ _ => Exact.readUE fun _ _ =>
    Exact.readUE fun _ _ => Exact.readUE fun _ _ => ?_
  refine Exact.readFlag fun sl => h265_optData_exact sl _ fun o => ?_
  refine Exact.readFlag fun _ => Exact.readFlag fun _ => Exact.readFlag fun _ => ?_
  exact Exact.bind (Exact.cond fun _ => h265_pcm_exact) fun _ _ _ => Exact.pure _

theorem h265_refs_exact (s : SPS) : Exact 0 (readRefs s) (Spec.H265.refFields s) := by
  unfold readRefs Spec.H265.refFields readRefPicSets
  refine Exact.readUE fun n _ => ?_
  by_cases h : n ≤ 64
  · rw [gr_must_true h]
    have hs : Exact 0 (if n > 0 then (if n > 64 then fail "num_short_term_ref_pic_sets exceeds 64" else readSets n n [])
        else pure []) (Spec.H265.refPicSets n []) := by
      by_cases h0 : n = 0
      · subst h0; exact Exact.pure _
      · rw [if_pos (by omega), if_neg (by omega)]
        exact readSets_exact n n [] (by simp) (by simp) (by omega)
    refine Exact.bind hs fun sets _ _ => Exact.readFlag fun lt => ?_
    cases lt
    · simp only [BitM.cond, Gr.opt, Bool.false_eq_true, if_false, pure_bind]
      rw [gr_must_true trivial]
      exact Exact.readFlag fun _ => Exact.readFlag fun _ => optional_exact h265_vui_exact fun _ => Exact.pure _
    · simp only [BitM.cond, Gr.opt, if_true, checkLongTerm, bind_assoc]
      refine Exact.readUE fun k _ => ?_
      by_cases hk : k = 0
      · rw [if_neg (by omega), gr_must_true hk, pure_bind]
        exact Exact.readFlag fun _ => Exact.readFlag fun _ => optional_exact h265_vui_exact fun _ => Exact.pure _
      · rw [if_pos (by omega), gr_must_false hk]
        exact Exact.bindNever (G := fun _ _ => False) Exact.never fun _ _ h => h.elim
  · rw [if_pos (by omega), if_pos (by omega), gr_must_false h]
    exact Exact.bindNever (G := fun _ _ => False) Exact.never fun _ _ h => h.elim

/-- The first byte of the SPS. -/
def h265Head : BitM (Nat × Nat × Bool) := do
  hasSpace 8
  let vps ← readBitsU 4
  let max ← readBitsU 3
  let nest ← readFlagU
  pure (vps, max, nest)

def h265HeadGr : Gr (Nat × Nat × Bool) := do
  let vps ← Gr.u 4
  let max ← Gr.u 3
  let nest ← Gr.flag
  pure (vps, max, nest)

theorem h265Head_exact : Exact 0 h265Head h265HeadGr := by
  unfold h265Head h265HeadGr
  refine Exact.hasSpace ?_
  refine Exact.readBitsU (by omega) (by omega) (by omega) fun _ _ => ?_
  refine Exact.readBitsU (by omega) (by omega) (by omega) fun _ _ => ?_
  exact Exact.readFlagU (by omega) fun _ => Exact.pure _

theorem h265Head_length (a : Nat × Nat × Bool) (b : List Bool) (h : h265HeadGr a b) : b.length = 8 := by
  obtain ⟨_, _, _, ⟨_, rfl⟩, ⟨_, _, _, ⟨_, rfl⟩, ⟨_, _, _, rfl, ⟨_, rfl⟩, rfl⟩, rfl⟩, rfl⟩ := h
  simp [Spec.length_bitsOfNat]

/-- What follows the first byte, with the profile, tier and level read by `ptl`. -/
def h265Tail (s : SPS) (ptl : Nat → BitM ProfileTierLevel) (r : Nat × Nat × Bool) : BitM SPS := do
  let p ← ptl r.2.1
  let s ← readFormat { s with vpsID := r.1, maxSubLayersMinus1 := r.2.1, temporalIDNestingFlag := r.2.2, profileTierLevel := p }
  let s ← readOrdering s
  let s ← readTools s
  readRefs s

theorem h265_split (s : SPS) : s.unmarshalM = h265Head >>= h265Tail s s.profileTierLevel.unmarshal := by
  unfold SPS.unmarshalM h265Head h265Tail
  simp only [bind_assoc, pure_bind]

theorem h265_aligned (s : SPS) (buf : Bytes) (h : 8 ≤ 8 * buf.length) :
    s.unmarshalM buf 8 = (h265Head >>= h265Tail s (ptl96 s.profileTierLevel)) buf 8 := by
  rw [h265_split, bind_run, bind_run]
  cases e : h265Head buf 8 with
  | err _ => rfl
  | panic => rfl
  | ok r =>
    obtain ⟨bits, g, hp, _⟩ := (h265Head_exact.tot buf 8 (by omega)).2 r.1 r.2 e
    rw [h265Head_length _ _ g] at hp
    rw [Res.bind_ok, Res.bind_ok]
    unfold h265Tail
    rw [bind_run, bind_run, ptl_aligned _ _ _ _ (by omega)]

theorem h265_sps_exact (s : SPS) : Exact 0 (h265Head >>= h265Tail s (ptl96 s.profileTierLevel)) (Spec.H265.spsData s) := by
  unfold h265Head h265Tail Spec.H265.spsData
  simp only [bind_assoc, pure_bind]
  refine Exact.hasSpace ?_
  refine Exact.readBitsU (by omega) (by omega) (by omega) fun _ _ => ?_
  refine Exact.readBitsU (by omega) (by omega) (by omega) fun _ _ => ?_
  refine Exact.readFlagU (by omega) fun _ => ?_
  refine Exact.bind (ptl96_exact _ _) fun _ _ _ => ?_
  refine Exact.bind (h265_format_exact _) fun _ _ _ => ?_
  refine Exact.bind (h265_ordering_exact _) fun _ _ _ => ?_
  exact Exact.bind (h265_tools_exact _) fun _ _ _ => h265_refs_exact _

theorem h265_pps_exact : Exact 0 PPS.unmarshalM Spec.H265.ppsData := by
  unfold PPS.unmarshalM Spec.H265.ppsData
  refine Exact.readUE fun _ _ => Exact.readUE fun _ _ => Exact.hasSpace ?_
  refine Exact.readFlagU (by omega) fun _ => Exact.readFlagU (by omega) fun _ => ?_
  exact Exact.readBitsU (by omega) (by omega) (by omega) fun _ _ => Exact.pure _

theorem h265_type33 : ∀ b : UInt8, ((b >>> 1) &&& 0x3F ≠ 33) ↔ ¬ b.toNat / 2 % 64 = 33 := forall_u8 (by decide +kernel)
theorem h265_type34 : ∀ b : UInt8, ((b >>> 1) &&& 0x3F ≠ 34) ↔ ¬ b.toNat / 2 % 64 = 34 := forall_u8 (by decide +kernel)

theorem epRemove_first (b : UInt8) (t : Bytes) : epRemove 0 (b :: t) = b :: epRemove (if b = 0 then 0 + 1 else 0) t := by
  rw [epRemove, if_neg (by omega)]

theorem epRemove_drop (b : UInt8) (t : Bytes) :
    8 ≤ 8 * (epRemove 0 (b :: t)).length ∧
    (bitsOf (epRemove 0 (b :: t))).drop 8 = bitsOf ((epRemove 0 (b :: t)).drop 1) := by
  rw [epRemove_first]
  refine ⟨by simp; omega, ?_⟩
  rw [bitsOf_cons, List.drop_left' (length_byteBits b)]; rfl

theorem h265_sps_cons (s : SPS) (b c : UInt8) (t : Bytes) :
    s.unmarshal (b :: c :: t) = if ¬ b.toNat / 2 % 64 = 33 then .err "not a SPS"
      else ((h265Head >>= h265Tail s (ptl96 s.profileTierLevel)) (epRemove 0 (c :: t)) 8 >>= fun r => .ok r.1) := by
  unfold SPS.unmarshal
  rw [if_neg (by simp), idx_zero_cons, Res.bind_ok]
  by_cases h : b.toNat / 2 % 64 = 33
  · rw [if_neg (by rw [h265_type33]; simpa using h), if_neg (by simpa using h), sliceFrom_ok (by simp), Res.bind_ok,
      List.drop_one, List.tail_cons, H264.emulationPreventionRemove_eq, Res.bind_ok, h265_aligned _ _ (epRemove_drop c t).1]
  · rw [if_pos (by rw [h265_type33]; exact h), if_pos h]

theorem h265_pps_cons (b c : UInt8) (t : Bytes) :
    PPS.unmarshal (b :: c :: t) = if ¬ b.toNat / 2 % 64 = 34 then .err "not a PPS"
      else (PPS.unmarshalM (epRemove 0 (c :: t)) 8 >>= fun r => .ok r.1) := by
  unfold PPS.unmarshal
  rw [if_neg (by simp), idx_zero_cons, Res.bind_ok]
  by_cases h : b.toNat / 2 % 64 = 34
  · rw [if_neg (by rw [h265_type34]; simpa using h), if_neg (by simpa using h), sliceFrom_ok (by simp), Res.bind_ok,
      List.drop_one, List.tail_cons, H264.emulationPreventionRemove_eq, Res.bind_ok]
  · rw [if_pos (by rw [h265_type34]; exact h), if_pos h]

theorem h265_run {α : Type} {p : BitM α} {G : Gr α} (h : Exact 0 p G) (c : UInt8) (t : Bytes) (a : α) :
    (p (epRemove 0 (c :: t)) 8 >>= fun r => .ok r.1) = .ok a ↔
      ∃ bits rest, G a bits ∧ bitsOf ((epRemove 0 (c :: t)).drop 1) = bits ++ rest := by
  rw [← (epRemove_drop c t).2, ← h.runAt _ 8 (epRemove_drop c t).1 a]
  constructor
  · intro e
    obtain ⟨⟨v, pos'⟩, e1, e2⟩ := Res.bind_eq_ok.1 e
    cases e2
    exact ⟨pos', e1⟩
  · rintro ⟨pos', e⟩
    rw [e]; rfl

/-- C51: `SPS.Unmarshal` accepts exactly the NAL units of type 33 whose RBSP starts with a sequence parameter set without the
parts that are not supported, and returns its values. -/
theorem C51_decode (s x : SPS) (buf : Bytes) : s.unmarshal buf = .ok x ↔
    ∃ rbsp bits rest, Spec.H265.IsNAL 33 buf rbsp ∧ Spec.H265.spsData s x bits ∧ bitsOf rbsp = bits ++ rest := by
  match buf with
  | [] =>
    constructor
    · intro e; cases e
    · rintro ⟨_, _, _, ⟨_, _, _, e, _⟩, _⟩; cases e
  | [_] =>
    constructor
    · intro e; cases e
    · rintro ⟨_, _, _, ⟨_, _, _, e, _⟩, _⟩; cases e
  | b :: c :: t =>
    rw [h265_sps_cons]
    by_cases h : b.toNat / 2 % 64 = 33
    · rw [if_neg (by simpa using h), h265_run (h265_sps_exact s)]
      constructor
      · rintro ⟨bits, rest, h1, h2⟩
        exact ⟨_, bits, rest, ⟨b, c, t, rfl, h, rfl⟩, h1, h2⟩
      · rintro ⟨_, bits, rest, ⟨_, _, _, e, _, rfl⟩, h1, h2⟩
        cases e
        exact ⟨bits, rest, h1, h2⟩
    · rw [if_pos h]
      constructor
      · intro e; cases e
      · rintro ⟨_, bits, rest, ⟨_, _, _, e, h', rfl⟩, _⟩
        cases e
        exact absurd h' h

/-- C51: `SPS.Unmarshal` never panics. -/
theorem C51_no_panic (s : SPS) (buf : Bytes) : (s.unmarshal buf).NoPanic := by
  match buf with
  | [] => intro e; cases e
  | [_] => intro e; cases e
  | b :: c :: t =>
    rw [h265_sps_cons]
    split
    · simp
    · exact Res.noPanic_bind ((h265_sps_exact s).noPanicAt _ 8 (epRemove_drop c t).1) (by simp)

/-- C51: `PPS.Unmarshal` accepts exactly the NAL units of type 34 whose RBSP starts with a picture parameter set, and returns
its values. -/
theorem C51_pps_decode (x : PPS) (buf : Bytes) : PPS.unmarshal buf = .ok x ↔
    ∃ rbsp bits rest, Spec.H265.IsNAL 34 buf rbsp ∧ Spec.H265.ppsData x bits ∧ bitsOf rbsp = bits ++ rest := by
  match buf with
  | [] =>
    constructor
    · intro e; cases e
    · rintro ⟨_, _, _, ⟨_, _, _, e, _⟩, _⟩; cases e
  | [_] =>
    constructor
    · intro e; cases e
    · rintro ⟨_, _, _, ⟨_, _, _, e, _⟩, _⟩; cases e
  | b :: c :: t =>
    rw [h265_pps_cons]
    by_cases h : b.toNat / 2 % 64 = 34
    · rw [if_neg (by simpa using h), h265_run h265_pps_exact]
      constructor
      · rintro ⟨bits, rest, h1, h2⟩
        exact ⟨_, bits, rest, ⟨b, c, t, rfl, h, rfl⟩, h1, h2⟩
      · rintro ⟨_, bits, rest, ⟨_, _, _, e, _, rfl⟩, h1, h2⟩
        cases e
        exact ⟨bits, rest, h1, h2⟩
    · rw [if_pos h]
      constructor
      · intro e; cases e
      · rintro ⟨_, bits, rest, ⟨_, _, _, e, h', rfl⟩, _⟩
        cases e
        exact absurd h' h

/-- C51: `PPS.Unmarshal` never panics. -/
theorem C51_pps_no_panic (buf : Bytes) : (PPS.unmarshal buf).NoPanic := by
  match buf with
  | [] => intro e; cases e
  | [_] => intro e; cases e
  | b :: c :: t =>
    rw [h265_pps_cons]
    split
    · simp
    · exact Res.noPanic_bind (h265_pps_exact.noPanicAt _ 8 (epRemove_drop c t).1) (by simp)

/-- What holds of every decoded SPS. -/
structure H265Ok (x : SPS) : Prop where
  chroma : x.chromaFormatIdc ≤ 3
  width : x.picWidthInLumaSamples < 2 ^ 32
  height : x.picHeightInLumaSamples < 2 ^ 32
  subLayers : x.maxSubLayersMinus1 ≤ 7
  buffering : x.maxDecPicBufferingMinus1.length = x.maxSubLayersMinus1 + 1
  reorder : x.maxNumReorderPics.length = x.maxSubLayersMinus1 + 1
  latency : x.maxLatencyIncreasePlus1.length = x.maxSubLayersMinus1 + 1
  sets : x.shortTermRefPicSets.length ≤ 64
  set : ∀ r ∈ x.shortTermRefPicSets, r.deltaPocS0.length = r.numNegativePics ∧ r.deltaPocS1.length = r.numPositivePics ∧
    r.usedByCurrPicS0Flag.length = r.numNegativePics ∧ r.usedByCurrPicS1Flag.length = r.numPositivePics ∧
    r.numNegativePics + r.numPositivePics ≤ 573

theorem h265_ue_sat : Sat Gr.ue fun v => v < 2 ^ 32 := by
  rintro _ _ ⟨w, _, rfl, _⟩; exact Nat.mod_lt _ (by omega)

theorem h265_format_sat (s : SPS) : Sat (Spec.H265.formatFields s) fun x => x.chromaFormatIdc ≤ 3 ∧
    x.picWidthInLumaSamples < 2 ^ 32 ∧ x.picHeightInLumaSamples < 2 ^ 32 ∧ x.maxSubLayersMinus1 = s.maxSubLayersMinus1 := by
  refine Sat.skip fun _ => Sat.skip fun chroma => Sat.bind (P := fun _ => chroma ≤ 3) (fun _ _ h => h.1) fun _ hc => ?_
  refine Sat.skip fun _ => Sat.bind h265_ue_sat fun w hw => Sat.bind h265_ue_sat fun h hh => ?_
  exact Sat.skip fun _ => Sat.skip fun _ => Sat.skip fun _ => Sat.skip fun _ => Sat.pure ⟨hc, hw, hh, rfl⟩

theorem h265_ordering_sat (s : SPS) : Sat (Spec.H265.orderingFields s) fun x => x.chromaFormatIdc = s.chromaFormatIdc ∧
    x.picWidthInLumaSamples = s.picWidthInLumaSamples ∧ x.picHeightInLumaSamples = s.picHeightInLumaSamples ∧
    x.maxSubLayersMinus1 = s.maxSubLayersMinus1 ∧ x.maxDecPicBufferingMinus1.length = s.maxSubLayersMinus1 + 1 ∧
    x.maxNumReorderPics.length = s.maxSubLayersMinus1 + 1 ∧ x.maxLatencyIncreasePlus1.length = s.maxSubLayersMinus1 + 1 := by
  refine Sat.skip fun f => Sat.bind Sat.times fun l hl => Sat.pure ⟨rfl, rfl, rfl, rfl, ?_, ?_, ?_⟩ <;>
  · cases f <;> simp_all

/-- C51: the lists of a decoded SPS are bounded, and their lengths are those that its fields announce. -/
theorem C51_bounds (s x : SPS) (buf : Bytes) (e : s.unmarshal buf = .ok x) : H265Ok x := by
  obtain ⟨_, bits, _, _, g, _⟩ := (C51_decode s x buf).1 e
  suffices h : Sat (Spec.H265.spsData s) H265Ok from h x bits g
  refine Sat.skip fun vps => Sat.bind (P := fun v => v < 8) (fun _ _ h => h.1) fun max hm => Sat.skip fun nest =>
    Sat.skip fun p => Sat.bind (h265_format_sat _) fun a ha => Sat.bind (h265_ordering_sat _) fun b hb => ?_
  refine Sat.bind (P := fun (x : SPS) => x.chromaFormatIdc = b.chromaFormatIdc ∧
    x.picWidthInLumaSamples = b.picWidthInLumaSamples ∧ x.picHeightInLumaSamples = b.picHeightInLumaSamples ∧
    x.maxSubLayersMinus1 = b.maxSubLayersMinus1 ∧ x.maxDecPicBufferingMinus1 = b.maxDecPicBufferingMinus1 ∧
    x.maxNumReorderPics = b.maxNumReorderPics ∧ x.maxLatencyIncreasePlus1 = b.maxLatencyIncreasePlus1) ?_ fun c hc => ?_
  · refine Sat.skip fun _ => Sat.skip fun _ => Sat.skip fun _ => Sat.skip fun _ => Sat.skip fun _ => Sat.skip fun _ =>
      Sat.skip fun _ => Sat.skip fun _ => Sat.skip fun _ => Sat.skip fun _ => Sat.skip fun _ => Sat.skip fun _ => Sat.pure ?_
    exact ⟨rfl, rfl, rfl, rfl, rfl, rfl, rfl⟩
  · refine Sat.skip fun n => Sat.bind (P := fun _ => n ≤ 64) (fun _ _ h => h.1) fun _ hn => ?_
    refine Sat.bind (refPicSets_sat n [] (by simp)) fun sets hs => ?_
    refine Sat.skip fun _ => Sat.skip fun _ => Sat.skip fun _ => Sat.skip fun _ => Sat.skip fun _ => Sat.skip fun _ =>
      Sat.pure ?_
    obtain ⟨a1, a2, a3, a4⟩ := ha
    obtain ⟨b1, b2, b3, b4, b5, b6, b7⟩ := hb
    obtain ⟨c1, c2, c3, c4, c5, c6, c7⟩ := hc
    simp only at a4
    refine ⟨?_, ?_, ?_, ?_, ?_, ?_, ?_, ?_, ?_⟩
    · show c.chromaFormatIdc ≤ 3; omega
    · show c.picWidthInLumaSamples < 2 ^ 32; omega
    · show c.picHeightInLumaSamples < 2 ^ 32; omega
    · show c.maxSubLayersMinus1 ≤ 7; omega
    · show c.maxDecPicBufferingMinus1.length = c.maxSubLayersMinus1 + 1; rw [c5, b5, c4, b4]
    · show c.maxNumReorderPics.length = c.maxSubLayersMinus1 + 1; rw [c6, b6, c4, b4]
    · show c.maxLatencyIncreasePlus1.length = c.maxSubLayersMinus1 + 1; rw [c7, b7, c4, b4]
    · show sets.length ≤ 64; have := hs.1; simp at this; omega
    · intro r hr
      obtain ⟨w, k⟩ := hs.2 r hr
      refine ⟨w.neg, w.pos, w.usedNeg, w.usedPos, ?_⟩
      unfold rpsSize at k
      simp at k
      omega

/-- C51: `Width` and `Height` of a decoded SPS do not panic; they are the size of the conformance window when it lies in the
picture. -/
theorem C51_size (s x : SPS) (buf : Bytes) (e : s.unmarshal buf = .ok x) :
    x.width.NoPanic ∧ x.height.NoPanic ∧
    (Spec.H265.cropColumns x ≤ x.picWidthInLumaSamples →
      x.width = .ok (x.picWidthInLumaSamples - Spec.H265.cropColumns x)) ∧
    (Spec.H265.cropRows x ≤ x.picHeightInLumaSamples →
      x.height = .ok (x.picHeightInLumaSamples - Spec.H265.cropRows x)) := by
  have ok := C51_bounds s x buf e
  have hc := ok.chroma
  have hw := ok.width
  have hh := ok.height
  have iw : idx H265.subWidthC x.chromaFormatIdc = .ok (Spec.H265.subWidthC x) := by
    unfold Spec.H265.subWidthC
    match hx : x.chromaFormatIdc, hc with
    | 0, _ => rfl
    | 1, _ => rfl
    | 2, _ => rfl
    | 3, _ => rfl
  have ih : idx H265.subHeightC x.chromaFormatIdc = .ok (Spec.H265.subHeightC x) := by
    unfold Spec.H265.subHeightC
    match hx : x.chromaFormatIdc, hc with
    | 0, _ => rfl
    | 1, _ => rfl
    | 2, _ => rfl
    | 3, _ => rfl
  unfold SPS.width SPS.height Spec.H265.cropColumns Spec.H265.cropRows
  cases x.conformanceWindow with
  | none => exact ⟨by simp, by simp, fun _ => rfl, fun _ => rfl⟩
  | some c =>
    simp only [iw, ih, Res.bind_ok, Option.map_some, Option.getD_some]
    refine ⟨by simp, by simp, fun h => ?_, fun h => ?_⟩
    · rw [Nat.mul_comm, H264.sub32]; congr 1; omega
    · rw [Nat.mul_comm, H264.sub32]; congr 1; omega

/-! ## Sub-layer ordering information -/

/-- C60: when the ordering information of the sub-layers before the last one is absent, the decoder infers it from the last
one (ITU-T H.265 7.4.3.2.1). -/
def C60_statement : Prop := ∀ (s x : SPS) (buf : Bytes), s.unmarshal buf = .ok x →
  x.subLayerOrderingInfoPresentFlag = false →
  Spec.H265.Inferred x.maxSubLayersMinus1 x.maxDecPicBufferingMinus1 ∧
  Spec.H265.Inferred x.maxSubLayersMinus1 x.maxNumReorderPics ∧
  Spec.H265.Inferred x.maxSubLayersMinus1 x.maxLatencyIncreasePlus1

/-- An SPS with two sub-layers and the ordering information of the second one; it has two reference picture sets, the second
one predicted from the first one. -/
def h265Two : Bytes :=
  [0x42, 0x01, 0x03, 0x01, 0x60, 0x00, 0x00, 0x03, 0x00, 0x90, 0x00, 0x00, 0x03, 0x00, 0x00, 0x03, 0x00, 0x5d, 0x00, 0x00,
   0xa0, 0x05, 0x02, 0x01, 0xe1, 0x65, 0x15, 0x9a, 0x49, 0x12, 0x66, 0x96, 0xb6, 0xda]

def h265TwoSPS : SPS :=
  { maxSubLayersMinus1 := 1, temporalIDNestingFlag := true,
    profileTierLevel := { generalProfileIdc := 1,
                          generalProfileCompatibilityFlag := [false, true, true] ++ List.replicate 29 false,
                          generalProgressiveSourceFlag := true, generalFrameOnlyConstraintFlag := true,
                          generalLevelIdc := 93, subLayerProfilePresentFlag := [false],
                          subLayerLevelPresentFlag := [false] },
    chromaFormatIdc := 1, picWidthInLumaSamples := 640, picHeightInLumaSamples := 480, log2MaxPicOrderCntLsbMinus4 := 4,
    maxDecPicBufferingMinus1 := [0, 4], maxNumReorderPics := [0, 2], maxLatencyIncreasePlus1 := [0, 5],
    log2DiffMaxMinLumaCodingBlockSize := 3, log2DiffMaxMinLumaTransformBlockSize := 3, maxTransformHierarchyDepthInter := 1,
    maxTransformHierarchyDepthIntra := 1, ampEnabledFlag := true, sampleAdaptiveOffsetEnabledFlag := true,
    shortTermRefPicSets := [{ numNegativePics := 1, numPositivePics := 1, deltaPocS0 := [-1],
                              usedByCurrPicS0Flag := [true], deltaPocS1 := [2], usedByCurrPicS1Flag := [true] },
                            { interRefPicSetPredictionFlag := true, numNegativePics := 0, numPositivePics := 2,
                              deltaPocS1 := [1, 3], usedByCurrPicS1Flag := [true, false] }],
    temporalMvpEnabledFlag := true, strongIntraSmoothingEnabledFlag := true }

theorem h265Two_decoded : ({} : SPS).unmarshal h265Two = .ok h265TwoSPS := by decide +kernel

/-- C60 is false: the entries before the last one are zero. -/
theorem C60_false : ¬ C60_statement := by
  intro h
  obtain ⟨_, ⟨v, e⟩, _⟩ := h {} h265TwoSPS h265Two h265Two_decoded rfl
  have e' : [0, 2] = [v, v] := e
  cases e'

/-- The lists when the flag is zero: zeros and the entry of the last sub-layer. -/
def h265LastOnly (x : SPS) : Prop := x.subLayerOrderingInfoPresentFlag = false → ∃ a b c,
  x.maxDecPicBufferingMinus1 = List.replicate x.maxSubLayersMinus1 0 ++ [a] ∧
  x.maxNumReorderPics = List.replicate x.maxSubLayersMinus1 0 ++ [b] ∧
  x.maxLatencyIncreasePlus1 = List.replicate x.maxSubLayersMinus1 0 ++ [c]

theorem h265_lastOnly (s : SPS) : Sat (Spec.H265.orderingFields s) h265LastOnly := by
  refine Sat.skip fun f => Sat.bind Sat.times fun l hl => Sat.pure ?_
  intro hf
  cases hf
  match l, hl with
  | [⟨a, b, c⟩], _ => exact ⟨a, b, c, rfl, rfl, rfl⟩

/-- C60, what holds: the information of the last sub-layer is there and the others are zero, so that nothing is missing with a
single sub-layer. The missing part is the inference for more sub-layers (C60_false). -/
theorem C60_partial (s x : SPS) (buf : Bytes) (e : s.unmarshal buf = .ok x) (hf : x.subLayerOrderingInfoPresentFlag = false) :
    (∃ a b c, x.maxDecPicBufferingMinus1 = List.replicate x.maxSubLayersMinus1 0 ++ [a] ∧
      x.maxNumReorderPics = List.replicate x.maxSubLayersMinus1 0 ++ [b] ∧
      x.maxLatencyIncreasePlus1 = List.replicate x.maxSubLayersMinus1 0 ++ [c]) ∧
    (x.maxSubLayersMinus1 = 0 →
      Spec.H265.Inferred x.maxSubLayersMinus1 x.maxDecPicBufferingMinus1 ∧
      Spec.H265.Inferred x.maxSubLayersMinus1 x.maxNumReorderPics ∧
      Spec.H265.Inferred x.maxSubLayersMinus1 x.maxLatencyIncreasePlus1) := by
  obtain ⟨_, bits, _, _, g, _⟩ := (C51_decode s x buf).1 e
  have h : Sat (Spec.H265.spsData s) h265LastOnly := by
    refine Sat.skip fun vps => Sat.skip fun max => Sat.skip fun nest => Sat.skip fun p => Sat.skip fun a =>
      Sat.bind (h265_lastOnly _) fun b hb => Sat.bind (P := h265LastOnly) ?_ fun c hc => ?_
    · refine Sat.skip fun _ => Sat.skip fun _ => Sat.skip fun _ => Sat.skip fun _ => Sat.skip fun _ => Sat.skip fun _ =>
        Sat.skip fun _ => Sat.skip fun _ => Sat.skip fun _ => Sat.skip fun _ => Sat.skip fun _ => Sat.skip fun _ => Sat.pure hb
    · exact Sat.skip fun _ => Sat.skip fun _ => Sat.skip fun _ => Sat.skip fun _ => Sat.skip fun _ => Sat.skip fun _ =>
        Sat.skip fun _ => Sat.skip fun _ => Sat.skip fun _ => Sat.pure hc
  obtain ⟨a, b, c, ha, hb, hc⟩ := h x bits g hf
  refine ⟨⟨a, b, c, ha, hb, hc⟩, fun h0 => ?_⟩
  rw [ha, hb, hc, h0]
  exact ⟨⟨a, rfl⟩, ⟨b, rfl⟩, ⟨c, rfl⟩⟩

example : h265TwoSPS.width = .ok 640 ∧ H265Ok h265TwoSPS :=
  ⟨rfl, C51_bounds {} h265TwoSPS h265Two h265Two_decoded⟩

/-- An SPS of the repository's tests (1920x1080). -/
def h265Sample : Bytes :=
  [0x42, 0x01, 0x01, 0x01, 0x60, 0x00, 0x00, 0x03, 0x00, 0x90, 0x00, 0x00, 0x03, 0x00, 0x00, 0x03, 0x00, 0x78, 0xa0, 0x03,
   0xc0, 0x80, 0x10, 0xe5, 0x96, 0x66, 0x69, 0x24, 0xca, 0xe0, 0x10, 0x00, 0x00, 0x03, 0x00, 0x10, 0x00, 0x00, 0x03, 0x01,
   0xe0, 0x80]

def h265SampleSPS : SPS :=
  { temporalIDNestingFlag := true,
    profileTierLevel := { generalProfileIdc := 1,
                          generalProfileCompatibilityFlag := [false, true, true] ++ List.replicate 29 false,
                          generalProgressiveSourceFlag := true, generalFrameOnlyConstraintFlag := true,
                          generalLevelIdc := 120 },
    chromaFormatIdc := 1, picWidthInLumaSamples := 1920, picHeightInLumaSamples := 1080, log2MaxPicOrderCntLsbMinus4 := 4,
    subLayerOrderingInfoPresentFlag := true, maxDecPicBufferingMinus1 := [5], maxNumReorderPics := [2],
    maxLatencyIncreasePlus1 := [5], log2DiffMaxMinLumaCodingBlockSize := 3, log2DiffMaxMinLumaTransformBlockSize := 3,
    sampleAdaptiveOffsetEnabledFlag := true, temporalMvpEnabledFlag := true, strongIntraSmoothingEnabledFlag := true,
    vui := some { timingInfo := some { numUnitsInTick := 1, timeScale := 30 } } }

theorem h265Sample_decoded : ({} : SPS).unmarshal h265Sample = .ok h265SampleSPS := by decide +kernel

example : h265SampleSPS.width = .ok 1920 ∧ h265SampleSPS.height = .ok 1080 := ⟨rfl, rfl⟩

/-- A conformance window of 1080 rows in a picture of 1088. -/
example : ({ chromaFormatIdc := 1, picWidthInLumaSamples := 1920, picHeightInLumaSamples := 1088,
             conformanceWindow := some ⟨0, 0, 0, 4⟩ } : SPS).height = .ok 1080 := rfl

/-- The PPS of the repository's tests. -/
example : PPS.unmarshal [0x44, 0x01, 0xc1, 0x72, 0xb4, 0x62, 0x40] = .ok {} := by decide +kernel

end Verif.Props
