import Verif.Props.DTSIdle

/-!
# Property C118: new parameter sets make DTS extractors forget the past
-/

namespace Verif.Props

/-! ## H264 -/

theorem forget_pre264 : ∀ (pre l : List Bytes) (nz : Bool) (d : H264.DTSExtractor), (∀ n ∈ pre, idleOther264 n = true) →
    ∃ nz', ∀ e, H264.scan nz (pre ++ l) e = H264.scan nz' l e
  | [], _, nz, _, _ => ⟨nz, fun _ => rfl⟩
  | [] :: _, _, _, _, h => absurd (h [] List.mem_cons_self) (by decide)
  | (b :: n) :: pre, l, nz, d, h => by
    have hb := h _ List.mem_cons_self
    simp only [idleOther264, Bool.and_eq_true, decide_eq_true_eq] at hb
    obtain ⟨nz', e⟩ := forget_pre264 pre l (nz || decide (idle_ref264 b ≠ 0)) d fun m hm => h m (List.mem_cons_of_mem _ hm)
    refine ⟨nz', fun x => ?_⟩
    rw [List.cons_append, idle_step264, if_neg hb.2, if_neg hb.1.2, if_neg hb.1.1, e]

/-- An SPS that is not the one in use: afterwards there is nothing left of the state but the last DTS. -/
theorem forget_scan264 (b : UInt8) (n : Bytes) (hb : idle_type264 b = 7) (x : H264.SPS) (hx : ({} : H264.SPS).unmarshal (b :: n) = .ok x)
    (l : List Bytes) (nz : Bool) (d : H264.DTSExtractor) (hd : d.sps ≠ b :: n) :
    H264.scan nz ((b :: n) :: l) d = H264.scan (nz || decide (idle_ref264 b ≠ 0)) l
      { H264.DTSExtractor.new with sps := b :: n, spsp := some x, prevDTSFilled := d.prevDTSFilled, prevDTS := d.prevDTS } := by
  rw [idle_step264, if_pos hb]
  simp only [H264.handleSPS, Bind.bind, StepM.get, if_neg hd, hx]
  rfl

/-- C118, H264: two extractors, whatever they have received before, that have returned the same last DTS (or none), return the same from the
first access unit on that begins with a valid SPS that is not the one in use. Delimiters and the like may be in front of it. -/
theorem C118_h264 (d e : H264.DTSExtractor) (hp : d.prevDTSFilled = e.prevDTSFilled ∧ d.prevDTS = e.prevDTS)
    (pre rest : List Bytes) (hpre : ∀ n ∈ pre, idleOther264 n = true)
    (b : UInt8) (n : Bytes) (hb : idle_type264 b = 7) (x : H264.SPS) (hx : ({} : H264.SPS).unmarshal (b :: n) = .ok x)
    (hd : d.sps ≠ b :: n) (he : e.sps ≠ b :: n) (pts : Int) (l : List (List Bytes × Int)) :
    StepM.calls H264.extract d ((pre ++ (b :: n) :: rest, pts) :: l) = StepM.calls H264.extract e ((pre ++ (b :: n) :: rest, pts) :: l) := by
  obtain ⟨nz, h⟩ := forget_pre264 pre ((b :: n) :: rest) false d hpre
  have hs : H264.scan false (pre ++ (b :: n) :: rest) d = H264.scan false (pre ++ (b :: n) :: rest) e := by
    rw [h, h, forget_scan264 b n hb x hx rest nz d hd, forget_scan264 b n hb x hx rest nz e he, hp.1, hp.2]
  have hs' : H264.extract (pre ++ (b :: n) :: rest, pts) d = H264.extract (pre ++ (b :: n) :: rest, pts) e := by
    rw [reuse_extract]
    simp only [Bind.bind, hs]
  rw [StepM.calls, StepM.calls, hs']

/-- C118, H264: an extractor that has not returned any DTS yet returns what a new one returns. -/
theorem C118_h264_new (d : H264.DTSExtractor) (hp : d.prevDTSFilled = false ∧ d.prevDTS = 0)
    (pre rest : List Bytes) (hpre : ∀ n ∈ pre, idleOther264 n = true)
    (b : UInt8) (n : Bytes) (hb : idle_type264 b = 7) (x : H264.SPS) (hx : ({} : H264.SPS).unmarshal (b :: n) = .ok x)
    (hd : d.sps ≠ b :: n) (pts : Int) (l : List (List Bytes × Int)) :
    StepM.calls H264.extract d ((pre ++ (b :: n) :: rest, pts) :: l) = StepM.calls H264.extract .new ((pre ++ (b :: n) :: rest, pts) :: l) :=
  C118_h264 d .new hp pre rest hpre b n hb x hx hd (by simp [H264.DTSExtractor.new]) pts l

/-- A delimiter, another SPS and an IDR, for an extractor that has seen reordered pictures and for one that has not: the last DTS is 90 for both. -/
example : StepM.calls H264.extract (StepM.after H264.extract .new [([reuseSPS2, reuseIDR], 90)])
      [([[9, 240], reuseSPS0, reuseIDR], 9000), ([[0x41, 0x9A, 4, 0, 0]], 12000)] = [.ok 9000, .ok 12000] ∧
    StepM.calls H264.extract { StepM.after H264.extract .new [([reuseSPS2, reuseIDR], 90)] with reorderedFrames := 3, pause := 2, expectedPOC := 7 }
      [([[9, 240], reuseSPS0, reuseIDR], 9000), ([[0x41, 0x9A, 4, 0, 0]], 12000)] = [.ok 9000, .ok 12000] ∧
    (StepM.after H264.extract .new [([reuseSPS2, reuseIDR], 90)]).prevDTS = 90 ∧
    (StepM.after H264.extract .new [([reuseSPS2, reuseIDR], 90)]).sps ≠ reuseSPS0 ∧
    (({} : H264.SPS).unmarshal reuseSPS0).isOk = true ∧ idleOther264 [9, 240] = true := by
  refine ⟨by decide +kernel, by decide +kernel, by decide +kernel, by decide +kernel, by decide +kernel, by decide⟩

/-- An IDR is not enough, nor is an SPS that has come before. Both extractors have got an IDR and one more picture, and have returned 0 and 90; the
first one has missed two pictures in between (the picture order count is that of the third picture after the IDR). From then on its pictures
are taken for reordered ones: what comes at 18000 with SPS and IDR, and must be decoded at 18000, has DTS 9045. -/
theorem C118_idr_false :
    StepM.calls H264.extract .new [([reuseSPS0, reuseIDR], 0), ([[0x41, 0x9A, 12, 0, 0]], 9000), ([reuseSPS0, reuseIDR], 18000),
      ([[0x41, 0x9A, 4, 0, 0]], 21000), ([reuseSPS0, reuseIDR], 24000)] = [.ok 0, .ok 90, .ok 9045, .ok 15022, .ok 19511] ∧
    StepM.calls H264.extract .new [([reuseSPS0, reuseIDR], 0), ([[0x41, 0x9A, 4, 0, 0]], 90), ([reuseSPS0, reuseIDR], 18000),
      ([[0x41, 0x9A, 4, 0, 0]], 21000), ([reuseSPS0, reuseIDR], 24000)] = [.ok 0, .ok 90, .ok 18000, .ok 21000, .ok 24000] := by
  decide +kernel

/-! ## H265 -/

theorem forget_pre265 : ∀ (pre l : List Bytes), (∀ n ∈ pre, idle265 n = true) → ∀ d, H265.scan (pre ++ l) d = H265.scan l d
  | [], _, _, _ => rfl
  | [] :: _, _, h, _ => absurd (h [] List.mem_cons_self) (by decide)
  | (b :: n) :: pre, l, h, d => by
    have hi := h _ List.mem_cons_self
    have hi' : ¬ (idle_type265 b = 0 ∨ idle_type265 b = 1 ∨ idle_type265 b = 8 ∨ idle_type265 b = 9 ∨ idle_type265 b = 19 ∨
        idle_type265 b = 20 ∨ idle_type265 b = 21 ∨ idle_type265 b = 33 ∨ idle_type265 b = 34) := by
      simpa only [idle265, List.contains_cons, List.contains_nil, Bool.or_false, Bool.not_eq_true', ← Bool.not_eq_true, Bool.or_eq_true,
        beq_iff_eq] using hi
    rw [List.cons_append, reuse_step265]
    simp only [idle_bits265]
    rw [if_neg (by omega), if_neg (by omega), if_neg (by omega), if_neg (by omega), if_neg (by omega)]
    exact forget_pre265 pre l (fun m hm => h m (List.mem_cons_of_mem _ hm)) d

/-- A valid SPS that is not the one in use, then a valid PPS: there is nothing left of the state but the last DTS. -/
theorem forget_scan265 (b : UInt8) (n : Bytes) (hb : idle_type265 b = 33) (x : H265.SPS) (hx : ({} : H265.SPS).unmarshal (b :: n) = .ok x)
    (mid : List Bytes) (hmid : ∀ n ∈ mid, idle265 n = true)
    (c : UInt8) (m : Bytes) (hc : idle_type265 c = 34) (y : H265.PPS) (hy : H265.PPS.unmarshal (c :: m) = .ok y)
    (l : List Bytes) (d : H265.DTSExtractor) (hd : d.sps ≠ b :: n) (k : PPSKept d) :
    H265.scan ((b :: n) :: (mid ++ (c :: m) :: l)) d = H265.scan l
      { sps := b :: n, spsp := some x, pps := c :: m, ppsp := some y, prevDTSFilled := d.prevDTSFilled, prevDTS := d.prevDTS,
        randomReceived := false, reorderedFrames := H265.initialReorder x, pause := H265.initialReorder x } := by
  rw [reuse_step265]
  simp only [idle_bits265, if_pos hb]
  simp only [H265.handleSPS, Bind.bind, StepM.get, if_neg hd, hx, StepM.modify]
  rw [forget_pre265 mid _ hmid, reuse_step265]
  simp only [idle_bits265, hc]
  rw [if_neg (by decide), if_pos trivial]
  simp only [H265.handlePPS, Bind.bind, StepM.get]
  by_cases e : d.pps = c :: m
  · rw [if_pos e]
    obtain k | ⟨p, hp, k⟩ := k
    · rw [k] at e; cases e
    · rw [e, hy] at hp
      cases hp
      simp only [k, e]
      rfl
  · rw [if_neg e]
    simp only [hy]
    rfl

theorem forget_kept : ∀ (l : List (List Bytes × Int)) (d : H265.DTSExtractor), PPSKept d → PPSKept (StepM.after H265.extract d l)
  | [], _, k => k
  | a :: l, d, k => forget_kept l _ (C101_h265_call_partial d d.sps d.pps a.1 a.2 k ⟨fun _ _ _ => Iff.rfl, fun _ _ _ h => h⟩).2

/-- C118, H265: two extractors, whatever they have received before, that have returned the same last DTS (or none), return the same from the
first access unit on that begins with a valid SPS that is not the one in use and a valid PPS. -/
theorem C118_h265 (h1 h2 : List (List Bytes × Int))
    (hp : (StepM.after H265.extract {} h1).prevDTSFilled = (StepM.after H265.extract {} h2).prevDTSFilled ∧
      (StepM.after H265.extract {} h1).prevDTS = (StepM.after H265.extract {} h2).prevDTS)
    (pre mid rest : List Bytes) (hpre : ∀ n ∈ pre, idle265 n = true) (hmid : ∀ n ∈ mid, idle265 n = true)
    (b : UInt8) (n : Bytes) (hb : idle_type265 b = 33) (x : H265.SPS) (hx : ({} : H265.SPS).unmarshal (b :: n) = .ok x)
    (c : UInt8) (m : Bytes) (hc : idle_type265 c = 34) (y : H265.PPS) (hy : H265.PPS.unmarshal (c :: m) = .ok y)
    (hd : (StepM.after H265.extract {} h1).sps ≠ b :: n) (he : (StepM.after H265.extract {} h2).sps ≠ b :: n)
    (pts : Int) (l : List (List Bytes × Int)) :
    StepM.calls H265.extract (StepM.after H265.extract {} h1) ((pre ++ (b :: n) :: (mid ++ (c :: m) :: rest), pts) :: l) =
      StepM.calls H265.extract (StepM.after H265.extract {} h2) ((pre ++ (b :: n) :: (mid ++ (c :: m) :: rest), pts) :: l) := by
  have k1 := forget_kept h1 {} (.inl rfl)
  have k2 := forget_kept h2 {} (.inl rfl)
  revert hp hd he k1 k2
  generalize StepM.after H265.extract {} h1 = d
  generalize StepM.after H265.extract {} h2 = e
  intro hp hd he k1 k2
  have hs : H265.extract (pre ++ (b :: n) :: (mid ++ (c :: m) :: rest), pts) d =
      H265.extract (pre ++ (b :: n) :: (mid ++ (c :: m) :: rest), pts) e := by
    rw [reuse_extract265]
    simp only [Bind.bind, forget_pre265 pre _ hpre]
    rw [forget_scan265 b n hb x hx mid hmid c m hc y hy rest d hd k1, forget_scan265 b n hb x hx mid hmid c m hc y hy rest e he k2, hp.1, hp.2]
  rw [StepM.calls, StepM.calls, hs]

/-- A VPS, another SPS, SEI, the PPS that is in use already, and an IDR. -/
example : StepM.calls H265.extract {} [([reuseSPS265, reusePPS265, reuseIDR265], 0),
      ([[0x40, 1], reuseSPS265b, [0x4e, 1], reusePPS265, reuseIDR265], 9000), ([reuseSlice265], 18000)] = [.ok (-6000), .ok (-5910), .ok (-5820)] ∧
    (StepM.after H265.extract {} [([reuseSPS265, reusePPS265, reuseIDR265], 0)]).sps ≠ reuseSPS265b ∧
    (({} : H265.SPS).unmarshal reuseSPS265b).isOk = true ∧ (H265.PPS.unmarshal reusePPS265).isOk = true ∧
    idle265 [0x40, 1] = true ∧ idle265 [0x4e, 1] = true := by
  refine ⟨by decide +kernel, by decide +kernel, by decide +kernel, by decide +kernel, by decide, by decide⟩

end Verif.Props
