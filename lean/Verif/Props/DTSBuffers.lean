import Verif.Model.H264DTS
import Verif.Model.H265DTS

/-!
# C101: the buffers of access units after Extract has returned

`Extract` keeps the SPS (and PPS) of an access unit as a slice (`d.sps = nalu`), that is, as a part of the buffer of the caller, and compares
the next one with it. A caller that uses its buffers again changes what the comparison is made with. Between two calls the caller may
write any bytes: here, the bytes that are kept become whatever a function makes of them.
-/

namespace Verif.Props

/-! ## Calls of a caller that uses its buffers again -/

/-- A call: what the caller wrote where the SPS that is kept is, the access unit, its timestamp. -/
structure Call264 where
  rewrite : Bytes → Bytes
  au : List Bytes
  pts : Int

/-- The write of the caller, then the call. -/
def Call264.run (c : Call264) : H264.DM Int := do
  StepM.modify fun d => { d with sps := c.rewrite d.sps }
  H264.extract (c.au, c.pts)

/-- A call: what the caller wrote where the SPS and the PPS that are kept are, the access unit, its timestamp. -/
structure Call265 where
  rewriteSPS : Bytes → Bytes
  rewritePPS : Bytes → Bytes
  au : List Bytes
  pts : Int

/-- The write of the caller, then the call. -/
def Call265.run (c : Call265) : H265.DM Int := do
  StepM.modify fun d => { d with sps := c.rewriteSPS d.sps, pps := c.rewritePPS d.pps }
  H265.extract (c.au, c.pts)

/-! ## H264 -/

/-- Code that neither looks at the SPS that is kept nor changes it. -/
def reuse_Blind264 {α : Type} (p : H264.DM α) : Prop := ∀ d t, p { d with sps := t } = ({ (p d).1 with sps := t }, (p d).2)

namespace reuse264

theorem pure {α : Type} (a : α) : reuse_Blind264 (Pure.pure a) := fun _ _ => rfl

theorem fail {α : Type} (e : String) : reuse_Blind264 (StepM.fail (α := α) e) := fun _ _ => rfl

theorem lift {α : Type} (x : Res α) : reuse_Blind264 (StepM.lift x) := fun _ _ => rfl

theorem modify {f : H264.DTSExtractor → H264.DTSExtractor} (h : ∀ d t, f { d with sps := t } = { f d with sps := t }) :
    reuse_Blind264 (StepM.modify f) := fun d t => by simp only [StepM.modify, h d t]

theorem bind {α β : Type} {p : H264.DM α} {q : α → H264.DM β} (hp : reuse_Blind264 p) (hq : ∀ a, reuse_Blind264 (q a)) :
    reuse_Blind264 (p >>= q) := by
  intro d t
  simp only [Bind.bind, hp d t]
  match h : p d with
  | (e, .ok a) => simpa using hq a e t
  | (e, .err _) => rfl
  | (e, .panic) => rfl

theorem get {β : Type} {q : H264.DTSExtractor → H264.DM β} (hq : ∀ a, reuse_Blind264 (q a)) (hs : ∀ a t, q { a with sps := t } = q a) :
    reuse_Blind264 (StepM.get >>= q) := by
  intro d t
  show q { d with sps := t } { d with sps := t } = _
  rw [hs]
  exact hq d d t

theorem ite {α : Type} {c : Prop} [Decidable c] {p q : H264.DM α} (hp : reuse_Blind264 p) (hq : reuse_Blind264 q) :
    reuse_Blind264 (if c then p else q) := by
  split <;> assumption

end reuse264

theorem reuse_checkRandom264 (f : H264.Found) : reuse_Blind264 (H264.checkRandom f) :=
  reuse264.get (fun _ => reuse264.ite (reuse264.pure _) (reuse264.ite (reuse264.fail _) (reuse264.modify fun _ _ => rfl))) fun _ _ => rfl

theorem reuse_handleIDR (n : Bytes) (s : H264.SPS) : reuse_Blind264 (H264.handleIDR n s) := by
  unfold H264.handleIDR
  split
  · exact reuse264.bind (reuse264.modify fun _ _ => rfl) fun _ => reuse264.fail _
  · exact reuse264.lift _
  · exact reuse264.bind (reuse264.modify fun _ _ => rfl) fun _ =>
      reuse264.get (fun _ => reuse264.ite (reuse264.bind (reuse264.modify fun _ _ => rfl) fun _ => reuse264.pure _) (reuse264.pure _))
        fun _ _ => rfl

theorem reuse_increase (n : Int) : reuse_Blind264 (H264.increaseReordered n) :=
  reuse264.get (fun _ => reuse264.ite (reuse264.fail _) (reuse264.modify fun _ _ => rfl)) fun _ _ => rfl

theorem reuse_detect (poc : Nat) : reuse_Blind264 (H264.detectIncrement poc) :=
  reuse264.get (fun _ => reuse264.ite (reuse264.bind (reuse264.modify fun _ _ => rfl) fun _ => reuse264.ite (reuse_increase _) (reuse264.pure _))
    (reuse264.ite (reuse264.modify fun _ _ => rfl) (reuse264.pure _))) fun _ _ => rfl

theorem reuse_update (poc : Nat) : reuse_Blind264 (H264.updateIncrement poc) :=
  reuse264.get (fun _ => reuse264.ite (reuse264.bind (reuse_detect _) fun _ => reuse264.modify fun _ _ => rfl) (reuse264.pure _)) fun _ _ => rfl

theorem reuse_advance (poc : Nat) (s : H264.SPS) : reuse_Blind264 (H264.advance poc s) :=
  reuse264.bind (reuse264.modify fun _ _ => rfl) fun _ => reuse264.get (fun _ => reuse264.ite (reuse264.lift _) (reuse264.pure _)) fun _ _ => rfl

theorem reuse_adjust (n : Int) : reuse_Blind264 (H264.adjust n) :=
  reuse264.get (fun _ => reuse264.ite (reuse264.bind (reuse_increase _) fun _ => reuse264.pure _)
    (reuse264.ite (reuse264.bind (reuse_increase _) fun _ => reuse264.pure _) (reuse264.pure _))) fun _ _ => rfl

theorem reuse_finish264 (n pts : Int) : reuse_Blind264 (H264.finish n pts) :=
  reuse264.get (fun _ => reuse264.ite (reuse264.bind (reuse264.modify fun _ _ => rfl) fun _ => reuse264.ite (reuse264.pure _) (reuse264.pure _))
    (reuse264.ite (reuse264.ite (reuse264.lift _) (reuse264.pure _)) (reuse264.pure _))) fun _ _ => rfl

theorem reuse_repeat (pts : Int) : reuse_Blind264 (H264.repeatDTS pts) :=
  reuse264.get (fun _ => reuse264.ite (reuse264.pure _) (reuse264.pure _)) fun _ _ => rfl

theorem reuse_nonIDR (n : Bytes) (s : H264.SPS) : reuse_Blind264 (H264.handleNonIDR n s) :=
  reuse264.bind (reuse264.lift _) fun _ => reuse264.bind (reuse_update _) fun _ => reuse_advance _ _

theorem reuse_frame (f : H264.Found) (s : H264.SPS) (pts : Int) : reuse_Blind264 (H264.handleFrame f s pts) := by
  unfold H264.handleFrame
  split
  · exact reuse264.bind (reuse_handleIDR _ _) fun _ => reuse264.bind (reuse_adjust _) fun _ => reuse_finish264 _ _
  · exact reuse264.bind (reuse_nonIDR _ _) fun _ => reuse264.bind (reuse_adjust _) fun _ => reuse_finish264 _ _
  · exact reuse264.ite (reuse264.fail _) (reuse_repeat _)

/-- What is done after the NAL units have been looked at. -/
def reuse_rest264 (f : H264.Found) (pts : Int) : H264.DM (Int × Bool) := do
  let d ← StepM.get
  match d.spsp with
  | none => StepM.fail "SPS not received yet"
  | some sps =>
    if sps.picOrderCntType = 2 ∨ sps.frameMbsOnlyFlag = false then pure (pts, false)
    else if sps.picOrderCntType = 1 then StepM.fail "pic_order_cnt_type = 1 is not supported yet"
    else do
      H264.checkRandom f
      H264.handleFrame f sps pts

theorem reuse_rest (f : H264.Found) (pts : Int) : reuse_Blind264 (reuse_rest264 f pts) := by
  refine reuse264.get (fun d => ?_) fun _ _ => rfl
  split
  · exact reuse264.fail _
  · exact reuse264.ite (reuse264.pure _) (reuse264.ite (reuse264.fail _) (reuse264.bind (reuse_checkRandom264 _) fun _ => reuse_frame _ _ _))

theorem reuse_inner (au : List Bytes) (pts : Int) : H264.extractInner au pts = (H264.scan false au >>= fun f => reuse_rest264 f pts) := rfl

/-- What is done with the result. -/
def reuse_last264 (pts : Int) (r : Int × Bool) : H264.DM Int := do
  let d ← StepM.get
  if r.2 = false ∧ r.1 > pts then StepM.fail "DTS is greater than PTS"
  else if d.prevDTSFilled = true ∧ r.1 < d.prevDTS then StepM.fail "DTS is not monotonically increasing"
  else do
    StepM.modify fun d => { d with prevDTSFilled := true, prevDTS := r.1 }
    pure r.1

theorem reuse_last (pts : Int) (r : Int × Bool) : reuse_Blind264 (reuse_last264 pts r) :=
  reuse264.get (fun _ => reuse264.ite (reuse264.fail _) (reuse264.ite (reuse264.fail _)
    (reuse264.bind (reuse264.modify fun _ _ => rfl) fun _ => reuse264.pure _))) fun _ _ => rfl

theorem reuse_extract (au : List Bytes) (pts : Int) :
    H264.extract (au, pts) = (H264.scan false au >>= fun f => reuse_rest264 f pts >>= reuse_last264 pts) := by
  funext d
  simp only [H264.extract, reuse_inner, Bind.bind]
  match H264.scan false au d with
  | (e, .ok f) => rfl
  | (e, .err _) => rfl
  | (e, .panic) => rfl

/-- A NAL unit that is an SPS of H264. -/
def IsSPS264 (n : Bytes) : Prop := ∃ b, n[0]? = some b ∧ b &&& 0x1F = 7

theorem reuse_step264 (nz : Bool) (b : UInt8) (n : Bytes) (l : List Bytes) (d : H264.DTSExtractor) :
    H264.scan nz ((b :: n) :: l) d =
      if b &&& 0x1F = 7 then (H264.handleSPS (b :: n) >>= fun _ => H264.scan (nz || decide (b &&& 0x60 > 0)) l) d
      else if b &&& 0x1F = 5 then (d, .ok { idr := some (b :: n), nonZeroNalRefIDFound := nz || decide (b &&& 0x60 > 0) })
      else if b &&& 0x1F = 1 then (d, .ok { nonIDR := some (b :: n), nonZeroNalRefIDFound := nz || decide (b &&& 0x60 > 0) })
      else H264.scan (nz || decide (b &&& 0x60 > 0)) l d := by
  rw [H264.scan]
  show (if b &&& 0x1F = 7 then _ else if b &&& 0x1F = 5 then _ else if b &&& 0x1F = 1 then _ else _ : H264.DM H264.Found) d = _
  split
  · rfl
  · split
    · rfl
    · split <;> rfl

theorem reuse_scan264 (au : List Bytes) : ∀ (nz : Bool) (d : H264.DTSExtractor) (t : Bytes), (∀ n ∈ au, IsSPS264 n → (d.sps = n ↔ t = n)) →
    ∃ u, H264.scan nz au { d with sps := t } = ({ (H264.scan nz au d).1 with sps := u }, (H264.scan nz au d).2) := by
  induction au with
  | nil => exact fun nz d t _ => ⟨t, rfl⟩
  | cons n l ih =>
    intro nz d t h
    match n with
    | [] => exact ⟨t, rfl⟩
    | b :: n =>
      have hl := ih (nz || decide (b &&& 0x60 > 0)) d t fun m hm => h m (List.mem_cons_of_mem _ hm)
      rw [reuse_step264, reuse_step264]
      by_cases h7 : b &&& 0x1F = 7
      · have hs := h (b :: n) (List.mem_cons_self ..) ⟨b, rfl, h7⟩
        simp only [if_pos h7, H264.handleSPS, Bind.bind, StepM.get]
        by_cases e : d.sps = b :: n
        · simp only [if_pos e, if_pos (hs.1 e)]
          exact hl
        · simp only [if_neg e, if_neg fun a => e (hs.2 a)]
          match ({} : H264.SPS).unmarshal (b :: n) with
          | .ok sp => exact ⟨(H264.scan (nz || decide (b &&& 0x60 > 0)) l
              { d with sps := b :: n, spsp := some sp, randomReceived := false, expectedPOC := 0,
                       reorderedFrames := 0, pause := 0, auCount := 0, pocIncrement := 2, prevPOC := 0, prevPrevPOC := 0 }).1.sps, rfl⟩
          | .err _ => exact ⟨t, rfl⟩
          | .panic => exact ⟨t, rfl⟩
      · simp only [if_neg h7]
        by_cases h5 : b &&& 0x1F = 5
        · simp only [if_pos h5]
          exact ⟨t, rfl⟩
        · simp only [if_neg h5]
          by_cases h1 : b &&& 0x1F = 1
          · simp only [if_pos h1]
            exact ⟨t, rfl⟩
          · simp only [if_neg h1]
            exact hl

/-- **C101**, H264, one call. Full statement: without the hypothesis. It is missing the rewrites that change the outcome of a comparison, see
`C101_h264_missed_false` and `C101_h264_reset_false`. -/
theorem C101_h264_call_partial (d : H264.DTSExtractor) (t : Bytes) (au : List Bytes) (pts : Int)
    (h : ∀ n ∈ au, IsSPS264 n → (d.sps = n ↔ t = n)) :
    ∃ u, H264.extract (au, pts) { d with sps := t } = ({ (H264.extract (au, pts) d).1 with sps := u }, (H264.extract (au, pts) d).2) := by
  obtain ⟨u, e⟩ := reuse_scan264 au false d t h
  refine ⟨u, ?_⟩
  rw [reuse_extract]
  simp only [Bind.bind, e]
  match H264.scan false au d with
  | (x, .ok f) => exact reuse264.bind (reuse_rest f pts) (fun r => reuse_last pts r) x u
  | (x, .err _) => rfl
  | (x, .panic) => rfl

/-- The writes of the caller do not change the outcome of any comparison. `d` is the extractor of a caller that does not write, `e` that of
a caller that does. -/
def Harmless264 (d e : H264.DTSExtractor) : List Call264 → Prop
  | [] => True
  | c :: l => (∀ n ∈ c.au, IsSPS264 n → (d.sps = n ↔ c.rewrite e.sps = n)) ∧ Harmless264 (H264.extract (c.au, c.pts) d).1 (c.run e).1 l

theorem reuse_run264 (c : Call264) (e : H264.DTSExtractor) : c.run e = H264.extract (c.au, c.pts) { e with sps := c.rewrite e.sps } := rfl

theorem reuse_calls264 : ∀ (l : List Call264) (d : H264.DTSExtractor) (t : Bytes), Harmless264 d { d with sps := t } l →
    StepM.calls Call264.run { d with sps := t } l = StepM.calls H264.extract d (l.map fun c => (c.au, c.pts))
  | [], _, _, _ => rfl
  | c :: l, d, t, h => by
    obtain ⟨u, hu⟩ := C101_h264_call_partial d (c.rewrite t) c.au c.pts h.1
    have hr : c.run { d with sps := t } = _ := hu
    have h2 := h.2
    rw [hr] at h2
    simp only [StepM.calls, List.map_cons, hr]
    rw [reuse_calls264 l _ u h2]

/-- **C101**, H264: all calls. Full statement: the results are the same for all writes. -/
theorem C101_h264_partial (l : List Call264) (h : Harmless264 .new .new l) :
    StepM.calls Call264.run .new l = StepM.calls H264.extract .new (l.map fun c => (c.au, c.pts)) :=
  reuse_calls264 l .new [] h

theorem reuse_first264 : ∀ (l : List Call264) (d e : H264.DTSExtractor), (∀ c ∈ l, ∀ n ∈ c.au, ¬IsSPS264 n) → Harmless264 d e l
  | [], _, _, _ => trivial
  | c :: l, _, _, h =>
    ⟨fun n hn hs => absurd hs (h c (List.mem_cons_self ..) n hn), reuse_first264 l _ _ fun x hx => h x (List.mem_cons_of_mem _ hx)⟩

/-- **C101**, H264: when the SPS is in the first access unit and in no other one, buffers can be used again in any way. -/
theorem C101_h264_once (c : Call264) (l : List Call264) (hc : ∀ b, c.rewrite b = b) (h : ∀ c ∈ l, ∀ n ∈ c.au, ¬IsSPS264 n) :
    StepM.calls Call264.run .new (c :: l) = StepM.calls H264.extract .new ((c :: l).map fun c => (c.au, c.pts)) :=
  C101_h264_partial _ ⟨fun n _ _ => by rw [hc], reuse_first264 l _ _ h⟩

/-- An SPS with pic_order_cnt_type 2, and one with pic_order_cnt_type 0. -/
def reuseSPS2 : Bytes := [0x67, 0x42, 0x00, 0x0A, 0xDD, 0xE4]
def reuseSPS0 : Bytes := [0x67, 0x42, 0x00, 0x0A, 0xFB, 0xC8]

/-- An IDR and a slice of another picture. -/
def reuseIDR : Bytes := [0x65, 0x88, 0x84, 0x00, 0x00, 0x00]
def reuseSlice : Bytes := [0x41, 0x9A, 0x24, 0x00, 0x00, 0x00]

/-- The hypothesis of `C101_h264_once`, with a caller that writes over the SPS: results are those of a caller that does not. -/
example : (∀ n ∈ ([reuseSlice] : List Bytes), ¬IsSPS264 n) ∧
    StepM.calls Call264.run .new [⟨id, [reuseSPS0, reuseIDR], 0⟩, ⟨fun _ => reuseSlice, [reuseSlice], 3000⟩] = [.ok 0, .ok 3000] := by
  refine ⟨?_, by decide +kernel⟩
  rintro n hn ⟨b, hb, h7⟩
  cases List.mem_singleton.mp hn
  cases hb
  exact absurd h7 (by decide)

/-- **C101** is false for H264: an SPS that is written over the one before it, in the same place of the same buffer, is not noticed, and
timestamps are those of the old one. A caller with another buffer gets an error here, because there was no IDR after the new SPS. -/
theorem C101_h264_missed_false :
    StepM.calls H264.extract .new [([reuseSPS2, reuseIDR], 0), ([reuseSPS0, reuseSlice], 3000)] =
        [.ok 0, .err "random access frame not received yet"] ∧
      StepM.calls Call264.run .new [⟨id, [reuseSPS2, reuseIDR], 0⟩, ⟨fun _ => reuseSPS0, [reuseSPS0, reuseSlice], 3000⟩] =
        [.ok 0, .ok 3000] := by decide +kernel

/-- **C101** is false for H264: an SPS that has not changed is taken for another one when the buffer of the first one has been written over,
and the state of the extractor is lost. -/
theorem C101_h264_reset_false :
    StepM.calls H264.extract .new [([reuseSPS0, reuseIDR], 0), ([reuseSPS0, reuseSlice], 3000)] = [.ok 0, .ok 3000] ∧
      StepM.calls Call264.run .new [⟨id, [reuseSPS0, reuseIDR], 0⟩, ⟨fun _ => reuseSlice, [reuseSPS0, reuseSlice], 3000⟩] =
        [.ok 0, .err "random access frame not received yet"] := by decide +kernel

/-! ## H265 -/

/-- Code that neither looks at the bytes that are kept nor changes them or the PPS. -/
def reuse_Blind265 {α : Type} (p : H265.DM α) : Prop := ∀ d t q,
  p { d with sps := t, pps := q } = ({ (p d).1 with sps := t, pps := q }, (p d).2) ∧ (p d).1.pps = d.pps ∧ (p d).1.ppsp = d.ppsp

namespace reuse265

theorem pure {α : Type} (a : α) : reuse_Blind265 (Pure.pure a) := fun _ _ _ => ⟨rfl, rfl, rfl⟩

theorem fail {α : Type} (e : String) : reuse_Blind265 (StepM.fail (α := α) e) := fun _ _ _ => ⟨rfl, rfl, rfl⟩

theorem lift {α : Type} (x : Res α) : reuse_Blind265 (StepM.lift x) := fun _ _ _ => ⟨rfl, rfl, rfl⟩

theorem modify {f : H265.DTSExtractor → H265.DTSExtractor}
    (h : ∀ d t q, f { d with sps := t, pps := q } = { f d with sps := t, pps := q } ∧ (f d).pps = d.pps ∧ (f d).ppsp = d.ppsp) :
    reuse_Blind265 (StepM.modify f) := fun d t q => ⟨by simp only [StepM.modify, (h d t q).1], (h d t q).2⟩

theorem bind {α β : Type} {p : H265.DM α} {q : α → H265.DM β} (hp : reuse_Blind265 p) (hq : ∀ a, reuse_Blind265 (q a)) :
    reuse_Blind265 (p >>= q) := by
  intro d t v
  obtain ⟨h1, h2, h3⟩ := hp d t v
  simp only [Bind.bind, h1]
  match h : p d with
  | (e, .ok a) =>
    rw [h] at h2 h3
    have := hq a e t v
    exact ⟨this.1, this.2.1.trans h2, this.2.2.trans h3⟩
  | (e, .err _) =>
    rw [h] at h2 h3
    exact ⟨rfl, h2, h3⟩
  | (e, .panic) =>
    rw [h] at h2 h3
    exact ⟨rfl, h2, h3⟩

theorem get {β : Type} {q : H265.DTSExtractor → H265.DM β} (hq : ∀ a, reuse_Blind265 (q a))
    (hs : ∀ a t v, q { a with sps := t, pps := v } = q a) : reuse_Blind265 (StepM.get >>= q) := by
  intro d t v
  refine ⟨?_, (hq d d t v).2⟩
  show q { d with sps := t, pps := v } { d with sps := t, pps := v } = _
  rw [hs]
  exact (hq d d t v).1

theorem ite {α : Type} {c : Prop} [Decidable c] {p q : H265.DM α} (hp : reuse_Blind265 p) (hq : reuse_Blind265 q) :
    reuse_Blind265 (if c then p else q) := by
  split <;> assumption

end reuse265

theorem reuse_checkRandom265 (f : H265.Found) : reuse_Blind265 (H265.checkRandom f) :=
  reuse265.get (fun _ => reuse265.ite (reuse265.pure _) (reuse265.ite (reuse265.modify fun _ _ _ => ⟨rfl, rfl, rfl⟩) (reuse265.fail _)))
    fun _ _ _ => rfl

theorem reuse_finish265 (n pts : Int) (s : H265.SPS) : reuse_Blind265 (H265.finish n pts s) :=
  reuse265.get (fun _ => reuse265.ite (reuse265.fail _)
    (reuse265.ite (reuse265.bind (reuse265.modify fun _ _ _ => ⟨rfl, rfl, rfl⟩) fun _ => reuse265.ite (reuse265.pure _) (reuse265.pure _))
      (reuse265.ite (reuse265.ite (reuse265.lift _) (reuse265.pure _)) (reuse265.pure _)))) fun _ _ _ => rfl

/-- What is done after the NAL units have been looked at. -/
def reuse_rest265 (f : H265.Found) (pts : Int) : H265.DM Int := do
  let d ← StepM.get
  match d.spsp with
  | none => StepM.fail "SPS not received yet"
  | some sps =>
    match d.ppsp with
    | none => StepM.fail "PPS not received yet"
    | some pps => do
      H265.checkRandom f
      let diff ← StepM.lift (H265.frameDiff f sps pps)
      H265.finish diff pts sps

theorem reuse_restBlind (f : H265.Found) (pts : Int) : reuse_Blind265 (reuse_rest265 f pts) := by
  refine reuse265.get (fun d => ?_) fun _ _ _ => rfl
  split
  · exact reuse265.fail _
  · split
    · exact reuse265.fail _
    · exact reuse265.bind (reuse_checkRandom265 _) fun _ => reuse265.bind (reuse265.lift _) fun _ => reuse_finish265 _ _ _

/-- What is done with the result. -/
def reuse_last265 (pts r : Int) : H265.DM Int := do
  let d ← StepM.get
  if r > pts then StepM.fail "DTS is greater than PTS"
  else if d.prevDTSFilled = true ∧ r < d.prevDTS then StepM.fail "DTS is not monotonically increasing"
  else do
    StepM.modify fun d => { d with prevDTSFilled := true, prevDTS := r }
    pure r

theorem reuse_lastBlind (pts r : Int) : reuse_Blind265 (reuse_last265 pts r) :=
  reuse265.get (fun _ => reuse265.ite (reuse265.fail _) (reuse265.ite (reuse265.fail _)
    (reuse265.bind (reuse265.modify fun _ _ _ => ⟨rfl, rfl, rfl⟩) fun _ => reuse265.pure _))) fun _ _ _ => rfl

theorem reuse_extract265 (au : List Bytes) (pts : Int) :
    H265.extract (au, pts) = (H265.scan au >>= fun f => reuse_rest265 f pts >>= reuse_last265 pts) := by
  have hi : H265.extractInner au pts = (H265.scan au >>= fun f => reuse_rest265 f pts) := rfl
  funext d
  simp only [H265.extract, hi, Bind.bind]
  match H265.scan au d with
  | (e, .ok f) => rfl
  | (e, .err _) => rfl
  | (e, .panic) => rfl

/-- A NAL unit of H265 with the given type. -/
def HasType265 (typ : Nat) (n : Bytes) : Prop := ∃ b : UInt8, n[0]? = some b ∧ ((b >>> 1) &&& 0x3F).toNat = typ

/-- The PPS that is in use is the one whose bytes are kept. -/
def PPSKept (d : H265.DTSExtractor) : Prop := d.pps = [] ∨ ∃ p, H265.PPS.unmarshal d.pps = .ok p ∧ d.ppsp = some p

/-- The writes of the caller do not change the outcome of a comparison that matters: `t` and `q` are what is found where the SPS and the PPS
were. A PPS that has not changed can be written over, since reading it again makes no difference. -/
def Same265 (d : H265.DTSExtractor) (t q : Bytes) (au : List Bytes) : Prop :=
  (∀ n ∈ au, HasType265 33 n → (d.sps = n ↔ t = n)) ∧ (∀ n ∈ au, HasType265 34 n → q = n → d.pps = n)

theorem reuse_step265 (b : UInt8) (n : Bytes) (l : List Bytes) (d : H265.DTSExtractor) :
    H265.scan ((b :: n) :: l) d =
      if ((b >>> 1) &&& 0x3F).toNat = 33 then (H265.handleSPS (b :: n) >>= fun _ => H265.scan l) d
      else if ((b >>> 1) &&& 0x3F).toNat = 34 then (H265.handlePPS (b :: n) >>= fun _ => H265.scan l) d
      else if ((b >>> 1) &&& 0x3F).toNat = 19 ∨ ((b >>> 1) &&& 0x3F).toNat = 20 then (d, .ok .idr)
      else if ((b >>> 1) &&& 0x3F).toNat = 21 then (d, .ok (.cra (b :: n)))
      else if ((b >>> 1) &&& 0x3F).toNat = 0 ∨ ((b >>> 1) &&& 0x3F).toNat = 1 ∨ ((b >>> 1) &&& 0x3F).toNat = 8 ∨
          ((b >>> 1) &&& 0x3F).toNat = 9 then (d, .ok (.nonIDR (b :: n)))
      else H265.scan l d := by
  rw [H265.scan]
  show (if ((b >>> 1) &&& 0x3F).toNat = 33 then _ else if ((b >>> 1) &&& 0x3F).toNat = 34 then _ else _ : H265.DM H265.Found) d = _
  split
  · rfl
  · split
    · rfl
    · split
      · rfl
      · split
        · rfl
        · split <;> rfl

theorem reuse_scan265 (au : List Bytes) : ∀ (d : H265.DTSExtractor) (t q : Bytes), PPSKept d → Same265 d t q au →
    (∃ u v, H265.scan au { d with sps := t, pps := q } = ({ (H265.scan au d).1 with sps := u, pps := v }, (H265.scan au d).2)) ∧
      PPSKept (H265.scan au d).1 := by
  induction au with
  | nil => exact fun d t q k _ => ⟨⟨t, q, rfl⟩, k⟩
  | cons n l ih =>
    intro d t q k h
    match n with
    | [] => exact ⟨⟨t, q, rfl⟩, k⟩
    | b :: n =>
      have h1 : ∀ m ∈ l, HasType265 33 m → (d.sps = m ↔ t = m) := fun m hm => h.1 m (List.mem_cons_of_mem _ hm)
      have h2 : ∀ m ∈ l, HasType265 34 m → q = m → d.pps = m := fun m hm => h.2 m (List.mem_cons_of_mem _ hm)
      rw [reuse_step265, reuse_step265]
      by_cases h33 : ((b >>> 1) &&& 0x3F).toNat = 33
      · have hs := h.1 (b :: n) (List.mem_cons_self ..) ⟨b, rfl, h33⟩
        simp only [if_pos h33, H265.handleSPS, Bind.bind, StepM.get]
        by_cases e : d.sps = b :: n
        · simp only [if_pos e, if_pos (hs.1 e)]
          exact ih d t q k ⟨h1, h2⟩
        · simp only [if_neg e, if_neg fun a => e (hs.2 a)]
          match ({} : H265.SPS).unmarshal (b :: n) with
          | .ok sp =>
            exact ih { d with spsp := some sp, sps := b :: n, randomReceived := false, reorderedFrames := H265.initialReorder sp,
                              pause := H265.initialReorder sp } (b :: n) q k ⟨fun _ _ _ => Iff.rfl, h2⟩
          | .err _ => exact ⟨⟨t, q, rfl⟩, k⟩
          | .panic => exact ⟨⟨t, q, rfl⟩, k⟩
      · simp only [if_neg h33]
        by_cases h34 : ((b >>> 1) &&& 0x3F).toNat = 34
        · have hp := h.2 (b :: n) (List.mem_cons_self ..) ⟨b, rfl, h34⟩
          simp only [if_pos h34, H265.handlePPS, Bind.bind, StepM.get]
          by_cases e : d.pps = b :: n
          · simp only [if_pos e]
            by_cases e2 : q = b :: n
            · simp only [if_pos e2]
              exact ih d t q k ⟨h1, h2⟩
            · simp only [if_neg e2]
              obtain he | ⟨p, hu, hd⟩ := k
              · rw [he] at e
                cases e
              · rw [e] at hu
                simp only [hu]
                have := ih d t (b :: n) (.inr ⟨p, by rw [e]; exact hu, hd⟩) ⟨h1, fun m _ _ hm => e.trans hm⟩
                rw [show ({ d with sps := t, pps := b :: n } : H265.DTSExtractor) = { d with sps := t, ppsp := some p, pps := b :: n } by
                  rw [← hd]] at this
                exact this
          · simp only [if_neg e, if_neg fun a => e (hp a)]
            match hu : H265.PPS.unmarshal (b :: n) with
            | .ok p => exact ih { d with ppsp := some p, pps := b :: n } t (b :: n) (.inr ⟨p, hu, rfl⟩) ⟨h1, fun _ _ _ h => h⟩
            | .err _ => exact ⟨⟨t, q, rfl⟩, k⟩
            | .panic => exact ⟨⟨t, q, rfl⟩, k⟩
        · simp only [if_neg h34]
          split
          · exact ⟨⟨t, q, rfl⟩, k⟩
          · split
            · exact ⟨⟨t, q, rfl⟩, k⟩
            · split
              · exact ⟨⟨t, q, rfl⟩, k⟩
              · exact ih d t q k ⟨h1, h2⟩

/-- **C101**, H265, one call. Full statement: without `Same265`, see `C101_h265_missed_false` and `C101_h265_reset_false`. The other hypothesis
holds of all extractors: it is kept by each call. -/
theorem C101_h265_call_partial (d : H265.DTSExtractor) (t q : Bytes) (au : List Bytes) (pts : Int) (k : PPSKept d) (h : Same265 d t q au) :
    (∃ u v, H265.extract (au, pts) { d with sps := t, pps := q } =
      ({ (H265.extract (au, pts) d).1 with sps := u, pps := v }, (H265.extract (au, pts) d).2)) ∧
      PPSKept (H265.extract (au, pts) d).1 := by
  obtain ⟨⟨u, v, e⟩, k⟩ := reuse_scan265 au d t q k h
  rw [reuse_extract265]
  simp only [Bind.bind, e]
  match hx : H265.scan au d with
  | (x, .ok f) =>
    have := reuse265.bind (reuse_restBlind f pts) (fun r => reuse_lastBlind pts r) x u v
    rw [hx] at k
    refine ⟨⟨u, v, this.1⟩, ?_⟩
    obtain h | ⟨p, hp, hd⟩ := k
    · exact .inl (this.2.1.trans h)
    · exact .inr ⟨p, by rw [← hp]; exact congrArg _ this.2.1, this.2.2.trans hd⟩
  | (x, .err _) =>
    rw [hx] at k
    exact ⟨⟨u, v, rfl⟩, k⟩
  | (x, .panic) =>
    rw [hx] at k
    exact ⟨⟨u, v, rfl⟩, k⟩

/-- The writes of the caller do not change the outcome of a comparison that matters. `d` is the extractor of a caller that does not write,
`e` that of a caller that does. -/
def Harmless265 (d e : H265.DTSExtractor) : List Call265 → Prop
  | [] => True
  | c :: l => Same265 d (c.rewriteSPS e.sps) (c.rewritePPS e.pps) c.au ∧ Harmless265 (H265.extract (c.au, c.pts) d).1 (c.run e).1 l

theorem reuse_calls265 : ∀ (l : List Call265) (d : H265.DTSExtractor) (t q : Bytes), PPSKept d → Harmless265 d { d with sps := t, pps := q } l →
    StepM.calls Call265.run { d with sps := t, pps := q } l = StepM.calls H265.extract d (l.map fun c => (c.au, c.pts))
  | [], _, _, _, _, _ => rfl
  | c :: l, d, t, q, k, h => by
    obtain ⟨⟨u, v, hu⟩, k⟩ := C101_h265_call_partial d (c.rewriteSPS t) (c.rewritePPS q) c.au c.pts k h.1
    have hr : c.run { d with sps := t, pps := q } = _ := hu
    have h2 := h.2
    rw [hr] at h2
    simp only [StepM.calls, List.map_cons, hr]
    rw [reuse_calls265 l _ u v k h2]

/-- **C101**, H265: all calls. Full statement: the results are the same for all writes. -/
theorem C101_h265_partial (l : List Call265) (h : Harmless265 {} {} l) :
    StepM.calls Call265.run {} l = StepM.calls H265.extract {} (l.map fun c => (c.au, c.pts)) :=
  reuse_calls265 l {} [] [] (.inl rfl) h

def reuseSPS265 : Bytes :=
  [0x42, 0x01, 0x01, 0x01, 0x60, 0x00, 0x00, 0x03, 0x00, 0x90, 0x00, 0x00, 0x03, 0x00, 0x00, 0x03, 0x00, 0x78, 0xa0, 0x03, 0xc0, 0x80,
   0x10, 0xe5, 0x96, 0x66, 0x69, 0x24, 0xca, 0xe0, 0x10, 0x00, 0x00, 0x03, 0x00, 0x10, 0x00, 0x00, 0x03, 0x01, 0xe0, 0x80]

/-- The same with another level. -/
def reuseSPS265b : Bytes := reuseSPS265.set 17 0x7b

def reusePPS265 : Bytes := [0x44, 0x01, 0xc1, 0x72, 0xb4, 0x62, 0x40]

def reuseIDR265 : Bytes := [0x26, 0x01, 0xaf, 0x08]

def reuseSlice265 : Bytes := [0x02, 0x01, 0xd0, 0x19, 0x5f, 0x8c, 0xb4, 0x42, 0x49, 0x20, 0x40, 0x11, 0x16]

/-- The caller writes over the PPS, which comes again, and over the SPS, which does not: nothing changes. -/
example : StepM.calls Call265.run {}
    [⟨id, id, [reuseSPS265, reusePPS265, reuseIDR265], 0⟩, ⟨fun _ => [], fun _ => [1, 2, 3], [reusePPS265, reuseSlice265], 9000⟩] =
      [.ok (-6000), .ok (-5910)] := by decide +kernel

/-- **C101** is false for H265: an SPS that is written over the one before it is not noticed. -/
theorem C101_h265_missed_false :
    StepM.calls H265.extract {} [([reuseSPS265, reusePPS265, reuseIDR265], 0), ([reuseSPS265b, reuseSlice265], 9000)] =
        [.ok (-6000), .err "random access frame not received yet"] ∧
      StepM.calls Call265.run {}
          [⟨id, id, [reuseSPS265, reusePPS265, reuseIDR265], 0⟩, ⟨fun _ => reuseSPS265b, id, [reuseSPS265b, reuseSlice265], 9000⟩] =
        [.ok (-6000), .ok (-5910)] := by decide +kernel

/-- **C101** is false for H265: an SPS that has not changed is taken for another one when its buffer has been written over. -/
theorem C101_h265_reset_false :
    StepM.calls H265.extract {} [([reuseSPS265, reusePPS265, reuseIDR265], 0), ([reuseSPS265, reuseSlice265], 9000)] =
        [.ok (-6000), .ok (-5910)] ∧
      StepM.calls Call265.run {}
          [⟨id, id, [reuseSPS265, reusePPS265, reuseIDR265], 0⟩, ⟨fun _ => reusePPS265, id, [reuseSPS265, reuseSlice265], 9000⟩] =
        [.ok (-6000), .err "random access frame not received yet"] := by decide +kernel

end Verif.Props
