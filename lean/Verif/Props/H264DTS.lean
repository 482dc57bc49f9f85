import Verif.Model.H264DTS
import Verif.Lemmas.StepM
import Verif.Lemmas.BitPos
import Verif.Spec.DTS
import Verif.Props.H264SPS

/-!
# H264 DTS extractor: C11, C12, C14, C59
-/

namespace Verif.Props
open Verif.Spec Verif.H264 Verif.BitM Verif.StepM
open Verif.Spec.DTS (returned units exceeding type264)
open TS (wrap64)

/-! ## State -/

/-- The counters of the extractor. -/
structure DtsWF (d : DTSExtractor) : Prop where
  pause : 0 ≤ d.pause
  le : d.pause ≤ d.reorderedFrames
  max : d.reorderedFrames ≤ 10
  inc : d.pocIncrement = 1 ∨ d.pocIncrement = 2 ∨ d.pocIncrement = 4

/-- What was paused so far. -/
def dtsPaused (d : DTSExtractor) : Int := d.reorderedFrames - d.pause

theorem dts_type (b : UInt8) : (b &&& 0x1F).toNat = b.toNat % 32 := by
  revert b; exact forall_u8 (by decide +kernel)

theorem dts_typeEq (b : UInt8) (k : UInt8) : b &&& 0x1F = k ↔ b.toNat % 32 = k.toNat := by
  rw [← dts_type, UInt8.toNat_inj]

/-! ## Picture order count -/

theorem dts_readPOC (sps : SPS) (idr : Bool) (buf : Bytes) (h0 : plus4 sps.log2MaxPicOrderCntLsbMinus4 ≠ 0) :
    (readPOC sps idr buf 0).NoPanic := by
  refine At.noPanic (Q := fun _ _ => True) ?_
  unfold readPOC
  refine At.bind (At.readUE (by omega)) fun _ p1 h1 => ?_
  refine At.bind (At.readUE h1.1) fun _ p2 h2 => ?_
  refine At.bind (At.readUE h2.1) fun _ p3 h3 => ?_
  refine At.bind (At.readBits h3.1 (.inr (by omega))) fun _ p4 h4 => ?_
  refine At.bind (Q := fun _ q => q ≤ 8 * buf.length) ?_ fun _ p5 h5 => ?_
  · unfold BitM.cond
    cases idr
    · exact At.pure h4.2
    · exact (At.readUE h4.2).post fun _ _ h => h.1
  exact At.bind (At.readBits h5 (.inl (by omega))) fun _ _ _ => At.pure trivial

theorem dts_poc (buf : Bytes) (sps : SPS) (idr : Bool) (hb : buf ≠ []) (h0 : plus4 sps.log2MaxPicOrderCntLsbMinus4 ≠ 0) :
    getPictureOrderCount buf sps idr ≠ .panic := by
  obtain ⟨b, t, rfl⟩ := List.exists_cons_of_ne_nil hb
  unfold getPictureOrderCount
  rw [sliceFrom_ok (by simp), Res.bind_ok, slice_ok (by omega) (by simp; omega), Res.bind_ok, emulationPreventionRemove_eq,
    Res.bind_ok]
  exact Res.noPanic_bind (dts_readPOC _ _ _ h0) fun _ _ => by simp

/-! ## What a call does -/

/-- The state `s` in the middle of a call that had the state `d` after its NAL units were looked at. -/
structure DtsMid (d s : DTSExtractor) : Prop where
  filled : s.prevDTSFilled = d.prevDTSFilled
  prev : s.prevDTS = d.prevDTS
  sps : s.sps = d.sps
  spsp : s.spsp = d.spsp
  random : s.randomReceived = d.randomReceived
  wf : DtsWF s
  paused : dtsPaused d ≤ dtsPaused s

theorem dts_increase (d : DTSExtractor) (k : Int) (hk : 0 ≤ k) :
    Triple (DtsMid d) (increaseReordered k) (fun s _ => DtsMid d s) (DtsMid d) (fun _ => False) := by
  unfold increaseReordered
  refine Triple.get fun a ha => Triple.ite (fun _ => Triple.fail fun s hs => hs ▸ ha) fun hc => ?_
  refine Triple.modify' fun s hs => ?_
  subst hs
  simp only [maxReorderedFrames] at hc
  refine ⟨ha.filled, ha.prev, ha.sps, ha.spsp, ha.random, ⟨?_, ?_, ?_, ha.wf.inc⟩, ?_⟩
  · have := ha.wf.pause; show 0 ≤ s.pause + k; omega
  · have := ha.wf.le; show s.pause + k ≤ s.reorderedFrames + k; omega
  · show s.reorderedFrames + k ≤ 10; omega
  · have := ha.paused; simp only [dtsPaused] at *; omega

theorem dts_idr (d : DTSExtractor) (n : Bytes) (sps : SPS) :
    Triple (DtsMid d) (handleIDR n sps) (fun s v => DtsMid d s ∧ v = 0) (DtsMid d)
      (fun s => DtsMid d s ∧ getPictureOrderCount n sps true = .panic) := by
  unfold handleIDR
  cases e : getPictureOrderCount n sps true with
  | panic => exact Triple.panic fun _ h => ⟨h, rfl⟩
  | err m =>
    exact Triple.modify (R := DtsMid d) (fun s h => ⟨h.filled, h.prev, h.sps, h.spsp, h.random, ⟨h.wf.1, h.wf.2, h.wf.3, h.wf.4⟩, h.paused⟩)
      (Triple.fail fun _ h => h)
  | ok poc =>
    refine Triple.modify (R := DtsMid d) (fun s h => ⟨h.filled, h.prev, h.sps, h.spsp, h.random, ⟨h.wf.1, h.wf.2, h.wf.3, h.wf.4⟩, h.paused⟩) ?_
    refine Triple.get fun a ha => Triple.ite (fun hc => ?_) fun _ => Triple.pure fun s hs => ⟨hs ▸ ha, rfl⟩
    refine Triple.modify (R := DtsMid d) (fun s hs => ?_) (Triple.pure fun s h => ⟨h, rfl⟩)
    subst hs
    refine ⟨ha.filled, ha.prev, ha.sps, ha.spsp, ha.random, ⟨ha.wf.1, ha.wf.2, ha.wf.3, ?_⟩, ha.paused⟩
    show (if poc % 2 ≠ 0 then 1 else s.pocIncrement) = 1 ∨ _
    split
    · exact .inl rfl
    · exact ha.wf.4

theorem dts_detect (d : DTSExtractor) (poc : Nat) :
    Triple (DtsMid d) (detectIncrement poc) (fun s _ => DtsMid d s) (DtsMid d) (fun _ => False) := by
  unfold detectIncrement
  refine Triple.get fun a ha => Triple.ite (fun _ => ?_) fun _ => Triple.ite (fun _ => ?_) fun _ =>
    Triple.pure fun s hs => hs ▸ ha
  · refine Triple.modify (R := DtsMid d) (fun s hs => ?_) (Triple.ite (fun _ => ?_) fun _ => Triple.pure fun _ h => h)
    · subst hs
      exact ⟨ha.filled, ha.prev, ha.sps, ha.spsp, ha.random, ⟨ha.wf.1, ha.wf.2, ha.wf.3, .inl rfl⟩, ha.paused⟩
    · exact dts_increase d _ (by have := ha.wf.1; have := ha.wf.2; omega)
  · refine Triple.modify' fun s hs => ?_
    subst hs
    exact ⟨ha.filled, ha.prev, ha.sps, ha.spsp, ha.random, ⟨ha.wf.1, ha.wf.2, ha.wf.3, .inr (.inr rfl)⟩, ha.paused⟩

theorem dts_update (d : DTSExtractor) (poc : Nat) :
    Triple (DtsMid d) (updateIncrement poc) (fun s _ => DtsMid d s) (DtsMid d) (fun _ => False) := by
  unfold updateIncrement
  refine Triple.get fun a ha => Triple.ite (fun _ => ?_) fun _ => Triple.pure fun s hs => hs ▸ ha
  refine Triple.bind ((dts_detect d poc).pre fun s hs => hs ▸ ha) fun _ => Triple.modify' fun s h => ?_
  exact ⟨h.filled, h.prev, h.sps, h.spsp, h.random, ⟨h.wf.1, h.wf.2, h.wf.3, h.wf.4⟩, h.paused⟩

theorem dts_advance (d : DTSExtractor) (poc : Nat) (sps : SPS) :
    Triple (DtsMid d) (advance poc sps) (fun s _ => DtsMid d s) (DtsMid d) (fun _ => False) := by
  unfold advance
  refine Triple.modify (R := DtsMid d) (fun s h => ?_) ?_
  · exact ⟨h.filled, h.prev, h.sps, h.spsp, h.random, ⟨h.wf.1, h.wf.2, h.wf.3, h.wf.4⟩, h.paused⟩
  · refine Triple.get fun a ha => Triple.ite (fun hc => ?_) fun _ => Triple.pure fun s hs => hs ▸ ha
    exact absurd hc (by rcases ha.wf.4 with h | h | h <;> rw [h] <;> decide)

theorem dts_nonIDR (d : DTSExtractor) (n : Bytes) (sps : SPS) :
    Triple (DtsMid d) (handleNonIDR n sps) (fun s _ => DtsMid d s) (DtsMid d)
      (fun s => DtsMid d s ∧ getPictureOrderCount n sps false = .panic) := by
  unfold handleNonIDR
  refine Triple.lift (fun _ _ _ h => h) (fun _ e h => ⟨h, e⟩) fun poc _ => ?_
  exact Triple.bind ((dts_update d poc).conseq (fun _ h => h) (fun _ _ h => h) (fun _ h => h) fun _ h => h.elim) fun _ =>
    (dts_advance d poc sps).conseq (fun _ h => h) (fun _ _ h => h) (fun _ h => h) fun _ h => h.elim

theorem dts_adjust (d : DTSExtractor) (diff : Int) :
    Triple (DtsMid d) (adjust diff) (fun s v => DtsMid d s ∧ 0 ≤ v) (DtsMid d) (fun _ => False) := by
  unfold adjust
  refine Triple.get fun a ha => ?_
  dsimp only
  have := ha.wf.1
  have := ha.wf.2
  refine Triple.ite (fun _ => ?_) fun _ => Triple.ite (fun _ => ?_) fun _ => Triple.pure fun s hs => ⟨hs ▸ ha, by omega⟩
  · exact Triple.bind ((dts_increase d _ (by omega)).pre fun s hs => hs ▸ ha) fun _ =>
      Triple.pure fun s hs => ⟨hs, by omega⟩
  · exact Triple.bind ((dts_increase d _ (by omega)).pre fun s hs => hs ▸ ha) fun _ =>
      Triple.pure fun s hs => ⟨hs, by omega⟩

/-- The value of a call: unchecked values are the PTS, or 90 more than the last DTS. -/
def DtsValue (d s : DTSExtractor) (pts : Int) (r : Int × Bool) : Prop :=
  r.2 = true → r.1 = pts ∨
    d.prevDTSFilled = true ∧ r.1 = wrap64 (d.prevDTS + 90) ∧ dtsPaused d + 1 ≤ dtsPaused s

theorem dts_finish (d : DTSExtractor) (diff pts : Int) (h0 : 0 ≤ diff) :
    Triple (DtsMid d) (finish diff pts) (fun s r => DtsMid d s ∧ DtsValue d s pts r) (DtsMid d) (fun _ => False) := by
  unfold finish
  refine Triple.get fun a ha => Triple.ite (fun hp => ?_) fun _ => Triple.ite (fun _ => Triple.ite (fun h => ?_) fun _ => ?_) fun _ => ?_
  · refine Triple.modify (R := fun s => DtsMid d s ∧ dtsPaused d + 1 ≤ dtsPaused s) (fun s hs => ?_)
      (Triple.ite (fun hf => ?_) fun _ => ?_)
    · subst hs
      have := ha.wf.2
      have := ha.paused
      refine ⟨⟨ha.filled, ha.prev, ha.sps, ha.spsp, ha.random, ⟨?_, ?_, ha.wf.3, ha.wf.4⟩, ?_⟩, ?_⟩
      · show 0 ≤ s.pause - 1; omega
      · show s.pause - 1 ≤ s.reorderedFrames; omega
      all_goals simp only [dtsPaused] at *; omega
    · exact Triple.pure fun s hs => ⟨hs.1, fun _ => .inr ⟨by rw [← ha.filled]; exact hf, by rw [ha.prev], hs.2⟩⟩
    · exact Triple.pure fun s hs => ⟨hs.1, fun _ => .inl rfl⟩
  · omega
  · exact Triple.pure fun s hs => ⟨hs ▸ ha, fun h => by cases h⟩
  · exact Triple.pure fun s hs => ⟨hs ▸ ha, fun _ => .inl rfl⟩

/-- A NAL unit of the access unit makes the parser of slice headers panic. -/
def DtsBad (f : Found) (sps : SPS) : Prop :=
  (∃ n, f.idr = some n ∧ getPictureOrderCount n sps true = .panic) ∨
  (∃ n, f.nonIDR = some n ∧ getPictureOrderCount n sps false = .panic)

theorem dts_frame (d : DTSExtractor) (f : Found) (sps : SPS) (pts : Int) :
    Triple (DtsMid d) (handleFrame f sps pts) (fun s r => DtsMid d s ∧ DtsValue d s pts r) (DtsMid d)
      (fun s => DtsMid d s ∧ DtsBad f sps) := by
  have tail : ∀ diff, Triple (DtsMid d) (adjust diff >>= fun diff => finish diff pts)
      (fun s r => DtsMid d s ∧ DtsValue d s pts r) (DtsMid d) (fun _ => False) := fun diff =>
    Triple.bind (dts_adjust d diff) fun v s hs => dts_finish d v pts hs.2 s hs.1
  unfold handleFrame
  cases h1 : f.idr with
  | some n =>
    refine Triple.bind ((dts_idr d n sps).conseq (fun _ h => h) (fun _ _ h => h.1) (fun _ h => h) fun _ h => ⟨h.1, .inl ⟨n, h1, h.2⟩⟩)
      fun diff => (tail diff).conseq (fun _ h => h) (fun _ _ h => h) (fun _ h => h) fun _ h => h.elim
  | none =>
    cases h2 : f.nonIDR with
    | some n =>
      refine Triple.bind ((dts_nonIDR d n sps).conseq (fun _ h => h) (fun _ _ h => h) (fun _ h => h)
        fun _ h => ⟨h.1, .inr ⟨n, h2, h.2⟩⟩)
        fun diff => (tail diff).conseq (fun _ h => h) (fun _ _ h => h) (fun _ h => h) fun _ h => h.elim
    | none =>
      refine Triple.ite (fun _ => Triple.fail fun _ h => h) fun _ => ?_
      refine Triple.get fun a ha => Triple.ite (fun _ => ?_) fun _ => ?_
      · exact Triple.pure fun s hs => ⟨hs ▸ ha, fun h => by cases h⟩
      · exact Triple.pure fun s hs => ⟨hs ▸ ha, fun _ => .inl rfl⟩

/-! ## Looking at the NAL units -/

/-- What the state says about the NAL units `H` that were received: the SPS is one of them, and an IDR came after it. -/
structure DtsHist (H : List Bytes) (d : DTSExtractor) : Prop where
  sps : ∀ x, d.spsp = some x → d.sps ∈ H ∧ type264 d.sps = some 7 ∧ ({} : SPS).unmarshal d.sps = .ok x
  idr : d.randomReceived = true → ∃ n, type264 n = some 5 ∧ [d.sps, n].Sublist H

/-- All SPSs of the access unit are the one that is in use. -/
def DtsSame (au : List Bytes) (d : DTSExtractor) : Prop := ∀ n ∈ au, type264 n = some 7 → n = d.sps

structure DtsScan (H au : List Bytes) (d s : DTSExtractor) : Prop where
  filled : s.prevDTSFilled = d.prevDTSFilled
  prev : s.prevDTS = d.prevDTS
  wf : DtsWF s
  hist : DtsHist (H ++ au) s
  same : DtsSame au d → s = d

theorem DtsHist.mono {H H' : List Bytes} {d : DTSExtractor} (h : DtsHist H d) (hs : H.Sublist H') : DtsHist H' d := by
  refine ⟨fun x hx => ?_, fun hr => ?_⟩
  · obtain ⟨h1, h2⟩ := h.sps x hx
    exact ⟨hs.subset h1, h2⟩
  · obtain ⟨n, h1, h2⟩ := h.idr hr
    exact ⟨n, h1, h2.trans hs⟩

theorem dts_sps (H : List Bytes) (d : DTSExtractor) (hw : DtsWF d) (hh : DtsHist H d) (n : Bytes) (ht : type264 n = some 7) :
    Triple (fun s => s = d) (handleSPS n) (fun s _ => DtsScan H [n] d s) (DtsScan H [n] d) (fun _ => False) := by
  have keep : DtsScan H [n] d d := ⟨rfl, rfl, hw, hh.mono (List.sublist_append_left ..), fun _ => rfl⟩
  unfold handleSPS
  refine Triple.get fun a ha => Triple.ite (fun _ => Triple.pure fun s hs => by rw [hs, ha]; exact keep) fun hne => ?_
  cases e : ({} : SPS).unmarshal n with
  | panic => exact absurd e (C50_no_panic _ _)
  | err m => exact Triple.fail fun s hs => by rw [hs, ha]; exact keep
  | ok x =>
    refine Triple.modify' fun s hs => ?_
    rw [hs, ha]
    rw [ha] at hne
    refine ⟨rfl, rfl, ⟨Int.le_refl 0, Int.le_refl 0, (by decide : (0 : Int) ≤ 10), .inr (.inl rfl)⟩, ⟨fun y hy => ?_, fun h => by cases h⟩, ?_⟩
    · cases hy
      exact ⟨List.mem_append_right _ (List.mem_singleton_self n), ht, e⟩
    · intro h
      exact absurd (h n (List.mem_singleton_self n) ht).symm hne

/-- What was found. -/
structure DtsFound (H au : List Bytes) (s : DTSExtractor) (f : Found) : Prop where
  idr : ∀ n, f.idr = some n → type264 n = some 5 ∧ n ∈ au ∧ ∀ x, s.spsp = some x → [s.sps, n].Sublist (H ++ au)
  nonIDR : ∀ n, f.nonIDR = some n → type264 n = some 1 ∧ n ∈ au

theorem dts_scan (nz : Bool) (au : List Bytes) : ∀ (H : List Bytes) (d : DTSExtractor), DtsWF d → DtsHist H d →
    Triple (fun s => s = d) (scan nz au) (fun s f => DtsScan H au d s ∧ DtsFound H au s f) (DtsScan H au d)
      (fun s => DtsScan H au d s ∧ [] ∈ au) := by
  induction au generalizing nz with
  | nil =>
    intro H d hw hh
    exact Triple.pure fun s hs => ⟨by rw [hs]; exact ⟨rfl, rfl, hw, by simpa using hh, fun _ => rfl⟩,
      ⟨fun n h => (by cases h), fun n h => (by cases h)⟩⟩
  | cons nalu l ih =>
    intro H d hw hh
    have keep : DtsScan H (nalu :: l) d d := ⟨rfl, rfl, hw, hh.mono (List.sublist_append_left ..), fun _ => rfl⟩
    unfold scan
    cases nalu with
    | nil => exact Triple.lift (fun _ s _ hs => hs ▸ keep) (fun s _ hs => ⟨hs ▸ keep, List.mem_cons_self ..⟩) fun b hb => by cases hb
    | cons b t =>
      refine Triple.lift (fun _ s _ hs => hs ▸ keep) (fun _ h _ => by cases h) fun b' hb => ?_
      rw [idx_zero_cons] at hb
      cases hb
      dsimp only
      have ht : type264 (b :: t) = some (b.toNat % 32) := rfl
      -- the rest, from a state that is related to the first one
      have rest : ∀ nz s1, DtsScan H [b :: t] d s1 → Triple (fun s => s = s1) (scan nz l)
          (fun s f => DtsScan H ((b :: t) :: l) d s ∧ DtsFound H ((b :: t) :: l) s f) (DtsScan H ((b :: t) :: l) d)
          (fun s => DtsScan H ((b :: t) :: l) d s ∧ [] ∈ (b :: t) :: l) := by
        intro nz s1 h1
        have conv : ∀ s, DtsScan (H ++ [b :: t]) l s1 s → DtsScan H ((b :: t) :: l) d s := by
          intro s h
          refine ⟨h.filled.trans h1.filled, h.prev.trans h1.prev, h.wf, by simpa using h.hist, fun hs => ?_⟩
          have e1 : s1 = d := h1.same fun n hn => hs n (by simp at hn; simp [hn])
          rw [← e1]
          exact h.same fun n hn ht => by rw [e1]; exact hs n (List.mem_cons_of_mem _ hn) ht
        refine (ih nz _ s1 h1.wf h1.hist).conseq (fun _ h => h) (fun s f h => ⟨conv s h.1, ?_⟩) conv
          fun s h => ⟨conv s h.1, List.mem_cons_of_mem _ h.2⟩
        refine ⟨fun n hn => ?_, fun n hn => ?_⟩
        · obtain ⟨g1, g2, g3⟩ := h.2.idr n hn
          exact ⟨g1, List.mem_cons_of_mem _ g2, fun x hx => by simpa using g3 x hx⟩
        · obtain ⟨g1, g2⟩ := h.2.nonIDR n hn
          exact ⟨g1, List.mem_cons_of_mem _ g2⟩
      refine Triple.ite (fun h7 => ?_) fun _ => Triple.ite (fun h5 => ?_) fun _ => Triple.ite (fun h1 => ?_) fun _ => ?_
      · rw [dts_typeEq] at h7
        refine Triple.bind ((dts_sps H d hw hh (b :: t) (by rw [ht, h7]; rfl)).conseq (fun _ h => h) (fun _ _ h => h)
          (fun s h => ?_) fun _ h => h.elim) fun _ s hs => rest _ s hs s rfl
        refine ⟨h.filled, h.prev, h.wf, h.hist.mono ?_, fun hs => h.same fun n hn => hs n (by simp at hn; simp [hn])⟩
        exact List.Sublist.append_left (List.Sublist.cons_cons _ (List.nil_sublist l)) H
      · rw [dts_typeEq] at h5
        refine Triple.pure fun s hs => ⟨hs ▸ keep, ⟨fun n hn => ?_, fun n hn => by cases hn⟩⟩
        cases hn
        refine ⟨by rw [ht, h5]; rfl, List.mem_cons_self .., fun x hx => ?_⟩
        rw [hs] at hx ⊢
        exact List.Sublist.append (List.singleton_sublist.2 (hh.sps x hx).1)
          (List.Sublist.cons_cons _ (List.nil_sublist l))
      · rw [dts_typeEq] at h1
        refine Triple.pure fun s hs => ⟨hs ▸ keep, ⟨fun n hn => (by cases hn), fun n hn => ?_⟩⟩
        cases hn
        exact ⟨by rw [ht, h1]; rfl, List.mem_cons_self ..⟩
      · exact rest _ d ⟨rfl, rfl, hw, hh.mono (List.sublist_append_left ..), fun _ => rfl⟩

/-! ## A call -/

/-- The state after a call, whatever it returns. -/
structure DtsStep (H au : List Bytes) (d s : DTSExtractor) : Prop where
  filled : s.prevDTSFilled = d.prevDTSFilled
  prev : s.prevDTS = d.prevDTS
  wf : DtsWF s
  hist : DtsHist (H ++ au) s
  same : DtsSame au d → s.sps = d.sps ∧ dtsPaused d ≤ dtsPaused s

/-- The value of a call that succeeds. -/
structure DtsResult (au : List Bytes) (d s : DTSExtractor) (pts : Int) (r : Int × Bool) : Prop where
  unchecked : r.2 = true → r.1 = pts ∨ d.prevDTSFilled = true ∧ r.1 = wrap64 (d.prevDTS + 90) ∧
    (DtsSame au d → dtsPaused d + 1 ≤ dtsPaused s)
  ready : ∃ x, s.spsp = some x ∧ (x.picOrderCntType = 2 ∨ x.frameMbsOnlyFlag = false ∨ s.randomReceived = true)

/-- What can make a call panic: an empty NAL unit, or an SPS that gives the picture order count no bits. -/
def DtsPanics (H au : List Bytes) : Prop :=
  [] ∈ au ∨ ∃ n x, n ∈ H ++ au ∧ type264 n = some 7 ∧ ({} : SPS).unmarshal n = .ok x ∧
    plus4 x.log2MaxPicOrderCntLsbMinus4 = 0

theorem DtsScan.step {H au : List Bytes} {d s : DTSExtractor} (h : DtsScan H au d s) : DtsStep H au d s :=
  ⟨h.filled, h.prev, h.wf, h.hist, fun hs => by rw [h.same hs]; exact ⟨rfl, Int.le_refl _⟩⟩

theorem dts_inner (H : List Bytes) (d : DTSExtractor) (hw : DtsWF d) (hh : DtsHist H d) (au : List Bytes) (pts : Int) :
    Triple (fun s => s = d) (extractInner au pts) (fun s r => DtsStep H au d s ∧ DtsResult au d s pts r)
      (DtsStep H au d) (fun s => DtsStep H au d s ∧ DtsPanics H au) := by
  unfold extractInner
  refine Triple.bind ((dts_scan false au H d hw hh).conseq (fun _ h => h) (fun _ _ h => h) (fun _ h => h.step)
    fun _ h => ⟨h.1.step, .inl h.2⟩) fun f => Triple.get fun d1 h1 => ?_
  obtain ⟨hs, hf⟩ := h1
  cases hx : d1.spsp with
  | none => exact Triple.fail fun s e => e ▸ hs.step
  | some x =>
    refine Triple.ite (fun hc => ?_) fun hc => Triple.ite (fun _ => Triple.fail fun s e => e ▸ hs.step) fun _ => ?_
    · refine Triple.pure fun s e => ⟨e ▸ hs.step, ⟨fun h => (by cases h), x, by rw [e]; exact hx, ?_⟩⟩
      rcases hc with h | h
      · exact .inl h
      · exact .inr (.inl h)
    · have hist : d1.randomReceived = true ∨ f.idr ≠ none → DtsHist (H ++ au) { d1 with randomReceived := true } := by
        intro h
        refine ⟨hs.hist.sps, fun _ => ?_⟩
        rcases h with h | h
        · exact hs.hist.idr h
        · cases hi : f.idr with
          | none => exact absurd hi h
          | some n =>
            obtain ⟨g1, g2, g3⟩ := hf.idr n hi
            exact ⟨n, g1, g3 x hx⟩
      refine Triple.bind (R := fun s _ => s = { d1 with randomReceived := true } ∧ DtsHist (H ++ au) s) ?_ fun _ => ?_
      · unfold checkRandom
        refine Triple.get fun a ha => Triple.ite (fun hr => ?_) fun _ => Triple.ite (fun _ => ?_) fun hn => ?_
        · refine Triple.pure fun s e => ?_
          have : s = { d1 with randomReceived := true } := by
            rw [e, ha]; rw [ha] at hr; rw [← hr]
          refine ⟨this, ?_⟩
          rw [this]
          exact hist (.inl (by rw [← ha]; exact hr))
        · exact Triple.fail fun s e => by rw [e, ha]; exact hs.step
        · refine Triple.modify' fun s e => ?_
          rw [e, ha]
          exact ⟨rfl, hist (.inr hn)⟩
      · intro s2 h2
        obtain ⟨e2, h2⟩ := h2
        have mid : DtsMid s2 s2 := ⟨rfl, rfl, rfl, rfl, rfl, by rw [e2]; exact ⟨hs.wf.1, hs.wf.2, hs.wf.3, hs.wf.4⟩, Int.le_refl _⟩
        have pe : dtsPaused s2 = dtsPaused d1 := by rw [e2]; rfl
        have step : ∀ s, DtsMid s2 s → DtsStep H au d s := by
          intro s h
          refine ⟨?_, ?_, h.wf, ⟨fun y hy => ?_, fun hr => ?_⟩, fun hsame => ?_⟩
          · rw [h.filled, e2]; exact hs.filled
          · rw [h.prev, e2]; exact hs.prev
          · rw [h.sps]; rw [h.spsp] at hy; exact h2.sps y hy
          · rw [h.sps]; rw [h.random] at hr; exact h2.idr hr
          · have e1 := hs.same hsame
            refine ⟨?_, ?_⟩
            · rw [h.sps, e2, e1]
            · have := h.paused; rw [pe, e1] at this; exact this
        refine (dts_frame s2 f x pts).conseq (P' := fun s => s = s2) (fun s e => e ▸ mid) (fun s r h => ⟨step s h.1, ?_⟩) step
          (fun _ hb => ?_) s2 rfl
        · refine ⟨step _ hb.1, ?_⟩
          replace hb := hb.2
          refine Classical.byContradiction fun hn => ?_
          have ne : ∀ n ∈ au, n ≠ [] := fun n hm e => hn (.inl (e ▸ hm))
          have pl : plus4 x.log2MaxPicOrderCntLsbMinus4 ≠ 0 := by
            intro h0
            obtain ⟨g1, g2, g3⟩ := hs.hist.sps x hx
            exact hn (.inr ⟨_, x, g1, g2, g3, h0⟩)
          rcases hb with ⟨n, g1, g2⟩ | ⟨n, g1, g2⟩
          · exact dts_poc n x true (ne n (hf.idr n g1).2.1) pl g2
          · exact dts_poc n x false (ne n (hf.nonIDR n g1).2) pl g2
        · refine ⟨fun hr => ?_, ?_⟩
          · rcases h.2 hr with g | ⟨g1, g2, g3⟩
            · exact .inl g
            · refine .inr ⟨?_, ?_, fun hsame => ?_⟩
              · rw [e2] at g1; rw [← hs.filled]; exact g1
              · rw [g2, e2]; show wrap64 (d1.prevDTS + 90) = _; rw [hs.prev]
              · rw [pe, hs.same hsame] at g3; exact g3
          · refine ⟨x, by rw [h.1.spsp, e2]; exact hx, .inr (.inr ?_)⟩
            rw [h.1.random, e2]

/-- The state after `Extract`. -/
structure DtsInv (H : List Bytes) (d : DTSExtractor) : Prop where
  wf : DtsWF d
  hist : DtsHist H d

theorem dts_extract (H : List Bytes) (d : DTSExtractor) (hd : DtsInv H d) (a : List Bytes × Int) :
    Triple (fun s => s = d) (extract a)
      (fun s v => DtsInv (H ++ a.1) s ∧ (DtsSame a.1 d → s.sps = d.sps ∧ dtsPaused d ≤ dtsPaused s) ∧
        s.prevDTSFilled = true ∧ s.prevDTS = v ∧ (d.prevDTSFilled = true → d.prevDTS ≤ v) ∧
        (v ≤ a.2 ∨ d.prevDTSFilled = true ∧ v = wrap64 (d.prevDTS + 90) ∧
          (DtsSame a.1 d → dtsPaused d + 1 ≤ dtsPaused s)) ∧
        ∃ x, s.spsp = some x ∧ (x.picOrderCntType = 2 ∨ x.frameMbsOnlyFlag = false ∨ s.randomReceived = true))
      (fun s => DtsInv (H ++ a.1) s ∧ (DtsSame a.1 d → s.sps = d.sps ∧ dtsPaused d ≤ dtsPaused s) ∧
        s.prevDTSFilled = d.prevDTSFilled ∧ s.prevDTS = d.prevDTS)
      (fun s => (DtsInv (H ++ a.1) s ∧ (DtsSame a.1 d → s.sps = d.sps ∧ dtsPaused d ≤ dtsPaused s) ∧
        s.prevDTSFilled = d.prevDTSFilled ∧ s.prevDTS = d.prevDTS) ∧ DtsPanics H a.1) := by
  unfold extract
  refine Triple.bind ((dts_inner H d hd.wf hd.hist a.1 a.2).conseq (fun _ h => h) (fun _ _ h => h)
    (fun s h => ⟨⟨h.wf, h.hist⟩, h.same, h.filled, h.prev⟩)
    fun _ h => ⟨⟨⟨h.1.wf, h.1.hist⟩, h.1.same, h.1.filled, h.1.prev⟩, h.2⟩) fun r => Triple.get fun s1 h1 => ?_
  obtain ⟨h1, h2⟩ := h1
  refine Triple.ite (fun _ => ?_) fun n1 => Triple.ite (fun _ => ?_) fun n2 => ?_
  · exact Triple.fail fun s e => by rw [e]; exact ⟨⟨h1.wf, h1.hist⟩, h1.same, h1.filled, h1.prev⟩
  · exact Triple.fail fun s e => by rw [e]; exact ⟨⟨h1.wf, h1.hist⟩, h1.same, h1.filled, h1.prev⟩
  · refine Triple.modify (R := fun s => s = { s1 with prevDTSFilled := true, prevDTS := r.1 }) (fun s e => by rw [e])
      (Triple.pure fun s e => ?_)
    rw [e]
    refine ⟨⟨⟨h1.wf.1, h1.wf.2, h1.wf.3, h1.wf.4⟩, ⟨h1.hist.sps, h1.hist.idr⟩⟩, h1.same, rfl, rfl, fun hf => ?_, ?_, h2.ready⟩
    · rw [h1.filled, h1.prev] at n2
      simp only [hf, true_and] at n2
      omega
    · cases hr : r.2 with
      | false => left; simp only [hr, true_and] at n1; omega
      | true =>
        rcases h2.unchecked hr with g | ⟨g1, g2, g3⟩
        · left; omega
        · exact .inr ⟨g1, g2, g3⟩

/-! ## Sequences of calls -/

theorem dts_new : DtsInv [] DTSExtractor.new :=
  ⟨⟨by decide, by decide, by decide, .inr (.inl rfl)⟩, ⟨fun x h => (by cases h), fun h => (by cases h)⟩⟩

/-- The last DTS, if any. -/
def dtsPast (d : DTSExtractor) : List Int := if d.prevDTSFilled then [d.prevDTS] else []

theorem dts_step (H : List Bytes) (d : DTSExtractor) (hd : DtsInv H d) (a : List Bytes × Int) :
    DtsInv (H ++ a.1) (extract a d).1 ∧
    (DtsSame a.1 d → (extract a d).1.sps = d.sps ∧ dtsPaused d ≤ dtsPaused (extract a d).1) ∧
    (∀ v, (extract a d).2 = .ok v → dtsPast (extract a d).1 = [v] ∧ ∀ w ∈ dtsPast d, w ≤ v) ∧
    ((∀ v, (extract a d).2 ≠ .ok v) → dtsPast (extract a d).1 = dtsPast d) := by
  have h := dts_extract H d hd a d rfl
  revert h
  rcases extract a d with ⟨s, v | m | _⟩
  · intro h
    obtain ⟨h1, h2, h3, h4, h5, -, -⟩ := h
    refine ⟨h1, h2, fun w hw => ?_, fun hn => absurd rfl (hn v)⟩
    cases hw
    refine ⟨by rw [dtsPast, if_pos h3, h4], fun w hw => ?_⟩
    unfold dtsPast at hw
    split at hw
    · rename_i hf
      simp only [List.mem_singleton] at hw
      rw [hw]; exact h5 hf
    · cases hw
  · intro h
    obtain ⟨h1, h2, h3, h4⟩ := h
    refine ⟨h1, h2, fun w hw => (by cases hw), fun _ => ?_⟩
    simp only [dtsPast, h3, h4]
  · intro h
    obtain ⟨⟨h1, h2, h3, h4⟩, -⟩ := h
    refine ⟨h1, h2, fun w hw => (by cases hw), fun _ => ?_⟩
    simp only [dtsPast, h3, h4]

theorem dts_calls (l : List (List Bytes × Int)) : ∀ (H : List Bytes) (d : DTSExtractor), DtsInv H d →
    (dtsPast d ++ returned (calls extract d l)).Pairwise (· ≤ ·) ∧
    DtsInv (H ++ units l) (after extract d l) ∧
    (dtsPast d ++ returned (calls extract d l)).getLast? = (dtsPast (after extract d l)).head? := by
  induction l with
  | nil =>
    intro H d hd
    refine ⟨?_, by simpa [units, after] using hd, ?_⟩
    · simp only [calls, returned, List.filterMap_nil, List.append_nil, dtsPast]
      split <;> simp
    · simp only [calls, returned, List.filterMap_nil, List.append_nil, dtsPast, after]
      by_cases h : d.prevDTSFilled = true <;> simp [h]
  | cons a l ih =>
    intro H d hd
    obtain ⟨h1, -, h3, h4⟩ := dts_step H d hd a
    obtain ⟨i1, i2, i3⟩ := ih _ _ h1
    refine ⟨?_, ?_, ?_⟩
    rotate_left
    · rw [show H ++ units (a :: l) = H ++ a.1 ++ units l by simp [units]]
      exact i2
    all_goals
      simp only [calls, after]
      cases e : (extract a d).2 with
      | ok v =>
        obtain ⟨g1, g2⟩ := h3 v e
        rw [g1] at i1 i3
        have er : ∀ rs, returned (Res.ok v :: rs) = v :: returned rs := fun _ => rfl
        rw [er]
        first
        | rw [← i3]
          simp [List.getLast?_append, List.getLast?_cons]
        | rw [List.pairwise_append]
          refine ⟨?_, i1, fun x hx y hy => ?_⟩
          · unfold dtsPast; split <;> simp
          · rcases List.mem_cons.1 hy with rfl | hy
            · exact g2 x hx
            · exact Int.le_trans (g2 x hx) ((List.pairwise_cons.1 i1).1 y hy)
      | err m =>
        rw [h4 (by rw [e]; simp)] at i1 i3
        first | exact i1 | exact i3
      | panic =>
        rw [h4 (by rw [e]; simp)] at i1 i3
        first | exact i1 | exact i3

/-! ## C11 -/

/-- C11: the DTS values that are returned never decrease. Calls that fail, or panic and are recovered from, may come in
between. -/
theorem C11_monotone (l : List (List Bytes × Int)) :
    (returned (calls extract DTSExtractor.new l)).Pairwise (· ≤ ·) :=
  (dts_calls l [] _ dts_new).1

/-! ## C12 -/

theorem dts_invAfter (l : List (List Bytes × Int)) :
    DtsInv (units l) (after extract DTSExtractor.new l) := by
  have := (dts_calls l [] _ dts_new).2.1
  simpa using this

/-- C12: a DTS that is returned is at most the PTS, or 90 more than the last DTS, which is what the extractor returns without
checking it against the PTS. -/
theorem C12_le_or_paused (l : List (List Bytes × Int)) (a : List Bytes × Int) (v : Int)
    (h : (extract a (after extract DTSExtractor.new l)).2 = .ok v) :
    v ≤ a.2 ∨ ∃ w, (returned (calls extract DTSExtractor.new l)).getLast? = some w ∧ v = wrap64 (w + 90) := by
  have hl := (dts_calls l [] _ dts_new).2.2
  have ht := dts_extract _ _ (dts_invAfter l) a _ rfl
  generalize hd : after extract DTSExtractor.new l = d at *
  rcases he : extract a d with ⟨s, r⟩
  rw [he] at ht h
  dsimp only at h
  subst h
  obtain ⟨-, -, -, -, -, h6, -⟩ := ht
  rcases h6 with h6 | ⟨g1, g2, -⟩
  · exact .inl h6
  · refine .inr ⟨d.prevDTS, ?_, g2⟩
    simp only [dtsPast, g1, if_true, List.head?_cons] at hl
    exact hl

theorem dts_exceeding (l : List (List Bytes × Int)) : ∀ (H : List Bytes) (d : DTSExtractor), DtsInv H d →
    (∀ n ∈ units l, type264 n = some 7 → n = d.sps) →
    (exceeding (calls extract d l) l : Int) + dtsPaused d ≤ 10 := by
  induction l with
  | nil =>
    intro H d hd _
    have := hd.wf.max
    have := hd.wf.pause
    have : exceeding (calls extract d []) [] = 0 := rfl
    simp only [this, dtsPaused]; omega
  | cons a l ih =>
    intro H d hd hs
    have hu : units (a :: l) = a.1 ++ units l := by simp [units]
    have sa : DtsSame a.1 d := fun n hn => hs n (by rw [hu]; exact List.mem_append_left _ hn)
    obtain ⟨h1, h2, -, -⟩ := dts_step H d hd a
    obtain ⟨g1, g2⟩ := h2 sa
    have := ih _ _ h1 fun n hn ht => by rw [g1]; exact hs n (by rw [hu]; exact List.mem_append_right _ hn) ht
    have ht := dts_extract H d hd a d rfl
    simp only [calls]
    revert ht this g2
    rcases extract a d with ⟨s, v | m | _⟩
    · intro i g ht
      obtain ⟨-, -, -, -, -, h6, -⟩ := ht
      simp only [exceeding]
      dsimp only at i g
      rcases h6 with h6 | ⟨-, -, h6⟩
      · rw [if_neg (by omega)]; omega
      · have := h6 sa
        split <;> omega
    · intro i g ht
      simp only [exceeding]
      dsimp only at i g
      omega
    · intro i g ht
      simp only [exceeding]
      dsimp only at i g
      omega

/-- C12: as long as no other SPS comes, at most ten of the calls that follow return a DTS greater than their PTS. -/
theorem C12_at_most_ten (l0 l : List (List Bytes × Int))
    (h : ∀ n ∈ units l, type264 n = some 7 → n = (after extract DTSExtractor.new l0).sps) :
    exceeding (calls extract (after extract DTSExtractor.new l0) l) l ≤ 10 := by
  have h1 := dts_exceeding l _ _ (dts_invAfter l0) h
  have h2 := (dts_invAfter l0).wf.le
  simp only [dtsPaused] at h1
  omega

/-- C12: the counters of the extractor stay small. -/
theorem C12_bounded (l : List (List Bytes × Int)) :
    let d := after extract DTSExtractor.new l
    0 ≤ d.pause ∧ d.pause ≤ d.reorderedFrames ∧ d.reorderedFrames ≤ 10 ∧
      (d.pocIncrement = 1 ∨ d.pocIncrement = 2 ∨ d.pocIncrement = 4) := by
  obtain ⟨h1, h2, h3, h4⟩ := (dts_invAfter l).wf
  exact ⟨h1, h2, h3, h4⟩

/-! ## C14 -/

/-- C14: a call succeeds only after an SPS that can be decoded; unless that SPS is of a stream without reordering
(`pic_order_cnt_type` 2) or with fields, only after an IDR that follows it. -/
theorem C14_h264_partial (l : List (List Bytes × Int)) (a : List Bytes × Int) (v : Int)
    (h : (extract a (after extract DTSExtractor.new l)).2 = .ok v) :
    ∃ p x, type264 p = some 7 ∧ ({} : SPS).unmarshal p = .ok x ∧ p ∈ units (l ++ [a]) ∧
      (x.picOrderCntType = 2 ∨ x.frameMbsOnlyFlag = false ∨
        ∃ i, type264 i = some 5 ∧ [p, i].Sublist (units (l ++ [a]))) := by
  have hu : units (l ++ [a]) = units l ++ a.1 := by simp [units]
  have ht := dts_extract _ _ (dts_invAfter l) a _ rfl
  rcases he : extract a (after extract DTSExtractor.new l) with ⟨s, r⟩
  rw [he] at ht h
  dsimp only at h
  subst h
  obtain ⟨h1, -, -, -, -, -, x, hx, h7⟩ := ht
  obtain ⟨g1, g2, g3⟩ := h1.hist.sps x hx
  rw [hu]
  refine ⟨s.sps, x, g2, g3, g1, ?_⟩
  rcases h7 with h | h | h
  · exact .inl h
  · exact .inr (.inl h)
  · exact .inr (.inr (h1.hist.idr h))

/-! ## C59 -/

/-- C59: no call panics, if no NAL unit is empty and no SPS gives the picture order count no bits: the standard allows 4 to
16, but `log2_max_pic_order_cnt_lsb_minus4` is not checked, and 4 is added to it modulo `2^32`. -/
theorem C59_h264_partial (l : List (List Bytes × Int)) (hn : [] ∉ units l)
    (hs : ∀ n ∈ units l, ∀ x, type264 n = some 7 → ({} : SPS).unmarshal n = .ok x →
      (x.log2MaxPicOrderCntLsbMinus4 + 4) % 2 ^ 32 ≠ 0) :
    Res.panic ∉ calls extract DTSExtractor.new l := by
  suffices h : ∀ (l : List (List Bytes × Int)) (H : List Bytes) (d : DTSExtractor), DtsInv H d → [] ∉ units l →
      (∀ n ∈ H ++ units l, ∀ x, type264 n = some 7 → ({} : SPS).unmarshal n = .ok x →
        plus4 x.log2MaxPicOrderCntLsbMinus4 ≠ 0) → Res.panic ∉ calls extract d l from
    h l [] _ dts_new hn (fun n hm x => hs n (by simpa using hm) x)
  intro l
  induction l with
  | nil => intro _ _ _ _ _ h; cases h
  | cons a l ih =>
    intro H d hd hn hs hm
    have hu : units (a :: l) = a.1 ++ units l := by simp [units]
    rw [hu] at hn hs
    rcases List.mem_cons.1 hm with hm | hm
    · have ht := dts_extract H d hd a d rfl
      rcases he : extract a d with ⟨s, r⟩
      rw [he] at ht hm
      dsimp only at hm
      subst hm
      rcases ht.2 with g | ⟨n, x, g1, g2, g3, g4⟩
      · exact hn (List.mem_append_left _ g)
      · exact hs n (by rw [← List.append_assoc]; exact List.mem_append_left _ g1) x g2 g3 g4
    · exact ih _ _ (dts_step H d hd a).1 (fun h => hn (List.mem_append_right _ h))
        (by rw [List.append_assoc]; exact hs) hm

/-! ## Examples and counterexamples -/

/-- The SPS of a stream with reordering (repository tests, "with timing info"). -/
def dtsSPS : Bytes :=
  [0x67, 0x64, 0x00, 0x28, 0xac, 0xd9, 0x40, 0x78, 0x02, 0x27, 0xe5, 0x84, 0x00, 0x00, 0x03, 0x00, 0x04, 0x00, 0x00, 0x03,
   0x00, 0xf0, 0x3c, 0x60, 0xc6, 0x58]

/-- A stream with reordering; the calls in between fail. -/
def dtsStream : List (List Bytes × Int) :=
  [([[0x41, 0x9a, 0x21]], 0),
   ([dtsSPS, [0x65, 0x88, 0x84, 0x00, 0x33, 0xff]], 56890),
   ([[0x41, 0x9a, 0x21, 0x6c, 0x45, 0xff]], 59890),
   ([[0x41, 0x9a, 0x21, 0x6c, 0x45, 0xff]], 100),
   ([[0x41, 0x9a, 0x42, 0x3c, 0x21, 0x93]], 62890),
   ([[0x41, 0x9a]], 62890),
   ([[0x41, 0x9a, 0x63, 0x49, 0xe1, 0x0f]], 65890)]

example : calls extract DTSExtractor.new dtsStream =
    [.err "SPS not received yet", .ok 56890, .ok 59890, .ok 59980, .ok 62890, .err "not enough bits", .ok 65890] := by
  decide +kernel

/-- A stream that starts with pictures to be shown before the IDR (repository tests, "B-frames after IDR"). -/
def dtsPausedStream : List (List Bytes × Int) :=
  [([[0x27, 0x64, 0x00, 0x2a, 0xac, 0x2d, 0x90, 0x07, 0x80, 0x22, 0x7e, 0x5c, 0x05, 0xa8, 0x08, 0x08, 0x0a, 0x00, 0x00, 0x03,
      0x00, 0x02, 0x00, 0x00, 0x03, 0x00, 0xf1, 0xd0, 0x80, 0x04, 0xc4, 0x80, 0x00, 0x09, 0x89, 0x68, 0xde, 0xf7, 0xc1, 0xda,
      0x1c, 0x31, 0x92], [0x65, 0x88, 0x80, 0x14, 0x03, 0xff, 0xde, 0x08, 0xe4, 0x74]], 172440)]

def dtsPausedNext : List (List Bytes × Int) :=
  [([[0x41, 0x9e, 0x03, 0xe4, 0x3f, 0x00, 0x00, 0x03, 0x00, 0x00]], 169470),
   ([[0x01, 0x9e, 0x05, 0xd4, 0x7f, 0x00, 0x00, 0x03, 0x00, 0x00]], 168030),
   ([[0x01, 0x9e, 0x05, 0xf4, 0x7f, 0x00, 0x00, 0x03, 0x00, 0x00]], 170910)]

/-- C12 without the exception: no DTS is greater than its PTS. -/
def C12_strict : Prop := ∀ (l : List (List Bytes × Int)) (a : List Bytes × Int) (v : Int),
  (extract a (after extract DTSExtractor.new l)).2 = .ok v → v ≤ a.2

/-- C12: the exception is needed. On a stream of the repository's tests the DTS is 172530 and the PTS 169470. -/
theorem C12_strict_false : ¬ C12_strict := by
  intro h
  exact absurd (h dtsPausedStream ([[0x41, 0x9e, 0x03, 0xe4, 0x3f, 0x00, 0x00, 0x03, 0x00, 0x00]], 169470) 172530
    (by decide +kernel)) (by decide)

example : exceeding (calls extract (after extract DTSExtractor.new dtsPausedStream) dtsPausedNext) dtsPausedNext = 3 ∧
    (∀ n ∈ units dtsPausedNext, type264 n = some 7 → n = (after extract DTSExtractor.new dtsPausedStream).sps) :=
  ⟨by decide +kernel, by decide +kernel⟩

/-- C14 as it was expected to hold for H264: the first call that succeeds has an IDR. -/
def C14_h264_statement : Prop := ∀ (l : List (List Bytes × Int)) (a : List Bytes × Int) (v : Int),
  returned (calls extract DTSExtractor.new l) = [] → (extract a (after extract DTSExtractor.new l)).2 = .ok v →
  ∃ n ∈ a.1, type264 n = some 5

/-- C14 is false for H264: after an SPS and an IDR whose slice header is cut, which fails, a picture that is not an IDR is
accepted. -/
theorem C14_h264_false : ¬ C14_h264_statement := by
  intro h
  have := h [([dtsSPS, [0x65]], 0)] ([[0x41, 0x9a, 0x21, 0x6c, 0x45, 0xff]], 3000) 3000 (by decide +kernel) (by decide +kernel)
  revert this
  decide +kernel

/-- Nor is it waited for when `pic_order_cnt_type` is 2. -/
example : calls extract DTSExtractor.new [([h264Mono, [0x41, 0x9a]], 3000)] = [.ok 3000] := by decide +kernel

/-- The SPS of an IDR that was received: the hypothesis and both conclusions of `C14_h264_partial`. -/
example : (extract ([[0x41, 0x9a, 0x21, 0x6c, 0x45, 0xff]], 59890)
    (after extract DTSExtractor.new [([dtsSPS, [0x65, 0x88, 0x84, 0x00, 0x33, 0xff]], 56890)])).2 = .ok 59890 := by
  decide +kernel

/-- C59 as it was expected to hold for H264. -/
def C59_h264_statement : Prop := ∀ l : List (List Bytes × Int), [] ∉ units l →
  Res.panic ∉ calls extract DTSExtractor.new l

/-- An SPS in which `log2_max_pic_order_cnt_lsb_minus4` is `2^32 - 4`. -/
def dtsWideSPS : Bytes :=
  [0x67, 0x42, 0xc0, 0x1e, 0xe0, 0x00, 0x00, 0x03, 0x00, 0x3f, 0xff, 0xff, 0xff, 0x50, 0x58, 0x9c, 0x80]

/-- C59 is false: with this SPS, an IDR of two bytes makes `Extract` panic. -/
theorem C59_h264_false : ¬ C59_h264_statement := by
  intro h
  exact absurd (h [([dtsWideSPS, [0x65, 0xe1]], 0)] (by decide)) (by decide +kernel)

/-- An empty NAL unit makes it panic too. -/
example : calls extract DTSExtractor.new [([[]], 0)] = [.panic] := by decide +kernel

theorem dtsSPS_decoded : (({} : SPS).unmarshal dtsSPS >>= fun x => .ok x.log2MaxPicOrderCntLsbMinus4) = .ok 2 := by
  decide +kernel

example : [] ∉ units dtsStream ∧ ∀ n ∈ units dtsStream, ∀ x, type264 n = some 7 → ({} : SPS).unmarshal n = .ok x →
    (x.log2MaxPicOrderCntLsbMinus4 + 4) % 2 ^ 32 ≠ 0 := by
  refine ⟨by decide, fun n hn x ht e => ?_⟩
  have : n = dtsSPS := by
    clear e
    revert n
    decide
  rw [this] at e
  have := dtsSPS_decoded
  rw [e] at this
  injection this with this
  rw [this]; decide

end Verif.Props
