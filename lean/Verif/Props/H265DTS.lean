import Verif.Model.H265DTS
import Verif.Lemmas.StepM
import Verif.Lemmas.BitPos
import Verif.Spec.DTS
import Verif.Props.H265SPS

/-!
# H265 DTS extractor: C13, C14, C59
-/

namespace Verif.Props
open Verif.Spec Verif.H265 Verif.BitM Verif.StepM
open Verif.H264 (plus4)
open Verif.Spec.DTS (returned units type265)
open TS (wrap64)

theorem hdts_type (b : UInt8) : ((b >>> 1) &&& 0x3F).toNat = b.toNat / 2 % 64 := by
  revert b; exact forall_u8 (by decide +kernel)

/-! ## Slice headers -/

theorem hdts_setIndex (buf : Bytes) (pos : Nat) (hp : pos ≤ 8 * buf.length) (sets : List RPS) (t : Nat) :
    At buf pos (readSetIndex sets t) fun _ _ => True := by
  unfold readSetIndex
  split
  · exact At.pure trivial
  · refine At.bind (At.readBits hp (.inl (by unfold ceilLog2; omega))) fun i q _ => ?_
    split
    · exact At.fail
    · unfold At
      simp only [bind_run, BitM.lift, idx_of_lt (show i < sets.length by omega)]
      trivial

theorem hdts_sliceSet (buf : Bytes) (pos : Nat) (hp : pos ≤ 8 * buf.length) (sets : List RPS) (hs : ∀ r ∈ sets, RpsWf r)
    (hl : sets.length < 2 ^ 32) (t : Nat) : At buf pos (readSliceSet sets t) fun _ _ => True := by
  unfold readSliceSet
  have h := refPicSet_exact sets hs true sets.length hl rfl
  rw [Nat.sub_self, List.replicate_zero, List.append_nil] at h
  exact At.bind (At.exact h (by omega)) fun _ _ _ => At.pure trivial

theorem hdts_slice (buf : Bytes) (typ : Nat) (sps : SPS) (pps : PPS) (hs : ∀ r ∈ sps.shortTermRefPicSets, RpsWf r)
    (hl : sps.shortTermRefPicSets.length < 2 ^ 32) (h0 : plus4 sps.log2MaxPicOrderCntLsbMinus4 ≠ 0) :
    (readSlice typ sps pps buf 8).NoPanic := by
  by_cases h8 : 16 ≤ 8 * buf.length
  · refine At.noPanic (Q := fun _ _ => True) ?_
    unfold readSlice
    refine At.bind (Q := fun _ q => q = 9) ?_ fun f q hq => ?_
    · unfold At BitM.readFlag
      have := Exact.readFlag'.tot buf 8 (by omega)
      cases e : BitM.readFlag buf 8 with
      | panic => exact absurd e this.1
      | err m => unfold BitM.readFlag at e; rw [e]; trivial
      | ok r =>
        obtain ⟨b, g, hl, _⟩ := this.2 r.1 r.2 e
        unfold BitM.readFlag at e; rw [e]
        have : b.length = 1 := by rw [show b = [r.1] from g]; rfl
        dsimp only
        omega
    subst hq
    cases f
    · exact At.fail
    refine At.bind (Q := fun _ q => q ≤ 10) ?_ fun _ q hq => ?_
    · unfold skipOutput
      split
      · show 9 + 1 ≤ 10; omega
      · show 9 ≤ 10; omega
    unfold readSliceTail
    refine At.bind (At.readUE (by omega)) fun _ p1 h1 => ?_
    refine At.bind (Q := fun _ q => q ≤ 8 * buf.length) ?_ fun _ p2 h2 => ?_
    · unfold skipExtra
      split
      · unfold At
        simp only [bind_run, BitM.hasSpace, Bits.hasSpace, BitM.skip]
        by_cases hh : pps.numExtraSliceHeaderBits > 8 * buf.length - p1
        · rw [if_pos (by omega)]; trivial
        · rw [if_neg (by omega)]; show p1 + _ ≤ _; omega
      · exact h1.1
    refine At.bind (At.readUE h2) fun t p3 h3 => ?_
    refine At.bind (Q := fun _ q => q ≤ 8 * buf.length) ?_ fun _ p4 h4 => ?_
    · unfold BitM.cond
      split
      · exact (At.exact Exact.readFlag' (by omega)).post fun _ _ h => h.1
      · exact h3.1
    refine At.bind (Q := fun _ q => q ≤ 8 * buf.length) ?_ fun _ p5 h5 => ?_
    · unfold BitM.cond
      split
      · exact (At.readBits h4 (.inl (by omega))).post fun _ _ h => h.2
      · exact h4
    refine At.bind (At.readBits h5 (.inl (by omega))) fun _ p6 h6 => ?_
    refine At.bind (At.exact Exact.readFlag' (by omega)) fun f p7 h7 => ?_
    cases f
    · exact hdts_sliceSet buf p7 h7.1 _ hs hl t
    · exact hdts_setIndex buf p7 h7.1 _ t
  · have : BitM.readFlag buf 8 = .err "not enough bits" := by
      unfold BitM.readFlag Bits.readFlag Bits.hasSpace
      rw [if_pos (by omega)]; rfl
    unfold readSlice
    rw [bind_run, this]
    intro e; cases e

theorem hdts_firstS0 (r : RPS) : firstS0 r ≠ .panic := by
  unfold firstS0
  split
  · simp
  · rw [idx_of_lt (by omega), Res.bind_ok]; simp

theorem hdts_ofSlice (typ t : Nat) (r : RPS) : diffOfSlice typ t r ≠ .panic := by
  unfold diffOfSlice
  split
  · split
    · simp
    · split
      · exact Res.noPanic_bind (hdts_firstS0 r) (by simp)
      · simp
  · exact hdts_firstS0 r

theorem hdts_diff (n : Bytes) (hn : n ≠ []) (sps : SPS) (pps : PPS) (hs : ∀ r ∈ sps.shortTermRefPicSets, RpsWf r)
    (hl : sps.shortTermRefPicSets.length < 2 ^ 32) (h0 : plus4 sps.log2MaxPicOrderCntLsbMinus4 ≠ 0) :
    getPTSDTSDiff n sps pps ≠ .panic := by
  obtain ⟨b, t, rfl⟩ := List.exists_cons_of_ne_nil hn
  unfold getPTSDTSDiff
  rw [idx_zero_cons, Res.bind_ok]
  dsimp only
  rw [sliceFrom_ok (by simp), Res.bind_ok, slice_ok (by omega) (by simp; omega), Res.bind_ok,
    H264.emulationPreventionRemove_eq, Res.bind_ok]
  refine Res.noPanic_bind (hdts_slice _ _ _ _ hs hl h0) fun r _ => ?_
  split
  · simp
  · exact hdts_ofSlice _ _ _

/-! ## State -/

/-- NAL units of a random access picture: IDR_W_RADL, IDR_N_LP, CRA_NUT. -/
def isRandom265 (n : Bytes) : Prop := type265 n = some 19 ∨ type265 n = some 20 ∨ type265 n = some 21

/-- What the state says about the NAL units that were received. -/
structure HdtsHist (H : List Bytes) (d : DTSExtractor) : Prop where
  sps : ∀ x, d.spsp = some x → d.sps ∈ H ∧ type265 d.sps = some 33 ∧ ({} : SPS).unmarshal d.sps = .ok x
  pps : ∀ x, d.ppsp = some x → d.pps ∈ H ∧ type265 d.pps = some 34 ∧ PPS.unmarshal d.pps = .ok x
  random : d.randomReceived = true → ∃ n, isRandom265 n ∧ [d.sps, n].Sublist H ∧
    ∃ q y, type265 q = some 34 ∧ PPS.unmarshal q = .ok y ∧ [q, n].Sublist H

structure HdtsScan (H au : List Bytes) (d s : DTSExtractor) : Prop where
  filled : s.prevDTSFilled = d.prevDTSFilled
  prev : s.prevDTS = d.prevDTS
  hist : HdtsHist (H ++ au) s

theorem HdtsHist.mono {H H' : List Bytes} {d : DTSExtractor} (h : HdtsHist H d) (hs : H.Sublist H') : HdtsHist H' d := by
  refine ⟨fun x hx => ?_, fun x hx => ?_, fun hr => ?_⟩
  · obtain ⟨h1, h2⟩ := h.sps x hx
    exact ⟨hs.subset h1, h2⟩
  · obtain ⟨h1, h2⟩ := h.pps x hx
    exact ⟨hs.subset h1, h2⟩
  · obtain ⟨n, h1, h2, q, y, h3, h4, h5⟩ := h.random hr
    exact ⟨n, h1, h2.trans hs, q, y, h3, h4, h5.trans hs⟩

theorem hdts_sps (H : List Bytes) (d : DTSExtractor) (hh : HdtsHist H d) (n : Bytes) (ht : type265 n = some 33) :
    Triple (fun s => s = d) (handleSPS n) (fun s _ => HdtsScan H [n] d s) (HdtsScan H [n] d) (fun _ => False) := by
  have keep : HdtsScan H [n] d d := ⟨rfl, rfl, hh.mono (List.sublist_append_left ..)⟩
  unfold handleSPS
  refine Triple.get fun a ha => Triple.ite (fun _ => Triple.pure fun s hs => by rw [hs, ha]; exact keep) fun hne => ?_
  cases e : ({} : SPS).unmarshal n with
  | panic => exact absurd e (C51_no_panic _ _)
  | err m => exact Triple.fail fun s hs => by rw [hs, ha]; exact keep
  | ok x =>
    refine Triple.modify' fun s hs => ?_
    rw [hs, ha]
    refine ⟨rfl, rfl, ⟨fun y hy => ?_, keep.hist.pps, fun h => by cases h⟩⟩
    cases hy
    exact ⟨List.mem_append_right _ (List.mem_singleton_self n), ht, e⟩

theorem hdts_pps (H : List Bytes) (d : DTSExtractor) (hh : HdtsHist H d) (n : Bytes) (ht : type265 n = some 34) :
    Triple (fun s => s = d) (handlePPS n) (fun s _ => HdtsScan H [n] d s) (HdtsScan H [n] d) (fun _ => False) := by
  have keep : HdtsScan H [n] d d := ⟨rfl, rfl, hh.mono (List.sublist_append_left ..)⟩
  unfold handlePPS
  refine Triple.get fun a ha => Triple.ite (fun _ => Triple.pure fun s hs => by rw [hs, ha]; exact keep) fun hne => ?_
  cases e : PPS.unmarshal n with
  | panic => exact absurd e (C51_pps_no_panic _)
  | err m => exact Triple.fail fun s hs => by rw [hs, ha]; exact keep
  | ok x =>
    refine Triple.modify' fun s hs => ?_
    rw [hs, ha]
    refine ⟨rfl, rfl, ⟨keep.hist.sps, fun y hy => ?_, keep.hist.random⟩⟩
    cases hy
    exact ⟨List.mem_append_right _ (List.mem_singleton_self n), ht, e⟩

/-- What was found: a random access picture comes after the parameter sets in use. -/
structure HdtsFound (H au : List Bytes) (s : DTSExtractor) (f : Found) : Prop where
  random : f.isRandom = true → ∃ n, isRandom265 n ∧ (∀ x, s.spsp = some x → [s.sps, n].Sublist (H ++ au)) ∧
    ∀ y, s.ppsp = some y → [s.pps, n].Sublist (H ++ au)
  slice : ∀ n, f = .cra n ∨ f = .nonIDR n → n ∈ au

theorem hdts_scan (au : List Bytes) : ∀ (H : List Bytes) (d : DTSExtractor), HdtsHist H d →
    Triple (fun s => s = d) (scan au) (fun s f => HdtsScan H au d s ∧ HdtsFound H au s f) (HdtsScan H au d)
      (fun s => HdtsScan H au d s ∧ [] ∈ au) := by
  induction au with
  | nil =>
    intro H d hh
    exact Triple.pure fun s hs => ⟨by rw [hs]; exact ⟨rfl, rfl, by simpa using hh⟩,
      ⟨fun h => (by cases h), fun n h => (by rcases h with h | h <;> cases h)⟩⟩
  | cons nalu l ih =>
    intro H d hh
    have keep : HdtsScan H (nalu :: l) d d := ⟨rfl, rfl, hh.mono (List.sublist_append_left ..)⟩
    unfold scan
    cases nalu with
    | nil => exact Triple.lift (fun _ s _ hs => hs ▸ keep) (fun s _ hs => ⟨hs ▸ keep, List.mem_cons_self ..⟩) fun b hb => by cases hb
    | cons b t =>
      refine Triple.lift (fun _ s _ hs => hs ▸ keep) (fun _ h _ => by cases h) fun b' hb => ?_
      rw [idx_zero_cons] at hb
      cases hb
      dsimp only
      rw [hdts_type]
      have ht : type265 (b :: t) = some (b.toNat / 2 % 64) := rfl
      have sub1 : (H ++ [b :: t]).Sublist (H ++ (b :: t) :: l) :=
        List.Sublist.append_left (List.Sublist.cons_cons _ (List.nil_sublist l)) H
      have rest : ∀ s1, HdtsScan H [b :: t] d s1 → Triple (fun s => s = s1) (scan l)
          (fun s f => HdtsScan H ((b :: t) :: l) d s ∧ HdtsFound H ((b :: t) :: l) s f) (HdtsScan H ((b :: t) :: l) d)
          (fun s => HdtsScan H ((b :: t) :: l) d s ∧ [] ∈ (b :: t) :: l) := by
        intro s1 h1
        have conv : ∀ s, HdtsScan (H ++ [b :: t]) l s1 s → HdtsScan H ((b :: t) :: l) d s := fun s h =>
          ⟨h.filled.trans h1.filled, h.prev.trans h1.prev, by simpa using h.hist⟩
        refine (ih _ s1 h1.hist).conseq (fun _ h => h) (fun s f h => ⟨conv s h.1, ?_⟩) conv
          fun s h => ⟨conv s h.1, List.mem_cons_of_mem _ h.2⟩
        refine ⟨fun hr => ?_, fun n hn => List.mem_cons_of_mem _ (h.2.slice n hn)⟩
        obtain ⟨n, g1, g2, g3⟩ := h.2.random hr
        exact ⟨n, g1, fun x hx => by simpa using g2 x hx, fun x hx => by simpa using g3 x hx⟩
      have found : isRandom265 (b :: t) → ∃ n, isRandom265 n ∧
          (∀ x, d.spsp = some x → [d.sps, n].Sublist (H ++ (b :: t) :: l)) ∧
          ∀ y, d.ppsp = some y → [d.pps, n].Sublist (H ++ (b :: t) :: l) := fun hr =>
        ⟨b :: t, hr, fun x hx => List.Sublist.append (List.singleton_sublist.2 (hh.sps x hx).1)
          (List.Sublist.cons_cons _ (List.nil_sublist l)), fun y hy =>
          List.Sublist.append (List.singleton_sublist.2 (hh.pps y hy).1) (List.Sublist.cons_cons _ (List.nil_sublist l))⟩
      refine Triple.ite (fun h33 => ?_) fun _ => Triple.ite (fun h34 => ?_) fun _ => Triple.ite (fun hi => ?_) fun _ =>
        Triple.ite (fun hc => ?_) fun _ => Triple.ite (fun hn => ?_) fun _ => ?_
      · refine Triple.bind ((hdts_sps H d hh (b :: t) (by rw [ht, h33])).conseq (fun _ h => h) (fun _ _ h => h)
          (fun s h => ⟨h.filled, h.prev, h.hist.mono sub1⟩) fun _ h => h.elim) fun _ s hs => rest s hs s rfl
      · refine Triple.bind ((hdts_pps H d hh (b :: t) (by rw [ht, h34])).conseq (fun _ h => h) (fun _ _ h => h)
          (fun s h => ⟨h.filled, h.prev, h.hist.mono sub1⟩) fun _ h => h.elim) fun _ s hs => rest s hs s rfl
      · refine Triple.pure fun s hs => ⟨hs ▸ keep, ⟨fun _ => ?_, fun n h => (by rcases h with h | h <;> cases h)⟩⟩
        rw [hs]
        refine found ?_
        rcases hi with hi | hi
        · exact .inl (by rw [ht, hi])
        · exact .inr (.inl (by rw [ht, hi]))
      · refine Triple.pure fun s hs => ⟨hs ▸ keep, ⟨fun _ => ?_, fun n h => ?_⟩⟩
        · rw [hs]
          exact found (.inr (.inr (by rw [ht, hc])))
        · rcases h with h | h <;> cases h
          exact List.mem_cons_self ..
      · refine Triple.pure fun s hs => ⟨hs ▸ keep, ⟨fun h => (by cases h), fun n h => ?_⟩⟩
        rcases h with h | h <;> cases h
        exact List.mem_cons_self ..
      · exact rest d ⟨rfl, rfl, hh.mono (List.sublist_append_left ..)⟩

/-! ## A call -/

/-- What can make a call panic: an empty NAL unit, or an SPS that gives the picture order count no bits. -/
def HdtsPanics (H au : List Bytes) : Prop :=
  [] ∈ au ∨ ∃ n x, n ∈ H ++ au ∧ type265 n = some 33 ∧ ({} : SPS).unmarshal n = .ok x ∧
    plus4 x.log2MaxPicOrderCntLsbMinus4 = 0

theorem hdts_finish (H au : List Bytes) (d : DTSExtractor) (diff pts : Int) (sps : SPS) :
    Triple (HdtsScan H au d) (finish diff pts sps) (fun s _ => HdtsScan H au d s) (HdtsScan H au d) (fun _ => False) := by
  unfold finish
  refine Triple.get fun a ha => ?_
  dsimp only
  refine Triple.ite (fun _ => Triple.fail fun s hs => hs ▸ ha) fun _ => Triple.ite (fun _ => ?_) fun _ => Triple.ite (fun _ => ?_) fun _ => ?_
  · refine Triple.modify (R := HdtsScan H au d) (fun s hs => ?_) (Triple.ite (fun _ => ?_) fun _ => ?_)
    · rw [hs]; exact ⟨ha.filled, ha.prev, ⟨ha.hist.sps, ha.hist.pps, ha.hist.random⟩⟩
    · exact Triple.pure fun s hs => hs
    · exact Triple.pure fun s hs => hs
  · exact Triple.ite (fun _ => by omega) fun _ => Triple.pure fun s hs => hs ▸ ha
  · exact Triple.pure fun s hs => hs ▸ ha

/-- The parameter sets and a random access picture were received. -/
def HdtsReady (s : DTSExtractor) : Prop := s.randomReceived = true ∧ (∃ x, s.spsp = some x) ∧ ∃ y, s.ppsp = some y

theorem hdts_finish_ready (diff pts : Int) (sps : SPS) :
    Triple HdtsReady (finish diff pts sps) (fun s _ => HdtsReady s) (fun _ => True) (fun _ => True) := by
  unfold finish
  refine Triple.get fun a ha => ?_
  dsimp only
  refine Triple.ite (fun _ => Triple.fail fun _ _ => trivial) fun _ => Triple.ite (fun _ => ?_) fun _ =>
    Triple.ite (fun _ => Triple.ite (fun _ => Triple.panic fun _ _ => trivial) fun _ => ?_) fun _ => ?_
  · refine Triple.modify (R := HdtsReady) (fun s hs => ?_) (Triple.ite (fun _ => ?_) fun _ => ?_)
    · rw [hs]; exact ha
    · exact Triple.pure fun s hs => hs
    · exact Triple.pure fun s hs => hs
  · exact Triple.pure fun s hs => hs ▸ ha
  · exact Triple.pure fun s hs => hs ▸ ha

theorem hdts_inner (H : List Bytes) (d : DTSExtractor) (hh : HdtsHist H d) (au : List Bytes) (pts : Int) :
    Triple (fun s => s = d) (extractInner au pts) (fun s _ => HdtsScan H au d s ∧ HdtsReady s) (HdtsScan H au d)
      (fun s => HdtsScan H au d s ∧ HdtsPanics H au) := by
  unfold extractInner
  refine Triple.bind ((hdts_scan au H d hh).conseq (fun _ h => h) (fun _ _ h => h) (fun _ h => h)
    fun _ h => ⟨h.1, .inl h.2⟩) fun f => Triple.get fun d1 h1 => ?_
  obtain ⟨hs, hf⟩ := h1
  cases hx : d1.spsp with
  | none => exact Triple.fail fun s e => e ▸ hs
  | some x =>
    cases hy : d1.ppsp with
    | none => exact Triple.fail fun s e => e ▸ hs
    | some y =>
      obtain ⟨x1, x2, x3⟩ := hs.hist.sps x hx
      obtain ⟨y1, y2, y3⟩ := hs.hist.pps y hy
      refine Triple.bind (R := fun s _ => HdtsScan H au d s ∧ HdtsReady s) ?_ fun _ => ?_
      · unfold checkRandom
        refine Triple.get fun a ha => Triple.ite (fun hr => ?_) fun _ => Triple.ite (fun hi => ?_) fun _ => ?_
        · refine Triple.pure fun s e => ?_
          rw [e]
          refine ⟨ha ▸ hs, hr, ?_⟩
          rw [ha]
          exact ⟨⟨x, hx⟩, ⟨y, hy⟩⟩
        · refine Triple.modify' fun s e => ?_
          rw [e, ha]
          refine ⟨⟨hs.filled, hs.prev, ⟨hs.hist.sps, hs.hist.pps, fun _ => ?_⟩⟩, rfl, ⟨x, hx⟩, ⟨y, hy⟩⟩
          obtain ⟨n, g1, g2, g3⟩ := hf.random hi
          exact ⟨n, g1, g2 x hx, d1.pps, y, y2, y3, g3 y hy⟩
        · exact Triple.fail fun s e => by rw [e, ha]; exact hs
      · refine Triple.lift (fun _ _ _ h => h.1) (fun s e h => ⟨h.1, ?_⟩) fun diff _ => ?_
        · refine Classical.byContradiction fun hn => ?_
          have ne : ∀ n ∈ au, n ≠ [] := fun n hm e => hn (.inl (e ▸ hm))
          have pl : plus4 x.log2MaxPicOrderCntLsbMinus4 ≠ 0 := fun h0 => hn (.inr ⟨_, x, x1, x2, x3, h0⟩)
          have ok := C51_bounds {} x _ x3
          have wf : ∀ r ∈ x.shortTermRefPicSets, RpsWf r := fun r hr => by
            obtain ⟨g1, g2, g3, g4, _⟩ := ok.set r hr
            exact ⟨g1, g2, g3, g4⟩
          have hl : x.shortTermRefPicSets.length < 2 ^ 32 := Nat.lt_of_le_of_lt ok.sets (by decide)
          cases f with
          | idr => cases e
          | nothing => cases e
          | cra n => exact hdts_diff n (ne n (hf.slice n (.inl rfl))) x y wf hl pl e
          | nonIDR n => exact hdts_diff n (ne n (hf.slice n (.inr rfl))) x y wf hl pl e
        · exact (Triple.and (hdts_finish H au d diff pts x) (hdts_finish_ready diff pts x)).conseq (fun _ h => h)
            (fun _ _ h => h) (fun _ h => h.1) fun _ h => h.1.elim

theorem hdts_extract (H : List Bytes) (d : DTSExtractor) (hd : HdtsHist H d) (a : List Bytes × Int) :
    Triple (fun s => s = d) (extract a)
      (fun s v => HdtsHist (H ++ a.1) s ∧ s.prevDTSFilled = true ∧ s.prevDTS = v ∧
        (d.prevDTSFilled = true → d.prevDTS ≤ v) ∧ v ≤ a.2 ∧ HdtsReady s)
      (fun s => HdtsHist (H ++ a.1) s ∧ s.prevDTSFilled = d.prevDTSFilled ∧ s.prevDTS = d.prevDTS)
      (fun s => (HdtsHist (H ++ a.1) s ∧ s.prevDTSFilled = d.prevDTSFilled ∧ s.prevDTS = d.prevDTS) ∧
        HdtsPanics H a.1) := by
  unfold extract
  refine Triple.bind ((hdts_inner H d hd a.1 a.2).conseq (fun _ h => h) (fun _ _ h => h)
    (fun s h => ⟨h.hist, h.filled, h.prev⟩) fun _ h => ⟨⟨h.1.hist, h.1.filled, h.1.prev⟩, h.2⟩)
    fun r => Triple.get fun s1 h1 => ?_
  obtain ⟨h1, h2⟩ := h1
  refine Triple.ite (fun _ => ?_) fun n1 => Triple.ite (fun _ => ?_) fun n2 => ?_
  · exact Triple.fail fun s e => by rw [e]; exact ⟨h1.hist, h1.filled, h1.prev⟩
  · exact Triple.fail fun s e => by rw [e]; exact ⟨h1.hist, h1.filled, h1.prev⟩
  · refine Triple.modify (R := fun s => s = { s1 with prevDTSFilled := true, prevDTS := r }) (fun s e => by rw [e])
      (Triple.pure fun s e => ?_)
    rw [e]
    refine ⟨⟨h1.hist.sps, h1.hist.pps, h1.hist.random⟩, rfl, rfl, fun hf => ?_, by omega, h2⟩
    rw [h1.filled, h1.prev] at n2
    simp only [hf, true_and] at n2
    omega

/-! ## Sequences of calls -/

theorem hdts_new : HdtsHist [] {} := ⟨fun _ h => (by cases h), fun _ h => (by cases h), fun h => (by cases h)⟩

def hdtsPast (d : DTSExtractor) : List Int := if d.prevDTSFilled then [d.prevDTS] else []

theorem hdts_step (H : List Bytes) (d : DTSExtractor) (hd : HdtsHist H d) (a : List Bytes × Int) :
    HdtsHist (H ++ a.1) (extract a d).1 ∧
    (∀ v, (extract a d).2 = .ok v → hdtsPast (extract a d).1 = [v] ∧ ∀ w ∈ hdtsPast d, w ≤ v) ∧
    ((∀ v, (extract a d).2 ≠ .ok v) → hdtsPast (extract a d).1 = hdtsPast d) := by
  have h := hdts_extract H d hd a d rfl
  revert h
  rcases extract a d with ⟨s, v | m | _⟩
  · intro h
    obtain ⟨h1, h3, h4, h5, -, -⟩ := h
    refine ⟨h1, fun w hw => ?_, fun hn => absurd rfl (hn v)⟩
    cases hw
    refine ⟨by rw [hdtsPast, if_pos h3, h4], fun w hw => ?_⟩
    unfold hdtsPast at hw
    split at hw
    · rename_i hf
      simp only [List.mem_singleton] at hw
      rw [hw]; exact h5 hf
    · cases hw
  · intro h
    obtain ⟨h1, h3, h4⟩ := h
    refine ⟨h1, fun w hw => (by cases hw), fun _ => ?_⟩
    simp only [hdtsPast, h3, h4]
  · intro h
    obtain ⟨⟨h1, h3, h4⟩, -⟩ := h
    refine ⟨h1, fun w hw => (by cases hw), fun _ => ?_⟩
    simp only [hdtsPast, h3, h4]

theorem hdts_calls (l : List (List Bytes × Int)) : ∀ (H : List Bytes) (d : DTSExtractor), HdtsHist H d →
    (hdtsPast d ++ returned (calls extract d l)).Pairwise (· ≤ ·) ∧ HdtsHist (H ++ units l) (after extract d l) := by
  induction l with
  | nil =>
    intro H d hd
    refine ⟨?_, by simpa [units, after] using hd⟩
    simp only [calls, returned, List.filterMap_nil, List.append_nil, hdtsPast]
    split <;> simp
  | cons a l ih =>
    intro H d hd
    obtain ⟨h1, h3, h4⟩ := hdts_step H d hd a
    obtain ⟨i1, i2⟩ := ih _ _ h1
    refine ⟨?_, ?_⟩
    · simp only [calls]
      cases e : (extract a d).2 with
      | ok v =>
        obtain ⟨g1, g2⟩ := h3 v e
        rw [g1] at i1
        have er : ∀ rs, returned (Res.ok v :: rs) = v :: returned rs := fun _ => rfl
        rw [er, List.pairwise_append]
        refine ⟨?_, i1, fun x hx y hy => ?_⟩
        · unfold hdtsPast; split <;> simp
        · rcases List.mem_cons.1 hy with rfl | hy
          · exact g2 x hx
          · exact Int.le_trans (g2 x hx) ((List.pairwise_cons.1 i1).1 y hy)
      | err m => rw [h4 (by rw [e]; simp)] at i1; exact i1
      | panic => rw [h4 (by rw [e]; simp)] at i1; exact i1
    · rw [show H ++ units (a :: l) = H ++ a.1 ++ units l by simp [units]]
      exact i2

theorem hdts_invAfter (l : List (List Bytes × Int)) : HdtsHist (units l) (after extract {} l) := by
  have := (hdts_calls l [] _ hdts_new).2
  simpa using this

/-! ## C13 -/

/-- C13: the DTS values that are returned never decrease. -/
theorem C13_monotone (l : List (List Bytes × Int)) : (returned (calls extract {} l)).Pairwise (· ≤ ·) :=
  (hdts_calls l [] _ hdts_new).1

/-- C13: a DTS that is returned is at most the PTS. -/
theorem C13_le_pts (l : List (List Bytes × Int)) (a : List Bytes × Int) (v : Int)
    (h : (extract a (after extract {} l)).2 = .ok v) : v ≤ a.2 := by
  have ht := hdts_extract _ _ (hdts_invAfter l) a _ rfl
  rcases he : extract a (after extract {} l) with ⟨s, r⟩
  rw [he] at ht h
  dsimp only at h
  subst h
  obtain ⟨-, -, -, -, h5, -⟩ := ht
  exact h5

/-! ## C14 -/

/-- C14: a call succeeds only after an SPS that can be decoded, a random access picture that follows it, and a PPS that can be
decoded and comes before that picture. -/
theorem C14_h265_partial (l : List (List Bytes × Int)) (a : List Bytes × Int) (v : Int)
    (h : (extract a (after extract {} l)).2 = .ok v) :
    ∃ p x q y n, type265 p = some 33 ∧ ({} : SPS).unmarshal p = .ok x ∧ type265 q = some 34 ∧ PPS.unmarshal q = .ok y ∧
      (type265 n = some 19 ∨ type265 n = some 20 ∨ type265 n = some 21) ∧
      [p, n].Sublist (units (l ++ [a])) ∧ [q, n].Sublist (units (l ++ [a])) := by
  have hu : units (l ++ [a]) = units l ++ a.1 := by simp [units]
  have ht := hdts_extract _ _ (hdts_invAfter l) a _ rfl
  rcases he : extract a (after extract {} l) with ⟨s, r⟩
  rw [he] at ht h
  dsimp only at h
  subst h
  obtain ⟨h1, -, -, -, -, hr, ⟨x, hx⟩, -⟩ := ht
  obtain ⟨g1, g2, g3⟩ := h1.sps x hx
  obtain ⟨n, n1, n2, q, y, q1, q2, q3⟩ := h1.random hr
  rw [hu]
  exact ⟨s.sps, x, q, y, n, g2, g3, q1, q2, n1, n2, q3⟩

/-! ## C59 -/

/-- C59: no call panics, if no NAL unit is empty and no SPS gives the picture order count no bits. -/
theorem C59_h265_partial (l : List (List Bytes × Int)) (hn : [] ∉ units l)
    (hs : ∀ n ∈ units l, ∀ x, type265 n = some 33 → ({} : SPS).unmarshal n = .ok x →
      (x.log2MaxPicOrderCntLsbMinus4 + 4) % 2 ^ 32 ≠ 0) :
    Res.panic ∉ calls extract {} l := by
  suffices h : ∀ (l : List (List Bytes × Int)) (H : List Bytes) (d : DTSExtractor), HdtsHist H d → [] ∉ units l →
      (∀ n ∈ H ++ units l, ∀ x, type265 n = some 33 → ({} : SPS).unmarshal n = .ok x →
        plus4 x.log2MaxPicOrderCntLsbMinus4 ≠ 0) → Res.panic ∉ calls extract d l from
    h l [] _ hdts_new hn (fun n hm x => hs n (by simpa using hm) x)
  intro l
  induction l with
  | nil => intro _ _ _ _ _ h; cases h
  | cons a l ih =>
    intro H d hd hn hs hm
    have hu : units (a :: l) = a.1 ++ units l := by simp [units]
    rw [hu] at hn hs
    rcases List.mem_cons.1 hm with hm | hm
    · have ht := hdts_extract H d hd a d rfl
      rcases he : extract a d with ⟨s, r⟩
      rw [he] at ht hm
      dsimp only at hm
      subst hm
      rcases ht.2 with g | ⟨n, x, g1, g2, g3, g4⟩
      · exact hn (List.mem_append_left _ g)
      · exact hs n (by rw [← List.append_assoc]; exact List.mem_append_left _ g1) x g2 g3 g4
    · exact ih _ _ (hdts_step H d hd a).1 (fun h => hn (List.mem_append_right _ h))
        (by rw [List.append_assoc]; exact hs) hm

/-! ## Examples and counterexamples -/

/-- A PPS of the repository's tests ("with timing info, IDR"); `h265Sample` is the SPS. -/
def hdtsPPS : Bytes := [0x44, 0x01, 0xc1, 0x72, 0xb4, 0x62, 0x40]

/-- A picture that is not a random access one, of the same stream. -/
def hdtsTrail : Bytes :=
  [0x02, 0x01, 0xd0, 0x19, 0x5f, 0x8c, 0xb4, 0x42, 0x49, 0x20, 0x40, 0x11, 0x16, 0x92, 0x93, 0xea, 0x54, 0x57, 0x4e, 0x0a]

/-- A stream; some calls fail. -/
def hdtsStream : List (List Bytes × Int) :=
  [([hdtsTrail], 0), ([h265Sample], 0), ([hdtsPPS, hdtsTrail], 0),
   ([h265Sample, hdtsPPS, [0x26, 0x01, 0xaf, 0x08, 0x42, 0x23, 0x48, 0x8a, 0x43, 0xe2]], 0),
   ([hdtsTrail], 9000), ([hdtsTrail], -7000),
   ([[0x02, 0x01, 0xe0, 0x44, 0x97, 0xe0, 0x81, 0x20, 0x44, 0x52, 0x62, 0x7a, 0x1b, 0x88, 0x0b, 0x21, 0x26, 0x5f, 0x10, 0x9c]],
    5999)]

example : calls extract {} hdtsStream =
    [.err "SPS not received yet", .err "PPS not received yet", .err "random access frame not received yet",
     .ok (-6000), .ok (-5910), .err "DTS is greater than PTS", .ok (-1941)] := by decide +kernel

/-- C14 as it was expected to hold for H265: the first call that succeeds has a random access picture. -/
def C14_h265_statement : Prop := ∀ (l : List (List Bytes × Int)) (a : List Bytes × Int) (v : Int),
  returned (calls extract {} l) = [] → (extract a (after extract {} l)).2 = .ok v → ∃ n ∈ a.1, isRandom265 n

/-- C14 is false for H265: after a CRA whose slice header is cut, which fails, a picture that is not a random access one is
accepted. -/
theorem C14_h265_false : ¬ C14_h265_statement := by
  intro h
  have := h [([h265Sample, hdtsPPS, [0x2a, 0x01]], 0)] ([hdtsTrail], 9000) (-3000) (by decide +kernel) (by decide +kernel)
  revert this
  unfold isRandom265
  decide +kernel

/-- C59 as it was expected to hold for H265. -/
def C59_h265_statement : Prop := ∀ l : List (List Bytes × Int), [] ∉ units l → Res.panic ∉ calls extract {} l

/-- An SPS in which `log2_max_pic_order_cnt_lsb_minus4` is `2^32 - 4`. -/
def hdtsWideSPS : Bytes :=
  [0x42, 0x01, 0x01, 0x01, 0x60, 0x00, 0x00, 0x03, 0x00, 0x90, 0x00, 0x00, 0x03, 0x00, 0x00, 0x03, 0x00, 0x5d, 0xa0, 0x05,
   0x02, 0x01, 0xe1, 0x60, 0x00, 0x00, 0x03, 0x00, 0x3f, 0xff, 0xff, 0xff, 0x65, 0x66, 0x92, 0x44, 0x9a, 0xd0]

/-- C59 is false: with this SPS and a PPS with 4 extra bits, a CRA of three bytes makes `Extract` panic. -/
theorem C59_h265_false : ¬ C59_h265_statement := by
  intro h
  exact absurd (h [([hdtsWideSPS, [0x44, 0x01, 0xc9], [0x2a, 0x01, 0xa1]], 0)] (by decide)) (by decide +kernel)

theorem h265Sample_poc : (({} : SPS).unmarshal h265Sample >>= fun x => .ok x.log2MaxPicOrderCntLsbMinus4) = .ok 4 := by
  decide +kernel

example : [] ∉ units hdtsStream ∧ ∀ n ∈ units hdtsStream, ∀ x, type265 n = some 33 → ({} : SPS).unmarshal n = .ok x →
    (x.log2MaxPicOrderCntLsbMinus4 + 4) % 2 ^ 32 ≠ 0 := by
  refine ⟨by decide, fun n hn x ht e => ?_⟩
  have : n = h265Sample := by
    clear e
    revert n
    decide
  rw [this] at e
  have := h265Sample_poc
  rw [e] at this
  injection this with this
  rw [this]; decide

end Verif.Props
