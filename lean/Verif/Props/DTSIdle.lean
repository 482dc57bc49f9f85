import Verif.Model.MPEGTS
import Verif.Props.DTSBuffers
import Verif.Lemmas.Util
import Mathlib.Data.List.Forall2

/-!
# Property C117: DTS depend on parameter sets and first slices only
-/

namespace Verif.Props

/-! ## H264 -/

/-- The type of a NAL unit of H264 (ISO 14496-10, 7.3.1): the low five bits of the first byte. -/
def idle_type264 (b : UInt8) : Nat := b.toNat % 32

/-- `nal_ref_idc` of a NAL unit of H264 (ISO 14496-10, 7.3.1): two bits of the first byte. -/
def idle_ref264 (b : UInt8) : Nat := b.toNat / 32 % 4

/-- A NAL unit that is neither an SPS nor a slice. -/
def idleOther264 : Bytes → Bool
  | [] => false
  | b :: _ => idle_type264 b ≠ 1 && idle_type264 b ≠ 5 && idle_type264 b ≠ 7

/-- A NAL unit that is neither an SPS nor a slice and that is not needed by other pictures. Delimiters, SEI, end of sequence, end of stream and
filler data are such units: the standard wants them to have `nal_ref_idc` 0 (ISO 14496-10, 7.4.1). -/
def idle264 : Bytes → Bool
  | [] => false
  | b :: n => idleOther264 (b :: n) && idle_ref264 b = 0

/-- A slice of a picture that is or is not an IDR. -/
def idleSlice264 : Bytes → Bool
  | [] => false
  | b :: _ => idle_type264 b = 1 || idle_type264 b = 5

/-- What is left of an access unit when units `p` are removed, and everything after the first slice. -/
def idleCore (p slice : Bytes → Bool) : List Bytes → List Bytes
  | [] => []
  | n :: l => if slice n then [n] else if p n then idleCore p slice l else n :: idleCore p slice l

theorem idle_bits264 : ∀ b : UInt8, (b &&& 0x1F).toNat = idle_type264 b ∧ (b &&& 0x60 > 0 ↔ idle_ref264 b ≠ 0) := by
  unfold idle_type264 idle_ref264
  exact forall_u8 (by decide +kernel)

theorem idle_typ264 (b v : UInt8) : b &&& 0x1F = v ↔ idle_type264 b = v.toNat := by
  rw [← (idle_bits264 b).1, UInt8.toNat_inj]

theorem idle_step264 (nz : Bool) (b : UInt8) (n : Bytes) (l : List Bytes) (d : H264.DTSExtractor) :
    H264.scan nz ((b :: n) :: l) d =
      if idle_type264 b = 7 then (H264.handleSPS (b :: n) >>= fun _ => H264.scan (nz || decide (idle_ref264 b ≠ 0)) l) d
      else if idle_type264 b = 5 then (d, .ok { idr := some (b :: n), nonZeroNalRefIDFound := nz || decide (idle_ref264 b ≠ 0) })
      else if idle_type264 b = 1 then (d, .ok { nonIDR := some (b :: n), nonZeroNalRefIDFound := nz || decide (idle_ref264 b ≠ 0) })
      else H264.scan (nz || decide (idle_ref264 b ≠ 0)) l d := by
  rw [reuse_step264]
  simp only [idle_typ264, (idle_bits264 b).2]
  rfl

/-- What was found, but for the flag that matters only when no slice was found. -/
def IdleFound (flag : Bool) (f g : H264.Found) : Prop :=
  f.idr = g.idr ∧ f.nonIDR = g.nonIDR ∧ (flag = true ∨ f.nonZeroNalRefIDFound = g.nonZeroNalRefIDFound)

/-- The same, of results. -/
def IdleSame (flag : Bool) : Res H264.Found → Res H264.Found → Prop
  | .ok f, .ok g => IdleFound flag f g
  | .err e, .err e' => e = e'
  | .panic, .panic => True
  | _, _ => False

theorem idle_same_refl (flag : Bool) (r : Res H264.Found) : IdleSame flag r r := by
  cases r with
  | ok f => exact ⟨rfl, rfl, .inr rfl⟩
  | err e => exact rfl
  | panic => trivial

/-- `flag` says that units with a nonzero `nal_ref_idc` were removed. -/
theorem idle_scan264 (flag : Bool) (p : Bytes → Bool)
    (hp : ∀ n, p n = true → idleOther264 n = true ∧ (flag = true ∨ idle264 n = true)) :
    ∀ (l : List Bytes) (nz nz' : Bool) (d : H264.DTSExtractor), (flag = true ∨ nz = nz') →
      (H264.scan nz' (idleCore p idleSlice264 l) d).1 = (H264.scan nz l d).1 ∧
      IdleSame flag (H264.scan nz l d).2 (H264.scan nz' (idleCore p idleSlice264 l) d).2
  | [], nz, nz', d, hz => ⟨rfl, rfl, rfl, hz⟩
  | [] :: l, nz, nz', d, hz => by
    have h0 : p [] = false := by
      rw [Bool.eq_false_iff]; intro e; exact absurd (hp _ e).1 (by decide)
    rw [idleCore, if_neg (by decide), if_neg (by rw [h0]; decide)]
    exact ⟨rfl, trivial⟩
  | (b :: n) :: l, nz, nz', d, hz => by
    have hz' : flag = true ∨ (nz || decide (idle_ref264 b ≠ 0)) = (nz' || decide (idle_ref264 b ≠ 0)) := by
      rcases hz with h | h
      · exact .inl h
      · exact .inr (by rw [h])
    rw [idleCore, idle_step264 nz]
    by_cases h7 : idle_type264 b = 7
    · have hs : ¬ idleSlice264 (b :: n) = true := by simp [idleSlice264, h7]
      have hn : ¬ p (b :: n) = true := by
        intro e
        have := (hp _ e).1
        simp [idleOther264, h7] at this
      rw [if_neg hs, if_neg hn, idle_step264, if_pos h7, if_pos h7]
      simp only [Bind.bind]
      match H264.handleSPS (b :: n) d with
      | (d', .ok _) => exact idle_scan264 flag p hp l _ _ d' hz'
      | (d', .err _) => exact ⟨rfl, rfl⟩
      | (d', .panic) => exact ⟨rfl, trivial⟩
    · rw [if_neg h7]
      by_cases h5 : idle_type264 b = 5
      · rw [if_pos (show idleSlice264 (b :: n) = true by simp [idleSlice264, h5]), idle_step264, if_neg h7, if_pos h5, if_pos h5]
        exact ⟨rfl, rfl, rfl, hz'⟩
      · rw [if_neg h5]
        by_cases h1 : idle_type264 b = 1
        · rw [if_pos (show idleSlice264 (b :: n) = true by simp [idleSlice264, h1]), idle_step264, if_neg h7, if_neg h5, if_pos h1, if_pos h1]
          exact ⟨rfl, rfl, rfl, hz'⟩
        · rw [if_neg h1, if_neg (show ¬ idleSlice264 (b :: n) = true by simp [idleSlice264, h5, h1])]
          by_cases hn : p (b :: n) = true
          · rw [if_pos hn]
            refine idle_scan264 flag p hp l _ _ d ?_
            rcases hz with h | h
            · exact .inl h
            · rcases (hp _ hn).2 with h' | h'
              · exact .inl h'
              · refine .inr ?_
                have h0 : idle_ref264 b = 0 := by
                  simp only [idle264, Bool.and_eq_true, decide_eq_true_eq] at h'
                  exact h'.2
                rw [h, h0]; simp
          · rw [if_neg hn, idle_step264, if_neg h7, if_neg h5, if_neg h1]
            exact idle_scan264 flag p hp l _ _ d hz'

theorem idle_rest264 (flag : Bool) (f g : H264.Found) (h : IdleFound flag f g) (hf : flag = true → f.idr ≠ none ∨ f.nonIDR ≠ none) (pts : Int) :
    reuse_rest264 g pts = reuse_rest264 f pts := by
  obtain ⟨i, n, z⟩ := f
  obtain ⟨i', n', z'⟩ := g
  obtain ⟨h1, h2, h3⟩ := h
  simp only at h1 h2 h3 hf
  subst h1 h2
  have e : ∀ sps, H264.handleFrame ⟨i, n, z'⟩ sps pts = H264.handleFrame ⟨i, n, z⟩ sps pts := by
    intro sps
    rcases h3 with h3 | h3
    · rcases i with _ | i
      · rcases n with _ | n
        · exact absurd (hf h3) (by simp)
        · rfl
      · rfl
    · rw [h3]
  have e' : H264.checkRandom ⟨i, n, z'⟩ = H264.checkRandom ⟨i, n, z⟩ := rfl
  unfold reuse_rest264
  simp only [e, e']

theorem idle_extract264 (flag : Bool) (p : Bytes → Bool)
    (hp : ∀ n, p n = true → idleOther264 n = true ∧ (flag = true ∨ idle264 n = true)) (au : List Bytes) (pts : Int) (d : H264.DTSExtractor)
    (hs : flag = true → ∀ e f, H264.scan false au d = (e, .ok f) → f.idr ≠ none ∨ f.nonIDR ≠ none) :
    H264.extract (idleCore p idleSlice264 au, pts) d = H264.extract (au, pts) d := by
  obtain ⟨h1, h2⟩ := idle_scan264 flag p hp au false false d (.inr rfl)
  rw [reuse_extract, reuse_extract]
  simp only [Bind.bind]
  revert h1 h2 hs
  match H264.scan false au d, H264.scan false (idleCore p idleSlice264 au) d with
  | (e, .ok f), (e', .ok g) =>
    intro hs h1 h2
    simp only at h1
    subst h1
    simp only [idle_rest264 flag f g h2 (fun hf => hs hf _ _ rfl)]
  | (e, .err _), (e', .err _) => intro _ h1 h2; simp only at h1; subst h1; simp only [IdleSame] at h2; rw [h2]
  | (e, .panic), (e', .panic) => intro _ h1 _; simp only at h1; subst h1; rfl
  | (e, .ok f), (e', .err _) => intro _ _ h; exact h.elim
  | (e, .ok f), (e', .panic) => intro _ _ h; exact h.elim
  | (e, .err _), (e', .ok _) => intro _ _ h; exact h.elim
  | (e, .err _), (e', .panic) => intro _ _ h; exact h.elim
  | (e, .panic), (e', .ok _) => intro _ _ h; exact h.elim
  | (e, .panic), (e', .err _) => intro _ _ h; exact h.elim

theorem idle_calls {σ : Type} (f : List Bytes × Int → StepM σ Int) (k : List Bytes → List Bytes)
    (h : ∀ au pts d, f (k au, pts) d = f (au, pts) d) :
    ∀ (l : List (List Bytes × Int)) (d : σ), StepM.calls f d (l.map fun a => (k a.1, a.2)) = StepM.calls f d l
  | [], _ => rfl
  | a :: l, d => by
    rw [List.map_cons, StepM.calls, StepM.calls, h, idle_calls f k h l]

/-- C117, H264: results of all calls, DTS and errors, are the same when delimiters, SEI, filler data and the like are removed from access
units, wherever they are, together with everything that follows the first slice of each. -/
theorem C117_h264 (l : List (List Bytes × Int)) (d : H264.DTSExtractor) :
    StepM.calls H264.extract d (l.map fun a => (idleCore idle264 idleSlice264 a.1, a.2)) = StepM.calls H264.extract d l := by
  refine idle_calls _ _ (fun au pts d => ?_) l d
  refine idle_extract264 false idle264 (fun n h => ⟨?_, .inr h⟩) au pts d (by simp)
  cases n with
  | nil => exact absurd h (by decide)
  | cons b n => simp only [idle264, Bool.and_eq_true] at h; exact h.1

/-- What is found when there is a slice. -/
theorem idle_found264 : ∀ (au : List Bytes) (nz : Bool) (d e : H264.DTSExtractor) (f : H264.Found), (∃ n ∈ au, idleSlice264 n = true) →
    H264.scan nz au d = (e, .ok f) → f.idr ≠ none ∨ f.nonIDR ≠ none
  | [], _, _, _, _, h, _ => by obtain ⟨n, h, _⟩ := h; cases h
  | [] :: l, nz, d, e, f, _, hs => by
    rw [H264.scan] at hs
    cases congrArg Prod.snd hs
  | (b :: n) :: l, nz, d, e, f, h, hs => by
    have rest : idleSlice264 (b :: n) = false → ∃ n ∈ l, idleSlice264 n = true := by
      intro hb
      obtain ⟨m, hm, hm'⟩ := h
      rcases List.mem_cons.1 hm with rfl | hm
      · rw [hb] at hm'; cases hm'
      · exact ⟨m, hm, hm'⟩
    rw [idle_step264] at hs
    by_cases h7 : idle_type264 b = 7
    · rw [if_pos h7] at hs
      simp only [Bind.bind] at hs
      revert hs
      match H264.handleSPS (b :: n) d with
      | (d', .ok _) => exact idle_found264 l _ d' e f (rest (by simp [idleSlice264, h7]))
      | (d', .err _) => intro hs; cases congrArg Prod.snd hs
      | (d', .panic) => intro hs; cases congrArg Prod.snd hs
    · rw [if_neg h7] at hs
      by_cases h5 : idle_type264 b = 5
      · rw [if_pos h5] at hs
        cases hs
        exact .inl (by simp)
      · rw [if_neg h5] at hs
        by_cases h1 : idle_type264 b = 1
        · rw [if_pos h1] at hs
          cases hs
          exact .inr (by simp)
        · rw [if_neg h1] at hs
          exact idle_found264 l _ d e f (rest (by simp [idleSlice264, h5, h1])) hs

/-- C117, H264, access units with slices: all NAL units but SPS and the first slice can be removed, PPS as well. -/
theorem C117_h264_slices (au : List Bytes) (pts : Int) (d : H264.DTSExtractor) (h : ∃ n ∈ au, idleSlice264 n = true) :
    H264.extract (idleCore idleOther264 idleSlice264 au, pts) d = H264.extract (au, pts) d :=
  idle_extract264 true idleOther264 (fun _ h => ⟨h, .inl rfl⟩) au pts d (fun _ e f hs => idle_found264 au false d e f h hs)

/-- Access units without slices are different: one that has nothing but a PPS is refused, one that has nothing is not. The condition of
`C117_h264_slices`, and `nal_ref_idc` in `C117_h264`, are needed. -/
theorem C117_h264_reference_false :
    StepM.calls H264.extract .new [([reuseSPS0, reuseIDR], 0), ([[0x68, 0xCE]], 3000)] =
        [.ok 0, .err "access unit doesn't contain an IDR or non-IDR NALU"] ∧
      StepM.calls H264.extract .new [([reuseSPS0, reuseIDR], 0), ([], 3000)] = [.ok 0, .ok 0] := by decide +kernel

/-- Delimiters, SEI, a PPS in front of slices, second slices, filler data, and an empty unit after a slice. -/
def idleList264 : List (List Bytes × Int) :=
  [([[9, 240], reuseSPS0, [6, 5], reuseIDR, [0x65, 1], []], 0), ([[9, 240], reuseSlice, [0x41, 2], [12, 255]], 3000), ([[9, 240], [6, 1]], 4000)]

example : (idleList264.map fun a => (idleCore idle264 idleSlice264 a.1, a.2)) = [([reuseSPS0, reuseIDR], 0), ([reuseSlice], 3000), ([], 4000)] ∧
    StepM.calls H264.extract .new idleList264 = [.ok 0, .ok 3000, .ok 3000] ∧
    idleCore idleOther264 idleSlice264 [[9, 240], reuseSPS0, [0x68, 0xCE], reuseIDR, [0x65, 1]] = [reuseSPS0, reuseIDR] := by decide +kernel

/-! ## H265 -/

/-- The type of a NAL unit of H265 (ISO 23008-2, 7.3.1.2): six bits of the first byte. -/
def idle_type265 (b : UInt8) : Nat := b.toNat / 2 % 64

/-- A slice: of an IDR or CRA picture, or of types TRAIL and RASL. -/
def idleSlice265 : Bytes → Bool
  | [] => false
  | b :: _ => [0, 1, 8, 9, 19, 20, 21].contains (idle_type265 b)

/-- A NAL unit that is neither an SPS, nor a PPS, nor one of these slices. -/
def idle265 : Bytes → Bool
  | [] => false
  | b :: _ => !([0, 1, 8, 9, 19, 20, 21, 33, 34].contains (idle_type265 b))

theorem idle_bits265 : ∀ b : UInt8, ((b >>> 1) &&& 0x3F).toNat = idle_type265 b := by
  unfold idle_type265
  exact forall_u8 (by decide +kernel)

theorem idle_scan265 : ∀ (l : List Bytes) (d : H265.DTSExtractor), H265.scan (idleCore idle265 idleSlice265 l) d = H265.scan l d
  | [], _ => rfl
  | [] :: l, d => rfl
  | (b :: n) :: l, d => by
    have hb := idle_bits265 b
    rw [idleCore]
    by_cases hs : idleSlice265 (b :: n) = true
    · rw [if_pos hs, reuse_step265, reuse_step265]
      simp only [hb]
      simp only [idleSlice265, List.contains_cons, List.contains_nil, Bool.or_false, Bool.or_eq_true, beq_iff_eq] at hs
      rw [if_neg (by omega), if_neg (by omega), if_neg (show ¬ idle_type265 b = 33 by omega), if_neg (show ¬ idle_type265 b = 34 by omega)]
      split
      · rfl
      · split
        · rfl
        · rw [if_pos (by omega), if_pos (by omega)]
    · rw [if_neg hs]
      have hs' : ¬ (idle_type265 b = 0 ∨ idle_type265 b = 1 ∨ idle_type265 b = 8 ∨ idle_type265 b = 9 ∨ idle_type265 b = 19 ∨
          idle_type265 b = 20 ∨ idle_type265 b = 21) := by
        simpa only [idleSlice265, List.contains_cons, List.contains_nil, Bool.or_false, Bool.or_eq_true, beq_iff_eq] using hs
      by_cases hi : idle265 (b :: n) = true
      · rw [if_pos hi, reuse_step265, idle_scan265 l d]
        have hi' : ¬ (idle_type265 b = 0 ∨ idle_type265 b = 1 ∨ idle_type265 b = 8 ∨ idle_type265 b = 9 ∨ idle_type265 b = 19 ∨
            idle_type265 b = 20 ∨ idle_type265 b = 21 ∨ idle_type265 b = 33 ∨ idle_type265 b = 34) := by
          simpa only [idle265, List.contains_cons, List.contains_nil, Bool.or_false, Bool.not_eq_true', ← Bool.not_eq_true, Bool.or_eq_true,
            beq_iff_eq] using hi
        simp only [hb]
        rw [if_neg (by omega), if_neg (by omega), if_neg (by omega), if_neg (by omega), if_neg (by omega)]
      · rw [if_neg hi, reuse_step265, reuse_step265]
        have hl : H265.scan (idleCore idle265 idleSlice265 l) = H265.scan l := funext (idle_scan265 l)
        rw [hl]

/-- C117, H265: results of all calls, DTS and errors, are the same when all NAL units but SPS, PPS and the first slice are removed from access
units. -/
theorem C117_h265 (l : List (List Bytes × Int)) (d : H265.DTSExtractor) :
    StepM.calls H265.extract d (l.map fun a => (idleCore idle265 idleSlice265 a.1, a.2)) = StepM.calls H265.extract d l := by
  refine idle_calls _ _ (fun au pts d => ?_) l d
  rw [reuse_extract265, reuse_extract265]
  simp only [Bind.bind, idle_scan265]

/-- A delimiter, a VPS, SEI, more slices. -/
def idleList265 : List (List Bytes × Int) :=
  [([[0x46, 1, 0x50], [0x40, 1], reuseSPS265, reusePPS265, [0x4E, 1], reuseIDR265, [0x26, 1, 0]], 0),
   ([[0x46, 1, 0x50], reuseSlice265, [], [0x50, 1]], 9000)]

example : (idleList265.map fun a => (idleCore idle265 idleSlice265 a.1, a.2)) =
      [([reuseSPS265, reusePPS265, reuseIDR265], 0), ([reuseSlice265], 9000)] ∧
    StepM.calls H265.extract {} idleList265 = [.ok (-6000), .ok (-5910)] := by decide +kernel

theorem idle_core_nil (p slice : Bytes → Bool) : ∀ (au : List Bytes), (∀ n ∈ au, p n = true ∧ slice n = false) → idleCore p slice au = []
  | [], _ => rfl
  | n :: l, h => by
    have hn := h n List.mem_cons_self
    rw [idleCore, if_neg (by rw [hn.2]; decide), if_pos hn.1, idle_core_nil p slice l fun m hm => h m (List.mem_cons_of_mem _ hm)]

theorem idle_not_slice265 (n : Bytes) (h : idle265 n = true) : idleSlice265 n = false := by
  cases n with
  | nil => rfl
  | cons b n =>
    simp only [idle265, idleSlice265, List.contains_cons, List.contains_nil, Bool.or_false, Bool.not_eq_true', Bool.or_eq_false_iff] at h ⊢
    simp only [h, and_self]

/-- C117, H265: slices of other types (TSA, STSA, RADL, BLA) are not looked at either, so that an access unit whose slices are all of these types
is refused, whatever has been received before, and nothing is kept of it. -/
theorem C117_h265_refused (au : List Bytes) (pts : Int) (d : H265.DTSExtractor) (h : ∀ n ∈ au, idle265 n = true) :
    ∃ e, H265.extract (au, pts) d = (d, .err e) := by
  have hc := idle_core_nil idle265 idleSlice265 au fun n hn => ⟨h n hn, idle_not_slice265 n (h n hn)⟩
  have hs : H265.scan au d = (d, .ok .nothing) := by rw [← idle_scan265, hc]; rfl
  rw [reuse_extract265]
  simp only [Bind.bind, hs, reuse_rest265, StepM.get]
  cases d.spsp with
  | none => exact ⟨_, rfl⟩
  | some sps =>
    cases d.ppsp with
    | none => exact ⟨_, rfl⟩
    | some pps =>
      simp only [H265.checkRandom, H265.Found.isRandom, Bind.bind, StepM.get]
      cases d.randomReceived with
      | true => exact ⟨_, rfl⟩
      | false => exact ⟨_, rfl⟩

/-- Slices of types 2 to 7 and 16 to 18 (ISO 23008-2, table 7-1) are coded slice segments; RADL_N (6) after an IDR. -/
example : (∀ t ∈ [2, 3, 4, 5, 6, 7, 16, 17, 18], idle265 [UInt8.ofNat (2 * t), 1, 0xd0] = true) ∧
    StepM.calls H265.extract {} [([reuseSPS265, reusePPS265, reuseIDR265], 0), ([[0x0C, 0x01, 0xd0, 0x19, 0x5f, 0x8c, 0xb4]], 9000)] =
      [.ok (-6000), .err "access unit doesn't contain an IDR or non-IDR NALU"] := by decide +kernel

/-! ## Delimiters that are added by the MPEG-TS writer -/

theorem idle_delimiter (f : UInt8) (n : Bytes) (p slice : Bytes → Bool) (hp : p (f :: n) = true) (hs : slice (f :: n) = false) {au au' : List Bytes}
    (h : MPEGTS.addDelimiter f (f :: n) au = .ok au') : idleCore p slice au' = idleCore p slice au := by
  unfold MPEGTS.addDelimiter at h
  obtain ⟨a, _, h⟩ := Res.bind_eq_ok.1 h
  obtain ⟨b, _, h⟩ := Res.bind_eq_ok.1 h
  split at h <;> cases h
  · rw [idleCore, if_neg (by rw [hs]; decide), if_pos hp]
  · rfl

/-- C117: a receiver of a transport stream that extracts DTS from the H264 access units, which have got delimiters from the writer, gets what
the sender would have got. -/
theorem C117_delimiters_h264 (l l' : List (List Bytes × Int)) (d : H264.DTSExtractor)
    (h : List.Forall₂ (fun a a' => MPEGTS.addDelimiter 9 [9, 240] a.1 = .ok a'.1 ∧ a'.2 = a.2) l l') :
    StepM.calls H264.extract d l' = StepM.calls H264.extract d l := by
  rw [← C117_h264 l, ← C117_h264 l']
  congr 1
  induction h with
  | nil => rfl
  | cons h _ ih => rw [List.map_cons, List.map_cons, ih, h.2, idle_delimiter 9 [240] idle264 idleSlice264 (by decide) (by decide) h.1]

/-- C117: the same for H265. -/
theorem C117_delimiters_h265 (l l' : List (List Bytes × Int)) (d : H265.DTSExtractor)
    (h : List.Forall₂ (fun a a' => MPEGTS.addDelimiter 0x46 [0x46, 1, 0x50] a.1 = .ok a'.1 ∧ a'.2 = a.2) l l') :
    StepM.calls H265.extract d l' = StepM.calls H265.extract d l := by
  rw [← C117_h265 l, ← C117_h265 l']
  congr 1
  induction h with
  | nil => rfl
  | cons h _ ih => rw [List.map_cons, List.map_cons, ih, h.2, idle_delimiter 0x46 [1, 0x50] idle265 idleSlice265 (by decide) (by decide) h.1]

example : MPEGTS.addDelimiter 9 [9, 240] [reuseSPS0, reuseIDR] = .ok [[9, 240], reuseSPS0, reuseIDR] ∧
    MPEGTS.addDelimiter 0x46 [0x46, 1, 0x50] [reuseSlice265] = .ok [[0x46, 1, 0x50], reuseSlice265] := by decide +kernel

end Verif.Props
