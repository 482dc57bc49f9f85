import Verif.Model.PMP4

/-!
# C67: edit lists

An edit list says which parts of the media are presented, and when (ISO 14496-12 8.6.6). The duration of a track, in `tkhd`, is the sum
of the durations of its edits (8.3.2), and an edit that is not empty presents a part of the media, that must exist.
-/

namespace Verif.Props
open PMP4

/-- Total duration of edits, in units of the movie. -/
def editTotal (l : List ElstEntry) : Nat := (l.map (·.segmentDuration)).sum

/-- An edit is empty, or presents media between 0 and `duration` (in units of the track; the units of the movie are 1/1000 s). -/
def EditInside (timeScale duration : Nat) (e : ElstEntry) : Prop :=
  e.mediaTime = -1 ∨ 0 ≤ e.mediaTime ∧ e.mediaTime * 1000 + e.segmentDuration * timeScale ≤ duration * 1000

instance (ts d : Nat) (e : ElstEntry) : Decidable (EditInside ts d e) := by unfold EditInside; infer_instance

/-- The edit list of a track, whose media lasts `d`, is right: edits are inside of the media, and their total duration is the duration of
the track, up to rounding. -/
def EditsRight (t : Track) : Prop :=
  ∃ edits total, marshalELST t = .ok edits ∧ presentationDuration t = .ok total ∧
    (∀ e ∈ edits, EditInside t.timeScale (sumDurations 0 t.samples) e) ∧ editTotal edits ≤ total ∧ total ≤ editTotal edits + 1

theorem pmp4_uquot (a b : Nat) (h : b ≠ 0) : uquot a b = .ok (a / b) := by unfold uquot; rw [if_neg h]

theorem pmp4_elst_late (t : Track) (o d : Nat) (hts : t.timeScale ≠ 0) (ho : t.timeOffset = o) (h0 : 0 < o) (h1 : o < 2 ^ 31)
    (hd : sumDurations 0 t.samples = d) (h2 : d < 2 ^ 32) :
    marshalELST t = .ok [⟨o * 1000 / t.timeScale % 2 ^ 32, -1⟩, ⟨d * 1000 / t.timeScale % 2 ^ 32, 0⟩] := by
  unfold marshalELST
  rw [hd, ho, if_pos (by omega)]
  rw [pmp4_uquot _ _ hts, Res.bind_ok, pmp4_uquot _ _ hts, Res.bind_ok]
  have e0 : toUint64 (o : Int) = o := by unfold toUint64; omega
  have e1 : o * 1000 % 2 ^ 64 = o * 1000 := Nat.mod_eq_of_lt (by omega)
  have e2 : d * 1000 % 2 ^ 64 = d * 1000 := Nat.mod_eq_of_lt (by omega)
  rw [e0, e1, e2]

theorem pmp4_elst_early (t : Track) (o d : Nat) (hts : t.timeScale ≠ 0) (ho : t.timeOffset = -(o : Int)) (h1 : o < 2 ^ 31)
    (hd : sumDurations 0 t.samples = d) (h2 : d < 2 ^ 32) :
    marshalELST t = .ok [⟨(d + o) * 1000 / t.timeScale % 2 ^ 32, o⟩] := by
  unfold marshalELST
  rw [hd, ho, if_neg (by omega)]
  have hw : Bits.wrapInt32 (- -(o : Int)) = (o : Int) := by unfold Bits.wrapInt32; omega
  have e1 : (d + toUint64 (o : Int)) % 2 ^ 64 * 1000 % 2 ^ 64 = (d + o) * 1000 := by unfold toUint64; omega
  simp only [pmp4_uquot _ _ hts, Res.bind_ok, hw]
  rw [e1]

theorem pmp4_presentation (t : Track) (o d : Nat) (hts : t.timeScale ≠ 0) (ho : t.timeOffset = o) (h1 : o < 2 ^ 31)
    (hd : sumDurations 0 t.samples = d) (h2 : d < 2 ^ 32) :
    presentationDuration t = .ok ((d + o) * 1000 / t.timeScale % 2 ^ 32) := by
  unfold presentationDuration quot
  rw [hd, ho, if_neg (by omega)]
  have : TS.wrap64 (((d : Int) + (o : Int)) * 1000) = (((d + o) * 1000 : Nat) : Int) := by unfold TS.wrap64; omega
  rw [this, Res.bind_ok]
  have : (((d + o) * 1000 : Nat) : Int).tdiv (t.timeScale : Int) = (((d + o) * 1000 / t.timeScale : Nat) : Int) := rfl
  rw [this]
  generalize (d + o) * 1000 / t.timeScale = x
  congr 1

theorem pmp4_inside (ts d x : Nat) (h : x * ts ≤ d * 1000) : EditInside ts d ⟨x, 0⟩ := by
  refine Or.inr ⟨Int.le_refl _, ?_⟩
  simp only [Int.zero_mul, Int.zero_add]
  have : ((x * ts : Nat) : Int) ≤ ((d * 1000 : Nat) : Int) := by omega
  simp only [Int.natCast_mul] at this
  exact this

/-- **C67.** When samples start at zero or later, the edit list is right: it delays samples by the time offset, up to rounding, then
presents the whole media. -/
theorem C67_partial (t : Track) (hts : t.timeScale ≠ 0) (h0 : 0 ≤ t.timeOffset) (h1 : t.timeOffset < 2 ^ 31)
    (hd : sumDurations 0 t.samples < 2 ^ 32)
    (hfit : (sumDurations 0 t.samples + t.timeOffset) * 1000 < 2 ^ 32 * (t.timeScale : Int)) :
    EditsRight t := by
  obtain ⟨d, hd0⟩ : ∃ d, d = sumDurations 0 t.samples := ⟨_, rfl⟩
  obtain ⟨o, ho⟩ := Int.eq_ofNat_of_zero_le h0
  rw [← hd0] at hd hfit
  rw [ho] at h1 hfit
  have hpd := pmp4_presentation t o d hts ho (by omega) hd0.symm hd
  have hlt : (d + o) * 1000 / t.timeScale < 2 ^ 32 := by
    rw [Nat.div_lt_iff_lt_mul (by omega)]
    have : (((d + o) * 1000 : Nat) : Int) < ((2 ^ 32 * t.timeScale : Nat) : Int) := by
      have := hfit; simp only [Int.natCast_mul, Int.natCast_add]; exact this
    omega
  have hda : d * 1000 / t.timeScale ≤ (d + o) * 1000 / t.timeScale := Nat.div_le_div_right (by omega)
  have hoa : o * 1000 / t.timeScale ≤ (d + o) * 1000 / t.timeScale := Nat.div_le_div_right (by omega)
  have hdm := Nat.div_mul_le_self (d * 1000) t.timeScale
  rw [Nat.mod_eq_of_lt hlt] at hpd
  by_cases hz : o = 0
  · subst hz
    have he := pmp4_elst_early t 0 d hts ho (by decide) hd0.symm hd
    rw [Nat.mod_eq_of_lt hlt] at he
    refine ⟨_, _, he, hpd, ?_, ?_⟩
    · intro e he
      rw [List.mem_singleton.mp he, ← hd0]
      exact pmp4_inside _ _ _ hdm
    · simp only [editTotal, List.map_cons, List.map_nil, List.sum_cons, List.sum_nil, Nat.add_zero]
      exact ⟨Nat.le_refl _, Nat.le_succ _⟩
  · have he := pmp4_elst_late t o d hts ho (by omega) (by omega) hd0.symm hd
    rw [Nat.mod_eq_of_lt (Nat.lt_of_le_of_lt hoa hlt), Nat.mod_eq_of_lt (Nat.lt_of_le_of_lt hda hlt)] at he
    refine ⟨_, _, he, hpd, ?_, ?_⟩
    · intro e he
      simp only [List.mem_cons, List.not_mem_nil, or_false] at he
      rcases he with rfl | rfl
      · exact Or.inl rfl
      · rw [← hd0]; exact pmp4_inside _ _ _ hdm
    · simp only [editTotal, List.map_cons, List.map_nil, List.sum_cons, List.sum_nil]
      rw [Nat.add_mul]
      have := Nat.add_div (a := d * 1000) (b := o * 1000) (c := t.timeScale) (by omega)
      rw [this]
      split <;> omega

/-- Two seconds of media, of which the first one is before the beginning of the presentation. -/
def earlyTrack : Track := { timeScale := 90000, timeOffset := -90000, samples := [{ duration := 90000 }, { duration := 90000 }] }

/-- **C67.** When samples start before zero, the edit list is wrong: the track of the example lasts one second but its edit lasts three,
two of which are beyond the end of the media. -/
theorem C67_false : ¬ EditsRight earlyTrack := by
  rintro ⟨edits, total, h1, h2, h3, h4, h5⟩
  have e1 : marshalELST earlyTrack = .ok [⟨3000, 90000⟩] := by decide +kernel
  have e2 : presentationDuration earlyTrack = .ok 1000 := by decide +kernel
  rw [e1] at h1; cases h1
  rw [e2] at h2; cases h2
  revert h4; decide

/-- **C67.** In general: for all tracks with a negative time offset of at least one unit of the movie, without overflow, the edit ends
after the media. -/
theorem C67_early_false (t : Track) (hts : t.timeScale ≠ 0) (h0 : t.timeOffset * 1000 ≤ -(t.timeScale : Int)) (h1 : -(2 ^ 31) < t.timeOffset)
    (hd : sumDurations 0 t.samples < 2 ^ 32)
    (hfit : (sumDurations 0 t.samples - t.timeOffset) * 1000 < 2 ^ 32 * (t.timeScale : Int)) : ¬ EditsRight t := by
  rintro ⟨edits, total, he, _, hin, _⟩
  obtain ⟨d, hd0⟩ : ∃ d, d = sumDurations 0 t.samples := ⟨_, rfl⟩
  obtain ⟨o, ho⟩ : ∃ o : Nat, t.timeOffset = -(o : Int) := ⟨t.timeOffset.natAbs, by omega⟩
  rw [← hd0] at hd hfit hin
  rw [ho] at h0 h1 hfit
  rw [pmp4_elst_early t o d hts ho (by omega) hd0.symm hd] at he
  have hlt : (d + o) * 1000 / t.timeScale < 2 ^ 32 := by
    rw [Nat.div_lt_iff_lt_mul (by omega)]
    have : (((d + o) * 1000 : Nat) : Int) < ((2 ^ 32 * t.timeScale : Nat) : Int) := by
      have := hfit
      simp only [Int.natCast_mul, Int.natCast_add, Int.sub_neg] at this ⊢; exact this
    omega
  rw [Nat.mod_eq_of_lt hlt] at he
  cases he
  have hdm : (d + o) * 1000 < (d + o) * 1000 / t.timeScale * t.timeScale + t.timeScale :=
    Nat.lt_div_mul_add (a := (d + o) * 1000) (b := t.timeScale) (by omega)
  rcases hin _ List.mem_cons_self with h | ⟨_, h⟩
  · simp only at h; omega
  · simp only at h
    rw [← Int.natCast_mul] at h
    generalize (d + o) * 1000 / t.timeScale * t.timeScale = x at *
    omega

example : EditsRight { timeScale := 90000, timeOffset := 45000, samples := [{ duration := 90000 }, { duration := 1 }] } := by
  apply C67_partial
  all_goals decide

example : (earlyTrack.timeOffset * 1000 ≤ -(earlyTrack.timeScale : Int)) ∧ earlyTrack.timeScale ≠ 0 := by decide

end Verif.Props
