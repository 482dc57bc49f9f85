import Verif.Model.TSWriter
import Mathlib.Data.List.Forall2

/-!
# Property C44: clock references in the MPEG-TS writer
-/

namespace Verif.Props
open Verif.TSWriter

/-- The track of a call. -/
def callTrack : Call → Nat
  | .video t _ _ _ => t
  | .other t _ _ => t

/-- The decoding time of a call. -/
def callDTS : Call → Int
  | .video _ _ dts _ => dts
  | .other _ _ pts => pts

/-- The leading track is `t`, and at most two more of its units can pass without a clock reference. -/
structure Led (w : Writer) (t : Nat) : Prop where
  chosen : w.leadingTrackChosen = true
  lead : ∀ x, w.isLeading x = true ↔ x = t
  lo : 0 ≤ w.pcrCounter
  hi : w.pcrCounter ≤ 2

theorem led_call {w : Writer} {t : Nat} (h : Led w t) (c : Call) :
    Led (w.call c).2 t ∧ (w.call c).1.track = callTrack c ∧
    (callTrack c ≠ t → (w.call c).1.pcr = none ∧ (w.call c).2.pcrCounter = w.pcrCounter) ∧
    (callTrack c = t →
      ((w.call c).1.pcr = some (callDTS c - 9000) ∨
        ((w.call c).1.pcr = none ∧ 0 < w.pcrCounter ∧ (w.call c).2.pcrCounter = w.pcrCounter - 1))) ∧
    (callTrack c = t → (∃ pts dts, c = .video t pts dts true) → (w.call c).1.pcr = some (callDTS c - 9000)) := by
  obtain ⟨h1, h2, h3, h4⟩ := h
  have hch : ∀ x, w.choose x = w := by intro x; simp [Writer.choose, h1]
  cases c with
  | video x pts dts ra =>
    simp only [Writer.call, Writer.writeVideo, callTrack, callDTS, hch]
    by_cases hx : x = t
    · subst hx
      have hl : w.isLeading x = true := (h2 x).2 rfl
      simp only [hl, Bool.true_and, if_true]
      cases hs : (ra || w.pcrCounter == 0)
      · simp only [Bool.or_eq_false_iff, beq_eq_false_iff_ne] at hs
        refine ⟨⟨h1, h2, ?_, ?_⟩, trivial, fun h => absurd rfl h, fun _ => .inr ⟨by simp, by omega, by simp⟩, ?_⟩
        · simp; omega
        · simp; omega
        · rintro _ ⟨p, d, h⟩
          injection h with _ _ _ hr
          rw [hs.1] at hr; simp at hr
      · simp only [if_true, dtsPCRDiff]
        refine ⟨⟨h1, h2, by simp, by simp⟩, ?_, fun h => absurd rfl h, fun _ => .inl ?_, fun _ _ => ?_⟩ <;> first | rfl | trivial
    · have hl : w.isLeading x = false := by
        cases hb : w.isLeading x
        · rfl
        · exact absurd ((h2 x).1 hb) hx
      simp only [hl, Bool.false_and]
      exact ⟨⟨h1, h2, by simpa using h3, by simpa using h4⟩, trivial, fun _ => ⟨by simp, by simp⟩, fun h => absurd h hx,
        fun h => absurd h hx⟩
  | other x hp pts =>
    simp only [Writer.call, Writer.writeOther, callTrack, callDTS, hch]
    by_cases hx : x = t
    · subst hx
      have hl : w.isLeading x = true := (h2 x).2 rfl
      simp only [hl, Bool.true_and, if_true]
      cases hs : (w.pcrCounter == 0)
      · simp only [beq_eq_false_iff_ne] at hs
        refine ⟨⟨h1, h2, ?_, ?_⟩, trivial, fun h => absurd rfl h, fun _ => .inr ⟨by simp, by omega, by simp⟩, ?_⟩
        · simp; omega
        · simp; omega
        · rintro _ ⟨p, d, h⟩; simp at h
      · simp only [if_true, dtsPCRDiff]
        refine ⟨⟨h1, h2, by simp, by simp⟩, ?_, fun h => absurd rfl h, fun _ => .inl ?_, fun _ _ => ?_⟩ <;> first | rfl | trivial
    · have hl : w.isLeading x = false := by
        cases hb : w.isLeading x
        · rfl
        · exact absurd ((h2 x).1 hb) hx
      simp only [hl, Bool.false_and]
      exact ⟨⟨h1, h2, by simpa using h3, by simpa using h4⟩, trivial, fun _ => ⟨by simp, by simp⟩, fun h => absurd h hx,
        fun h => absurd h hx⟩

/-- A new writer whose leading track has just been chosen behaves like one that had it already. -/
theorem call_fresh (c : Call) :
    ({} : Writer).call c = ({ leadingTrackChosen := true, isLeading := fun x => x == callTrack c } : Writer).call c := by
  cases c <;>
    simp [Writer.call, Writer.writeVideo, Writer.writeOther, Writer.choose, callTrack] <;> rfl

theorem run_fresh (c : Call) (l : List Call) :
    ({} : Writer).run (c :: l)
      = ({ leadingTrackChosen := true, isLeading := fun x => x == callTrack c } : Writer).run (c :: l) := by
  rw [Writer.run, call_fresh, Writer.run]

theorem led_fresh (t : Nat) : Led { leadingTrackChosen := true, isLeading := fun x => x == t } t :=
  ⟨rfl, by intro x; simp, by simp, by simp⟩

/-- At most `k` units pass without a clock reference before the next one, and at most two between
clock references. -/
def GapOK : Nat → List Bool → Prop
  | _, [] => True
  | _, true :: l => GapOK 2 l
  | 0, false :: _ => False
  | k + 1, false :: l => GapOK k l

theorem gapOK_mono {k k' : Nat} (hk : k ≤ k') (l : List Bool) (h : GapOK k l) : GapOK k' l := by
  induction l generalizing k k' with
  | nil => cases k' <;> trivial
  | cons b l ih =>
    cases b
    · cases k with
      | zero => exact absurd h id
      | succ k =>
        cases k' with
        | zero => omega
        | succ k' => exact ih (k := k) (by omega) h
    · cases k <;> cases k' <;> exact h

theorem gapOK_window (l : List Bool) : ∀ k, k ≤ 2 → GapOK k l → ∀ i, i + 2 < l.length →
    l[i]? = some true ∨ l[i+1]? = some true ∨ l[i+2]? = some true := by
  induction l with
  | nil => intro k _ _ i hi; simp at hi
  | cons b l ih =>
    intro k hk h i hi
    cases i with
    | succ i =>
      have h' : ∃ k', k' ≤ 2 ∧ GapOK k' l := by
        cases b
        · cases k with
          | zero => exact absurd h id
          | succ k => exact ⟨k, by omega, h⟩
        · exact ⟨2, Nat.le_refl _, by cases k <;> exact h⟩
      obtain ⟨k', hk', h'⟩ := h'
      simpa using ih k' hk' h' i (by simp only [List.length_cons] at hi; omega)
    | zero =>
      cases b
      · cases l with
        | nil => simp at hi
        | cons b2 l =>
          cases b2
          · cases l with
            | nil => simp at hi
            | cons b3 l =>
              cases b3
              · exfalso
                have := gapOK_mono hk _ h
                exact this
              · simp
          · simp
      · simp

/-- Units of one track, in order. -/
def unitsOf (t : Nat) (us : List TSUnit) : List TSUnit := us.filter (·.track == t)

theorem gapOK_run (calls : List Call) : ∀ (w : Writer) (t : Nat), Led w t →
    GapOK w.pcrCounter.toNat ((unitsOf t (w.run calls)).map (·.pcr.isSome)) := by
  induction calls with
  | nil => intro w t _; cases hk : w.pcrCounter.toNat <;> trivial
  | cons c l ih =>
    intro w t h
    obtain ⟨h1, h2, h3, h4, _⟩ := led_call h c
    have hi := ih _ t h1
    rw [Writer.run, unitsOf]
    by_cases hc : callTrack c = t
    · rw [List.filter_cons_of_pos (by rw [h2, hc]; simp), List.map_cons]
      rcases h4 hc with h5 | ⟨h5, h6, h7⟩
      · rw [h5]
        have := gapOK_mono (k' := 2) (by have := h1.hi; omega) _ hi
        cases hk : w.pcrCounter.toNat <;> exact this
      · rw [h5]
        have : w.pcrCounter.toNat = (w.call c).2.pcrCounter.toNat + 1 := by omega
        rw [this]
        exact hi
    · rw [List.filter_cons_of_neg (by rw [h2]; simpa using hc)]
      rw [← (h3 hc).2]
      exact hi

/-- C44: among any three consecutive units of the leading track (the one written first), at least one
carries a clock reference; the first unit carries one. -/
theorem C44_pcr_often (c : Call) (calls : List Call) :
    (∀ i, i + 2 < (unitsOf (callTrack c) (({} : Writer).run (c :: calls))).length →
      ∃ j, i ≤ j ∧ j ≤ i + 2 ∧ ∃ u p, (unitsOf (callTrack c) (({} : Writer).run (c :: calls)))[j]? = some u ∧
        u.pcr = some p) ∧
    ∃ u us, ({} : Writer).run (c :: calls) = u :: us ∧ u.track = callTrack c ∧ u.pcr = some (callDTS c - 9000) := by
  constructor
  · intro i hi
    rw [run_fresh] at hi ⊢
    have hg := gapOK_window _ 0 (by omega) (gapOK_run (c :: calls) _ _ (led_fresh (callTrack c))) i (by simpa using hi)
    generalize unitsOf (callTrack c) (Writer.run _ (c :: calls)) = L at *
    simp only [List.getElem?_map, Option.map_eq_some_iff] at hg
    rcases hg with ⟨u, h1, h2⟩ | ⟨u, h1, h2⟩ | ⟨u, h1, h2⟩ <;>
      obtain ⟨p, hp⟩ := Option.isSome_iff_exists.1 h2
    · exact ⟨i, by omega, by omega, u, p, h1, hp⟩
    · exact ⟨i + 1, by omega, by omega, u, p, h1, hp⟩
    · exact ⟨i + 2, by omega, by omega, u, p, h1, hp⟩
  · rw [run_fresh, Writer.run]
    obtain ⟨_, h2, _, h4, _⟩ := led_call (led_fresh (callTrack c)) c
    refine ⟨_, _, rfl, h2, ?_⟩
    rcases h4 rfl with h | ⟨_, h, _⟩
    · exact h
    · simp at h

theorem units_of_led (calls : List Call) : ∀ (w : Writer) (t : Nat), Led w t →
    List.Forall₂ (fun c u => u.track = callTrack c ∧ (u.pcr ≠ none → u.track = t ∧ u.pcr = some (callDTS c - 9000)) ∧
      ((∃ pts dts, c = Call.video t pts dts true) → u.pcr ≠ none)) calls (w.run calls) := by
  induction calls with
  | nil => intros; exact .nil
  | cons c l ih =>
    intro w t h
    obtain ⟨h1, h2, h3, h4, h5⟩ := led_call h c
    refine .cons ⟨h2, ?_, ?_⟩ (ih _ t h1)
    · intro hp
      by_cases hc : callTrack c = t
      · rcases h4 hc with h | ⟨h, _⟩
        · exact ⟨h2.trans hc, h⟩
        · exact absurd h hp
      · exact absurd (h3 hc).1 hp
    · rintro ⟨pts, dts, rfl⟩
      rw [h5 rfl ⟨pts, dts, rfl⟩]
      simp

/-- C44: clock references go to the leading track only, are 9000 ticks before the decoding time of the
unit, and every random-access video unit of the leading track has one. -/
theorem C44_pcr_leading_only (c : Call) (calls : List Call) :
    List.Forall₂ (fun c' u => u.track = callTrack c' ∧
        (u.pcr ≠ none → u.track = callTrack c ∧ u.pcr = some (callDTS c' - 9000)) ∧
        ((∃ pts dts, c' = Call.video (callTrack c) pts dts true) → u.pcr ≠ none))
      (c :: calls) (({} : Writer).run (c :: calls)) := by
  rw [run_fresh]
  exact units_of_led _ _ _ (led_fresh (callTrack c))

example : (({} : Writer).run [.other 7 true 90000, .video 3 1 1 true, .other 7 true 2, .other 7 true 3, .other 7 true 9004]).map
    (·.pcr) = [some 81000, none, none, none, some 4] := by decide +kernel
example : (({} : Writer).run [.video 3 0 0 true, .video 3 1 1 false, .video 3 5 2 true, .video 3 3 3 false]).map
    (·.pcr) = [some (-9000), none, some (-8998), none] := by decide +kernel

end Verif.Props
