import Verif.Model.TSWriter
import Verif.Props.TimeDecoder

/-!
# Property C116: MPEG-TS times do not depend on the origin of time
-/

namespace Verif.Props
open Verif.TS Verif.TSWriter

/-! ## The decoder -/

theorem tsorigin_decode (d : TimeDecoder) (hd : d.initialized = true) (ts ts' p' : Int)
    (h : (ts' - p' - (ts - d.prev)) % 2 ^ 33 = 0) :
    ({ d with prev := p' } : TimeDecoder).decode ts' = ((d.decode ts).1, { (d.decode ts).2 with prev := ts' }) := by
  obtain ⟨δ, a1, a2, a3, a4⟩ := decode_step d hd ts
  obtain ⟨ε, b1, b2, b3, b4⟩ := decode_step { d with prev := p' } hd ts'
  simp only at b3 b4
  have e : ε = δ := by omega
  rw [b4, a4, e]

theorem tsorigin_decodeAll (c : Int) {l l' : List Int} (h : List.Forall₂ (fun a b => (b - a - c) % 2 ^ 33 = 0) l l') :
    ∀ (d : TimeDecoder) (p' : Int), d.initialized = true → (p' - d.prev - c) % 2 ^ 33 = 0 →
      ({ d with prev := p' } : TimeDecoder).decodeAll l' = d.decodeAll l := by
  induction h with
  | nil => intros; rfl
  | @cons a b l l' hab _ ih =>
    intro d p' hd hp
    obtain ⟨δ, a1, a2, a3, a4⟩ := decode_step d hd a
    rw [TimeDecoder.decodeAll, TimeDecoder.decodeAll, tsorigin_decode d hd a b p' (by omega), a4]
    dsimp only
    rw [ih { initialized := true, overall := wrap64 (d.overall + δ), prev := a } b rfl hab]

/-- C116: whatever the timestamps are, when all of them are moved by the same amount, on the circle of 33-bit timestamps, the times that
the decoder returns are the same. Timestamps may be any `int64`; where each of them is on the circle is all that matters. -/
theorem C116_decoder (c : Int) (l l' : List Int) (h : List.Forall₂ (fun a b => (b - a - c) % 2 ^ 33 = 0) l l') :
    ({} : TimeDecoder).decodeAll l' = ({} : TimeDecoder).decodeAll l := by
  cases h with
  | nil => rfl
  | @cons a b l l' hab h =>
    rw [TimeDecoder.decodeAll, TimeDecoder.decodeAll, decode_first, decode_first]
    dsimp only
    rw [tsorigin_decodeAll c h { initialized := true, overall := 0, prev := a } b rfl hab]

/-- Times that go backwards, jump and wrap, moved by 5000000000. -/
example : ({} : TimeDecoder).decodeAll [8589934000, 500, 300, 4000000000, 8000000000]
    = ({} : TimeDecoder).decodeAll [4999999408, 5000000500, 5000000300, 410065408, 4410065408] ∧
    ({} : TimeDecoder).decodeAll [8589934000, 500, 300, 4000000000, 8000000000] = [0, 1092, 892, 4000000592, 8000000592] := by
  decide +kernel

/-! ## The writer -/

/-- The call with its times moved by `c`. Calls without a time have none to move: `WriteKLV` gives `writeData` a zero (writer.go:329). -/
def laterCall (c : Int) : Call → Call
  | .video t pts dts ra => .video t (pts + c) (dts + c) ra
  | .other t true pts => .other t true (pts + c)
  | .other t false pts => .other t false pts

/-- The unit with its times moved by `c`. -/
def laterUnit (c : Int) (u : TSUnit) : TSUnit :=
  { u with pcr := u.pcr.map (· + c), pts := u.pts.map (· + c), dts := u.dts.map (· + c) }

/-- The call is on track `t` and has no time. -/
def Timeless (t : Nat) (c : Call) : Prop := ∃ pts, c = .other t false pts

/-- The track of a call. -/
def laterTrack : Call → Nat
  | .video t _ _ _ => t
  | .other t _ _ => t

/-- Track `t` is the only one that leads. -/
def LedBy (w : Writer) (t : Nat) : Prop := w.leadingTrackChosen = true ∧ ∀ k, w.isLeading k = true ↔ k = t

theorem tsorigin_choose {w : Writer} {t : Nat} (h : LedBy w t) (k : Nat) : w.choose k = w := by
  unfold Writer.choose; rw [if_neg (by rw [h.1]; decide)]

theorem tsorigin_first (k : Nat) : LedBy (({} : Writer).choose k) k := by
  refine ⟨rfl, fun j => ?_⟩
  show (if j = k then true else false) = true ↔ _
  split <;> simp_all

theorem tsorigin_led {w : Writer} {t : Nat} (h : LedBy w t) (c : Call) : LedBy (w.call c).2 t := by
  cases c <;> simp only [Writer.call, Writer.writeVideo, Writer.writeOther, tsorigin_choose h] <;> exact h

theorem tsorigin_call {w : Writer} {t : Nat} (h : LedBy w t) (c : Int) (x : Call) (hx : ¬ Timeless t x) :
    w.call (laterCall c x) = (laterUnit c (w.call x).1, (w.call x).2) := by
  cases x with
  | video k pts dts ra =>
    simp only [laterCall, Writer.call, Writer.writeVideo, tsorigin_choose h, laterUnit, Prod.mk.injEq, TSUnit.mk.injEq, true_and, and_true]
    refine ⟨?_, rfl, ?_⟩
    · split
      · simp only [Option.map_some, Option.some.injEq]; omega
      · rfl
    · by_cases e : dts = pts
      · rw [if_pos e, if_pos (by rw [e])]; rfl
      · rw [if_neg e, if_neg (by omega)]; rfl
  | other k hp pts =>
    cases hp with
    | true =>
      simp only [laterCall, Writer.call, Writer.writeOther, tsorigin_choose h, laterUnit, Prod.mk.injEq, TSUnit.mk.injEq, true_and, and_true]
      refine ⟨?_, rfl, rfl⟩
      split
      · simp only [Option.map_some, Option.some.injEq]; omega
      · rfl
    | false =>
      have hk : w.isLeading k = false := by
        rw [Bool.eq_false_iff]
        intro e
        exact hx ⟨pts, by rw [(h.2 k).1 e]⟩
      simp [laterCall, Writer.call, Writer.writeOther, tsorigin_choose h, laterUnit, hk]

theorem tsorigin_run (c : Int) {t : Nat} : ∀ (l : List Call) (w : Writer), LedBy w t → (∀ x ∈ l, ¬ Timeless t x) →
    w.run (l.map (laterCall c)) = (w.run l).map (laterUnit c)
  | [], _, _, _ => rfl
  | x :: l, w, h, hl => by
    rw [List.map_cons, Writer.run, Writer.run, tsorigin_call h c x (hl x List.mem_cons_self), List.map_cons]
    dsimp only
    rw [tsorigin_run c l _ (tsorigin_led h x) (fun y hy => hl y (List.mem_cons_of_mem _ hy))]

theorem tsorigin_callTrack (c : Int) (x : Call) : laterTrack (laterCall c x) = laterTrack x := by
  cases x with
  | video => rfl
  | other k hp pts => cases hp <;> rfl

/-- The first call chooses the leading track, and then does what it would do if the track had been chosen before. -/
theorem tsorigin_start (x : Call) (l : List Call) :
    ({} : Writer).run (x :: l) = (({} : Writer).choose (laterTrack x)).run (x :: l) := by
  have e : (({} : Writer).choose (laterTrack x)).call x = ({} : Writer).call x := by
    cases x <;>
      simp only [Writer.call, Writer.writeVideo, Writer.writeOther, laterTrack, tsorigin_choose (tsorigin_first _)]
  rw [Writer.run, Writer.run, e]

/-- C116: when the times of all units given to the writer are moved by the same amount, the writer makes the same requests with all PTS,
DTS and clock references moved by this amount. Clock references are sent with the same units. The condition: units without time
(asynchronous KLV) are not on the leading track, which is the one that is written to first. `C116_writer_false` shows that it is needed. -/
theorem C116_writer_partial (c : Int) (x : Call) (l : List Call) (h : ∀ y ∈ x :: l, ¬ Timeless (laterTrack x) y) :
    ({} : Writer).run ((x :: l).map (laterCall c)) = (({} : Writer).run (x :: l)).map (laterUnit c) := by
  rw [List.map_cons, tsorigin_start, tsorigin_start, tsorigin_callTrack, ← List.map_cons]
  exact tsorigin_run c (x :: l) _ (tsorigin_first _) h

/-- Video with reordering, audio and asynchronous KLV. -/
def tsoriginCalls : List Call :=
  [.video 0 9000 3000 true, .other 1 true 3500, .other 2 false 0, .video 0 6000 6000 false, .video 0 18000 9000 false,
   .other 2 false 0, .video 0 12000 12000 false]

example : (∀ y ∈ tsoriginCalls, ¬ Timeless (laterTrack (.video 0 9000 3000 true)) y) ∧
    ({} : Writer).run (tsoriginCalls.map (laterCall 100000)) =
      [⟨0, some 94000, true, some 109000, some 103000⟩, ⟨1, none, true, some 103500, none⟩, ⟨2, none, true, none, none⟩,
       ⟨0, none, false, some 106000, none⟩, ⟨0, none, false, some 118000, some 109000⟩, ⟨2, none, true, none, none⟩,
       ⟨0, some 103000, false, some 112000, none⟩] := by
  refine ⟨?_, by decide +kernel⟩
  rintro y hy ⟨p, rfl⟩
  simp [tsoriginCalls, laterTrack] at hy

/-! ## The writer, 33 bits and the decoder -/

/-- The PTS of the units of a track, as they arrive: the low 33 bits. -/
def arriving (t : Nat) (us : List TSUnit) : List Int :=
  ((us.filter (fun u => u.track == t)).filterMap (·.pts)).map (· % 2 ^ 33)

theorem tsorigin_arriving (c : Int) (t : Nat) : ∀ us : List TSUnit,
    List.Forall₂ (fun a b => (b - a - c) % 2 ^ 33 = 0) (arriving t us) (arriving t (us.map (laterUnit c)))
  | [] => .nil
  | u :: us => by
    have ih := tsorigin_arriving c t us
    unfold arriving at ih ⊢
    rw [List.map_cons]
    by_cases e : (u.track == t) = true
    · rw [List.filter_cons_of_pos (p := fun u : TSUnit => u.track == t) e,
        List.filter_cons_of_pos (p := fun u : TSUnit => u.track == t) (a := laterUnit c u) e]
      rcases hp : u.pts with _ | p
      · rw [List.filterMap_cons_none hp, List.filterMap_cons_none (by simp [laterUnit, hp])]
        exact ih
      · rw [List.filterMap_cons_some hp, List.filterMap_cons_some (b := p + c) (by simp [laterUnit, hp])]
        exact .cons (by dsimp only; omega) ih
    · rw [List.filter_cons_of_neg (p := fun u : TSUnit => u.track == t) e,
        List.filter_cons_of_neg (p := fun u : TSUnit => u.track == t) (a := laterUnit c u) e]
      exact ih

/-- C116: the times that a receiver decodes do not depend on the origin of time of the sender, nor on where the 33 bits wrap. -/
theorem C116_received_partial (c : Int) (t : Nat) (x : Call) (l : List Call) (h : ∀ y ∈ x :: l, ¬ Timeless (laterTrack x) y) :
    ({} : TimeDecoder).decodeAll (arriving t (({} : Writer).run ((x :: l).map (laterCall c)))) =
      ({} : TimeDecoder).decodeAll (arriving t (({} : Writer).run (x :: l))) := by
  rw [C116_writer_partial c x l h]
  exact C116_decoder c _ _ (tsorigin_arriving c t _)

example : ({} : TimeDecoder).decodeAll (arriving 0 (({} : Writer).run (tsoriginCalls.map (laterCall (-10000))))) = [0, -3000, 9000, 3000] ∧
    arriving 0 (({} : Writer).run (tsoriginCalls.map (laterCall (-10000)))) = [8589933592, 8589930592, 8000, 2000] := by
  decide +kernel

/-! ## Asynchronous KLV on the leading track -/

theorem tsorigin_stopped {t : Nat} : ∀ (l : List Call) (w : Writer), LedBy w t →
    (∀ x ∈ l, laterTrack x = t → x = .other t false 0) → ∀ u ∈ w.run l, ∀ p, u.pcr = some p → p = -9000
  | [], _, _, _ => by intro u hu; cases hu
  | x :: l, w, h, hl => by
    intro u hu p hp
    rw [Writer.run] at hu
    rcases List.mem_cons.1 hu with rfl | hu
    · by_cases e : laterTrack x = t
      · rw [hl x List.mem_cons_self e] at hp
        simp only [Writer.call, Writer.writeOther, tsorigin_choose h] at hp
        split at hp
        · simp only [Option.some.injEq, dtsPCRDiff] at hp; omega
        · cases hp
      · exfalso
        have hk : w.isLeading (laterTrack x) = false := by
          rw [Bool.eq_false_iff]
          intro e'
          exact e ((h.2 _).1 e')
        cases x <;> simp [laterTrack] at hk <;>
          simp [Writer.call, Writer.writeVideo, Writer.writeOther, tsorigin_choose h, hk] at hp
    · exact tsorigin_stopped l _ (tsorigin_led h x) (fun y hy => hl y (List.mem_cons_of_mem _ hy)) u hu p hp

/-- C116: when the track that is written to first carries asynchronous KLV, all clock references of the stream are -9000, whatever the times
of the other tracks are: the clock stands still. -/
theorem C116_clock_stops (t : Nat) (l : List Call) (hl : ∀ x ∈ l, laterTrack x = t → x = .other t false 0) :
    ∀ u ∈ ({} : Writer).run (.other t false 0 :: l), ∀ p, u.pcr = some p → p = -9000 := by
  rw [tsorigin_start]
  refine tsorigin_stopped (t := t) _ _ (tsorigin_first _) ?_
  intro x hx ht
  rcases List.mem_cons.1 hx with rfl | hx
  · rfl
  · exact hl x hx ht

/-- KLV is written before the first video frame; video goes on for a minute. -/
def stoppedCalls : List Call :=
  [.other 1 false 0, .video 0 90000 90000 true, .other 1 false 0, .video 0 2700000 2700000 true, .other 1 false 0,
   .video 0 5400000 5400000 true, .other 1 false 0]

example : (({} : Writer).run stoppedCalls).map (·.pcr) = [some (-9000), none, none, none, none, none, some (-9000)] := by decide +kernel

/-- C116 is false of streams whose leading track has units without time: times are moved, clock references are not. -/
theorem C116_writer_false : ¬ ∀ (c : Int) (l : List Call),
    ({} : Writer).run (l.map (laterCall c)) = (({} : Writer).run l).map (laterUnit c) := by
  intro h
  have e := h 100000 stoppedCalls
  revert e
  decide +kernel

end Verif.Props
