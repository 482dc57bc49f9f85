import Verif.Model.TSTables
import Verif.Props.TSWriter

/-!
# Property C96: the PID announced for clock references
-/

namespace Verif.Props
open Verif.TSWriter Verif.TSTables

/-! ## Specification -/

/-- ISO 13818-1, 2.4.4.9: the PCR_PID of the tables is the PID of the packets that contain the clock references. The output is
consistent when no unit with a clock reference is on another PID than any of the tables say. -/
def PCRConsistent (out : List Event) : Prop :=
  ∀ p u, Event.tables p ∈ out → Event.unit u ∈ out → u.pcr ≠ none → u.track = p

/-- The calls among the operations. -/
def callsOf : List Op → List Call
  | [] => []
  | .tables :: l => callsOf l
  | .write c _ :: l => c :: callsOf l

/-- The units of an output. -/
def outUnits : List Event → List TSUnit
  | [] => []
  | .unit u :: l => u :: outUnits l
  | _ :: l => outUnits l

/-- All tracks that are written to belong to the writer. -/
def OwnTracks (tracks : List Nat) (ops : List Op) : Prop := ∀ c ∈ callsOf ops, callTrack c ∈ tracks

/-! ## Proofs -/

theorem tbl_track (c : Call) : TSTables.track c = callTrack c := by cases c <;> rfl

/-- Leading track `t`, also set in the multiplexer. -/
structure TblLed (w : TSTables.Writer) (t : Nat) : Prop where
  led : Led w.clock t
  pcr : w.pcrPID = some t
  own : t ∈ w.tracks

theorem tbl_send {w : TSTables.Writer} {t : Nat} (h : w.pcrPID = some t) (o : t ∈ w.tracks) : w.sendTables = .tables t := by
  simp [TSTables.Writer.sendTables, h, o]

theorem tbl_step {w : TSTables.Writer} {t : Nat} (h : TblLed w t) (o : Op) :
    TblLed (w.step o).2 t ∧ (w.step o).2.tracks = w.tracks ∧
    (∀ e ∈ (w.step o).1, e = .tables t ∨ ∃ u, e = .unit u ∧ (u.pcr ≠ none → u.track = t)) ∧
    (match o with
      | .tables => outUnits (w.step o).1 = [] ∧ (w.step o).2.clock = w.clock
      | .write c _ => outUnits (w.step o).1 = [(w.clock.call c).1] ∧ (w.step o).2.clock = (w.clock.call c).2) := by
  obtain ⟨h1, h2, h3⟩ := h
  cases o with
  | tables =>
    have : w.writeTables = ([.tables t], w) := by
      unfold TSTables.Writer.writeTables
      cases ht : w.tracks with
      | nil => rw [ht] at h3; exact absurd h3 (by simp)
      | cons a l => simp only [h1.chosen, if_true, tbl_send h2 h3]
    simp only [TSTables.Writer.step, this]
    exact ⟨⟨h1, h2, h3⟩, trivial, fun e he => .inl (by simpa using he), by simp [outUnits]⟩
  | write c a =>
    have hl := led_call h1 c
    have hu : ((w.clock.call c).1.pcr ≠ none → (w.clock.call c).1.track = t) := by
      intro hp
      rw [hl.2.1]
      by_cases hc : callTrack c = t
      · exact hc
      · exact absurd (hl.2.2.1 hc).1 hp
    simp only [TSTables.Writer.step, TSTables.Writer.write, h1.chosen, if_true]
    have hs : TSTables.Writer.sendTables { w with clock := (w.clock.call c).2 } = .tables t := tbl_send h2 h3
    have hs' : TSTables.Writer.sendTables { tracks := w.tracks, clock := (w.clock.call c).2, pcrPID := w.pcrPID } = .tables t := hs
    refine ⟨⟨hl.1, h2, h3⟩, by simp, ?_, ?_⟩
    · cases a
      · intro e he
        simp at he
        exact .inr ⟨_, he, hu⟩
      · intro e he
        simp [hs'] at he
        rcases he with he | he
        · exact .inl he
        · exact .inr ⟨_, he, hu⟩
    · cases a
      · exact ⟨by simp [outUnits], trivial⟩
      · exact ⟨by simp [hs', outUnits], trivial⟩

theorem outUnits_append (a b : List Event) : outUnits (a ++ b) = outUnits a ++ outUnits b := by
  induction a with
  | nil => rfl
  | cons e l ih => cases e <;> simp [outUnits, ih]

theorem tbl_run (ops : List Op) : ∀ (w : TSTables.Writer) (t : Nat), TblLed w t →
    (∀ e ∈ w.run ops, e = .tables t ∨ ∃ u, e = .unit u ∧ (u.pcr ≠ none → u.track = t)) ∧
    outUnits (w.run ops) = w.clock.run (callsOf ops) := by
  induction ops with
  | nil => intro w t _; exact ⟨by simp [TSTables.Writer.run], rfl⟩
  | cons o l ih =>
    intro w t h
    obtain ⟨a, _, b, c⟩ := tbl_step h o
    obtain ⟨d, e⟩ := ih _ t a
    refine ⟨?_, ?_⟩
    · intro x hx
      rw [TSTables.Writer.run, List.mem_append] at hx
      exact hx.elim (b x) (d x)
    · rw [TSTables.Writer.run, outUnits_append, e]
      cases o with
      | tables => simp only [] at c; rw [c.1, c.2]; rfl
      | write c' a' => simp only [] at c; rw [c.1, c.2]; rfl

/-- The state in front of the first write. -/
structure TblFresh (w : TSTables.Writer) : Prop where
  clock : w.clock = {}
  ne : w.tracks ≠ []

theorem tbl_first {w : TSTables.Writer} (h : TblFresh w) (c : Call) (a : Bool) (ho : callTrack c ∈ w.tracks) :
    TblLed (w.step (.write c a)).2 (callTrack c) ∧
    (∀ e ∈ (w.step (.write c a)).1, e = .tables (callTrack c) ∨ ∃ u, e = .unit u ∧ u.track = callTrack c) ∧
    outUnits (w.step (.write c a)).1 = [(({} : TSWriter.Writer).call c).1] ∧
    (w.step (.write c a)).2.clock = (({} : TSWriter.Writer).call c).2 := by
  obtain ⟨hc, _⟩ := h
  have hf := call_fresh c
  have hl := led_call (led_fresh (callTrack c)) c
  simp only [TSTables.Writer.step, TSTables.Writer.write, hc, tbl_track]
  have hs : TSTables.Writer.sendTables { tracks := w.tracks, clock := (({} : TSWriter.Writer).call c).2, pcrPID := some (callTrack c) } =
      .tables (callTrack c) := tbl_send rfl ho
  have hu : (({} : TSWriter.Writer).call c).1.track = callTrack c := by cases c <;> rfl
  refine ⟨⟨?_, by simp, ho⟩, ?_, ?_, by simp⟩
  · simp only []
    rw [hf]
    exact hl.1
  · cases a
    · intro e he; simp at he; exact .inr ⟨_, he, hu⟩
    · intro e he
      simp [hs] at he
      rcases he with he | he
      · exact .inl he
      · exact .inr ⟨_, he, hu⟩
  · cases a
    · simp [outUnits]
    · simp [hs, outUnits]

theorem tbl_before {w : TSTables.Writer} (h : TblFresh w) :
    (w.step .tables).1 = [.tables (w.tracks.headD 0)] ∧ TblFresh (w.step .tables).2 ∧ (w.step .tables).2.tracks = w.tracks := by
  obtain ⟨hc, hn⟩ := h
  unfold TSTables.Writer.step TSTables.Writer.writeTables
  cases ht : w.tracks with
  | nil => exact absurd ht hn
  | cons t l =>
    simp only [hc]
    refine ⟨?_, ⟨by simp, by simp⟩, by simp⟩
    simp [TSTables.Writer.sendTables, ht]

/-- A writer that was just initialized: operations split at the first write. -/
theorem tbl_all (ops : List Op) : ∀ (w : TSTables.Writer), TblFresh w → OwnTracks w.tracks ops →
    outUnits (w.run ops) = ({} : TSWriter.Writer).run (callsOf ops) ∧
    (∀ e ∈ w.run ops, (e = .tables (w.tracks.headD 0) ∧ ops.head? = some .tables) ∨
      ∃ c, (callsOf ops).head? = some c ∧ (e = .tables (callTrack c) ∨ ∃ u, e = .unit u ∧ (u.pcr ≠ none → u.track = callTrack c))) := by
  induction ops with
  | nil => intro w _ _; exact ⟨rfl, by simp [TSTables.Writer.run]⟩
  | cons o l ih =>
    intro w h ho
    cases o with
    | tables =>
      obtain ⟨h1, h2, h3⟩ := tbl_before h
      obtain ⟨i1, i2⟩ := ih _ h2 (by rw [h3]; exact ho)
      refine ⟨?_, ?_⟩
      · rw [TSTables.Writer.run, outUnits_append, i1, h1]; rfl
      · intro e he
        rw [TSTables.Writer.run, List.mem_append, h1] at he
        rcases he with he | he
        · exact .inl ⟨by simpa using he, rfl⟩
        · rcases i2 e he with ⟨j, _⟩ | j
          · exact .inl ⟨by rw [j, h3], rfl⟩
          · exact .inr j
    | write c a =>
      obtain ⟨h1, h2, h3, h4⟩ := tbl_first h c a (ho c (by simp [callsOf]))
      obtain ⟨i1, i2⟩ := tbl_run l _ _ h1
      refine ⟨?_, ?_⟩
      · rw [TSTables.Writer.run, outUnits_append, i2, h3, h4]; rfl
      · intro e he
        refine .inr ⟨c, rfl, ?_⟩
        rw [TSTables.Writer.run, List.mem_append] at he
        rcases he with he | he
        · rcases h2 e he with j | ⟨u, j, k⟩
          · exact .inl j
          · exact .inr ⟨u, j, fun _ => k⟩
        · exact i1 e he

/-- Tables are never refused and no unit is lost or changed by them: units are the ones of the calls. Each of the tables announces a
track of the writer. -/
theorem C96_tables (tracks : List Nat) (hn : tracks ≠ []) (ops : List Op) (ho : OwnTracks tracks ops) :
    Event.refused ∉ TSTables.Writer.run { tracks } ops ∧
    (∀ p, Event.tables p ∈ TSTables.Writer.run { tracks } ops → p ∈ tracks) ∧
    outUnits (TSTables.Writer.run { tracks } ops) = ({} : TSWriter.Writer).run (callsOf ops) := by
  obtain ⟨h1, h2⟩ := tbl_all ops { tracks } ⟨rfl, hn⟩ ho
  refine ⟨fun h => ?_, fun p h => ?_, h1⟩
  · rcases h2 _ h with ⟨j, _⟩ | ⟨c, _, j | ⟨u, j, _⟩⟩ <;> exact nomatch j
  · rcases h2 _ h with ⟨j, _⟩ | ⟨c, k, j | ⟨u, j, _⟩⟩
    · injection j with j
      cases tracks with
      | nil => exact absurd rfl hn
      | cons a l => rw [j]; simp
    · injection j with j
      rw [j]
      exact ho c (List.mem_of_mem_head? k)
    · exact nomatch j

/-- The operations after the first write. -/
def fromFirstWrite : List Op → List Op
  | [] => []
  | .tables :: l => fromFirstWrite l
  | o :: l => o :: l

theorem fromFirstWrite_calls (ops : List Op) : callsOf (fromFirstWrite ops) = callsOf ops := by
  induction ops with
  | nil => rfl
  | cons o l ih => cases o <;> simp [fromFirstWrite, callsOf, ih]

theorem fromFirstWrite_head (ops : List Op) : (fromFirstWrite ops).head? ≠ some .tables := by
  induction ops with
  | nil => simp [fromFirstWrite]
  | cons o l ih => cases o <;> simp [fromFirstWrite, ih]

/-- Full claim: `PCRConsistent` for all operations. It is false (`C96_false`). It holds when no tables are written in front of the first
unit, or when the first unit belongs to the first track. -/
theorem C96_partial (tracks : List Nat) (hn : tracks ≠ []) (ops : List Op) (ho : OwnTracks tracks ops)
    (hf : ops.head? ≠ some .tables ∨ ∀ c, (callsOf ops).head? = some c → tracks.head? = some (callTrack c)) :
    PCRConsistent (TSTables.Writer.run { tracks } ops) := by
  obtain ⟨_, h2⟩ := tbl_all ops { tracks } ⟨rfl, hn⟩ ho
  intro p u hp hu hpcr
  rcases h2 _ hu with ⟨j, _⟩ | ⟨c, k, j | ⟨u', j, j2⟩⟩
  · exact nomatch j
  · exact nomatch j
  · injection j with j
    subst j
    rw [j2 hpcr]
    rcases h2 _ hp with ⟨i, i2⟩ | ⟨c', k', i | ⟨_, i, _⟩⟩
    · injection i with i
      rcases hf with hf | hf
      · exact absurd i2 hf
      · have := hf c k
        cases tracks with
        | nil => exact absurd rfl hn
        | cons a l => simp at this; rw [i]; simp [this]
    · injection i with i
      rw [k] at k'
      injection k' with k'
      rw [i, k']
    · exact nomatch i

/-- In the part of the output from the first unit on, tables announce the PID of the clock references, whatever was written before. -/
theorem C96_after_first_partial (tracks : List Nat) (hn : tracks ≠ []) (ops : List Op) (ho : OwnTracks tracks ops) :
    ∃ pre, TSTables.Writer.run { tracks } ops = pre ++ TSTables.Writer.run { tracks } (fromFirstWrite ops) ∧
      (∀ e ∈ pre, e = .tables (tracks.headD 0)) ∧ PCRConsistent (TSTables.Writer.run { tracks } (fromFirstWrite ops)) := by
  have key : ∀ (ops : List Op) (w : TSTables.Writer), TblFresh w → w.tracks = tracks → ∃ pre,
      w.run ops = pre ++ TSTables.Writer.run { tracks } (fromFirstWrite ops) ∧ ∀ e ∈ pre, e = .tables (tracks.headD 0) := by
    intro ops
    induction ops with
    | nil => intro w _ _; exact ⟨[], rfl, by simp⟩
    | cons o l ih =>
      intro w h hw
      cases o with
      | tables =>
        obtain ⟨h1, h2, h3⟩ := tbl_before h
        obtain ⟨pre, i1, i2⟩ := ih _ h2 (h3.trans hw)
        refine ⟨.tables (tracks.headD 0) :: pre, ?_, ?_⟩
        · rw [TSTables.Writer.run, h1, i1, hw]; rfl
        · intro e he
          rcases List.mem_cons.1 he with he | he
          · exact he
          · exact i2 e he
      | write c a =>
        refine ⟨[], ?_, by simp⟩
        have : w.step (.write c a) = TSTables.Writer.step { tracks } (.write c a) := by
          obtain ⟨hc, _⟩ := h
          simp only [TSTables.Writer.step, TSTables.Writer.write, hc, hw]
          rfl
        simp only [fromFirstWrite, TSTables.Writer.run, this, List.nil_append]
  obtain ⟨pre, h1, h2⟩ := key ops { tracks } ⟨rfl, hn⟩ rfl
  refine ⟨pre, h1, h2, C96_partial tracks hn _ ?_ (.inl (fromFirstWrite_head ops))⟩
  intro c hc
  rw [fromFirstWrite_calls] at hc
  exact ho c hc

/-- Tables written in front of everything announce the first track, although the first unit, with the clock references, comes on the
second one: who received these tables waits on a PID that never carries a clock. -/
theorem C96_false : ¬∀ (tracks : List Nat) (ops : List Op), tracks ≠ [] → OwnTracks tracks ops →
    PCRConsistent (TSTables.Writer.run { tracks } ops) := by
  intro h
  have := h [256, 257] [.tables, .write (.other 257 true 90000) false, .write (.video 256 90000 90000 true) false] (by simp)
    (by intro c hc; simp [callsOf] at hc; rcases hc with rfl | rfl <;> simp [callTrack])
    256 ⟨257, some 81000, true, some 90000, none⟩ (by decide) (by decide) (by decide)
  exact absurd this (by decide)

example : TSTables.Writer.run { tracks := [256, 257] }
    [.tables, .write (.other 257 true 90000) true, .tables, .write (.video 256 90000 90000 true) false] =
    [.tables 256, .tables 257, .unit ⟨257, some 81000, true, some 90000, none⟩, .tables 257,
      .unit ⟨256, none, true, some 90000, none⟩] := by decide
example : OwnTracks [256, 257] [.tables, .write (.video 256 1 0 false) true, .tables] ∧
    ∀ c, (callsOf [.tables, .write (.video 256 1 0 false) true, .tables]).head? = some c →
      ([256, 257] : List Nat).head? = some (callTrack c) := by
  constructor
  · intro c hc; simp [callsOf] at hc; subst hc; simp [callTrack]
  · intro c hc; simp [callsOf] at hc; subst hc; rfl
example : TSTables.Writer.run { tracks := [] } [.tables] = [.refused] := by decide

end Verif.Props
