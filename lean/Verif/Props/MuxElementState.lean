import Verif.Model.MuxElementState
import Verif.Props.MuxElement

/-!
# C102: an AudioMuxElement that is decoded into again and again

Independent statement: `usedConfig` and `asExpected` say what a caller expects: an element that uses the configuration of an earlier one
uses that of the last element that had one.
-/

namespace Verif.Props
open Verif.MPEG4Audio Verif.BitM

/-- A complete configuration, as it is in memory. -/
def heldOf (c : StreamMuxConfig) : HeldConfig :=
  { numSubFrames := c.numSubFrames, programs := c.programs.map fun p => some (p.map some), otherDataPresent := c.otherDataPresent,
    otherDataLenBits := c.otherDataLenBits, crcCheckPresent := c.crcCheckPresent, crcCheckSum := c.crcCheckSum }

/-- The element has a configuration: the first bit is zero. -/
def HasConfig (buf : Bytes) : Prop := ∃ b l, buf = b :: l ∧ b < 128

instance (buf : Bytes) : Decidable (HasConfig buf) :=
  match buf with
  | [] => isFalse (by rintro ⟨_, _, h, _⟩; cases h)
  | b :: l => if h : b < 128 then isTrue ⟨b, l, rfl, h⟩ else isFalse (by rintro ⟨_, _, e, h'⟩; cases e; exact h h')

/-- The configuration to use after an element, with `given` the one to use before it. -/
def usedConfig (present : Bool) (given : Option StreamMuxConfig) (buf : Bytes) : Option StreamMuxConfig :=
  if present = true ∧ HasConfig buf then
    match StreamMuxConfig.unmarshalBits buf 1 with
    | .ok r => some r.1
    | _ => given
  else given

/-- The flag and the payloads of each element. -/
def asExpected (present : Bool) : Option StreamMuxConfig → List Bytes → List (Res (Bool × List (List (List Bytes))))
  | _, [] => []
  | given, b :: l =>
    (MuxElement.unmarshal present given b >>= fun e => .ok (e.useSameStreamMux, e.payloads)) ::
      asExpected present (usedConfig present given b) l

/-! ## Reading a configuration in place -/

/-- `y`, from the configuration `c`, returns what `x` returns, and leaves what `f` says when it succeeds. -/
def held_Sim {α β : Type} (x : BitM α) (y : ConfM β) (c : HeldConfig) (f : α → HeldConfig × β) : Prop := ∀ buf pos,
  match x buf pos with
  | .ok r => y c buf pos = ((f r.1).1, .ok ((f r.1).2, r.2))
  | .err e => (y c buf pos).2 = .err e
  | .panic => (y c buf pos).2 = .panic

namespace held_Sim

theorem pure {α β : Type} {a : α} {b : β} {c : HeldConfig} {f : α → HeldConfig × β} (h : f a = (c, b)) :
    held_Sim (Pure.pure a) (Pure.pure b) c f := by
  intro buf pos
  show (c, Res.ok (b, pos)) = _
  rw [h]

theorem read {α : Type} (x : BitM α) (c : HeldConfig) : held_Sim x (ConfM.read x) c (fun a => (c, a)) := by
  intro buf pos
  match h : x buf pos with
  | .ok r => exact Prod.ext rfl (by exact h)
  | .err e => exact h
  | .panic => exact h

theorem bind {α β γ δ : Type} {x : BitM α} {y : ConfM β} {c : HeldConfig} {f : α → HeldConfig × β} {g : α → BitM γ} {h : β → ConfM δ}
    {k : γ → HeldConfig × δ} (h1 : held_Sim x y c f) (h2 : ∀ a, held_Sim (g a) (h (f a).2) (f a).1 k) :
    held_Sim (x >>= g) (y >>= h) c k := by
  intro buf pos
  have h1 := h1 buf pos
  simp only [Bind.bind]
  match hx : x buf pos with
  | .ok r =>
    rw [hx] at h1
    dsimp only at h1
    simp only [h1, Res.bind]
    exact h2 r.1 buf r.2
  | .err e =>
    rw [hx] at h1
    dsimp only at h1
    obtain ⟨c', e'⟩ : ∃ c', y c buf pos = (c', .err e) := ⟨_, Prod.ext rfl h1⟩
    simp only [e', Res.bind]
  | .panic =>
    rw [hx] at h1
    dsimp only at h1
    obtain ⟨c', e'⟩ : ∃ c', y c buf pos = (c', .panic) := ⟨_, Prod.ext rfl h1⟩
    simp only [e', Res.bind]

theorem modify {α β : Type} {x : BitM α} {y : ConfM β} {c : HeldConfig} {f : α → HeldConfig × β} {m : HeldConfig → HeldConfig}
    (h : held_Sim x y (m c) f) : held_Sim x (ConfM.modify m >>= fun _ => y) c f := h

theorem map {α β γ : Type} {x : BitM α} {y : ConfM β} {c : HeldConfig} {m : α → γ} {k : γ → HeldConfig × β}
    (h : held_Sim x y c (fun a => k (m a))) : held_Sim (x >>= fun a => Pure.pure (m a)) y c k := by
  intro buf pos
  have h := h buf pos
  simp only [Bind.bind, Pure.pure]
  match hx : x buf pos with
  | .ok r => rw [hx] at h; exact h
  | .err e => rw [hx] at h; exact h
  | .panic => rw [hx] at h; exact h

theorem last {α : Type} {a : α} {c : HeldConfig} {f : α → HeldConfig × Unit} {m : HeldConfig → HeldConfig} (h : f a = (m c, ())) :
    held_Sim (Pure.pure a) (ConfM.modify m) c f := by
  intro buf pos
  show (m c, Res.ok ((), pos)) = _
  rw [h]

end held_Sim

theorem held_modify {α : Type} (A : List α) (a : α) (B : List α) (f : α → α) : (A ++ a :: B).modify A.length f = A ++ f a :: B := by
  induction A with
  | nil => rfl
  | cons b A ih => simpa using ih

theorem held_setLayer (c : HeldConfig) (A B : List (Option (List (Option Layer)))) (cur rest : List (Option Layer)) (x : Option Layer) (l : Layer)
    (h : c.programs = A ++ some (cur ++ x :: rest) :: B) :
    setLayer A.length cur.length l c = { c with programs := A ++ some (cur ++ some l :: rest) :: B } := by
  simp [setLayer, h, held_modify]

theorem held_setLayers (c : HeldConfig) (A B : List (Option (List (Option Layer)))) (x : Option (List (Option Layer))) (l : List (Option Layer))
    (h : c.programs = A ++ x :: B) : setLayers A.length l c = { c with programs := A ++ some l :: B } := by
  simp [setLayers, h]

theorem held_cutAt (c : HeldConfig) (A B : List (Option (List (Option Layer)))) (cur rest : List (Option Layer)) (x : Option Layer)
    (h : c.programs = A ++ some (cur ++ x :: rest) :: B) :
    cutAt A.length cur.length c = { c with programs := A ++ [some (cur ++ [x])] } := by
  have e1 : (A ++ some (cur ++ x :: rest) :: B).take (A.length + 1) = A ++ [some (cur ++ x :: rest)] := by
    rw [List.take_append, List.take_of_length_le (by omega)]; simp
  have e2 : (cur ++ x :: rest).take (cur.length + 1) = cur ++ [x] := by
    rw [List.take_append, List.take_of_length_le (by omega)]; simp
  simp [cutAt, h, e1, held_modify, e2]

theorem held_step (A B : List (Option (List (Option Layer)))) (first : Bool) (cur rest : List (Option Layer)) (x : Option Layer) (c : HeldConfig)
    (hf : first = (A.length == 0 && cur.length == 0)) (h : c.programs = A ++ some (cur ++ x :: rest) :: B) :
    held_Sim (readLayer first) (layerStep A.length cur.length) c fun r =>
      ({ c with programs := A ++ some (cur ++ some r.1 :: (if r.2 then [] else rest)) :: (if r.2 then [] else B) }, r.2) := by
  subst hf
  refine held_Sim.modify ?_
  rw [held_setLayer c A B cur rest x _ h]
  refine held_Sim.bind (held_Sim.read _ _) fun same => ?_
  refine held_Sim.bind (held_Sim.read _ _) fun asc => ?_
  refine held_Sim.modify ?_
  rw [held_setLayer _ A B cur rest _ _ rfl]
  refine held_Sim.bind (held_Sim.read _ _) fun t => ?_
  dsimp only
  cases t with
  | none =>
    refine held_Sim.modify (held_Sim.modify ?_)
    rw [held_setLayer _ A B cur rest _ _ rfl, held_cutAt _ A B cur rest _ rfl]
    exact held_Sim.pure rfl
  | some t =>
    refine held_Sim.modify ?_
    rw [held_setLayer _ A B cur rest _ _ rfl]
    refine held_Sim.bind (held_Sim.read _ _) fun l => ?_
    refine held_Sim.modify ?_
    rw [held_setLayer _ A B cur rest _ _ rfl]
    exact held_Sim.pure rfl

theorem held_layers (A B : List (Option (List (Option Layer)))) (first : Bool) (n : Nat) (cur : List Layer) (c : HeldConfig)
    (hf : first = (A.length == 0 && cur.length == 0))
    (h : c.programs = A ++ some (cur.map some ++ List.replicate n none) :: B) :
    held_Sim (readLayers first n) (layersLoop A.length cur.length n) c fun r =>
      ({ c with programs := A ++ some ((cur ++ r.1).map some) :: (if r.2 then [] else B) }, r.2) := by
  induction n generalizing first cur c with
  | zero =>
    refine held_Sim.pure ?_
    cases c
    simp_all
  | succ n ih =>
    rw [readLayers, layersLoop]
    rw [List.replicate_succ] at h
    have e := held_step A B first (cur.map some) _ none c (by simpa using hf) h
    rw [List.length_map] at e
    refine held_Sim.bind e fun r => ?_
    obtain ⟨l, cut⟩ := r
    dsimp only
    cases cut
    · have := ih false (cur ++ [l]) { c with programs := A ++ some (cur.map some ++ some l :: List.replicate n none) :: B } (by simp) (by simp)
      rw [List.length_append] at this
      simp only [Bool.false_eq_true, if_false]
      refine held_Sim.map ?_
      simpa using this
    · exact held_Sim.pure (by simp)

theorem held_program (A B : List (Option (List (Option Layer)))) (x : Option (List (Option Layer))) (first : Bool) (c : HeldConfig)
    (hf : first = (A.length == 0)) (h : c.programs = A ++ x :: B) :
    held_Sim (readProgram first) (programStep A.length) c fun r =>
      ({ c with programs := A ++ some (r.1.map some) :: (if r.2 then [] else B) }, r.2) := by
  refine held_Sim.modify ?_
  rw [held_setLayers c A B x _ h]
  refine held_Sim.bind (held_Sim.read _ _) fun n => ?_
  refine held_Sim.modify ?_
  rw [held_setLayers _ A B _ _ rfl]
  exact held_layers A B first (n + 1) [] _ (by simpa using hf) (by simp)

theorem held_programs (n : Nat) (ps : List (List Layer)) (first : Bool) (c : HeldConfig) (hf : first = (ps.length == 0))
    (h : c.programs = ps.map (fun p => some (p.map some)) ++ List.replicate n none) :
    held_Sim (readPrograms first n) (programsLoop ps.length n) c fun r =>
      ({ c with programs := (ps ++ r.1).map fun p => some (p.map some) }, r.2) := by
  induction n generalizing first ps c with
  | zero =>
    refine held_Sim.pure ?_
    cases c
    simp_all
  | succ n ih =>
    rw [readPrograms, programsLoop]
    rw [List.replicate_succ] at h
    have e := held_program _ _ none first c (by simpa using hf) h
    rw [List.length_map] at e
    refine held_Sim.bind e fun r => ?_
    obtain ⟨l, cut⟩ := r
    dsimp only
    cases cut
    · have := ih (ps ++ [l]) false
        { c with programs := ps.map (fun p => some (p.map some)) ++ some (l.map some) :: List.replicate n none } (by simp) (by simp)
      rw [List.length_append] at this
      simp only [Bool.false_eq_true, if_false]
      refine held_Sim.map ?_
      simpa using this
    · exact held_Sim.pure (by simp)

theorem held_tail (n : Nat) (ps : List (List Layer)) :
    held_Sim (readMuxTail n ps) heldTail (heldOf ⟨n, ps, false, 0, false, 0⟩) fun c => (heldOf c, ()) := by
  refine held_Sim.bind (held_Sim.read _ _) fun present => ?_
  refine held_Sim.modify ?_
  refine held_Sim.bind (held_Sim.read _ _) fun len => ?_
  refine held_Sim.modify ?_
  refine held_Sim.bind (held_Sim.read _ _) fun crc => ?_
  refine held_Sim.modify ?_
  refine held_Sim.bind (held_Sim.read _ _) fun sum => ?_
  exact held_Sim.last rfl

theorem held_head : StreamMuxConfig.unmarshalBits = (readMuxHead >>= fun h => do
    let r ← readPrograms true (h.2 + 1)
    if r.2 then pure { numSubFrames := h.1, programs := r.1, otherDataPresent := false, otherDataLenBits := 0, crcCheckPresent := false,
                       crcCheckSum := 0 }
    else readMuxTail h.1 r.1) := by
  unfold StreamMuxConfig.unmarshalBits readMuxHead
  simp only [bind_assoc]
  congr 1; funext _
  congr 1; funext v
  cases v
  · simp only [Bool.false_eq_true, if_false, bind_assoc]
    congr 1; funext a
    cases a
    · rfl
    · simp only [Bool.not_true, Bool.false_eq_true, if_false, bind_assoc, pure_bind]
  · rfl

theorem held_config : held_Sim StreamMuxConfig.unmarshalBits HeldConfig.unmarshalBits {} fun c => (heldOf c, ()) := by
  rw [held_head]
  refine held_Sim.bind (held_Sim.read _ _) fun r => ?_
  refine held_Sim.modify ?_
  refine held_Sim.bind (held_programs (r.2 + 1) [] true _ rfl rfl) fun p => ?_
  obtain ⟨ps, cut⟩ := p
  dsimp only
  cases cut
  · exact held_tail r.1 ps
  · exact held_Sim.pure rfl

/-! ## Reading the payloads -/

theorem held_each {α β γ : Type} (f : β → BitM γ) (g : α → β) (l : List α) : each f (l.map g) = each (fun a => f (g a)) l := by
  induction l with
  | nil => rfl
  | cons a l ih => simp only [List.map_cons, each, ih]

theorem held_subFrame (ps : List (List Layer)) : readHeldSubFrame (ps.map fun p => some (p.map some)) = readSubFrame ps := by
  have e1 : each readHeldSlots (ps.map fun p => some (p.map some)) = readLengthInfo ps := by
    rw [held_each]
    unfold readLengthInfo
    congr 1
    funext p
    show each readHeldSlot (p.map some) = _
    rw [held_each]
    rfl
  have e2 : ∀ li, each readHeldPayloads ((ps.map fun p => some (p.map some)).zip li) = readPayloadMux ps li := by
    intro li
    rw [List.zip_map_left, held_each]
    unfold readPayloadMux
    congr 1
    funext p
    obtain ⟨p, s⟩ := p
    show each readHeldPayload ((p.map some).zip s) = _
    rw [List.zip_map_left, held_each]
    rfl
  unfold readHeldSubFrame readSubFrame
  rw [e1]
  simp only [e2]

/-- What follows the configuration, as in `MuxElement.unmarshal`. -/
def held_rest (same : Bool) (config : Option StreamMuxConfig) (buf : Bytes) (pos : Nat) : Res MuxElement :=
  Res.bind ((match config with
    | none => fail "no StreamMuxConfig available"
    | some c => do
      let payloads ← times (readSubFrame c.programs) (c.numSubFrames + 1)
      if c.otherDataPresent then fail "OtherDataPresent is not supported (yet)" else
      pure { useSameStreamMux := same, config := some c, payloads := payloads } : BitM MuxElement) buf pos) fun r =>
    if ceil8 r.2 ≠ buf.length then .err "detected unread bytes" else .ok r.1

theorem held_element (same : Bool) (g : Option StreamMuxConfig) (buf : Bytes) (pos : Nat) :
    readHeldElement same (g.map heldOf) buf pos = Res.bind (held_rest same g buf pos) fun e => .ok (e.useSameStreamMux, e.payloads) := by
  cases g with
  | none => rfl
  | some c =>
    have e : readHeldSubFrame (heldOf c).programs = readSubFrame c.programs := held_subFrame c.programs
    obtain ⟨ns, ps, od, ol, cp, cs⟩ := c
    simp only [readHeldElement, held_rest, Option.map_some, e]
    show Res.bind (times (readSubFrame ps) (ns + 1) buf pos) _ = Res.bind (Res.bind (Res.bind (times (readSubFrame ps) (ns + 1) buf pos) _) _) _
    cases times (readSubFrame ps) (ns + 1) buf pos with
    | err e => rfl
    | panic => rfl
    | ok r =>
      cases od
      · show (if ceil8 r.2 ≠ buf.length then Res.err _ else Res.ok (same, r.1)) =
          Res.bind (if ceil8 r.2 ≠ buf.length then Res.err _ else Res.ok (MuxElement.mk same _ r.1)) _
        by_cases h : ceil8 r.2 = buf.length
        · rw [if_neg (not_not_intro h), if_neg (not_not_intro h)]
          rfl
        · rw [if_pos h, if_pos h]
          rfl
      · rfl

theorem held_flag (buf : Bytes) : (buf = [] ∧ readFlag buf 0 = .err "not enough bits") ∨
    (HasConfig buf ∧ readFlag buf 0 = .ok (false, 1)) ∨ (buf ≠ [] ∧ ¬HasConfig buf ∧ readFlag buf 0 = .ok (true, 1)) := by
  cases buf with
  | nil => exact .inl ⟨rfl, rfl⟩
  | cons b l =>
    right
    have e : readFlag (b :: l) 0 = .ok (((b.toNat >>> 7) &&& 1) == 1, 1) := by
      show Bits.readFlag (b :: l) 0 = _
      rw [Bits.readFlag, Bits.hasSpace_ok (by simp; omega)]
      rfl
    rw [e]
    have hb := b.toNat_lt
    by_cases h : b.toNat < 128
    · refine .inl ⟨⟨b, l, rfl, UInt8.lt_iff_toNat_lt.2 h⟩, ?_⟩
      have : b.toNat >>> 7 = 0 := by rw [Nat.shiftRight_eq_div_pow]; omega
      rw [this]; rfl
    · refine .inr ⟨by simp, ?_, ?_⟩
      · rintro ⟨_, _, e, h'⟩
        cases e
        exact h (UInt8.lt_iff_toNat_lt.1 h')
      · have : b.toNat >>> 7 = 1 := by rw [Nat.shiftRight_eq_div_pow]; omega
        rw [this]; rfl

theorem held_same (g : Option StreamMuxConfig) (buf : Bytes) (hf : readFlag buf 0 = .ok (true, 1)) :
    MuxState.unmarshal buf ⟨true, g.map heldOf⟩ =
      (⟨true, g.map heldOf⟩, MuxElement.unmarshal true g buf >>= fun e => .ok (e.useSameStreamMux, e.payloads)) := by
  have e1 : MuxElement.unmarshal true g buf = held_rest true g buf 1 := by
    show Res.bind (Res.bind (readFlag buf 0) _) _ = _
    rw [hf]
    rfl
  have e2 : MuxState.unmarshal buf ⟨true, g.map heldOf⟩ = (⟨true, g.map heldOf⟩, readHeldElement true (g.map heldOf) buf 1) := by
    have hq : (cond true readFlag false : BitM Bool) buf 0 = _ := hf
    simp only [MuxState.unmarshal, Bind.bind, StepM.get, StepM.lift, hq, Bool.not_true, Bool.and_false,
      Bool.false_eq_true, if_false, Pure.pure]
    rfl
  rw [e1, e2, held_element]
  rfl

/-- **C102**, one call, for an element that has a configuration: what is returned is what is expected, whatever has been decoded before. When
the configuration can be read it is the one that is used after the call. -/
theorem C102_config (d : MuxState) (g : Option StreamMuxConfig) (buf : Bytes) (hp : d.muxConfigPresent = true) (hc : HasConfig buf) :
    (MuxState.unmarshal buf d).2 = (MuxElement.unmarshal true g buf >>= fun e => .ok (e.useSameStreamMux, e.payloads)) ∧
      (MuxState.unmarshal buf d).1.muxConfigPresent = true ∧
      ∀ r, StreamMuxConfig.unmarshalBits buf 1 = .ok r → (MuxState.unmarshal buf d).1.streamMuxConfig = some (heldOf r.1) := by
  obtain ⟨p, c⟩ := d
  dsimp only at hp
  subst hp
  have hf : readFlag buf 0 = .ok (false, 1) := by
    rcases held_flag buf with ⟨rfl, hf⟩ | ⟨-, hf⟩ | ⟨-, hn, -⟩
    · obtain ⟨_, _, h, _⟩ := hc
      cases h
    · exact hf
    · exact absurd hc hn
  have hq : (cond true readFlag false : BitM Bool) buf 0 = _ := hf
  have hs := held_config buf 1
  have e1 : MuxElement.unmarshal true g buf = Res.bind (StreamMuxConfig.unmarshalBits buf 1) fun r => held_rest false (some r.1) buf r.2 := by
    show Res.bind (Res.bind (readFlag buf 0) _) _ = _
    rw [hf]
    show Res.bind (Res.bind (Res.bind (StreamMuxConfig.unmarshalBits buf 1) _) _) _ = _
    cases StreamMuxConfig.unmarshalBits buf 1 <;> rfl
  rw [e1]
  match hr : StreamMuxConfig.unmarshalBits buf 1 with
  | .ok r =>
    rw [hr] at hs
    dsimp only at hs
    have e2 : MuxState.unmarshal buf ⟨true, c⟩ = (⟨true, some (heldOf r.1)⟩, readHeldElement false ((some r.1).map heldOf) buf r.2) := by
      simp only [MuxState.unmarshal, Bind.bind, StepM.get, StepM.lift, hq, Bool.not_false, Bool.and_true, MuxState.readConfig, hs]
      rfl
    rw [e2, held_element]
    refine ⟨rfl, rfl, fun r' h => ?_⟩
    cases h
    rfl
  | .err s =>
    rw [hr] at hs
    obtain ⟨x, hx⟩ : ∃ x, HeldConfig.unmarshalBits {} buf 1 = (x, .err s) := ⟨_, Prod.ext rfl hs⟩
    have e2 : MuxState.unmarshal buf ⟨true, c⟩ = (⟨true, some x⟩, .err s) := by
      simp only [MuxState.unmarshal, Bind.bind, StepM.get, StepM.lift, hq, Bool.not_false, Bool.and_true, MuxState.readConfig, hx]
      rfl
    rw [e2]
    exact ⟨rfl, rfl, fun r h => by cases h⟩
  | .panic =>
    rw [hr] at hs
    obtain ⟨x, hx⟩ : ∃ x, HeldConfig.unmarshalBits {} buf 1 = (x, .panic) := ⟨_, Prod.ext rfl hs⟩
    have e2 : MuxState.unmarshal buf ⟨true, c⟩ = (⟨true, some x⟩, .panic) := by
      simp only [MuxState.unmarshal, Bind.bind, StepM.get, StepM.lift, hq, Bool.not_false, Bool.and_true, MuxState.readConfig, hx]
      rfl
    rw [e2]
    exact ⟨rfl, rfl, fun r h => by cases h⟩

/-- **C102**, one call, with a complete configuration in place: what is returned is what is expected. -/
theorem C102_call (present : Bool) (g : Option StreamMuxConfig) (buf : Bytes) :
    (MuxState.unmarshal buf ⟨present, g.map heldOf⟩).2 =
      (MuxElement.unmarshal present g buf >>= fun e => .ok (e.useSameStreamMux, e.payloads)) := by
  cases present
  · have e : MuxElement.unmarshal false g buf = held_rest false g buf 0 := rfl
    rw [e]
    show readHeldElement false (g.map heldOf) buf 0 = _
    rw [held_element]
    rfl
  · rcases held_flag buf with ⟨rfl, -⟩ | ⟨hc, -⟩ | ⟨-, -, hf⟩
    · rfl
    · exact (C102_config _ g buf rfl hc).1
    · rw [held_same g buf hf]

/-- An element that uses the configuration of an earlier one comes after a configuration that can be read; `ok` says whether the last one
could. -/
def Followable : Bool → List Bytes → Prop
  | _, [] => True
  | ok, b :: l => (ok = true ∨ HasConfig b ∨ b = []) ∧ Followable (if HasConfig b then (StreamMuxConfig.unmarshalBits b 1).isOk else ok) l

theorem held_calls (l : List Bytes) (ok : Bool) (d : MuxState) (g : Option StreamMuxConfig) (hp : d.muxConfigPresent = true)
    (hd : ok = true → d.streamMuxConfig = g.map heldOf) (h : Followable ok l) :
    StepM.calls MuxState.unmarshal d l = asExpected true g l := by
  induction l generalizing ok d g with
  | nil => rfl
  | cons b l ih =>
    rw [StepM.calls, asExpected]
    obtain ⟨h1, h2⟩ := h
    by_cases hc : HasConfig b
    · obtain ⟨e1, e2, e3⟩ := C102_config d g b hp hc
      rw [if_pos hc] at h2
      rw [e1]
      congr 1
      refine ih _ _ _ e2 (fun hk => ?_) h2
      unfold usedConfig
      rw [if_pos ⟨rfl, hc⟩]
      match hr : StreamMuxConfig.unmarshalBits b 1 with
      | .ok r => exact e3 r hr
      | .err _ => rw [hr] at hk; cases hk
      | .panic => rw [hr] at hk; cases hk
    · rw [if_neg hc] at h2
      have hu : usedConfig true g b = g := if_neg fun h => hc h.2
      rw [hu]
      obtain ⟨p, c⟩ := d
      dsimp only at hp hd
      subst hp
      rcases held_flag b with ⟨rfl, hf⟩ | ⟨hn, -⟩ | ⟨hb, -, hf⟩
      · congr 1
        exact ih ok ⟨true, c⟩ g rfl hd h2
      · exact absurd hn hc
      · have hk : ok = true := by
          rcases h1 with h | h | h
          · exact h
          · exact absurd h hc
          · exact absurd h hb
        subst hk
        cases hd rfl
        rw [held_same g b hf]
        congr 1
        exact ih true _ g rfl (fun _ => rfl) h2

/-- **C102**: successive calls give what is expected, when no element that uses an earlier configuration comes after one that could not be
read. Full statement: without that hypothesis, see `C102_panic_false` and `C102_accepts_false`. -/
theorem C102_calls_partial (g : Option StreamMuxConfig) (l : List Bytes) (h : Followable true l) :
    StepM.calls MuxState.unmarshal ⟨true, g.map heldOf⟩ l = asExpected true g l :=
  held_calls l true _ g rfl (fun _ => rfl) h

/-- What is expected is never a panic. -/
theorem held_expected (present : Bool) (g : Option StreamMuxConfig) (l : List Bytes) : ∀ r ∈ asExpected present g l, r.NoPanic := by
  induction l generalizing g with
  | nil => simp [asExpected]
  | cons b l ih =>
    intro r hr
    rw [asExpected, List.mem_cons] at hr
    rcases hr with rfl | hr
    · exact Res.noPanic_bind (C54_no_panic present g b) fun _ => by simp
    · exact ih _ r hr

theorem held_outOfBand (g : Option StreamMuxConfig) (buf : Bytes) :
    (MuxState.unmarshal buf ⟨false, g.map heldOf⟩).1 = ⟨false, g.map heldOf⟩ := rfl

/-- **C102**: with a configuration that is transmitted in another way (`MuxConfigPresent` is false) the statement holds of all buffers. -/
theorem C102_out_of_band (g : Option StreamMuxConfig) (l : List Bytes) :
    StepM.calls MuxState.unmarshal ⟨false, g.map heldOf⟩ l = asExpected false g l ∧
      ∀ r ∈ StepM.calls MuxState.unmarshal ⟨false, g.map heldOf⟩ l, r.NoPanic := by
  have e : StepM.calls MuxState.unmarshal ⟨false, g.map heldOf⟩ l = asExpected false g l := by
    induction l with
    | nil => rfl
    | cons b l ih =>
      have hu : usedConfig false g b = g := if_neg fun h => by cases h.1
      rw [StepM.calls, asExpected, C102_call, held_outOfBand, ih, hu]
  rw [e]
  exact ⟨rfl, held_expected _ _ _⟩

/-- **C102**: no panic, when no element that uses an earlier configuration comes after one that could not be read. Full statement: without
that hypothesis, see `C102_panic_false`. -/
theorem C102_no_panic_partial (g : Option StreamMuxConfig) (l : List Bytes) (h : Followable true l) :
    ∀ r ∈ StepM.calls MuxState.unmarshal ⟨true, g.map heldOf⟩ l, r.NoPanic := by
  rw [C102_calls_partial g l h]
  exact held_expected _ _ _

/-- An element with a configuration (one layer, AAC-LC, 48 kHz, stereo) and the payload 1, 2. -/
def heldFirst : Bytes := [0x20, 0x00, 0x11, 0x90, 0x1f, 0xe0, 0x10, 0x08, 0x10]

/-- An element that uses the same configuration, with the payload 3. -/
def heldSecond : Bytes := [0x80, 0x81, 0x80]

/-- An element whose configuration has two layers and ends before the first one. -/
def heldBroken : Bytes := [0x20, 0x01]

instance (ok : Bool) : (l : List Bytes) → Decidable (Followable ok l)
  | [] => isTrue trivial
  | b :: l =>
    have := instDecidableFollowable (if HasConfig b then (StreamMuxConfig.unmarshalBits b 1).isOk else ok) l
    inferInstanceAs (Decidable (_ ∧ _))

set_option synthInstance.maxSize 1000 in
/-- The hypothesis of `C102_calls_partial`, and what is expected: a broken configuration does no harm when another one follows. -/
example : Followable true [heldFirst, heldSecond, heldBroken, [], heldFirst, heldSecond] ∧
    StepM.calls MuxState.unmarshal ⟨true, none⟩ [heldFirst, heldSecond, heldBroken, [], heldFirst, heldSecond] =
      [.ok (false, [[[[1, 2]]]]), .ok (true, [[[[3]]]]), .err "not enough bits", .err "not enough bits", .ok (false, [[[[1, 2]]]]),
       .ok (true, [[[[3]]]])] := by
  decide +kernel

set_option synthInstance.maxSize 1000 in
/-- **C102** is false: after a configuration that cannot be read, the next element makes `Unmarshal` panic, whatever has been read before. -/
theorem C102_panic_false :
    StepM.calls MuxState.unmarshal ⟨true, none⟩ [heldBroken, heldSecond] = [.err "not enough bits", .panic] ∧
    StepM.calls MuxState.unmarshal ⟨true, none⟩ [heldFirst, heldBroken, heldSecond] =
      [.ok (false, [[[[1, 2]]]]), .err "not enough bits", .panic] ∧
    asExpected true none [heldFirst, heldBroken, heldSecond] =
      [.ok (false, [[[[1, 2]]]]), .err "not enough bits", .ok (true, [[[[3]]]])] := by
  decide +kernel

set_option synthInstance.maxSize 1000 in
/-- **C102** is false: after an element that ends before the first program, elements without any payload are accepted and those that follow
the last good configuration are refused. -/
theorem C102_accepts_false :
    StepM.calls MuxState.unmarshal ⟨true, none⟩ [heldFirst, [0x20], heldSecond, [0x80]] =
      [.ok (false, [[[[1, 2]]]]), .err "not enough bits", .err "detected unread bytes", .ok (true, [[]])] ∧
    asExpected true none [heldFirst, [0x20], heldSecond, [0x80]] =
      [.ok (false, [[[[1, 2]]]]), .err "not enough bits", .ok (true, [[[[3]]]]), .err "not enough bits"] := by
  decide +kernel

end Verif.Props
