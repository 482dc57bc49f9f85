import Verif.Spec.PCE
import Verif.Lemmas.BitM
import Verif.Lemmas.BE

/-!
# Property C55: program config element and channel count
-/

namespace Verif.Props
open Verif.Spec Verif.MPEG4Audio Verif.BitM

theorem pceElement_parses (x : Bool × Nat) (h : x.2 < 2 ^ 4) :
    Parses readPCEElement (elementBits x) (if x.1 then 2 else 1) := by
  unfold readPCEElement elementBits
  refine Parses.bind Parses.readFlag ?_
  exact Parses.congr (Parses.bind (Parses.readBits (by omega) (by omega) h) (Parses.pure _)) (List.append_nil _)

theorem pceElements_parses (l : List (Bool × Nat)) (h : ∀ x ∈ l, x.2 < 2 ^ 4) :
    Parses (times readPCEElement l.length) (l.flatMap elementBits) (l.map fun x => if x.1 then 2 else 1) := by
  induction l with
  | nil => exact Parses.pure _
  | cons x l ih =>
    rw [List.length_cons, List.flatMap_cons]
    unfold BitM.times
    refine Parses.bind (pceElement_parses x (h x (by simp))) ?_
    refine Parses.congr (Parses.bind (ih fun y hy => h y (by simp [hy])) ?_) (List.append_nil _)
    exact Parses.pure _

theorem channels_sum (l : List (Bool × Nat)) : (l.map fun x => if x.1 then 2 else 1).sum = channelsOf l := by
  unfold channelsOf
  induction l with
  | nil => rfl
  | cons x l ih =>
    rw [List.map_cons, List.sum_cons, ih, List.length_cons, List.filter_cons]
    cases x.1 <;> simp <;> omega

/-- `optBits` without the flag. -/
def optTail (n : Nat) : Option Nat → List Bool
  | none => []
  | some v => bitsOfNat n v

theorem optBits_cut (n : Nat) (o : Option Nat) : optBits n o = [o.isSome] ++ optTail n o := by
  cases o <;> rfl

theorem opt_parses {n : Nat} (h1 : 1 ≤ n) (hn : n ≤ 64) (o : Option Nat) (h : ∀ v ∈ o, v < 2 ^ n) :
    Parses (cond o.isSome (readBits n) 0) (optTail n o) (o.getD 0) := by
  cases o with
  | none => exact Parses.cond_false
  | some v => exact Parses.cond_true (Parses.readBits h1 hn (h v rfl))

theorem pce_parses {p : PCE} {bits : List Bool} (h : IsPCE p bits) : Parses PCE.unmarshal bits p := by
  obtain ⟨mono, stereo, mtx, front, side, back, lfe, a1, a2, a3, a4, a5, a6, a7, b1, b2, b3, ⟨c1, c2⟩, ⟨d1, d2⟩, ⟨e1, e2⟩,
    ⟨f1, f2⟩, g1, g2, g3, g4, rfl⟩ := h
  unfold PCE.unmarshal
  refine Parses.hasSpace ?_ ?_
  · simp only [List.length_append, length_bitsOfNat, optBits_cut, List.length_cons, List.length_nil]; omega
  refine Parses.bind (Parses.readBitsU (by omega) (by omega) b1) ?_
  refine Parses.bind (Parses.readBitsU (by omega) (by omega) b2) ?_
  refine Parses.bind (Parses.readBitsU (by omega) (by omega) b3) ?_
  refine Parses.bind (Parses.readBitsU (by omega) (by omega) c2) ?_
  refine Parses.bind (Parses.readBitsU (by omega) (by omega) d2) ?_
  refine Parses.bind (Parses.readBitsU (by omega) (by omega) e2) ?_
  refine Parses.bind (Parses.readBitsU (by omega) (by omega) f2) ?_
  refine Parses.bind (Parses.readBitsU (by omega) (by omega) g1) ?_
  refine Parses.bind (Parses.readBitsU (by omega) (by omega) g2) ?_
  rw [optBits_cut, optBits_cut, optBits_cut]
  simp only [List.append_assoc]
  refine Parses.bind Parses.readFlagU (Parses.bind (opt_parses (by omega) (by omega) mono a1) ?_)
  refine Parses.bind Parses.readFlag (Parses.bind (opt_parses (by omega) (by omega) stereo a2) ?_)
  refine Parses.bind Parses.readFlag (Parses.bind (opt_parses (by omega) (by omega) mtx a3) ?_)
  refine Parses.bind (c1 ▸ pceElements_parses front a4) ?_
  refine Parses.bind (d1 ▸ pceElements_parses side a5) ?_
  refine Parses.bind (e1 ▸ pceElements_parses back a6) ?_
  refine Parses.congr (Parses.bind (f1 ▸ Parses.times (enc := bitsOfNat 4) (l := lfe) fun v hv =>
    Parses.readBits (by omega) (by omega) (a7 v hv)) ?_) (List.append_nil _)
  rw [channels_sum, channels_sum, channels_sum, ← g3]
  refine Parses.ite_neg (by omega) ?_
  exact Parses.pure _

theorem opt_tot {n : Nat} {β : Type} (h1 : 1 ≤ n) (h64 : n ≤ 64) {f : BitM β} {Q : β → List Bool → Prop} (p : BitM Bool) (k : Nat)
    (hp : Tot k p (fun v b => b = [v]))
    (h : ∀ o : Option Nat, (∀ v ∈ o, v < 2 ^ n) → Tot 0 f (fun c bs => Q c (optBits n o ++ bs))) :
    Tot k (p >>= fun b => cond b (readBits n) 0 >>= fun _ => f) Q := by
  refine Tot.bind hp ?_
  rintro b _ rfl
  refine Tot.bind (Tot.condP (Tot.readBits' (P := fun v b => v < 2 ^ n ∧ b = bitsOfNat n v) h1 h64 fun v hv => ⟨hv, rfl⟩)) ?_
  rintro v bs (⟨rfl, hv, rfl⟩ | ⟨rfl, rfl, rfl⟩)
  · refine Tot.mono (h (some v) (by simpa using hv)) (by omega) ?_
    intro c bs hc
    simpa [optBits] using hc
  · refine Tot.mono (h none (by simp)) (by omega) ?_
    intro c bs hc
    simpa [optBits] using hc

theorem pceElements_tot (n k : Nat) : Tot k (times readPCEElement n) (fun r b => ∃ l : List (Bool × Nat),
    (∀ x ∈ l, x.2 < 2 ^ 4) ∧ l.length = n ∧ r.sum = channelsOf l ∧ b = l.flatMap elementBits) := by
  induction n generalizing k with
  | zero => exact Tot.pure ⟨[], by simp, rfl, rfl, rfl⟩
  | succ n ih =>
    unfold BitM.times
    refine Tot.bind (P := fun r b => ∃ x : Bool × Nat, x.2 < 2 ^ 4 ∧ r = (if x.1 then 2 else 1) ∧ b = elementBits x) ?_ ?_
    · unfold readPCEElement
      refine Tot.readFlag fun v => Tot.readBits (by omega) (by omega) fun t ht => Tot.pure ⟨(v, t), ht, rfl, ?_⟩
      simp [elementBits]
    · rintro r b1 ⟨x, hx, rfl, rfl⟩
      refine Tot.bind (ih _) ?_
      rintro rs b2 ⟨l, h1, h2, h3, rfl⟩
      refine Tot.pure ⟨x :: l, ?_, by simp [h2], ?_, by simp⟩
      · intro y hy
        rcases List.mem_cons.1 hy with rfl | hy
        · exact hx
        · exact h1 y hy
      · rw [List.sum_cons, h3, ← channels_sum, ← channels_sum, List.map_cons, List.sum_cons]

theorem pce_tot : Tot 0 PCE.unmarshal IsPCE := by
  unfold PCE.unmarshal
  refine Tot.hasSpace ?_
  refine Tot.readBitsU (by omega) (by omega) (by omega) fun tag b1 => ?_
  refine Tot.readBitsU (by omega) (by omega) (by omega) fun ot b2 => ?_
  refine Tot.readBitsU (by omega) (by omega) (by omega) fun sf b3 => ?_
  refine Tot.readBitsU (by omega) (by omega) (by omega) fun nf b4 => ?_
  refine Tot.readBitsU (by omega) (by omega) (by omega) fun ns b5 => ?_
  refine Tot.readBitsU (by omega) (by omega) (by omega) fun nb b6 => ?_
  refine Tot.readBitsU (by omega) (by omega) (by omega) fun nl b7 => ?_
  refine Tot.readBitsU (by omega) (by omega) (by omega) fun na b8 => ?_
  refine Tot.readBitsU (by omega) (by omega) (by omega) fun nc b9 => ?_
  refine opt_tot (by omega) (by omega) _ _ (Tot.readFlagU' (by omega) fun v => rfl) fun mono a1 => ?_
  refine opt_tot (by omega) (by omega) _ _ (Tot.readFlag' fun v => rfl) fun stereo a2 => ?_
  refine opt_tot (by omega) (by omega) _ _ (Tot.readFlag' fun v => rfl) fun mtx a3 => ?_
  refine Tot.bind (pceElements_tot nf _) ?_
  rintro f fb ⟨front, a4, c1, c2, rfl⟩
  refine Tot.bind (pceElements_tot ns _) ?_
  rintro s sb ⟨side, a5, d1, d2, rfl⟩
  refine Tot.bind (pceElements_tot nb _) ?_
  rintro b bb ⟨back, a6, e1, e2, rfl⟩
  refine Tot.bind (Tot.times (enc := bitsOfNat 4) (P := fun v => v < 2 ^ 4) (Tot.readBits' (by omega) (by omega)
    fun v hv => ⟨hv, rfl⟩)) ?_
  rintro lfe lb ⟨f1, a7, rfl⟩
  refine Tot.ite (fun _ => Tot.fail) fun h => Tot.pure ?_
  refine ⟨mono, stereo, mtx, front, side, back, lfe, a1, a2, a3, a4, a5, a6, a7, b1, b2, b3, ⟨c1, b4⟩, ⟨d1, b5⟩, ⟨e1, b6⟩,
    ⟨f1, b7⟩, b8, b9, ?_, ?_, ?_⟩
  · dsimp only; rw [c2, d2, e2]
  · dsimp only; omega
  · simp only [List.append_nil]

theorem pce_length {p : PCE} {bits : List Bool} (h : IsPCE p bits) : 34 ≤ bits.length := by
  obtain ⟨mono, stereo, mtx, front, side, back, lfe, -, -, -, -, -, -, -, -, -, -, -, -, -, -, -, -, -, -, rfl⟩ := h
  simp only [List.length_append, length_bitsOfNat, optBits_cut, List.length_cons, List.length_nil]
  omega

/-- C55: `ParsePCEFromRawDataBlock` accepts exactly the blocks that start with a program config element with at least one
channel, and returns its fields and its number of channels. -/
theorem C55_pce (au : Bytes) (p : PCE) :
    parsePCE au = .ok p ↔ ∃ bits rest, IsPCE p bits ∧ bitsOf au = bitsOfNat 3 5 ++ (bits ++ rest) := by
  have htot : Tot 0 (do
      let id ← readBits 3
      if id ≠ 5 then fail "expected PCE" else PCE.unmarshal) (fun p b => ∃ bits, IsPCE p bits ∧ b = bitsOfNat 3 5 ++ bits) := by
    refine Tot.readBits (by omega) (by omega) fun id hid => Tot.ite (fun _ => Tot.fail) fun h => ?_
    rw [Decidable.not_not] at h
    subst h
    exact pce_tot.mono (by omega) fun p b h => ⟨b, h, rfl⟩
  unfold parsePCE
  constructor
  · intro e
    split at e
    · cases e
    · obtain ⟨⟨q, pos⟩, he, e⟩ := Res.bind_eq_ok.1 e
      cases e
      obtain ⟨_, ⟨bits, h1, rfl⟩, h2, h3, -⟩ := (htot.run au).2 q pos he
      exact ⟨bits, _, h1, by rw [← List.append_assoc]; exact h3⟩
  · rintro ⟨bits, rest, h1, h2⟩
    have hl := congrArg List.length h2
    have := pce_length h1
    rw [length_bitsOf, List.length_append, List.length_append, length_bitsOfNat] at hl
    rw [if_neg (by omega)]
    rw [(Parses.bind (Parses.readBits (n := 3) (v := 5) (by omega) (by omega) (by omega))
      (Parses.ite_neg (by simp) (pce_parses h1))).run (by rw [List.append_assoc]; exact h2)]
    rfl

/-- C55: `ParsePCEFromRawDataBlock` never panics. -/
theorem C55_pce_no_panic (au : Bytes) : (parsePCE au).NoPanic := by
  unfold parsePCE
  split
  · simp
  · refine Res.noPanic_bind (Tot.run (P := fun _ _ => True) ?_ au).1 (by simp)
    refine Tot.readBits (by omega) (by omega) fun id hid => Tot.ite (fun _ => Tot.fail) fun h => ?_
    exact pce_tot.mono (by omega) fun p b h => trivial

/-! ## The loop over the elements -/

/-- The position moves on and what is returned is at least 1. -/
def StepOk (pos : Nat) : Res Step → Prop
  | .panic => False
  | .err _ => True
  | .ok (.ret n) => 1 ≤ n
  | .ok (.next q) => pos ≤ q

theorem readBits_cases (au : Bytes) (pos n : Nat) (h1 : 1 ≤ n) (h64 : n ≤ 64) : (∃ e, readBits n au pos = .err e) ∨
    ∃ v, v < 2 ^ n ∧ readBits n au pos = .ok (v, pos + n) := by
  rcases Bits.readBits_sound (buf := au) (pos := pos) h1 h64 with ⟨_, e⟩ | ⟨v, e, hv, hs, hd⟩
  · exact Or.inl ⟨_, e⟩
  · exact Or.inr ⟨v, hv, e⟩

theorem readFlag_cases (au : Bytes) (pos : Nat) : (∃ e, readFlag au pos = .err e) ∨
    ∃ v, readFlag au pos = .ok (v, pos + 1) := by
  rcases Bits.readFlag_sound (buf := au) (pos := pos) with ⟨_, e⟩ | ⟨v, e, hs, hd⟩
  · exact Or.inl ⟨_, e⟩
  · exact Or.inr ⟨v, e⟩

theorem stepChannel_ok (n : Nat) (hn : 1 ≤ n) (au : Bytes) (pos : Nat) : StepOk pos (stepChannel n au pos) := by
  unfold stepChannel
  rcases readBits_cases au pos 4 (by omega) (by omega) with ⟨e, h⟩ | ⟨v, _, h⟩ <;> rw [h]
  · exact Nat.le_refl _
  · exact hn

theorem stepDSE_ok (au : Bytes) (pos : Nat) : StepOk pos (stepDSE au pos) := by
  unfold stepDSE
  rcases readBits_cases au pos 4 (by omega) (by omega) with ⟨e, h⟩ | ⟨v, _, h⟩ <;> rw [h]
  · exact Nat.le_refl _
  dsimp only
  rcases readFlag_cases au (pos + 4) with ⟨e, h⟩ | ⟨a, h⟩ <;> rw [h]
  · show pos ≤ _; omega
  dsimp only
  rcases readBits_cases au (pos + 4 + 1) 8 (by omega) (by omega) with ⟨e, h⟩ | ⟨v, _, h⟩ <;> rw [h]
  · show pos ≤ _; omega
  dsimp only
  split
  · rcases readBits_cases au (pos + 4 + 1 + 8) 8 (by omega) (by omega) with ⟨e, h⟩ | ⟨v, _, h⟩ <;> rw [h]
    · show pos ≤ _; omega
    · show pos ≤ _
      split <;> omega
  · show pos ≤ _
    split <;> omega

theorem stepFIL_ok (au : Bytes) (pos : Nat) : StepOk pos (stepFIL au pos) := by
  unfold stepFIL
  rcases readBits_cases au pos 4 (by omega) (by omega) with ⟨e, h⟩ | ⟨v, _, h⟩ <;> rw [h]
  · exact Nat.le_refl _
  dsimp only
  split
  · rcases readBits_cases au (pos + 4) 8 (by omega) (by omega) with ⟨e, h⟩ | ⟨v, _, h⟩ <;> rw [h]
    · show pos ≤ _; omega
    · show pos ≤ _
      omega
  · show pos ≤ _
    omega

theorem stepElement_ok (id : Nat) (au : Bytes) (pos : Nat) (hp : pos ≤ 8 * au.length) : StepOk pos (stepElement id au pos) := by
  unfold stepElement
  repeat' split
  · exact stepChannel_ok 1 (by omega) au pos
  · exact stepChannel_ok 2 (by omega) au pos
  · exact stepChannel_ok 1 (by omega) au pos
  · obtain ⟨h1, h2⟩ := pce_tot au pos (by omega)
    rcases hr : PCE.unmarshal au pos with ⟨p, q⟩ | e | _
    · obtain ⟨bits, h3, -⟩ := h2 p q hr
      obtain ⟨_, _, _, _, _, _, _, -, -, -, -, -, -, -, -, -, -, -, -, -, -, -, -, -, h, -⟩ := h3
      exact h
    · trivial
    · exact absurd hr h1
  · exact stepDSE_ok au pos
  · exact stepFIL_ok au pos
  · trivial
  · trivial
  · trivial

theorem countLoop_ok (au : Bytes) (fuel pos : Nat) (h : au.length * 8 - pos < fuel) :
    (countLoop au fuel pos).NoPanic ∧ ∀ n, countLoop au fuel pos = .ok n → 1 ≤ n := by
  induction fuel generalizing pos with
  | zero => omega
  | succ fuel ih =>
    unfold countLoop
    split
    · simp
    · rename_i hp
      rw [Decidable.not_not] at hp
      rcases Bits.readBits_sound (buf := au) (pos := pos) (n := 3) (by omega) (by omega) with ⟨_, e⟩ | ⟨v, e, hv, hs, hd⟩
      · rw [show readBits 3 au pos = _ from e]; simp
      · rw [show readBits 3 au pos = _ from e]
        dsimp only
        have hk := stepElement_ok v au (pos + 3) hs
        rcases hr : stepElement v au (pos + 3) with (n | q) | e | _ <;> rw [hr] at hk
        · refine ⟨by simp, ?_⟩
          intro m hm
          cases hm
          exact hk
        · have hk : pos + 3 ≤ q := hk
          exact ih q (by omega)
        · simp
        · exact absurd hk (by simp [StepOk])

/-- C55: `CountChannelsFromRawDataBlock` terminates without panicking on every input, and never returns zero channels
without an error. -/
theorem C55_count_no_panic (au : Bytes) : (countChannels au).NoPanic ∧ ∀ n, countChannels au = .ok n → 1 ≤ n := by
  unfold countChannels
  split
  · simp
  · exact countLoop_ok au _ 0 (by omega)

theorem count_parses {n escape bias total : Nat} {cb : List Bool} (h1 : 1 ≤ n) (hn : n ≤ 64) (he : escape = 2 ^ n - 1)
    (h : IsCount n escape bias total cb) (au : Bytes) (pos : Nat) (rest : List Bool) (hp : pos ≤ 8 * au.length)
    (hd : (bitsOf au).drop pos = cb ++ rest) :
    (total < escape ∧ readBits n au pos = .ok (total, pos + cb.length)) ∨
    ∃ esc, total + bias = escape + esc ∧ readBits n au pos = .ok (escape, pos + n) ∧
      readBits 8 au (pos + n) = .ok (esc, pos + cb.length) := by
  have h2 : 1 ≤ 2 ^ n := Nat.one_le_two_pow
  rcases h with ⟨ht, rfl⟩ | ⟨esc, hesc, ht, rfl⟩
  · exact Or.inl ⟨ht, Parses.readBits h1 hn (by omega) au pos rest hp hd⟩
  · refine Or.inr ⟨esc, ht, ?_, ?_⟩
    · have := Parses.readBits (n := n) (v := escape) h1 hn (by omega) au pos _ hp (by rw [hd, List.append_assoc])
      rwa [length_bitsOfNat] at this
    · rw [List.append_assoc] at hd
      have hd2 := drop_after hd
      have hl := congrArg List.length hd
      rw [Bits.drop_length, List.length_append, length_bitsOfNat] at hl
      rw [length_bitsOfNat] at hd2
      have := Parses.readBits (n := 8) (v := esc) (by omega) (by omega) (by omega) au (pos + n) _ (by omega) hd2
      rw [this, List.length_append, length_bitsOfNat, length_bitsOfNat, Nat.add_assoc]

theorem stepChannel_head {n tag : Nat} (htag : tag < 2 ^ 4) (au : Bytes) (pos : Nat) (rest : List Bool) (hp : pos ≤ 8 * au.length)
    (hd : (bitsOf au).drop pos = bitsOfNat 4 tag ++ rest) : stepChannel n au pos = .ok (.ret n) := by
  unfold stepChannel
  rw [Parses.readBits (by omega) (by omega) htag au pos rest hp hd]

theorem countLoop_head {n : Nat} {bits : List Bool} (h : IsChannelElement n bits) (au : Bytes) (fuel pos : Nat) (rest : List Bool)
    (hp : pos ≤ 8 * au.length) (hd : (bitsOf au).drop pos = bits ++ rest) : countLoop au (fuel + 1) pos = .ok n := by
  have key : ∀ id b, id < 2 ^ 3 → bits = bitsOfNat 3 id ++ b →
      ((bitsOf au).drop (pos + 3) = b ++ rest → pos + 3 ≤ 8 * au.length → stepElement id au (pos + 3) = .ok (.ret n)) →
      countLoop au (fuel + 1) pos = .ok n := by
    rintro id b hid rfl hstep
    rw [List.append_assoc] at hd
    have hl := congrArg List.length hd
    rw [Bits.drop_length, List.length_append, length_bitsOfNat] at hl
    have hd2 := drop_after hd
    rw [length_bitsOfNat] at hd2
    have hr := Parses.readBits (n := 3) (v := id) (by omega) (by omega) hid au pos _ hp hd
    rw [length_bitsOfNat] at hr
    unfold countLoop
    rw [if_neg (by omega), hr]
    dsimp only
    rw [hstep hd2 (by omega)]
  rcases h with ⟨tag, htag, ⟨rfl, rfl⟩ | ⟨rfl, rfl⟩ | ⟨rfl, rfl⟩⟩ | ⟨p, b, hb, rfl, rfl⟩
  · exact key 0 _ (by omega) rfl fun h1 h2 => stepChannel_head htag au _ rest h2 h1
  · exact key 1 _ (by omega) rfl fun h1 h2 => stepChannel_head htag au _ rest h2 h1
  · exact key 3 _ (by omega) rfl fun h1 h2 => stepChannel_head htag au _ rest h2 h1
  · refine key 5 _ (by omega) rfl fun h1 h2 => ?_
    show (PCE.unmarshal au (pos + 3)).bind _ = _
    rw [pce_parses hb au (pos + 3) rest h2 h1]
    rfl

theorem countLoop_next (au : Bytes) (fuel pos q id : Nat) (n : Nat) (b rest : List Bool) (hid : id < 2 ^ 3) (hp : pos ≤ 8 * au.length)
    (hd : (bitsOf au).drop pos = bitsOfNat 3 id ++ (b ++ rest))
    (hstep : (bitsOf au).drop (pos + 3) = b ++ rest → pos + 3 ≤ 8 * au.length → stepElement id au (pos + 3) = .ok (.next q))
    (hrest : countLoop au fuel q = .ok n) : countLoop au (fuel + 1) pos = .ok n := by
  have hl := congrArg List.length hd
  rw [Bits.drop_length, List.length_append, length_bitsOfNat] at hl
  have hd2 := drop_after hd
  rw [length_bitsOfNat] at hd2
  have hr := Parses.readBits (n := 3) (v := id) (by omega) (by omega) hid au pos _ hp hd
  rw [length_bitsOfNat] at hr
  unfold countLoop
  rw [if_neg (by omega), hr]
  dsimp only
  rw [hstep hd2 (by omega)]
  exact hrest

theorem countLoop_skip {pos : Nat} {pre : List Bool} (hs : IsSkipped pos pre) (au : Bytes) (fuel n : Nat) (bits rest : List Bool)
    (he : IsChannelElement n bits) (hp : pos ≤ 8 * au.length) (hf : au.length * 8 - pos < fuel)
    (hd : (bitsOf au).drop pos = pre ++ (bits ++ rest)) : countLoop au fuel pos = .ok n := by
  induction hs generalizing fuel with
  | nil pos =>
    obtain ⟨fuel, rfl⟩ : ∃ f, fuel = f + 1 := ⟨fuel - 1, by omega⟩
    exact countLoop_head he au fuel pos rest hp hd
  | fil pos total cb data r hc hdata _ ih =>
    obtain ⟨fuel, rfl⟩ : ∃ f, fuel = f + 1 := ⟨fuel - 1, by omega⟩
    have hd' : (bitsOf au).drop pos = bitsOfNat 3 6 ++ (cb ++ (data ++ (r ++ (bits ++ rest)))) := by
      rw [hd]; simp only [List.append_assoc]
    have hl := congrArg List.length hd'
    simp only [Bits.drop_length, List.length_append, length_bitsOfNat] at hl
    refine countLoop_next au fuel pos (pos + 3 + cb.length + data.length) 6 n cb _ (by omega) hp hd' ?_ ?_
    · intro h1 h2
      show stepFIL au (pos + 3) = _
      unfold stepFIL
      rcases count_parses (by omega) (by omega) (by omega) hc au (pos + 3) _ h2 h1 with ⟨h, e⟩ | ⟨esc, h, e1, e2⟩
      · rw [e]
        dsimp only
        rw [if_neg (by omega), hdata, Nat.mul_comm]
      · rw [e1]
        dsimp only
        rw [if_pos rfl, e2]
        dsimp only
        rw [hdata, show 15 + esc - 1 = total by omega, Nat.mul_comm]
    · have hd3 : (bitsOf au).drop (pos + 3 + cb.length + data.length) = r ++ (bits ++ rest) := by
        have := drop_after (bits := bitsOfNat 3 6 ++ (cb ++ data)) (rest := r ++ (bits ++ rest)) (by rw [hd']; simp only [List.append_assoc])
        rw [← this]
        congr 1
        simp only [List.length_append, length_bitsOfNat]
        omega
      exact ih fuel (by omega) (by omega) hd3
  | dse pos tag align total cb pad data r htag hc hdata hpad _ ih =>
    obtain ⟨fuel, rfl⟩ : ∃ f, fuel = f + 1 := ⟨fuel - 1, by omega⟩
    have hd' : (bitsOf au).drop pos = bitsOfNat 3 4 ++ (bitsOfNat 4 tag ++ ([align] ++ (cb ++ (pad ++ (data ++ (r ++ (bits ++ rest))))))) := by
      rw [hd]; simp only [List.append_assoc]
    have hl := congrArg List.length hd'
    simp only [Bits.drop_length, List.length_append, length_bitsOfNat, List.length_cons, List.length_nil] at hl
    refine countLoop_next au fuel pos (pos + 8 + cb.length + pad.length + data.length) 4 n (bitsOfNat 4 tag) _ (by omega) hp hd' ?_ ?_
    · intro h1 h2
      show stepDSE au (pos + 3) = _
      have g1 := Parses.readBits (n := 4) (by omega) (by omega) htag au (pos + 3) _ h2 h1
      have d1 := drop_after h1
      rw [length_bitsOfNat] at g1 d1
      have g2 := Parses.readFlag (b := align) au (pos + 3 + 4) _ (by omega) d1
      have d2 := drop_after d1
      rw [show [align].length = 1 from rfl] at g2 d2
      unfold stepDSE
      rw [g1]
      dsimp only
      rw [g2]
      dsimp only
      have hal : (if align = true then (pos + 3 + 4 + 1 + cb.length + 7) / 8 * 8 else pos + 3 + 4 + 1 + cb.length) =
          pos + 8 + cb.length + pad.length := by
        cases align
        · rw [if_neg (by simp)] at hpad ⊢
          rw [hpad]; simp
        · rw [if_pos rfl] at hpad ⊢
          omega
      rcases count_parses (by omega) (by omega) (by omega) hc au (pos + 3 + 4 + 1) _ (by omega) d2 with ⟨h, e⟩ | ⟨esc, h, e1, e2⟩
      · rw [e]
        dsimp only
        rw [if_neg (by omega), hal, hdata, Nat.mul_comm]
      · rw [e1]
        dsimp only
        rw [if_pos rfl, e2]
        dsimp only
        rw [hal, hdata, show 255 + esc = total by omega, Nat.mul_comm]
    · have hd3 : (bitsOf au).drop (pos + 8 + cb.length + pad.length + data.length) = r ++ (bits ++ rest) := by
        have := drop_after (bits := bitsOfNat 3 4 ++ (bitsOfNat 4 tag ++ ([align] ++ (cb ++ (pad ++ data)))))
          (rest := r ++ (bits ++ rest)) (by rw [hd']; simp only [List.append_assoc])
        rw [← this]
        congr 1
        simp only [List.length_append, length_bitsOfNat, List.length_cons, List.length_nil]
        omega
      exact ih fuel (by omega) (by omega) hd3

/-- C55: data stream elements and fill elements are skipped, and the channels of the first other element are returned. -/
theorem C55_count (au : Bytes) (n : Nat) (pre bits rest : List Bool) (hs : IsSkipped 0 pre) (he : IsChannelElement n bits)
    (hd : bitsOf au = pre ++ (bits ++ rest)) : countChannels au = .ok n := by
  have hlen : 7 ≤ bits.length := by
    rcases he with ⟨tag, _, ⟨_, rfl⟩ | ⟨_, rfl⟩ | ⟨_, rfl⟩⟩ | ⟨p, b, hb, _, rfl⟩
    · simp
    · simp
    · simp
    · have := pce_length hb
      simp; omega
  have hl := congrArg List.length hd
  rw [length_bitsOf, List.length_append, List.length_append] at hl
  unfold countChannels
  rw [if_neg (by omega)]
  exact countLoop_skip hs au _ n bits rest he (by omega) (by omega) (by simpa using hd)

/-- C55, limits: a data stream element that is cut short is taken for a channel element when exactly seven bits follow its
flags (the `break` that should end the loop only leaves the `switch`). -/
theorem C55_truncated_dse_counted : countChannels [0xC1, 0x83, 0x06, 0x0C, 0x18, 0x30, 0x40, 0x10] = .ok 2 := by decide +kernel

/-- C55, limits: only the first channel element is counted. The documentation promises three channels for a single channel
element followed by a channel pair element; whatever follows a single channel element, the result is 1. -/
theorem C55_only_first_counted (au : Bytes) (tag : Nat) (rest : List Bool) (ht : tag < 2 ^ 4)
    (hd : bitsOf au = bitsOfNat 3 0 ++ bitsOfNat 4 tag ++ rest) : countChannels au = .ok 1 :=
  C55_count au 1 [] _ rest (IsSkipped.nil 0) (Or.inl ⟨tag, ht, Or.inl ⟨rfl, rfl⟩⟩) (by simpa using hd)

/-- 5.1 channels: front centre and pair, back pair, LFE. -/
example : parsePCE [0xA0, 0x99, 0x00, 0xA0, 0x0B, 0x04, 0x22, 0x00] = .ok ⟨0, 1, 3, 2, 0, 1, 1, 0, 0, 6⟩ := by decide +kernel
example : countChannels [0xC0, 0x42, 0x00] = .ok 2 := by decide +kernel

end Verif.Props
