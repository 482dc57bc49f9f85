import Verif.Model.MPEG4Video
import Verif.Spec.MPEG4Video
import Verif.Lemmas.BE

/-!
# Property C32: MPEG-4 part 2 configuration check

The property is false: a configuration that ends with a bare start code prefix makes the check panic.
-/

namespace Verif.Props
open Verif.Spec Verif.MPEG4Video

theorem indexStartCode_none (l : Bytes) : indexStartCode l = none ↔ Clean l := by
  unfold Clean
  induction l with
  | nil => simp [indexStartCode]
  | cons b t ih =>
    rw [indexStartCode, List.infix_cons_iff]
    by_cases h : ([0, 0, 1].isPrefixOf (b :: t)) = true
    · rw [if_pos h]; simp [List.isPrefixOf_iff_prefix.1 h]
    · rw [if_neg h]
      have : ¬ [0, 0, 1] <+: b :: t := fun h' => h (List.isPrefixOf_iff_prefix.2 h')
      simp [ih, this]

theorem indexStartCode_clean (seg rest : Bytes) (h : Clean seg) :
    indexStartCode (seg ++ 0 :: 0 :: 1 :: rest) = some seg.length := by
  induction seg with
  | nil => simp [indexStartCode]
  | cons b t ih =>
    have ht : Clean t := fun h' => h (List.infix_cons_iff.2 (.inr h'))
    rw [List.cons_append, indexStartCode, ih ht, if_neg]
    · simp
    · intro hp
      obtain ⟨r, hr⟩ := List.isPrefixOf_iff_prefix.1 hp
      match t with
      | [] => simp at hr
      | [c] => simp at hr
      | c :: d :: t =>
        simp only [List.cons_append, List.nil_append, List.cons.injEq] at hr
        apply h
        rw [← hr.1, ← hr.2.1, ← hr.2.2.1]
        exact ⟨[], t, by simp⟩

instance (c : UInt8) : Decidable (isVideoObject c) := by unfold isVideoObject; infer_instance
instance (c : UInt8) : Decidable (isVideoObjectLayer c) := by unfold isVideoObjectLayer; infer_instance
instance (c : UInt8) : Decidable (allowed c) := by unfold allowed; infer_instance

theorem code_cases : ∀ c : UInt8,
    ((0x00 ≤ c ∧ c ≤ 0x1F) ↔ isVideoObject c) ∧ ((0x20 ≤ c ∧ c ≤ 0x2F) ↔ isVideoObjectLayer c) ∧
    ¬ (isVideoObject c ∧ isVideoObjectLayer c) ∧
    ((c = 0xB5 ∨ c = 0xB2) → ¬ isVideoObject c ∧ ¬ isVideoObjectLayer c) := forall_u8 (by decide +kernel)

/-- What the scan returns from a position at which the bytes are `seg`, the units, and possibly a bare prefix. -/
theorem loop_spec (config : Bytes) (units : List (UInt8 × Bytes)) (seg tl : Bytes) (pos : Nat) (vo vol : Bool)
    (hd : config.drop pos = seg ++ unitBytes units ++ tl) (hp : pos ≤ config.length) (htl : tl = [] ∨ tl = [0, 0, 1])
    (hseg : Clean seg) (hu : ∀ u ∈ units, Clean u.2) :
    ((∃ u ∈ units, ¬ allowed u.1) ∧ loop config pos vo vol = .err "unexpected start code") ∨
    ((∀ u ∈ units, allowed u.1) ∧
      if tl = [0, 0, 1] ∧ ((seg :: units.map (·.2)).getLastD []) ≠ [] then loop config pos vo vol = .panic
      else (loop config pos vo vol).NoPanic ∧ (loop config pos vo vol = .ok () ↔
        (vo = true ∨ ∃ u ∈ units, isVideoObject u.1) ∧ (vol = true ∨ ∃ u ∈ units, isVideoObjectLayer u.1))) := by
  have hfin : ∀ a b, (loop.finish a b).NoPanic ∧ (loop.finish a b = .ok () ↔ a = true ∧ b = true) := by
    intro a b; cases a <;> cases b <;> simp [loop.finish]
  induction units generalizing seg pos vo vol with
  | nil =>
    right
    refine ⟨by simp, ?_⟩
    simp only [unitBytes, List.flatMap_nil, List.append_nil] at hd
    have hlen := congrArg List.length hd
    rw [List.length_drop, List.length_append] at hlen
    simp only [List.map_nil, List.getLastD_cons, List.getLastD_nil, List.not_mem_nil, false_and, exists_false, or_false]
    rcases htl with rfl | rfl
    · rw [if_neg (by simp)]
      rw [List.append_nil] at hd
      have : loop config pos vo vol = loop.finish vo vol := by
        rw [loop]
        split
        · rw [sliceFrom_ok hp, hd]
          simp only [(indexStartCode_none seg).2 hseg]
        · rfl
      rw [this]
      exact hfin vo vol
    · simp only [List.length_cons, List.length_nil] at hlen
      by_cases h0 : seg = []
      · subst h0
        rw [if_neg (by simp)]
        simp only [List.length_nil] at hlen
        have : loop config pos vo vol = loop.finish vo vol := by
          rw [loop, dif_neg (by omega)]
        rw [this]
        exact hfin vo vol
      · rw [if_pos ⟨rfl, h0⟩]
        have : 1 ≤ seg.length := List.length_pos_iff.2 h0
        rw [loop, dif_pos (by omega), sliceFrom_ok hp, hd]
        simp only [indexStartCode_clean seg [] hseg]
        rw [idx_of_ge (by omega)]
  | cons u us ih =>
    obtain ⟨c, s⟩ := u
    have hd' : config.drop pos = seg ++ 0 :: 0 :: 1 :: (c :: (s ++ unitBytes us ++ tl)) := by
      rw [hd]; simp [unitBytes]
    have hlen := congrArg List.length hd'
    rw [List.length_drop, List.length_append] at hlen
    simp only [List.length_cons] at hlen
    have hidx : idx config (pos + seg.length + 3) = .ok c := by
      have := idx_of_lt (buf := config) (i := pos + seg.length + 3) (by omega)
      rw [this]
      congr 1
      have h2 : (config.drop pos)[seg.length + 3]? = some c := by
        rw [hd', List.getElem?_append_right (by omega)]
        simp
      rw [List.getElem?_drop, ← Nat.add_assoc, List.getElem?_eq_getElem (by omega), Option.some.injEq] at h2
      exact h2
    have hnext : config.drop (pos + seg.length + 4) = s ++ unitBytes us ++ tl := by
      rw [Nat.add_assoc, ← List.drop_drop, hd', List.drop_append, List.drop_eq_nil_of_le (by omega)]
      rw [show seg.length + 4 - seg.length = 4 by omega]
      simp
    have hstep : loop config pos vo vol =
        if 0x00 ≤ c ∧ c ≤ 0x1F then loop config (pos + seg.length + 4) true vol
        else if 0x20 ≤ c ∧ c ≤ 0x2F then loop config (pos + seg.length + 4) vo true
        else if c = 0xB5 ∨ c = 0xB2 then loop config (pos + seg.length + 4) vo vol
        else .err "unexpected start code" := by
      rw [loop, dif_pos (by omega), sliceFrom_ok hp, hd']
      simp only [indexStartCode_clean seg _ hseg]
      rw [hidx]
    obtain ⟨k1, k2, k3, k4⟩ := code_cases c
    have hlast : (seg :: List.map (·.2) ((c, s) :: us)).getLastD [] = (s :: us.map (·.2)).getLastD [] := by
      simp
    rw [hstep]
    simp only [k1, k2]
    have hus : ∀ u ∈ us, Clean u.2 := fun u h => hu u (by simp [h])
    have hs : Clean s := hu (c, s) (by simp)
    rw [hlast]
    by_cases hv : isVideoObject c
    · have hnl : ¬ isVideoObjectLayer c := fun h => k3 ⟨hv, h⟩
      rw [if_pos hv]
      rcases ih s (pos + seg.length + 4) true vol hnext (by omega) hs hus with ⟨⟨u, hm, hn⟩, he⟩ | ⟨ha, hr⟩
      · exact .inl ⟨⟨u, by simp [hm], hn⟩, he⟩
      · right
        refine ⟨by simpa using ⟨.inl hv, fun a b h => ha (a, b) h⟩, ?_⟩
        split
        · next h => rw [if_pos h] at hr; exact hr
        · next h =>
          rw [if_neg h] at hr
          refine ⟨hr.1, hr.2.trans ?_⟩
          simp [hv, hnl]
    rw [if_neg hv]
    by_cases hl : isVideoObjectLayer c
    · rw [if_pos hl]
      rcases ih s (pos + seg.length + 4) vo true hnext (by omega) hs hus with ⟨⟨u, hm, hn⟩, he⟩ | ⟨ha, hr⟩
      · exact .inl ⟨⟨u, by simp [hm], hn⟩, he⟩
      · right
        refine ⟨by simpa using ⟨.inr (.inl hl), fun a b h => ha (a, b) h⟩, ?_⟩
        split
        · next h => rw [if_pos h] at hr; exact hr
        · next h =>
          rw [if_neg h] at hr
          refine ⟨hr.1, hr.2.trans ?_⟩
          simp [hv, hl]
    rw [if_neg hl]
    by_cases ho : c = 0xB5 ∨ c = 0xB2
    · rw [if_pos ho]
      rcases ih s (pos + seg.length + 4) vo vol hnext (by omega) hs hus with ⟨⟨u, hm, hn⟩, he⟩ | ⟨ha, hr⟩
      · exact .inl ⟨⟨u, by simp [hm], hn⟩, he⟩
      · right
        refine ⟨by simpa using ⟨.inr (.inr ho), fun a b h => ha (a, b) h⟩, ?_⟩
        split
        · next h => rw [if_pos h] at hr; exact hr
        · next h =>
          rw [if_neg h] at hr
          refine ⟨hr.1, hr.2.trans ?_⟩
          simp [hv, hl]
    · rw [if_neg ho]
      exact .inl ⟨⟨(c, s), by simp, fun h => by
        rcases h with h | h | h
        · exact hv h
        · exact hl h
        · exact ho h⟩, rfl⟩

/-- Every byte string is clean bytes, units, and possibly a bare prefix. -/
theorem decompose (l : Bytes) : ∃ seg units tl, l = seg ++ unitBytes units ++ tl ∧ (tl = [] ∨ tl = [0, 0, 1]) ∧
    Clean seg ∧ ∀ u ∈ units, Clean u.2 := by
  induction hn : l.length using Nat.strongRecOn generalizing l with
  | _ n ih =>
    by_cases hc : Clean l
    · exact ⟨l, [], [], by simp [unitBytes], .inl rfl, hc, by simp⟩
    have hfirst : ∀ l : Bytes, ¬ Clean l → ∃ seg rest, l = seg ++ 0 :: 0 :: 1 :: rest ∧ Clean seg := by
      intro l
      induction l with
      | nil => intro h; exact absurd (by simp [Clean]) h
      | cons b t iht =>
        intro h
        by_cases hp : [0, 0, 1] <+: b :: t
        · obtain ⟨r, hr⟩ := hp
          exact ⟨[], r, by rw [← hr]; rfl, by simp [Clean]⟩
        · have ht : ¬ Clean t := by
            intro ht
            apply h
            intro hi
            rcases List.infix_cons_iff.1 hi with h1 | h1
            · exact hp h1
            · exact ht h1
          obtain ⟨seg, rest, hs, hcl⟩ := iht ht
          refine ⟨b :: seg, rest, by rw [hs]; rfl, ?_⟩
          intro hi
          rcases List.infix_cons_iff.1 hi with h1 | h1
          · apply hp
            rw [hs]
            exact h1.trans ⟨0 :: 0 :: 1 :: rest, by simp⟩
          · exact hcl h1
    obtain ⟨seg, rest, rfl, hseg⟩ := hfirst l hc
    cases rest with
    | nil => exact ⟨seg, [], [0, 0, 1], by simp [unitBytes], .inr rfl, hseg, by simp⟩
    | cons c rest =>
      obtain ⟨s, units, tl, h1, h2, h3, h4⟩ := ih rest.length (by simp at hn; omega) rest rfl
      refine ⟨seg, (c, s) :: units, tl, by simp [h1, unitBytes], h2, hseg, ?_⟩
      intro u hu
      rcases List.mem_cons.1 hu with rfl | hu
      · exact h3
      · exact h4 u hu

/-- C32 is false: the check panics on a configuration that ends with a bare start code prefix. -/
theorem C32_false : ∃ config, ¬ (isValidConfig config).NoPanic := by
  refine ⟨[0, 0, 1, 0xB0, 5, 0, 0, 1], ?_⟩
  have : isValidConfig [0, 0, 1, 0xB0, 5, 0, 0, 1] = .panic := by decide +kernel
  rw [this]
  simp

/-- C32, what holds: every other configuration is accepted or rejected with an error. Missing from the full
statement: configurations whose last three bytes are 00 00 01. -/
theorem C32_no_panic_partial (config : Bytes) (h : ¬ [0, 0, 1] <:+ config) : (isValidConfig config).NoPanic := by
  unfold isValidConfig
  split
  · simp
  · next hp =>
    have hp' : [0, 0, 1, 0xB0] <+: config := List.isPrefixOf_iff_prefix.1 (by simpa using hp)
    obtain ⟨r, hr⟩ := hp'
    obtain ⟨seg, units, tl, h1, h2, h3, h4⟩ := decompose r
    have hdrop : config.drop 4 = seg ++ unitBytes units ++ tl := by rw [← hr, ← h1]; rfl
    have htl : tl = [] := by
      rcases h2 with h2 | h2
      · exact h2
      · exfalso; apply h
        rw [← hr, h1, h2]
        exact ⟨[0, 0, 1, 0xB0] ++ (seg ++ unitBytes units), by simp⟩
    rcases loop_spec config units seg tl 4 false false hdrop (by rw [← hr]; simp) h2 h3 h4 with ⟨_, he⟩ | ⟨_, hr'⟩
    · rw [he]; simp
    · rw [if_neg (by simp [htl])] at hr'
      exact hr'.1

/-- C32: exactly the intended configurations are accepted: the visual object sequence start code, only allowed units
after it, among them a video object and a video object layer. -/
theorem C32_accepts (seg : Bytes) (units : List (UInt8 × Bytes)) (hs : Clean seg) (hu : ∀ u ∈ units, Clean u.2) :
    isValidConfig ([0, 0, 1, 0xB0] ++ seg ++ unitBytes units) = .ok () ↔
      (∀ u ∈ units, allowed u.1) ∧ (∃ u ∈ units, isVideoObject u.1) ∧ (∃ u ∈ units, isVideoObjectLayer u.1) := by
  unfold isValidConfig
  rw [if_neg (by simp)]
  rcases loop_spec ([0, 0, 1, 0xB0] ++ seg ++ unitBytes units) units seg [] 4 false false (by simp) (by simp)
    (.inl rfl) hs hu with ⟨⟨u, hm, hn⟩, he⟩ | ⟨ha, hr⟩
  · rw [he]
    simp only [reduceCtorEq, false_iff, not_and]
    intro h; exact absurd (h u hm) hn
  · rw [if_neg (by simp)] at hr
    rw [hr.2]
    simp only [Bool.false_eq_true, false_or]
    exact ⟨fun h => ⟨ha, h⟩, fun h => h.2⟩

/-- C32: the panic is exactly this: all units allowed, then a non-empty rest of a unit and a bare prefix. -/
theorem C32_panics (seg : Bytes) (units : List (UInt8 × Bytes)) (hs : Clean seg) (hu : ∀ u ∈ units, Clean u.2) :
    isValidConfig ([0, 0, 1, 0xB0] ++ seg ++ unitBytes units ++ [0, 0, 1]) = .panic ↔
      (∀ u ∈ units, allowed u.1) ∧ (seg :: units.map (·.2)).getLastD [] ≠ [] := by
  unfold isValidConfig
  rw [if_neg (by simp)]
  rcases loop_spec ([0, 0, 1, 0xB0] ++ seg ++ unitBytes units ++ [0, 0, 1]) units seg [0, 0, 1] 4 false false (by simp)
    (by simp) (.inr rfl) hs hu with ⟨⟨u, hm, hn⟩, he⟩ | ⟨ha, hr⟩
  · rw [he]
    simp only [reduceCtorEq, false_iff, not_and]
    intro h; exact absurd (h u hm) hn
  · by_cases hl : (seg :: units.map (·.2)).getLastD [] ≠ []
    · rw [if_pos ⟨rfl, hl⟩] at hr
      rw [hr]
      exact ⟨fun _ => ⟨ha, hl⟩, fun _ => rfl⟩
    · rw [if_neg (fun h => hl h.2)] at hr
      constructor
      · intro h; exact absurd h hr.1
      · intro h; exact absurd h.2 hl

/-- A usual configuration: sequence, visual object, video object, video object layer with a payload. -/
def exampleConfig : Bytes := [0, 0, 1, 0xB0, 1, 0, 0, 1, 0xB5, 9, 0, 0, 1, 0, 0, 0, 1, 0x20, 0, 0x84, 0x40]

example : isValidConfig exampleConfig = .ok () := by decide +kernel
example : exampleConfig = [0, 0, 1, 0xB0] ++ [1] ++ unitBytes [(0xB5, [9]), (0, []), (0x20, [0, 0x84, 0x40])] := by
  decide
example : Clean [0, 0x84, 0x40] := by rw [← indexStartCode_none]; rfl
example : ¬ [0, 0, 1] <:+ exampleConfig := by decide

end Verif.Props
