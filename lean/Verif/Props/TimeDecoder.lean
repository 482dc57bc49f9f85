import Verif.Model.TimeDecoder
import Mathlib.Data.List.Chain
import Mathlib.Data.Int.ModEq

/-!
# Properties C34, C35: MPEG-TS timestamps
-/

namespace Verif.Props
open Verif.TS

theorem wrap64_emod (v : Int) : wrap64 v % 2 ^ 33 = v % 2 ^ 33 := by
  unfold wrap64; omega

theorem wrap64_id {v : Int} (h1 : -2 ^ 63 ≤ v) (h2 : v < 2 ^ 63) : wrap64 v = v := by
  unfold wrap64; omega

theorem wrap64_add (a b : Int) : wrap64 (wrap64 a + b) = wrap64 (a + b) := by
  unfold wrap64; omega

/-- One call, for an initialized decoder, whatever its input: the accumulated time moves by the only
amount in `[-2^32, 2^32-1]` congruent to the difference of the inputs modulo `2^33`. -/
theorem decode_step (d : TimeDecoder) (hd : d.initialized = true) (ts : Int) :
    ∃ δ : Int, -2 ^ 32 ≤ δ ∧ δ ≤ 2 ^ 32 - 1 ∧ (δ - (ts - d.prev)) % 2 ^ 33 = 0 ∧
      d.decode ts = (wrap64 (d.overall + δ),
        { initialized := true, overall := wrap64 (d.overall + δ), prev := ts }) := by
  unfold TimeDecoder.decode TimeDecoder.base and33 negativeThreshold maximum
  simp only [hd, if_true]
  by_cases h : wrap64 (ts - d.prev) % 2 ^ 33 > 0x1FFFFFFFF / 2
  · refine ⟨-((d.prev - ts) % 2 ^ 33), ?_, ?_, ?_, ?_⟩
    · rw [wrap64_emod] at h; omega
    · rw [wrap64_emod] at h; omega
    · omega
    · rw [if_pos h, wrap64_emod, ← Int.sub_eq_add_neg]
  · refine ⟨(ts - d.prev) % 2 ^ 33, ?_, ?_, ?_, ?_⟩
    · rw [wrap64_emod] at h; omega
    · rw [wrap64_emod] at h; omega
    · omega
    · rw [if_neg h, wrap64_emod]

theorem decode_first (ts : Int) :
    ({} : TimeDecoder).decode ts = (0, { initialized := true, overall := 0, prev := ts }) := by
  simp [TimeDecoder.decode, TimeDecoder.base, and33, wrap64, negativeThreshold, maximum]

/-- Decoding truncated true times from any reachable state. -/
theorem decodeAll_true (t0 : Int) (l : List Int) : ∀ t : Int,
    List.IsChain (fun a b => -2 ^ 32 ≤ b - a ∧ b - a ≤ 2 ^ 32 - 1) (t :: l) →
    TimeDecoder.decodeAll { initialized := true, overall := wrap64 (t - t0), prev := t % 2 ^ 33 }
      (l.map (· % 2 ^ 33)) = l.map (fun t => wrap64 (t - t0)) := by
  induction l with
  | nil => intros; rfl
  | cons b l ih =>
    intro t hc
    rw [List.isChain_cons_cons] at hc
    obtain ⟨δ, d1, d2, d3, d4⟩ := decode_step
      { initialized := true, overall := wrap64 (t - t0), prev := t % 2 ^ 33 } rfl (b % 2 ^ 33)
    simp only at d3 d4
    have hδ : δ = b - t := by omega
    subst hδ
    rw [List.map_cons, TimeDecoder.decodeAll, d4, wrap64_add, show t - t0 + (b - t) = b - t0 by omega, ih b hc.2,
      List.map_cons]

/-- C34: for any sequence of true times, of any length and over any number of wraps, in which
consecutive times differ by less than half the 33-bit range, decoding the 33-bit truncations gives
true time minus first true time (as an `int64`). -/
theorem C34_unwrap (t0 : Int) (ts : List Int)
    (hc : List.IsChain (fun a b => -2 ^ 32 ≤ b - a ∧ b - a ≤ 2 ^ 32 - 1) (t0 :: ts)) :
    ({} : TimeDecoder).decodeAll ((t0 :: ts).map (· % 2 ^ 33)) = (t0 :: ts).map (fun t => wrap64 (t - t0)) := by
  rw [List.map_cons, TimeDecoder.decodeAll, decode_first]
  have h := decodeAll_true t0 ts t0 hc
  rw [show wrap64 (t0 - t0) = 0 by unfold wrap64; omega] at h
  rw [h]
  simp [wrap64]

/-- C34: with times that fit in `int64`, the results are exact. -/
theorem C34_unwrap_exact (t0 : Int) (ts : List Int)
    (hc : List.IsChain (fun a b => |b - a| < 2 ^ 32) (t0 :: ts))
    (hr : ∀ t ∈ ts, -2 ^ 63 ≤ t - t0 ∧ t - t0 < 2 ^ 63) :
    ({} : TimeDecoder).decodeAll ((t0 :: ts).map (· % 2 ^ 33)) = (t0 :: ts).map (· - t0) := by
  rw [C34_unwrap t0 ts (hc.imp (fun {a b} h => by rw [abs_lt] at h; omega))]
  refine List.map_congr_left ?_
  intro t ht
  rcases List.mem_cons.1 ht with rfl | ht
  · simp [wrap64]
  · exact wrap64_id (hr t ht).1 (hr t ht).2

/-- Three wraps forward, one back. -/
example : ({} : TimeDecoder).decodeAll
    ([8000000000, 12000000000, 16000000000, 20000000000, 24000000000, 28000000000, 25000000000].map (· % 2 ^ 33))
    = [0, 4000000000, 8000000000, 12000000000, 16000000000, 20000000000, 17000000000] := by decide +kernel

theorem decodeAll_congr (t0 : Int) (ts : List Int) : ∀ (d : TimeDecoder), d.initialized = true →
    (d.overall - (d.prev - t0)) % 2 ^ 33 = 0 →
    List.Forall₂ (fun ts r => (r - (ts - t0)) % 2 ^ 33 = 0) ts (d.decodeAll ts) ∧
    List.IsChain (fun a b => ∃ δ, -2 ^ 32 ≤ δ ∧ δ ≤ 2 ^ 32 - 1 ∧ b = wrap64 (a + δ)) (d.overall :: d.decodeAll ts) := by
  induction ts with
  | nil => intro d _ _; exact ⟨.nil, by simp [TimeDecoder.decodeAll]⟩
  | cons t l ih =>
    intro d hd hcg
    obtain ⟨δ, d1, d2, d3, d4⟩ := decode_step d hd t
    have hm := wrap64_emod (d.overall + δ)
    have hm' : (wrap64 (d.overall + δ) - (t - t0)) % 2 ^ 33 = 0 := by omega
    obtain ⟨i1, i2⟩ := ih { initialized := true, overall := wrap64 (d.overall + δ), prev := t } rfl hm'
    rw [TimeDecoder.decodeAll, d4]
    exact ⟨.cons hm' i1, List.isChain_cons_cons.2 ⟨⟨δ, d1, d2, rfl⟩, i2⟩⟩

/-- C35: for arbitrary input, the first result is 0, every result is congruent to its input minus
the first input modulo `2^33`, and each result is the preceding one moved by at least `-2^32` and at
most `2^32-1` (as `int64` arithmetic). -/
theorem C35_step_bound (t0 : Int) (ts : List Int) :
    ∃ rs, ({} : TimeDecoder).decodeAll (t0 :: ts) = 0 :: rs ∧
      List.Forall₂ (fun ts r => (r - (ts - t0)) % 2 ^ 33 = 0) ts rs ∧
      List.IsChain (fun a b => ∃ δ, -2 ^ 32 ≤ δ ∧ δ ≤ 2 ^ 32 - 1 ∧ b = wrap64 (a + δ)) (0 :: rs) := by
  refine ⟨TimeDecoder.decodeAll { initialized := true, overall := 0, prev := t0 } ts, ?_, ?_⟩
  · rw [TimeDecoder.decodeAll, decode_first]
  · exact decodeAll_congr t0 ts { initialized := true, overall := 0, prev := t0 } rfl (by simp)

theorem chain_exact (rs : List Int) : ∀ (a : Int) (k : Nat), -(2 ^ 32 * k) ≤ a ∧ a ≤ 2 ^ 32 * k → k + rs.length < 2 ^ 31 →
    List.IsChain (fun a b => ∃ δ, -2 ^ 32 ≤ δ ∧ δ ≤ 2 ^ 32 - 1 ∧ b = wrap64 (a + δ)) (a :: rs) →
    List.IsChain (fun a b => -2 ^ 32 ≤ b - a ∧ b - a ≤ 2 ^ 32 - 1) (a :: rs) := by
  induction rs with
  | nil => intros; simp
  | cons b l ih =>
    intro a k ha hk hc
    rw [List.isChain_cons_cons] at hc
    obtain ⟨⟨δ, d1, d2, rfl⟩, hc⟩ := hc
    simp only [List.length_cons] at hk
    rw [wrap64_id (v := a + δ) (by omega) (by omega)] at hc ⊢
    refine List.isChain_cons_cons.2 ⟨by omega, ih (a + δ) (k + 1) ?_ (by omega) hc⟩
    push_cast; omega

/-- C35: the step bound in plain arithmetic, for the first `2^31 - 1` results (beyond that many
maximal steps in one direction an `int64` could overflow). -/
theorem C35_step_bound_exact (t0 : Int) (ts : List Int) (hl : ts.length < 2 ^ 31) :
    ∃ rs, ({} : TimeDecoder).decodeAll (t0 :: ts) = 0 :: rs ∧
      List.Forall₂ (fun ts r => (r - (ts - t0)) % 2 ^ 33 = 0) ts rs ∧
      List.IsChain (fun a b => -2 ^ 32 ≤ b - a ∧ b - a ≤ 2 ^ 32 - 1) (0 :: rs) := by
  obtain ⟨rs, h1, h2, h3⟩ := C35_step_bound t0 ts
  refine ⟨rs, h1, h2, chain_exact rs 0 0 (by simp) ?_ h3⟩
  rw [← h2.length_eq]; omega

/-- Both extremes of the step are reached. -/
example : ({} : TimeDecoder).decodeAll [0, 2 ^ 32, 2 ^ 33 - 1] = [0, -2 ^ 32, -1] := by decide +kernel

end Verif.Props
