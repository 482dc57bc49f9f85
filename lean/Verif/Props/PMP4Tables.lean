import Verif.Model.PMP4
import Verif.Spec.SampleTables

/-!
# C45: MP4 sample tables reproduce sample timing
-/

namespace Verif.Props
open PMP4 SampleTables

def runPairs {α : Type} (l : List (Run α)) : List (Nat × α) := l.map fun e => (e.count, e.value)

theorem pmp4_expand_append {α : Type} (a b : List (Nat × α)) : expand (a ++ b) = expand a ++ expand b := by
  simp [expand]

/-- A non-empty list of runs, whose last run has the value `v` and count `n`. -/
theorem pmp4_runLoop {α : Type} [DecidableEq α] (l : List α) :
    ∀ (p : List (Run α)) (n : Nat) (v : α), 0 < n → n + l.length < 2 ^ 32 → AdjacentDiffer ((p ++ [(⟨n, v⟩ : Run α)]).map (·.value)) →
      (∀ e ∈ p, 0 < e.count) →
      ∃ r, runLoop l (p ++ [⟨n, v⟩]) = .ok r ∧ expand (runPairs r) = expand (runPairs (p ++ [⟨n, v⟩])) ++ l ∧
        AdjacentDiffer (r.map (·.value)) ∧ ∀ e ∈ r, 0 < e.count := by
  induction l with
  | nil =>
    intro p n v hn _ had hpos
    refine ⟨_, rfl, by simp, had, ?_⟩
    intro e he
    rcases List.mem_append.mp he with h | h
    · exact hpos e h
    · cases List.mem_singleton.mp h; exact hn
  | cons w l ih =>
    intro p n v hn hlen had hpos
    have hl : (p ++ [(⟨n, v⟩ : Run α)]).length - 1 = p.length := by simp
    have hi : idx (p ++ [(⟨n, v⟩ : Run α)]) p.length = .ok ⟨n, v⟩ := by simp [idx]
    simp only [List.length_cons] at hlen
    unfold runLoop runStep
    rw [hl, hi, Res.bind_ok]
    by_cases hw : w = v
    · subst hw
      rw [if_pos rfl, Res.bind_ok]
      have hset : (p ++ [(⟨n, w⟩ : Run α)]).set p.length ⟨(n + 1) % 2 ^ 32, w⟩ = p ++ [⟨n + 1, w⟩] := by
        rw [List.set_append_right _ _ (Nat.le_refl _), Nat.sub_self, Nat.mod_eq_of_lt (by omega)]; rfl
      rw [hset]
      obtain ⟨r, h1, h2, h3, h4⟩ := ih p (n + 1) w (by omega) (by omega) (by simpa using had) hpos
      refine ⟨r, h1, ?_, h3, h4⟩
      rw [h2]
      simp [runPairs, expand, List.replicate_succ']
    · rw [if_neg (by simpa using hw), Res.bind_ok]
      obtain ⟨r, h1, h2, h3, h4⟩ := ih (p ++ [⟨n, v⟩]) 1 w (by omega) (by omega) (by
        have : ∀ (q : List α), AdjacentDiffer (q ++ [v]) → AdjacentDiffer (q ++ [v] ++ [w]) := by
          intro q
          induction q with
          | nil => intro _; exact ⟨fun h => hw h.symm, trivial⟩
          | cons a q ihq =>
            intro h
            cases q with
            | nil => exact ⟨h.1, fun h => hw h.symm, trivial⟩
            | cons b q => exact ⟨h.1, ihq h.2⟩
        simp only [List.map_append, List.map_cons, List.map_nil] at had ⊢
        exact this _ had) (by
        intro e he
        rcases List.mem_append.mp he with h | h
        · exact hpos e h
        · cases List.mem_singleton.mp h; exact hn)
      refine ⟨r, h1, ?_, h3, h4⟩
      rw [h2]
      simp [runPairs, expand]

theorem pmp4_runEntries {α : Type} [DecidableEq α] (l : List α) (h : l.length < 2 ^ 32) :
    ∃ r, runEntries l = .ok r ∧ expand (runPairs r) = l ∧ AdjacentDiffer (r.map (·.value)) ∧ ∀ e ∈ r, 0 < e.count := by
  cases l with
  | nil => exact ⟨[], rfl, rfl, trivial, fun _ h => by cases h⟩
  | cons v l =>
    obtain ⟨r, h1, h2, h3, h4⟩ := pmp4_runLoop l [] 1 v (by omega) (by simp at h; omega) trivial (fun _ h => by cases h)
    exact ⟨r, h1, by rw [h2]; simp [runPairs, expand], h3, h4⟩

/-- **C45.** The decoding-time table of a track with any samples (less than 2^32) expands to the durations; entries are not empty, and
adjacent entries have different durations. -/
theorem C45_stts (samples : List Sample) (h : samples.length < 2 ^ 32) :
    ∃ r, marshalSTTS samples = .ok r ∧ expand (runPairs r) = samples.map (·.duration) ∧ AdjacentDiffer (r.map (·.value)) ∧
      ∀ e ∈ r, 0 < e.count :=
  pmp4_runEntries _ (by simpa using h)

/-- **C45.** The composition-offset table expands to the offsets. -/
theorem C45_ctts (samples : List Sample) (h : samples.length < 2 ^ 32) :
    ∃ r, marshalCTTS samples = .ok r ∧ expand (runPairs r) = samples.map (·.ptsOffset) ∧ AdjacentDiffer (r.map (·.value)) ∧
      ∀ e ∈ r, 0 < e.count :=
  pmp4_runEntries _ (by simpa using h)

example : marshalSTTS [{ duration := 10 }, { duration := 10 }, { duration := 7 }, { duration := 10 }] =
    .ok [⟨2, 10⟩, ⟨1, 7⟩, ⟨1, 10⟩] := by decide

/-! ## Sync samples -/

theorem pmp4_allSync (samples : List Sample) : allSamplesAreSync samples = true ↔ ∀ sa ∈ samples, sa.isNonSync = false := by
  induction samples with
  | nil => simp [allSamplesAreSync]
  | cons sa l ih =>
    unfold allSamplesAreSync
    cases h : sa.isNonSync <;> simp [h, ih]

theorem pmp4_stssNumbers (samples : List Sample) :
    ∀ i m, i + samples.length < 2 ^ 32 →
      (m ∈ stssNumbers i samples ↔ ∃ j, ∃ h : j < samples.length, samples[j].isNonSync = false ∧ m = i + j + 1) := by
  induction samples with
  | nil => intro i m _; simp [stssNumbers]
  | cons sa l ih =>
    intro i m hlen
    simp only [List.length_cons] at hlen
    have key := ih (i + 1) m (by omega)
    unfold stssNumbers
    constructor
    · intro hm
      have hrec : m ∈ stssNumbers (i + 1) l →
          ∃ j, ∃ h : j < (sa :: l).length, (sa :: l)[j].isNonSync = false ∧ m = i + j + 1 := by
        intro hm
        obtain ⟨j, hj, h1, h2⟩ := key.mp hm
        exact ⟨j + 1, by simp; omega, by simpa using h1, by omega⟩
      split at hm
      · exact hrec hm
      · rename_i hns
        rcases List.mem_cons.mp hm with h | h
        · refine ⟨0, by simp, by simpa using hns, ?_⟩
          rw [h, Nat.mod_eq_of_lt (by omega)]
        · exact hrec h
    · rintro ⟨j, hj, h1, h2⟩
      cases j with
      | zero =>
        simp only [List.getElem_cons_zero] at h1
        rw [if_neg (by simp [h1]), Nat.mod_eq_of_lt (by omega), h2]
        exact List.mem_cons_self
      | succ j =>
        have hm : m ∈ stssNumbers (i + 1) l :=
          key.mpr ⟨j, by simpa using hj, by simpa using h1, by omega⟩
        split
        · exact hm
        · exact List.mem_cons_of_mem _ hm

/-- **C45.** The table of sync samples (or its absence) tells for each sample whether it is a sync sample. -/
theorem C45_stss (samples : List Sample) (hlen : samples.length < 2 ^ 32) (i : Nat) (h : i < samples.length) :
    isSync (marshalSTSS samples) i ↔ samples[i].isNonSync = false := by
  unfold marshalSTSS
  split
  · rename_i hall
    simp only [isSync, true_iff]
    exact (pmp4_allSync samples).mp hall _ (List.getElem_mem h)
  · simp only [isSync]
    rw [pmp4_stssNumbers samples 0 (i + 1) (by omega)]
    constructor
    · rintro ⟨j, hj, h1, h2⟩
      have : j = i := by omega
      subst this; exact h1
    · intro h1
      exact ⟨i, h, h1, by omega⟩

example : marshalSTSS [{ }, { isNonSync := true }, { }] = some [1, 3] := by decide

/-- The numbers are in increasing order, as ISO 14496-12, 8.6.2.1 requires. -/
theorem C45_stss_increasing (samples : List Sample) (hlen : samples.length < 2 ^ 32) :
    ∀ numbers, marshalSTSS samples = some numbers → numbers.Pairwise (· < ·) := by
  intro numbers h
  have key : ∀ (l : List Sample) (i : Nat), i + l.length < 2 ^ 32 → (stssNumbers i l).Pairwise (· < ·) := by
    intro l
    induction l with
    | nil => intro i _; exact List.Pairwise.nil
    | cons sa l ih =>
      intro i hl
      simp only [List.length_cons] at hl
      unfold stssNumbers
      split
      · exact ih (i + 1) (by omega)
      · refine List.Pairwise.cons ?_ (ih (i + 1) (by omega))
        intro m hm
        obtain ⟨j, hj, _, h2⟩ := (pmp4_stssNumbers l (i + 1) m (by omega)).mp hm
        rw [Nat.mod_eq_of_lt (by omega)]; omega
  unfold marshalSTSS at h
  split at h
  · cases h
  · cases h; exact key samples 0 (by omega)

end Verif.Props
