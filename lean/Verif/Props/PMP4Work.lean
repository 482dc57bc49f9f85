import Verif.Model.PMP4Work
import Verif.Props.PMP4Chunks
import Verif.Props.PMP4Order
import Verif.Props.TimeDecoder

/-!
# C108: the work of writing `stsc`

`marshalSTSC` removes an entry by moving all entries behind it, one at a time (track.go:457-460).
-/

namespace Verif.Props
open PMP4
open TS (wrap64)

/-! ## The same table -/

/-- The inner loop moves what is behind the entry by one; the last entry stays where it is. -/
theorem move_loop (s : List StscEntry) : ∀ (p : List StscEntry) (x : StscEntry),
    moveLoop s.length p.length (p ++ x :: s) = .ok (s.length, p ++ s ++ [(x :: s).getLast (by simp)]) := by
  induction s with
  | nil => intro p x; simp [moveLoop]
  | cons y s ih =>
    intro p x
    rw [List.length_cons, moveLoop]
    have h1 : idx (p ++ x :: y :: s) (p.length + 1) = .ok y := by
      unfold idx
      rw [List.getElem?_append_right (by omega), show p.length + 1 - p.length = 1 by omega]
      rfl
    have h2 : (p ++ x :: y :: s).set p.length y = (p ++ [y]) ++ y :: s := by
      rw [List.set_append_right _ _ (Nat.le_refl _), Nat.sub_self]
      simp
    rw [h1, Res.bind_ok, h2]
    have := ih (p ++ [y]) y
    rw [List.length_append, List.length_singleton] at this
    rw [this, Res.bind_ok]
    simp

theorem move_slice (p s : List StscEntry) (z : StscEntry) : slice (p ++ s ++ [z]) 0 ((p ++ s ++ [z]).length - 1) = .ok (p ++ s) := by
  unfold slice
  rw [if_pos ⟨by omega, by omega⟩]
  congr 1
  rw [List.drop_zero, List.length_append, List.length_singleton, Nat.add_sub_cancel, Nat.sub_zero, List.take_left]

/-- The entry at index `p.length` is compared with the one in front of it, and removed. -/
theorem move_step (p s : List StscEntry) (a b : StscEntry) : stscCompressW (p.length + 1) (p ++ b :: a :: s) =
    (if a.samplesPerChunk = b.samplesPerChunk then stscCompressW p.length (p ++ b :: s) >>= fun x => .ok (s.length + x.1, x.2)
     else stscCompressW p.length (p ++ b :: a :: s)) := by
  rw [stscCompressW]
  have h1 : idx (p ++ b :: a :: s) (p.length + 1) = .ok a := by
    unfold idx
    rw [List.getElem?_append_right (by omega), show p.length + 1 - p.length = 1 by omega]
    rfl
  have h2 : idx (p ++ b :: a :: s) p.length = .ok b := by
    unfold idx
    rw [List.getElem?_append_right (by omega), Nat.sub_self]
    rfl
  rw [h1, Res.bind_ok, h2, Res.bind_ok]
  split
  · have h3 := move_loop s (p ++ [b]) a
    rw [List.append_assoc, List.singleton_append, List.length_append, List.length_singleton] at h3
    rw [show (p ++ b :: a :: s).length - 1 - (p.length + 1) = s.length by simp; omega, h3, Res.bind_ok]
    dsimp only
    rw [move_slice (p ++ [b]) s, Res.bind_ok, List.append_assoc, List.singleton_append]
  · rfl

theorem move_split (i : Nat) (entries : List StscEntry) (h : i + 1 < entries.length) :
    ∃ p b a s, p.length = i ∧ entries = p ++ b :: a :: s := by
  refine ⟨entries.take i, entries[i], entries[i + 1], entries.drop (i + 2), by simp; omega, ?_⟩
  rw [← List.drop_eq_getElem_cons, ← List.drop_eq_getElem_cons, List.take_append_drop]

theorem move_same (i : Nat) : ∀ entries : List StscEntry, i < entries.length ∨ i = 0 →
    (stscCompressW i entries >>= fun x => .ok x.2) = stscCompress i entries := by
  induction i with
  | zero => intro entries _; rfl
  | succ i ih =>
    intro entries h
    obtain ⟨p, b, a, s, rfl, rfl⟩ := move_split i entries (by omega)
    rw [move_step, stscCompress]
    have h1 : idx (p ++ b :: a :: s) (p.length + 1) = .ok a := by
      unfold idx
      rw [List.getElem?_append_right (by omega), show p.length + 1 - p.length = 1 by omega]
      rfl
    have h2 : idx (p ++ b :: a :: s) p.length = .ok b := by
      unfold idx
      rw [List.getElem?_append_right (by omega), Nat.sub_self]
      rfl
    rw [h1, Res.bind_ok, h2, Res.bind_ok]
    by_cases hc : a.samplesPerChunk = b.samplesPerChunk
    · rw [if_pos hc, if_pos hc]
      have h3 : (p ++ b :: a :: s).eraseIdx (p.length + 1) = p ++ b :: s := by
        rw [List.eraseIdx_append_of_length_le (by omega)]
        simp
      rw [h3, ← ih (p ++ b :: s) (by simp)]
      cases stscCompressW p.length (p ++ b :: s) <;> rfl
    · rw [if_neg hc, if_neg hc]
      exact ih _ (by simp)

/-- **C108**: with the inner loop as it is written, `marshalSTSC` writes the same table. -/
theorem C108_same (samples : List Sample) : (marshalSTSCW samples >>= fun x => .ok x.2) = marshalSTSC samples := by
  cases samples with
  | nil => rfl
  | cons first l =>
    show ((stscLoop l first.end [⟨1, 1⟩] >>= fun entries => stscCompressW (entries.length - 1) entries) >>= _) =
      (stscLoop l first.end [⟨1, 1⟩] >>= fun entries => stscCompress (entries.length - 1) entries)
    cases stscLoop l first.end [⟨1, 1⟩] with
    | ok entries => exact move_same _ _ (by omega)
    | err e => rfl
    | panic => rfl

/-! ## At most quadratic -/

theorem move_bound (i : Nat) : ∀ (entries l : List StscEntry) (n : Nat), i < entries.length ∨ i = 0 → stscCompressW i entries = .ok (n, l) →
    n ≤ i * entries.length := by
  induction i with
  | zero => intro entries l n _ h; cases h; omega
  | succ i ih =>
    intro entries l n h hw
    obtain ⟨p, b, a, s, rfl, rfl⟩ := move_split i entries (by omega)
    rw [move_step] at hw
    split at hw
    · obtain ⟨⟨m, l'⟩, h1, h2⟩ := Res.bind_eq_ok.1 hw
      cases h2
      have := ih _ _ _ (by simp) h1
      have hle : p.length * (p ++ b :: s).length ≤ p.length * (p ++ b :: a :: s).length := Nat.mul_le_mul_left _ (by simp)
      rw [Nat.add_mul]
      have : s.length ≤ (p ++ b :: a :: s).length := by simp; omega
      dsimp only at *
      omega
    · have := ih _ _ _ (by simp) hw
      rw [Nat.add_mul]
      omega

theorem move_entries (l : List Sample) : ∀ (off : Nat) (e r : List StscEntry), stscLoop l off e = .ok r → r.length ≤ e.length + l.length := by
  induction l with
  | nil => intro off e r h; cases h; simp
  | cons sa l ih =>
    intro off e r h
    unfold stscLoop at h
    split at h
    · obtain ⟨x, _, h⟩ := Res.bind_eq_ok.1 h
      have := ih _ _ _ h
      simp at this ⊢
      omega
    · have := ih _ _ _ h
      simp at this ⊢
      omega

/-- **C108**: the entries that are moved are no more than the square of the samples. -/
theorem C108_work_partial (samples : List Sample) (n : Nat) (l : List StscEntry) (h : marshalSTSCW samples = .ok (n, l)) :
    n ≤ samples.length ^ 2 := by
  cases samples with
  | nil => cases h; simp
  | cons first rest =>
    obtain ⟨entries, h1, h2⟩ := Res.bind_eq_ok.1 h
    have hl := move_entries _ _ _ _ h1
    have hb := move_bound _ _ _ _ (by omega) h2
    rw [List.length_singleton] at hl
    rw [List.length_cons, Nat.pow_two]
    exact Nat.le_trans hb (Nat.mul_le_mul (by omega) (by omega))

/-! ## Quadratic: a table -/

/-- Samples per chunk: 1, then 1, 1, 2, 2 again and again. -/
def movePattern : Nat → List Nat
  | 0 => [1]
  | k + 1 => movePattern k ++ [1, 1, 2, 2]

theorem move_pattern_length (k : Nat) : (movePattern k).length = 4 * k + 1 := by
  induction k with
  | zero => rfl
  | succ k ih => rw [movePattern, List.length_append, ih]; rfl

/-- What has `j` entries in front and is not removed from them. -/
theorem move_two (p s : List StscEntry) (z x y : StscEntry) (h1 : y.samplesPerChunk = x.samplesPerChunk) (h2 : x.samplesPerChunk ≠ z.samplesPerChunk) :
    stscCompressW (p.length + 2) (p ++ z :: x :: y :: s) = (stscCompressW p.length (p ++ z :: x :: s) >>= fun r => .ok (s.length + r.1, r.2)) := by
  have e1 := move_step (p ++ [z]) s y x
  rw [List.append_assoc, List.singleton_append, List.length_append, List.length_singleton, if_pos h1] at e1
  rw [show p.length + 2 = p.length + 1 + 1 by omega, e1, List.append_assoc, List.singleton_append, move_step, if_neg h2]

theorem move_some (i : Nat) : ∀ entries : List StscEntry, i < entries.length ∨ i = 0 → ∃ n l, stscCompressW i entries = .ok (n, l) := by
  induction i with
  | zero => intro entries _; exact ⟨_, _, rfl⟩
  | succ i ih =>
    intro entries h
    obtain ⟨p, b, a, s, rfl, rfl⟩ := move_split i entries (by omega)
    rw [move_step]
    split
    · obtain ⟨n, l, e⟩ := ih (p ++ b :: s) (by simp)
      exact ⟨_, _, by rw [e]; rfl⟩
    · exact ih _ (by simp)

/-- Entries with the given numbers of samples. -/
def Sized (entries : List StscEntry) (sizes : List Nat) : Prop := entries.map (·.samplesPerChunk) = sizes

theorem move_sized_append {entries : List StscEntry} {a b : List Nat} (h : Sized entries (a ++ b)) :
    ∃ e1 e2, entries = e1 ++ e2 ∧ Sized e1 a ∧ Sized e2 b := by
  unfold Sized at *
  obtain ⟨e1, e2, h1, h2, h3⟩ := List.map_eq_append_iff.1 h
  exact ⟨e1, e2, h1, h2, h3⟩

theorem move_four {e : List StscEntry} {a b c d : Nat} (h : Sized e [a, b, c, d]) : ∃ w x y z, e = [w, x, y, z] ∧ w.samplesPerChunk = a ∧
    x.samplesPerChunk = b ∧ y.samplesPerChunk = c ∧ z.samplesPerChunk = d := by
  unfold Sized at h
  match e, h with
  | [w, x, y, z], h => simp at h; exact ⟨w, x, y, z, rfl, h⟩

/-- The last entry of a pattern. -/
theorem move_last (k : Nat) (e : List StscEntry) (h : Sized e (movePattern (k + 1))) : ∃ p z, e = p ++ [z] ∧ z.samplesPerChunk = 2 := by
  obtain ⟨e1, e2, rfl, h1, h2⟩ := move_sized_append h
  obtain ⟨w, x, y, z, rfl, _, _, _, hz⟩ := move_four h2
  exact ⟨e1 ++ [w, x, y], z, by simp, hz⟩

/-- The moves in a pattern with `q` behind it. -/
theorem move_pattern (k : Nat) : ∀ (e q : List StscEntry), Sized e (movePattern k) →
    ∃ n l, stscCompressW (4 * k) (e ++ q) = .ok (n, l) ∧ k * (2 * q.length) + k * k ≤ n + k := by
  induction k with
  | zero => intro e q _; exact ⟨0, _, rfl, by omega⟩
  | succ k ih =>
    intro e q h
    obtain ⟨e1, e2, rfl, h1, h2⟩ := move_sized_append h
    obtain ⟨w, x, y, z, rfl, hw, hx, hy, hz⟩ := move_four h2
    have hl : e1.length = 4 * k + 1 := by rw [← move_pattern_length k, ← show e1.map (·.samplesPerChunk) = _ from h1, List.length_map]
    have s1 := move_two (e1 ++ [w]) q x y z (by rw [hy, hz]) (by rw [hx, hy]; decide)
    rw [show (e1 ++ [w]).length + 2 = 4 * (k + 1) by simp; omega, show (e1 ++ [w]).length = 4 * k + 2 by simp; omega] at s1
    simp only [List.append_assoc, List.cons_append, List.nil_append] at s1 ⊢
    rw [s1]
    cases k with
    | zero =>
      obtain ⟨n, l, hn⟩ := move_some (4 * 0 + 2) (e1 ++ w :: x :: y :: q) (by simp; omega)
      obtain ⟨v, rfl⟩ : ∃ v, e1 = [v] := by
        match e1, hl with
        | [v], _ => exact ⟨v, rfl⟩
      have s2 := move_step [v] (y :: q) x w
      rw [if_pos (by rw [hx, hw])] at s2
      rw [show (4 * 0 + 2 : Nat) = [v].length + 1 from rfl] at hn ⊢
      rw [s2] at hn ⊢
      obtain ⟨⟨m, l'⟩, hm, e⟩ := Res.bind_eq_ok.1 hn
      cases e
      rw [hm]
      refine ⟨_, _, rfl, ?_⟩
      simp
      omega
    | succ k =>
      obtain ⟨p, u, rfl, hu⟩ := move_last k e1 h1
      have s2 := move_two p (y :: q) u w x (by rw [hw, hx]) (by rw [hw, hu]; decide)
      rw [List.length_append, List.length_singleton] at hl
      rw [show p.length + 2 = 4 * (k + 1) + 2 by omega, show p.length = 4 * (k + 1) by omega] at s2
      obtain ⟨n, l, hn, hb⟩ := ih (p ++ [u]) (w :: y :: q) h1
      simp only [List.append_assoc, List.singleton_append] at hn ⊢
      rw [s2, hn]
      refine ⟨_, _, rfl, ?_⟩
      simp only [List.length_cons] at hb ⊢
      have e1 : (k + 1) * (2 * (q.length + 1 + 1)) = (k + 1) * (2 * q.length) + 4 * (k + 1) := by
        rw [show 2 * (q.length + 1 + 1) = 2 * q.length + 4 by omega, Nat.mul_add]; omega
      have e2 : (k + 1 + 1) * (2 * q.length) = (k + 1) * (2 * q.length) + 2 * q.length := by rw [Nat.add_mul (k + 1) 1]; omega
      have e3 : (k + 1 + 1) * (k + 1 + 1) = (k + 1) * (k + 1) + 2 * (k + 1) + 1 := by rw [Nat.add_mul (k + 1) 1, Nat.mul_add]; omega
      omega

/-! ## Quadratic: a presentation -/

/-- A sample of a byte. -/
def moveSample (duration : Nat) : Sample := { duration := duration, payloadSize := 1, payload := [0] }

/-- The samples of the first track: six seconds, six samples. -/
def moveFirst : Nat → List Sample
  | 0 => []
  | k + 1 => [moveSample 1, moveSample 1, moveSample 1, moveSample 1, moveSample 1, moveSample 1] ++ moveFirst k

/-- The samples of the second track: six seconds, four samples. -/
def moveSecond : Nat → List Sample
  | 0 => []
  | k + 1 => [moveSample 1, moveSample 2, moveSample 2, moveSample 1] ++ moveSecond k

/-- Two tracks of `6 k + 1` seconds. -/
def moveTracks (k : Nat) : List PMP4.Track :=
  [{ id := 1, timeScale := 1, samples := moveSample 1 :: moveFirst k }, { id := 2, timeScale := 1, samples := moveSample 1 :: moveSecond k }]

def moveAt (duration o : Nat) : Sample := { duration := duration, payloadSize := 1, payload := [0], offset := o }

/-- The samples of the first track, with their offsets. -/
def movePlaced : Nat → Nat → List Sample
  | _, 0 => []
  | o, k + 1 => [moveAt 1 o, moveAt 1 (o + 2), moveAt 1 (o + 4), moveAt 1 (o + 5), moveAt 1 (o + 7), moveAt 1 (o + 8)] ++ movePlaced (o + 10) k

theorem move_time (t : Int) (h0 : 0 ≤ t) (h1 : t < 2 ^ 32) : goTime t 1 = t * 1000000000 := by
  unfold goTime
  rw [show ((1 : Nat) : Int) = 1 from rfl, Int.tdiv_one, Int.tmod_one, Int.zero_mul, wrap64_id (v := 0) (by omega) (by omega), Int.zero_tdiv,
    Int.add_zero, wrap64_id (v := t * 1000000000) (by omega) (by omega), wrap64_id (by omega) (by omega)]

theorem move_best_first (t u : Int) (da db la lb : List Sample) (a : Sample) (ht : 0 ≤ t ∧ t < 2 ^ 32) (hu : 0 ≤ u ∧ u < 2 ^ 32) (h : t ≤ u) :
    bestTrack 0 [⟨1, t, da, a :: la⟩, ⟨1, u, db, lb⟩] none = .ok (some (0, t * 1000000000)) := by
  unfold bestTrack
  dsimp only
  rw [pmp4_duration _ _ (by decide), Res.bind_ok, move_time t ht.1 ht.2]
  unfold bestTrack
  cases lb with
  | nil => rfl
  | cons b lb =>
    dsimp only
    rw [pmp4_duration _ _ (by decide), Res.bind_ok, move_time u hu.1 hu.2, if_neg (by omega)]
    rfl

theorem move_best_second (t u : Int) (da db la lb : List Sample) (b : Sample) (ht : 0 ≤ t ∧ t < 2 ^ 32) (hu : 0 ≤ u ∧ u < 2 ^ 32) (h : u < t) :
    bestTrack 0 [⟨1, t, da, la⟩, ⟨1, u, db, b :: lb⟩] none = .ok (some (1, u * 1000000000)) := by
  unfold bestTrack
  cases la with
  | nil =>
    dsimp only
    unfold bestTrack
    dsimp only
    rw [pmp4_duration _ _ (by decide), Res.bind_ok, move_time u hu.1 hu.2]
    rfl
  | cons a la =>
    dsimp only
    rw [pmp4_duration _ _ (by decide), Res.bind_ok, move_time t ht.1 ht.2]
    unfold bestTrack
    dsimp only
    rw [pmp4_duration _ _ (by decide), Res.bind_ok, move_time u hu.1 hu.2, if_pos (by omega)]
    rfl

theorem move_put_first (n : Nat) (t u : Int) (da db la lb s : List Sample) (d o : Nat) (ht : 0 ≤ t ∧ t < 2 ^ 31) (hu : 0 ≤ u ∧ u < 2 ^ 31) (h : t ≤ u)
    (hd : d ≤ 2) (ho : o + 1 < 2 ^ 32) :
    sortLoop (n + 1) [⟨1, t, da, moveSample d :: la⟩, ⟨1, u, db, lb⟩] o s =
      sortLoop n [⟨1, t + d, moveAt d o :: da, la⟩, ⟨1, u, db, lb⟩] (o + 1) (moveAt d o :: s) := by
  rw [sortLoop, move_best_first t u da db la lb (moveSample d) (by omega) (by omega) h, Res.bind_ok]
  show sortLoop n [⟨1, wrap64 (t + ((moveSample d).duration : Int)), _, _⟩, _] ((o + 1) % 2 ^ 32) _ = _
  rw [Nat.mod_eq_of_lt ho, wrap64_id (by show _ ≤ t + (d : Int); omega) (by show t + (d : Int) < _; omega)]
  rfl

theorem move_put_second (n : Nat) (t u : Int) (da db la lb s : List Sample) (d o : Nat) (ht : 0 ≤ t ∧ t < 2 ^ 31) (hu : 0 ≤ u ∧ u < 2 ^ 31) (h : u < t)
    (hd : d ≤ 2) (ho : o + 1 < 2 ^ 32) :
    sortLoop (n + 1) [⟨1, t, da, la⟩, ⟨1, u, db, moveSample d :: lb⟩] o s =
      sortLoop n [⟨1, t, da, la⟩, ⟨1, u + d, moveAt d o :: db, lb⟩] (o + 1) (moveAt d o :: s) := by
  rw [sortLoop, move_best_second t u da db la lb (moveSample d) (by omega) (by omega) h, Res.bind_ok]
  show sortLoop n [_, ⟨1, wrap64 (u + ((moveSample d).duration : Int)), _, _⟩] ((o + 1) % 2 ^ 32) _ = _
  rw [Nat.mod_eq_of_lt ho, wrap64_id (by show _ ≤ u + (d : Int); omega) (by show u + (d : Int) < _; omega)]
  rfl

/-- Six seconds of both tracks. -/
theorem move_period (n : Nat) (t : Int) (da db la lb s : List Sample) (o : Nat) (ht : 0 ≤ t ∧ t + 6 < 2 ^ 31) (ho : o + 10 < 2 ^ 32) :
    ∃ db' s', sortLoop (n + 10) [⟨1, t, da, [moveSample 1, moveSample 1, moveSample 1, moveSample 1, moveSample 1, moveSample 1] ++ la⟩,
      ⟨1, t, db, [moveSample 1, moveSample 2, moveSample 2, moveSample 1] ++ lb⟩] o s =
      sortLoop n [⟨1, t + 6, [moveAt 1 (o + 8), moveAt 1 (o + 7), moveAt 1 (o + 5), moveAt 1 (o + 4), moveAt 1 (o + 2), moveAt 1 o] ++ da, la⟩,
        ⟨1, t + 6, db', lb⟩] (o + 10) s' := by
  refine ⟨[moveAt 1 (o + 9), moveAt 2 (o + 6), moveAt 2 (o + 3), moveAt 1 (o + 1)] ++ db, [moveAt 1 (o + 9), moveAt 1 (o + 8), moveAt 1 (o + 7),
    moveAt 2 (o + 6), moveAt 1 (o + 5), moveAt 1 (o + 4), moveAt 2 (o + 3), moveAt 1 (o + 2), moveAt 1 (o + 1), moveAt 1 o] ++ s, ?_⟩
  simp only [List.cons_append, List.nil_append]
  rw [move_put_first _ _ _ _ _ _ _ _ _ _ (by omega) (by omega) (by omega) (by omega) (by omega)]
  rw [move_put_second _ _ _ _ _ _ _ _ _ _ (by omega) (by omega) (by omega) (by omega) (by omega)]
  rw [move_put_first _ _ _ _ _ _ _ _ _ _ (by omega) (by omega) (by omega) (by omega) (by omega)]
  rw [move_put_second _ _ _ _ _ _ _ _ _ _ (by omega) (by omega) (by omega) (by omega) (by omega)]
  rw [move_put_first _ _ _ _ _ _ _ _ _ _ (by omega) (by omega) (by omega) (by omega) (by omega)]
  rw [move_put_first _ _ _ _ _ _ _ _ _ _ (by omega) (by omega) (by omega) (by omega) (by omega)]
  rw [move_put_second _ _ _ _ _ _ _ _ _ _ (by omega) (by omega) (by omega) (by omega) (by omega)]
  rw [move_put_first _ _ _ _ _ _ _ _ _ _ (by omega) (by omega) (by omega) (by omega) (by omega)]
  rw [move_put_first _ _ _ _ _ _ _ _ _ _ (by omega) (by omega) (by omega) (by omega) (by omega)]
  rw [move_put_second _ _ _ _ _ _ _ _ _ _ (by omega) (by omega) (by omega) (by omega) (by omega)]
  rw [show t + ((1 : Nat) : Int) + ((1 : Nat) : Int) + ((1 : Nat) : Int) + ((1 : Nat) : Int) + ((1 : Nat) : Int) + ((1 : Nat) : Int) = t + 6 by omega,
    show t + ((1 : Nat) : Int) + ((2 : Nat) : Int) + ((2 : Nat) : Int) + ((1 : Nat) : Int) = t + 6 by omega]

theorem move_layout (k : Nat) : ∀ (t : Int) (da db s : List Sample) (o : Nat), 0 ≤ t ∧ t + 6 * k < 2 ^ 31 → o + 10 * k < 2 ^ 32 →
    ∃ size s' t' u' db', sortLoop (10 * k) [⟨1, t, da, moveFirst k⟩, ⟨1, t, db, moveSecond k⟩] o s =
      .ok (size, s', [⟨1, t', (movePlaced o k).reverse ++ da, []⟩, ⟨1, u', db', []⟩]) := by
  induction k with
  | zero => intro t da db s o _ _; exact ⟨_, _, _, _, _, rfl⟩
  | succ k ih =>
    intro t da db s o ht ho
    rw [moveFirst, moveSecond, movePlaced]
    obtain ⟨db', s', e⟩ := move_period (10 * k) t da db (moveFirst k) (moveSecond k) s o (by omega) (by omega)
    rw [show 10 * (k + 1) = 10 * k + 10 by omega, e]
    obtain ⟨size, s2, t2, u2, db2, e2⟩ := ih (t + 6) ([moveAt 1 (o + 8), moveAt 1 (o + 7), moveAt 1 (o + 5), moveAt 1 (o + 4), moveAt 1 (o + 2), moveAt 1 o] ++ da)
      db' s' (o + 10) (by omega) (by omega)
    refine ⟨size, s2, t2, u2, db2, ?_⟩
    rw [e2, List.reverse_append, List.append_assoc]
    rfl

theorem move_first_length (k : Nat) : (moveFirst k).length = 6 * k := by
  induction k with
  | zero => rfl
  | succ k ih => rw [moveFirst, List.length_append, ih]; show 6 + 6 * k = _; omega

theorem move_second_length (k : Nat) : (moveSecond k).length = 4 * k := by
  induction k with
  | zero => rfl
  | succ k ih => rw [moveSecond, List.length_append, ih]; show 4 + 4 * k = _; omega

theorem move_sorted (k : Nat) (hk : 10 * k + 2 < 2 ^ 31) : ∃ layout t, sortSamples (moveTracks k) = .ok layout ∧ t ∈ layout.tracks ∧
    t.samples = moveAt 1 0 :: movePlaced 2 k := by
  unfold sortSamples moveTracks
  simp only [List.map_cons, List.map_nil, List.sum_cons, List.sum_nil, List.length_cons, move_first_length, move_second_length]
  rw [show 6 * k + 1 + (4 * k + 1 + 0) = 10 * k + 1 + 1 by omega]
  rw [move_put_first _ _ _ _ _ _ _ _ _ _ (by omega) (by omega) (by omega) (by omega) (by omega)]
  rw [move_put_second _ _ _ _ _ _ _ _ _ _ (by omega) (by omega) (by omega) (by omega) (by omega)]
  obtain ⟨size, s, t, u, db, e⟩ := move_layout k (0 + ((1 : Nat) : Int)) [moveAt 1 0] [moveAt 1 (0 + 1)] _ (0 + 1 + 1) (by omega) (by omega)
  rw [e, Res.bind_ok]
  refine ⟨_, _, rfl, List.mem_cons_self .., ?_⟩
  simp

/-! ### Its table -/

/-- 1, 1, 2, 2 again and again. -/
def moveRepeat : Nat → List Nat
  | 0 => []
  | k + 1 => [1, 1, 2, 2] ++ moveRepeat k

theorem move_repeat (k : Nat) : moveRepeat (k + 1) = moveRepeat k ++ [1, 1, 2, 2] := by
  induction k with
  | zero => rfl
  | succ k ih => 
    have e : moveRepeat (k + 1 + 1) = [1, 1, 2, 2] ++ moveRepeat (k + 1) := rfl
    rw [e, ih, ← List.append_assoc, ← ih]; rfl

theorem move_pattern_eq (k : Nat) : movePattern k = 1 :: moveRepeat k := by
  induction k with
  | zero => rfl
  | succ k ih => rw [movePattern, ih, move_repeat]; rfl

theorem move_end (o : Nat) (h : o + 1 < 2 ^ 32) : (moveAt 1 o).end = o + 1 := Nat.mod_eq_of_lt h

theorem move_groups (k : Nat) : ∀ (c o off : Nat), o ≠ off → o + 10 * k < 2 ^ 32 → groupSizes c (movePlaced o k) off = c :: moveRepeat k := by
  induction k with
  | zero => intros; rfl
  | succ k ih =>
    intro c o off h ho
    rw [movePlaced, moveRepeat]
    simp only [List.cons_append, List.nil_append]
    rw [groupSizes, if_neg (by exact h), move_end _ (by omega), groupSizes, if_neg (by show o + 2 ≠ _; omega), move_end _ (by omega), groupSizes,
      if_neg (by show o + 4 ≠ _; omega), move_end _ (by omega), groupSizes, if_pos (by show o + 5 = _; omega), move_end _ (by omega), groupSizes,
      if_neg (by show o + 7 ≠ _; omega), move_end _ (by omega), groupSizes, if_pos (by show o + 8 = _; omega), move_end _ (by omega),
      ih _ _ _ (by omega) (by omega)]

theorem move_sizes (l : List Nat) : ∀ f, Sized (enumChunks f l) l := by
  induction l with
  | nil => intro f; rfl
  | cons c l ih => intro f; show c :: _ = _; rw [ih (f + 1)]

theorem move_placed_length (k : Nat) : ∀ o, (movePlaced o k).length = 6 * k := by
  induction k with
  | zero => intro o; rfl
  | succ k ih => intro o; rw [movePlaced, List.length_append, ih]; show 6 + 6 * k = _; omega

theorem move_table (k : Nat) (hk : 10 * k + 2 < 2 ^ 31) : ∃ n l, marshalSTSCW (moveAt 1 0 :: movePlaced 2 k) = .ok (n, l) ∧ k * k ≤ n + k := by
  have h := pmp4_stscLoop (movePlaced 2 k) [] 1 1 (by rw [move_placed_length]; simp; omega) (by rw [move_placed_length]; omega)
  rw [List.nil_append, List.nil_append, move_groups k 1 2 1 (by omega) (by omega), ← move_pattern_eq] at h
  unfold marshalSTSCW
  dsimp only
  rw [move_end 0 (by omega), show (0 + 1 : Nat) = 1 from rfl]
  refine Exists.elim (move_pattern k (enumChunks 1 (movePattern k)) [] (move_sizes _ _)) fun n ⟨l, e, hb⟩ => ⟨n, l, ?_, by simpa using hb⟩
  have h' : stscLoop (movePlaced 2 k) 1 [⟨1, 1⟩] = .ok (enumChunks 1 (movePattern k)) := h
  rw [h', Res.bind_ok, pmp4_enum_length, move_pattern_length]
  rw [List.append_nil] at e
  exact e

/-- **C108 is false if the work is to be linear**: for each `k` there is a presentation with two tracks and `10 k + 2` samples, for one of whose tracks
`marshalSTSC` moves entries `k (k - 1)` times. -/
theorem C108_work_false (k : Nat) (hk : 10 * k + 2 < 2 ^ 31) : ∃ tracks layout t n l, (tracks.map (·.samples.length)).sum = 10 * k + 2 ∧
    sortSamples tracks = .ok layout ∧ t ∈ layout.tracks ∧ marshalSTSCW t.samples = .ok (n, l) ∧ k * (k - 1) ≤ n := by
  obtain ⟨layout, t, h1, h2, h3⟩ := move_sorted k hk
  obtain ⟨n, l, h4, h5⟩ := move_table k hk
  refine ⟨moveTracks k, layout, t, n, l, ?_, h1, h2, by rw [h3]; exact h4, ?_⟩
  · unfold moveTracks
    simp [move_first_length, move_second_length]
    omega
  · rw [Nat.mul_sub, Nat.mul_one]; omega

/-- No number of moves for each sample is enough. -/
theorem C108_linear_false (c : Nat) (hc : c < 2 ^ 20) : ∃ tracks layout t n l,
    sortSamples tracks = .ok layout ∧ t ∈ layout.tracks ∧ marshalSTSCW t.samples = .ok (n, l) ∧ c * (tracks.map (·.samples.length)).sum < n := by
  obtain ⟨tracks, layout, t, n, l, h1, h2, h3, h4, h5⟩ := C108_work_false (12 * c + 2) (by omega)
  refine ⟨tracks, layout, t, n, l, h2, h3, h4, Nat.lt_of_lt_of_le ?_ h5⟩
  rw [h1]
  have e1 : (12 * c + 2) * (12 * c + 2 - 1) = 144 * (c * c) + 36 * c + 2 := by
    rw [show 12 * c + 2 - 1 = 12 * c + 1 by omega, Nat.mul_add, Nat.add_mul, show 12 * c * (12 * c) = 144 * (c * c) by
      rw [Nat.mul_assoc, Nat.mul_left_comm c, ← Nat.mul_assoc]]
    omega
  have e2 : c * (10 * (12 * c + 2) + 2) = 120 * (c * c) + 22 * c := by
    rw [show 10 * (12 * c + 2) + 2 = 120 * c + 22 by omega, Nat.mul_add, Nat.mul_left_comm]
    omega
  rw [e1, e2]
  omega

/-! ## Examples -/

/-- Three samples; the table has an entry, and nothing is moved to get it. -/
example : marshalSTSCW [moveAt 1 0, moveAt 1 2, moveAt 1 4] = .ok (0, [⟨1, 1⟩]) := by decide +kernel

/-- With `k` = 3: 19 samples and 13 chunks, 6 entries, 20 moves. -/
example : ∃ n l, marshalSTSCW (moveAt 1 0 :: movePlaced 2 3) = .ok (n, l) ∧ n = 20 ∧ l.length = 6 ∧ (moveAt 1 0 :: movePlaced 2 3).length = 19 :=
  ⟨20, [⟨1, 1⟩, ⟨4, 2⟩, ⟨6, 1⟩, ⟨8, 2⟩, ⟨10, 1⟩, ⟨12, 2⟩], by decide +kernel, rfl, rfl, rfl⟩

end Verif.Props
