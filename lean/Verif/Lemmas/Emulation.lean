import Verif.Model.H264
import Verif.Spec.H264
import Verif.Lemmas.Buf

namespace Verif.H264
open Verif.Spec

/-- Output of the scan for the bytes `rest`, when the two preceding input bytes are `p` and `q`. -/
def win (p q : UInt8) : Bytes → Bytes
  | [] => []
  | c :: rest => if p = 0 ∧ q = 0 ∧ c = 3 then win q c rest else c :: win q c rest

theorem win_after_hit (x y : UInt8) (rest : Bytes) : win 0 3 (x :: y :: rest) = x :: y :: win x y rest := by
  simp [win]

theorem length_win_le (p q : UInt8) (l : Bytes) : (win p q l).length ≤ l.length := by
  induction l generalizing p q with
  | nil => simp [win]
  | cons c l ih =>
    rw [win]; split
    · have := ih q c; simp; omega
    · have := ih q c; simp; omega

theorem epHit_eq {nalu : Bytes} {i : Nat} (h2 : 2 ≤ i) (hi : i < nalu.length) :
    epHit nalu i = .ok (nalu[i-2] == 0 && nalu[i-1] == 0 && nalu[i] == 3) := by
  unfold epHit
  rw [idx_of_lt (by omega), Res.bind_ok, idx_of_lt (by omega), Res.bind_ok, idx_of_lt hi, Res.bind_ok]

theorem drop_after (nalu : Bytes) (i : Nat) (hi : i < nalu.length) :
    nalu.drop i = nalu[i] :: nalu.drop (i + 1) := List.drop_eq_getElem_cons hi

/-- One hit: the window function after a hit skips to `i + 3`. -/
theorem win_hit {nalu : Bytes} {i : Nat} (h2 : 2 ≤ i) (hi : i < nalu.length)
    (hh : nalu[i-2] = 0 ∧ nalu[i-1] = 0 ∧ nalu[i] = 3) :
    win nalu[i-2] nalu[i-1] (nalu.drop i)
      = if h : i + 3 < nalu.length then
          nalu[i+1] :: nalu[i+2] :: win nalu[i+1] nalu[i+2] (nalu.drop (i + 3))
        else nalu.drop (i + 1) := by
  rw [drop_after nalu i hi, win, if_pos hh, hh.2.1, hh.2.2]
  split
  · rw [drop_after nalu (i+1) (by omega), drop_after nalu (i+1+1) (by omega), win_after_hit]
  · by_cases h1 : i + 1 < nalu.length
    · rw [drop_after nalu (i+1) h1]
      by_cases h3 : i + 2 < nalu.length
      · rw [drop_after nalu (i+1+1) (by omega), win_after_hit, List.drop_eq_nil_of_le (by omega)]
        simp [win]
      · rw [List.drop_eq_nil_of_le (i := i+1+1) (by omega)]
        simp [win]
    · rw [List.drop_eq_nil_of_le (by omega)]; simp [win]

theorem win_miss {nalu : Bytes} {i : Nat} (h2 : 2 ≤ i) (hi : i < nalu.length)
    (hh : ¬ (nalu[i-2] = 0 ∧ nalu[i-1] = 0 ∧ nalu[i] = 3)) :
    win nalu[i-2] nalu[i-1] (nalu.drop i) = nalu[i] :: win nalu[i-1] nalu[i] (nalu.drop (i + 1)) := by
  conv => lhs; rw [drop_after nalu i hi, win, if_neg hh]

/-- Output of the code from index `i` on. -/
def tailOut (nalu : Bytes) (i : Nat) : Bytes :=
  if h : 2 ≤ i ∧ i < nalu.length then win nalu[i-2] nalu[i-1] (nalu.drop i) else []

theorem tailOut_hit {nalu : Bytes} {i : Nat} (h2 : 2 ≤ i) (hi : i < nalu.length)
    (hh : nalu[i-2] = 0 ∧ nalu[i-1] = 0 ∧ nalu[i] = 3) :
    tailOut nalu i = (nalu.drop (i+1)).take 2 ++ tailOut nalu (i + 3) := by
  have := win_hit h2 hi hh
  unfold tailOut
  rw [dif_pos ⟨h2, hi⟩, this]
  by_cases h : i + 3 < nalu.length
  · rw [dif_pos h, dif_pos ⟨by omega, h⟩, drop_after nalu (i+1) (by omega), drop_after nalu (i+1+1) (by omega),
      List.take_succ_cons, List.take_succ_cons, List.take_zero]
    rfl
  · rw [dif_neg h, dif_neg (by omega), List.append_nil, List.take_of_length_le (by simp; omega)]

theorem tailOut_miss {nalu : Bytes} {i : Nat} (h2 : 2 ≤ i) (hi : i < nalu.length)
    (hh : ¬ (nalu[i-2] = 0 ∧ nalu[i-1] = 0 ∧ nalu[i] = 3)) :
    tailOut nalu i = nalu[i] :: tailOut nalu (i + 1) := by
  have := win_miss h2 hi hh
  unfold tailOut
  rw [dif_pos ⟨h2, hi⟩, this]
  by_cases h : i + 1 < nalu.length
  · rw [dif_pos ⟨by omega, h⟩]; simp
  · rw [dif_neg (by omega), List.drop_eq_nil_of_le (by omega)]; simp [win]

theorem epCount_eq (nalu : Bytes) (i n : Nat) (h2 : 2 ≤ i) (hn : nalu.length - i ≤ n) :
    epCount nalu i n = .ok (n - (nalu.length - i - (tailOut nalu i).length)) ∧
      (tailOut nalu i).length ≤ nalu.length - i := by
  induction hm : nalu.length - i using Nat.strongRecOn generalizing i n with
  | ind m ih =>
    by_cases hi : i < nalu.length
    · unfold epCount
      rw [if_pos hi, epHit_eq h2 hi, Res.bind_ok]
      by_cases hh : nalu[i-2] = 0 ∧ nalu[i-1] = 0 ∧ nalu[i] = 3
      · simp only [hh.1, hh.2.1, hh.2.2, beq_self_eq_true, Bool.and_true, if_true]
        obtain ⟨h1, h3⟩ := ih (nalu.length - (i+3)) (by omega) (i+3) (n-1) (by omega) (by omega) rfl
        rw [h1, tailOut_hit h2 hi hh]
        simp only [List.length_append, List.length_take, List.length_drop]
        constructor
        · congr 1; omega
        · omega
      · have : (nalu[i-2] == 0 && nalu[i-1] == 0 && nalu[i] == 3) = false := by
          rw [Bool.eq_false_iff]; intro h; apply hh; simpa [and_assoc] using h
        simp only [this, Bool.false_eq_true, if_false]
        obtain ⟨h1, h3⟩ := ih (nalu.length - (i+1)) (by omega) (i+1) n (by omega) (by omega) rfl
        rw [h1, tailOut_miss h2 hi hh]
        simp only [List.length_cons]
        constructor
        · congr 1; omega
        · omega
    · unfold epCount
      rw [if_neg hi, tailOut, dif_neg (by omega)]
      simp; omega

theorem take_drop_succ (nalu : Bytes) (start i : Nat) (hs : start ≤ i) (hi : i < nalu.length) :
    (nalu.drop start).take (i + 1 - start) = (nalu.drop start).take (i - start) ++ [nalu[i]] := by
  rw [show i + 1 - start = (i - start) + 1 by omega, List.take_succ_eq_append_getElem (by simp; omega)]
  simp only [List.getElem_drop]
  congr 3; omega

theorem epCopy_eq (nalu done : Bytes) (i m start : Nat) (h2 : 2 ≤ i) (hs : start ≤ i) (hs2 : start ≤ nalu.length)
    (hm : m = ((nalu.drop start).take (i - start)).length + (tailOut nalu i).length) :
    epCopy nalu i (done ++ List.replicate m 0) done.length start
      = .ok (done ++ (nalu.drop start).take (i - start) ++ tailOut nalu i) := by
  induction hk : nalu.length - i using Nat.strongRecOn generalizing i m start done with
  | ind k ih =>
    unfold epCopy
    by_cases hi : i < nalu.length
    · rw [if_pos hi, epHit_eq h2 hi, Res.bind_ok]
      by_cases hh : nalu[i-2] = 0 ∧ nalu[i-1] = 0 ∧ nalu[i] = 3
      · simp only [hh.1, hh.2.1, hh.2.2, beq_self_eq_true, Bool.and_true, if_true]
        rw [slice_ok hs (by omega), Res.bind_ok, copyAt_append _ _ _ _ rfl (by omega), Res.bind_ok]
        simp only
        have := ih (nalu.length - (i+3)) (by omega)
          (done ++ (nalu.drop start).take (i - start)) (i+3) (m - ((nalu.drop start).take (i - start)).length) (i+1)
          (by omega) (by omega) (by omega) ?_ rfl
        · rw [List.length_append] at this
          rw [this, tailOut_hit h2 hi hh, show i + 3 - (i + 1) = 2 by omega]
          simp only [List.append_assoc]
        · rw [hm, tailOut_hit h2 hi hh, List.length_append, show i + 3 - (i + 1) = 2 by omega]
          omega
      · have hf : (nalu[i-2] == 0 && nalu[i-1] == 0 && nalu[i] == 3) = false := by
          rw [Bool.eq_false_iff]; intro h; apply hh; simpa [and_assoc] using h
        simp only [hf, Bool.false_eq_true, if_false]
        rw [ih (nalu.length - (i+1)) (by omega) done (i+1) m start (by omega) (by omega) hs2 ?_ rfl]
        · rw [take_drop_succ nalu start i hs hi, tailOut_miss h2 hi hh]
          simp only [List.append_assoc, List.cons_append, List.nil_append]
        · rw [hm, take_drop_succ nalu start i hs hi, tailOut_miss h2 hi hh]
          simp; omega
    · have ht : tailOut nalu i = [] := by rw [tailOut, dif_neg (by omega)]
      rw [ht, List.length_nil, Nat.add_zero] at hm
      have htk : (nalu.drop start).take (i - start) = nalu.drop start := List.take_of_length_le (by simp; omega)
      rw [htk] at hm
      rw [if_neg hi, sliceFrom_ok hs2, Res.bind_ok, copyAt_append _ _ _ _ rfl (by omega), Res.bind_ok, htk, ht]
      simp [hm]

theorem epRemove_eq_win (p q : UInt8) (z : Nat) (l : Bytes) (h1 : 1 ≤ z ↔ q = 0) (h2 : 2 ≤ z ↔ p = 0 ∧ q = 0) :
    epRemove z l = win p q l := by
  induction l generalizing p q z with
  | nil => rfl
  | cons c l ih =>
    rw [epRemove, win]
    by_cases hh : 2 ≤ z ∧ c = 3
    · have hh' := h2.mp hh.1
      rw [if_pos hh, if_pos ⟨hh'.1, hh'.2, hh.2⟩]
      apply ih
      · rw [hh.2]; simp
      · rw [hh.2]; simp
    · have hh2 : ¬ (p = 0 ∧ q = 0 ∧ c = 3) := by rw [← and_assoc, ← h2]; exact hh
      rw [if_neg hh, if_neg hh2]
      congr 1
      apply ih
      · split <;> simp_all
      · split
        · rename_i hc
          have : 2 ≤ z + 1 ↔ 1 ≤ z := by omega
          rw [this, h1]; simp [hc]
        · rename_i hc; simp [hc]

theorem emulationPreventionRemove_eq (nalu : Bytes) :
    emulationPreventionRemove nalu = .ok (epRemove 0 nalu) := by
  have e1 : epRemove 0 nalu = nalu.take 2 ++ tailOut nalu 2 := by
    match nalu with
    | [] => simp [epRemove, tailOut]
    | [a] => simp [epRemove, tailOut]
    | [a, b] => simp [epRemove, tailOut]; split <;> omega
    | a :: b :: c :: l =>
      rw [tailOut, dif_pos (by simp)]
      simp only [List.take_succ_cons, List.take_zero, Nat.reduceSub, List.getElem_cons_zero,
        List.getElem_cons_succ, List.drop_succ_cons, List.drop_zero, List.cons_append, List.nil_append]
      rw [epRemove, if_neg (by omega), epRemove, if_neg (by split <;> omega)]
      congr 2
      apply epRemove_eq_win
      · by_cases ha : a = 0 <;> by_cases hb : b = 0 <;> simp [ha, hb]
      · by_cases ha : a = 0 <;> by_cases hb : b = 0 <;> simp [ha, hb]
  obtain ⟨h1, h2⟩ := epCount_eq nalu 2 nalu.length (by omega) (by omega)
  rw [emulationPreventionRemove, h1, Res.bind_ok]
  have := epCopy_eq nalu [] 2 (nalu.length - (nalu.length - 2 - (tailOut nalu 2).length)) 0 (by omega) (by omega) (by omega)
    (by simp; omega)
  simp only [List.nil_append, List.length_nil, List.drop_zero] at this
  rw [makeBytes, this, e1]

theorem epRemove_epInsert (z : Nat) (l : Bytes) : epRemove z (epInsert z l) = l := by
  induction l generalizing z with
  | nil => rfl
  | cons b l ih =>
    rw [epInsert]
    split
    · rename_i h
      rw [epRemove, if_pos ⟨h.1, rfl⟩, epRemove, if_neg (by omega)]
      congr 1
      have := ih (if b = 0 then 1 else 0)
      simpa using this
    · rename_i h
      rw [epRemove, if_neg ?_, ih]
      rintro ⟨h1, rfl⟩
      exact h ⟨h1, by decide⟩

theorem epRemove_snoc3 (z : Nat) (l : Bytes) (h : ∃ p, List.replicate z 0 ++ l = p ++ [0, 0])
    (hl : epRemove z l = l) : epRemove z (l ++ [3]) = l := by
  induction l generalizing z with
  | nil =>
    obtain ⟨p, hp⟩ := h
    have := congrArg List.length hp
    simp at this
    simp [epRemove, show 2 ≤ z by omega]
  | cons b l ih =>
    rw [epRemove] at hl
    split at hl
    · rename_i hh
      exfalso
      -- the output cannot be as long as the input
      have hlen : ∀ (z : Nat) (l : Bytes), (epRemove z l).length ≤ l.length := by
        intro z l
        induction l generalizing z with
        | nil => simp [epRemove]
        | cons c l ih => rw [epRemove]; split
                         · have := ih 0; simp; omega
                         · have := ih (if c = 0 then z + 1 else 0); simp; omega
      have := hlen 0 l
      rw [hl, List.length_cons] at this; omega
    · rename_i hh
      rw [List.cons_append, epRemove, if_neg hh]
      congr 1
      apply ih
      · obtain ⟨p, hp⟩ := h
        by_cases hb : b = 0
        · subst hb
          rw [if_pos rfl]
          exact ⟨p, by rw [← hp, List.replicate_succ']; simp⟩
        · rw [if_neg hb]
          match l, hp with
          | [], hp =>
            have : List.replicate z 0 ++ [b] = (p ++ [0]) ++ [0] := by simpa using hp
            have := (List.append_inj' this rfl).2
            simp at this; exact absurd this hb
          | [c], hp =>
            have : (List.replicate z 0 ++ [b]) ++ [c] = (p ++ [0]) ++ [0] := by simpa using hp
            have := (List.append_inj' this rfl).1
            have := (List.append_inj' this rfl).2
            simp at this; exact absurd this hb
          | c :: d :: l', hp =>
            rcases List.eq_nil_or_concat (c :: d :: l') with h0 | ⟨l1, x, h0⟩
            · cases h0
            · rw [h0, List.concat_eq_append] at hp ⊢
              rcases List.eq_nil_or_concat l1 with h1 | ⟨l2, y, h1⟩
              · subst h1; simp at h0
              · rw [h1, List.concat_eq_append] at hp ⊢
                have e : (List.replicate z 0 ++ b :: l2 ++ [y]) ++ [x] = (p ++ [0]) ++ [0] := by simpa using hp
                obtain ⟨e1, e2⟩ := List.append_inj' e rfl
                obtain ⟨_, e3⟩ := List.append_inj' e1 rfl
                simp at e2 e3
                subst e2 e3
                exact ⟨l2, by simp⟩
      · exact (List.cons.inj hl).2

end Verif.H264
