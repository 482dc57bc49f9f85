import Verif.Spec.Readers
import Verif.Lemmas.Util

/-!
# Lemmas about resynchronisation and the pre-demuxer loop
-/

namespace Verif.Readers
open Verif.Spec

theorem resync_cons_ne {b : UInt8} {l : Bytes} (h : b ≠ 0x47) : resync (b :: l) = resync l := by
  rw [resync, if_neg h]

theorem resync_short (l : Bytes) : l.length < 188 → resync l = [] := by
  induction l with
  | nil => intro _; rw [resync]
  | cons b l ih =>
    intro h
    simp only [List.length_cons] at h
    rw [resync]
    split
    · rw [if_pos (by omega)]
    · exact ih (by omega)

theorem resync_packet {p : Bytes} (hp : IsPacket p) (rest : Bytes) : resync (p ++ rest) = p :: resync rest := by
  obtain ⟨h1, h2⟩ := hp
  cases p with
  | nil => simp at h1
  | cons b l =>
    simp only [List.length_cons] at h1
    simp only [List.length_cons, Nat.zero_lt_succ, List.getElem?_eq_getElem, List.getElem_cons_zero,
      Option.some.injEq] at h2
    rw [List.cons_append, resync, if_pos h2, if_neg (by simp; omega)]
    rw [List.take_append_of_le_length (by omega), List.take_of_length_le (by omega),
      List.drop_append_of_le_length (by omega), List.drop_of_length_le (by omega)]
    rfl

theorem resync_all_packets (l : Bytes) : ∀ p ∈ resync l, IsPacket p := by
  induction l using resync.induct with
  | case1 => rw [resync]; simp
  | case2 l hl => rw [resync, if_pos rfl, if_pos hl]; simp
  | case3 l hl ih =>
    rw [resync, if_pos rfl, if_neg hl]
    intro p hp
    rcases List.mem_cons.1 hp with rfl | hp
    · exact ⟨by simp; omega, by simp⟩
    · exact ih p hp
  | case4 b l hb ih => rw [resync, if_neg hb]; exact ih

theorem resync_skip (l x : Bytes) : resync (l.drop (skipGarbage l) ++ x) = resync (l ++ x) := by
  induction l with
  | nil => rfl
  | cons b l ih =>
    unfold skipGarbage
    split
    · rename_i h
      rw [List.drop_succ_cons, ih, List.cons_append, resync_cons_ne h]
    · rfl

theorem skipGarbage_zero {l : Bytes} (hl : 0 < l.length) (h : skipGarbage l = 0) : l[0]? = some 0x47 := by
  cases l with
  | nil => simp at hl
  | cons b l =>
    unfold skipGarbage at h
    split at h
    · omega
    · rename_i hb
      simp only [syncByte, ne_eq, Decidable.not_not] at hb
      simp [hb]

/-- What `refill` does. -/
theorem refill_spec (r : Src) (buf1 : Bytes) :
    match refill r buf1 with
    | .error (_, r') => buf1 = [] ∧ r'.data = r.data
    | .ok (r', b') => b' ++ r'.data = buf1 ++ r.data ∧
        (r'.sched.length + r'.data.length + b'.length ≤ r.sched.length + r.data.length + buf1.length) ∧
        (b' = [] → r'.sched.length < r.sched.length) := by
  unfold refill
  by_cases hb : buf1.length = 0
  · rw [if_pos hb]
    have hb' : buf1 = [] := List.length_eq_zero_iff.1 hb
    subst hb'
    unfold Src.read
    cases hs : r.sched with
    | nil => simp
    | cons k l =>
      obtain ⟨k, e⟩ := k
      cases e with
      | none =>
        simp only [List.nil_append, List.take_append_drop, List.length_cons, List.length_take, List.length_drop,
          List.length_nil, true_and]
        refine ⟨by omega, fun _ => by omega⟩
      | some e =>
        simp only
        by_cases ht : (r.data.take (min k 1316)).length = 0
        · rw [if_pos ht]
          refine ⟨trivial, ?_⟩
          have := List.take_append_drop (min k 1316) r.data
          rw [List.length_eq_zero_iff.1 ht] at this
          exact this
        · rw [if_neg ht]
          simp only [List.nil_append, List.take_append_drop, List.length_cons, List.length_take, List.length_drop,
            List.length_nil, true_and]
          refine ⟨by omega, fun _ => by omega⟩
  · rw [if_neg hb]
    simp only [true_and, Nat.le_refl]
    intro h; rw [h] at hb; simp at hb

/-- The loop either delivers the next packet of the resynchronised stream, or fails after having
dropped less than a packet. With the given fuel it does not run out of it. -/
theorem fillLoop_spec (fuel : Nat) : ∀ (r : Src) (buf1 pkt : Bytes), pkt.length < 188 →
    r.sched.length + r.data.length + buf1.length < fuel →
    (∃ r' b' p, fillLoop fuel r buf1 pkt = some (.ok (r', b', p)) ∧ IsPacket p ∧
      resync (pkt ++ buf1 ++ r.data) = p :: resync (b' ++ r'.data)) ∨
    (∃ e r' lost, fillLoop fuel r buf1 pkt = some (.error (e, r')) ∧ lost.length < 188 ∧
      resync (pkt ++ buf1 ++ r.data) = resync (lost ++ r'.data)) := by
  induction fuel with
  | zero => intro r buf1 pkt _ h; omega
  | succ fuel ih =>
    intro r buf1 pkt hp hf
    have hr := refill_spec r buf1
    unfold fillLoop
    cases hq : refill r buf1 with
    | error x =>
      obtain ⟨e, r'⟩ := x
      rw [hq] at hr
      simp only at hr
      obtain ⟨h1, h2⟩ := hr
      refine .inr ⟨e, r', pkt, rfl, hp, ?_⟩
      rw [h1, h2]; simp
    | ok x =>
      obtain ⟨r', b'⟩ := x
      rw [hq] at hr
      simp only at hr
      obtain ⟨h1, h2, h3⟩ := hr
      simp only
      have hcons : pkt ++ buf1 ++ r.data = (pkt ++ b'.take (min (packetSize - pkt.length) b'.length))
          ++ b'.drop (min (packetSize - pkt.length) b'.length) ++ r'.data := by
        rw [List.append_assoc, ← h1, List.append_assoc, List.append_assoc]
        congr 1
        rw [← List.append_assoc, List.take_append_drop]
      have hmeas : r'.sched.length + r'.data.length
          + (b'.drop (min (packetSize - pkt.length) b'.length)).length < fuel := by
        rw [List.length_drop]
        unfold packetSize
        by_cases hb : b' = []
        · have := h3 hb
          have h4 := congrArg List.length h1
          simp only [List.length_append] at h4
          subst hb
          simp only [List.length_nil] at *
          omega
        · have := List.length_pos_iff.2 hb
          omega
      have hlen : (pkt ++ b'.take (min (packetSize - pkt.length) b'.length)).length ≤ 188 := by
        rw [List.length_append, List.length_take]; unfold packetSize; omega
      rw [hcons]
      generalize hP : pkt ++ b'.take (min (packetSize - pkt.length) b'.length) = P at *
      generalize hB : b'.drop (min (packetSize - pkt.length) b'.length) = B at *
      by_cases hl : P.length = packetSize
      · simp only [hl, ne_eq, not_true_eq_false, if_false]
        unfold packetSize at hl
        by_cases hs : skipGarbage P = 0
        · simp only [hs, not_true_eq_false, if_false]
          have hpk : IsPacket P := ⟨hl, skipGarbage_zero (by omega) hs⟩
          exact .inl ⟨r', B, P, rfl, hpk, by rw [List.append_assoc, resync_packet hpk]⟩
        · simp only [hs, not_false_eq_true, if_true]
          have := ih r' B (P.drop (skipGarbage P)) (by rw [List.length_drop]; omega) hmeas
          rw [List.append_assoc, resync_skip] at this
          rw [List.append_assoc]
          exact this
      · simp only [hl, ne_eq, not_false_eq_true, if_true]
        exact ih r' B P (by unfold packetSize at hl; omega) hmeas

end Verif.Readers
