import Verif.Model.H264
import Verif.Spec.H264
import Verif.Lemmas.Buf

namespace Verif.H264
open Verif.Spec

theorem be32_length (n : Nat) : (be32 n).length = 4 := rfl

theorem avccRecords_cons (x : Bytes) (l : List Bytes) :
    avccRecords (x :: l) = be32 x.length ++ x ++ avccRecords l := by simp [avccRecords]

theorem or4 (a b c d : Nat) (hb : b < 256) (hc : c < 256) (hd : d < 256) :
    a <<< 24 ||| b <<< 16 ||| c <<< 8 ||| d = a * 2 ^ 24 + b * 2 ^ 16 + c * 2 ^ 8 + d := by
  have h1 : a <<< 24 ||| b <<< 16 = a <<< 24 + b <<< 16 :=
    (Nat.shiftLeft_add_eq_or_of_lt (by rw [Nat.shiftLeft_eq]; omega) _).symm
  have h2 : (a <<< 24 + b <<< 16) ||| c <<< 8 = a <<< 24 + b <<< 16 + c <<< 8 := by
    have : a <<< 24 + b <<< 16 = (a * 2 ^ 8 + b) <<< 16 := by simp only [Nat.shiftLeft_eq]; omega
    rw [this]
    exact (Nat.shiftLeft_add_eq_or_of_lt (by rw [Nat.shiftLeft_eq]; omega) _).symm
  have h3 : (a <<< 24 + b <<< 16 + c <<< 8) ||| d = a <<< 24 + b <<< 16 + c <<< 8 + d := by
    have : a <<< 24 + b <<< 16 + c <<< 8 = (a * 2 ^ 16 + b * 2 ^ 8 + c) <<< 8 := by
      simp only [Nat.shiftLeft_eq]; omega
    rw [this]
    exact (Nat.shiftLeft_add_eq_or_of_lt (by omega) _).symm
  rw [h1, h2, h3]
  simp only [Nat.shiftLeft_eq]

theorem idx_drop {α} (buf : List α) (pos i : Nat) : idx buf (pos + i) = idx (buf.drop pos) i := by
  unfold idx; rw [List.getElem?_drop]

/-- The four bytes at `pos` form a number `n < 2^32`, and they are its `be32` form. -/
theorem readU32_spec (buf : Bytes) (pos : Nat) (h : pos + 4 ≤ buf.length) :
    ∃ n, n < 2 ^ 32 ∧ readU32 buf pos = .ok n ∧ buf.drop pos = be32 n ++ buf.drop (pos + 4) := by
  obtain ⟨a, b, c, d, r, hr⟩ : ∃ a b c d r, buf.drop pos = a :: b :: c :: d :: r := by
    rw [List.drop_eq_getElem_cons (by omega), List.drop_eq_getElem_cons (by omega),
      List.drop_eq_getElem_cons (by omega), List.drop_eq_getElem_cons (by omega)]
    exact ⟨_, _, _, _, _, rfl⟩
  have hd : buf.drop (pos + 4) = r := by rw [← List.drop_drop, hr]; rfl
  have ha := a.toNat_lt; have hb := b.toNat_lt; have hc := c.toNat_lt; have hd' := d.toNat_lt
  refine ⟨a.toNat * 2 ^ 24 + b.toNat * 2 ^ 16 + c.toNat * 2 ^ 8 + d.toNat, by omega, ?_, ?_⟩
  · have h0 : idx buf pos = .ok a := by have := idx_drop buf pos 0; rw [hr] at this; exact this
    have h1 : idx buf (pos + 1) = .ok b := by rw [idx_drop, hr]; rfl
    have h2 : idx buf (pos + 2) = .ok c := by rw [idx_drop, hr]; rfl
    have h3 : idx buf (pos + 3) = .ok d := by rw [idx_drop, hr]; rfl
    simp only [readU32, h0, h1, h2, h3, Res.bind_ok]
    rw [or4 _ _ _ _ hb hc hd']
  · rw [hd, hr, be32]
    simp only [List.cons_append, List.nil_append, List.cons.injEq, and_true]
    refine ⟨?_, ?_, ?_, ?_⟩ <;> apply UInt8.toNat_inj.mp <;> rw [UInt8.toNat_ofNat'] <;> omega

theorem be32_inj {n m : Nat} (hn : n < 2 ^ 32) (hm : m < 2 ^ 32) (h : be32 n = be32 m) : n = m := by
  simp only [be32, List.cons.injEq, and_true] at h
  obtain ⟨h1, h2, h3, h4⟩ := h
  replace h1 := congrArg UInt8.toNat h1; replace h2 := congrArg UInt8.toNat h2
  replace h3 := congrArg UInt8.toNat h3; replace h4 := congrArg UInt8.toNat h4
  simp only [UInt8.toNat_ofNat'] at h1 h2 h3 h4
  omega

theorem readU32_be32 {buf : Bytes} {pos n : Nat} {rest : Bytes} (hn : n < 2 ^ 32)
    (h : buf.drop pos = be32 n ++ rest) :
    readU32 buf pos = .ok n ∧ pos + 4 ≤ buf.length ∧ buf.drop (pos + 4) = rest := by
  have hl := congrArg List.length h
  rw [List.length_append, be32_length, List.length_drop] at hl
  have hp : pos + 4 ≤ buf.length := by omega
  obtain ⟨m, hm, h1, h2⟩ := readU32_spec buf pos hp
  rw [h] at h2
  obtain ⟨h3, h4⟩ := List.append_inj h2 rfl
  rw [be32_inj hn hm h3]
  exact ⟨h1, hp, h4.symm⟩

/-- Non-empty NALUs of a record list. -/
abbrev ne (l : List Bytes) : List Bytes := l.filter (fun x => x ≠ [])

theorem ne_cons_nil (l : List Bytes) : ne ([] :: l) = ne l := by simp [ne]
theorem ne_cons {x : Bytes} (l : List Bytes) (h : x ≠ []) : ne (x :: l) = x :: ne l := by simp [ne, h]

theorem avccCollect_spec (buf : Bytes) (recs : List Bytes) (pos : Nat)
    (hr : ∀ x ∈ recs, x.length < 2 ^ 32) (h : buf.drop pos = avccRecords recs) :
    avccCollect buf pos (ne recs).length = .ok (ne recs) := by
  induction recs generalizing pos with
  | nil => unfold avccCollect; simp
  | cons x l ih =>
    rw [avccRecords_cons, List.append_assoc] at h
    obtain ⟨h1, h2, h3⟩ := readU32_be32 (hr x (by simp)) h
    have ih' := fun p => ih p (fun y hy => hr y (List.mem_cons_of_mem _ hy))
    by_cases hx : x = []
    · subst hx
      rw [ne_cons_nil]
      by_cases h0 : (ne l).length = 0
      · unfold avccCollect; rw [if_pos h0]; rw [List.length_eq_zero_iff.mp h0]
      · unfold avccCollect
        rw [if_neg h0, dif_pos h2, h1]
        simp only [List.length_nil, ne_eq, not_true_eq_false, if_false]
        exact ih' _ (by rw [h3]; rfl)
    · rw [ne_cons _ hx]
      have hl : x.length ≠ 0 := by simp [hx]
      have hlen : pos + 4 + x.length ≤ buf.length := by
        have := congrArg List.length h3
        rw [List.length_append, List.length_drop] at this
        omega
      unfold avccCollect
      rw [if_neg (by simp), dif_pos h2, h1]
      simp only [hl, ne_eq, not_false_eq_true, if_true]
      rw [slice_ok (by omega) hlen, Res.bind_ok, h3, show pos + 4 + x.length - (pos + 4) = x.length by omega,
        List.take_left, List.length_cons, Nat.add_sub_cancel]
      rw [ih' _ (by rw [← List.drop_drop, h3, List.drop_left])]
      rfl

theorem auBytes_cons (x : Bytes) (l : List Bytes) : auBytes (x :: l) = x.length + auBytes l := by simp [auBytes]

/-- Completeness of the first pass. -/
theorem avccCount_complete (buf : Bytes) (recs : List Bytes) (pos n sz : Nat) (hne : recs ≠ [])
    (hr : ∀ x ∈ recs, x.length < 2 ^ 32) (h : buf.drop pos = avccRecords recs)
    (hsz : sz + auBytes recs ≤ maxAccessUnitSize) :
    avccCount buf pos n sz = .ok (n + (ne recs).length) := by
  induction recs generalizing pos n sz with
  | nil => exact absurd rfl hne
  | cons x l ih =>
    rw [avccRecords_cons, List.append_assoc] at h
    rw [auBytes_cons] at hsz
    obtain ⟨h1, h2, h3⟩ := readU32_be32 (hr x (by simp)) h
    have hlen := congrArg List.length h3
    rw [List.length_append, List.length_drop] at hlen
    have h4 : buf.drop (pos + 4 + x.length) = avccRecords l := by rw [← List.drop_drop, h3, List.drop_left]
    unfold avccCount
    rw [dif_neg (by omega), h1]
    simp only
    by_cases hx : x = []
    · subst hx
      simp only [List.length_nil, ne_eq, not_true_eq_false, if_false, ne_cons_nil, Nat.add_zero] at *
      by_cases hl : l = []
      · subst hl
        rw [if_pos (by simp [avccRecords] at hlen; omega)]; rfl
      · rw [if_neg, ih _ _ _ hl (fun y hy => hr y (List.mem_cons_of_mem _ hy)) h4 (by omega)]
        obtain ⟨y, l', rfl⟩ := List.exists_cons_of_ne_nil hl
        rw [avccRecords_cons, List.length_append, List.length_append, be32_length] at hlen
        omega
    · have hl0 : x.length ≠ 0 := by simp [hx]
      rw [if_pos hl0, if_neg (by omega), if_neg (by omega), ne_cons _ hx, List.length_cons]
      by_cases hl : l = []
      · subst hl
        rw [if_pos (by simp [avccRecords] at hlen; omega)]; rfl
      · rw [if_neg, ih _ _ _ hl (fun y hy => hr y (List.mem_cons_of_mem _ hy)) h4 (by omega)]
        · congr 1; omega
        obtain ⟨y, l', rfl⟩ := List.exists_cons_of_ne_nil hl
        rw [avccRecords_cons, List.length_append, List.length_append, be32_length] at hlen
        omega

/-- Soundness of the first pass; it never panics. -/
theorem avccCount_sound (buf : Bytes) (pos n sz : Nat) (hp : pos ≤ buf.length) (hsz : sz ≤ maxAccessUnitSize) :
    (∃ recs : List Bytes, recs ≠ [] ∧ (∀ x ∈ recs, x.length < 2 ^ 32) ∧ buf.drop pos = avccRecords recs ∧
      sz + auBytes recs ≤ maxAccessUnitSize ∧ avccCount buf pos n sz = .ok (n + (ne recs).length)) ∨
    (∃ e, avccCount buf pos n sz = .err e) := by
  induction hm : buf.length - pos using Nat.strongRecOn generalizing pos n sz with
  | ind m ih =>
    by_cases h4 : buf.length - pos < 4
    · right; unfold avccCount; rw [dif_pos h4]; exact ⟨_, rfl⟩
    · obtain ⟨l, hl, h1, h2⟩ := readU32_spec buf pos (by omega)
      by_cases hl0 : l = 0
      · subst hl0
        by_cases hend : buf.length - (pos + 4) = 0
        · left
          refine ⟨[[]], by simp, by simp, ?_, by simpa [auBytes] using hsz, ?_⟩
          · rw [h2, List.drop_eq_nil_of_le (by omega)]; rfl
          · unfold avccCount; rw [dif_neg h4, h1]
            simp only [ne_eq, not_true_eq_false, if_false]
            rw [if_pos hend]; simp
        · have e : avccCount buf pos n sz = avccCount buf (pos + 4) n sz := by
            conv => lhs; unfold avccCount
            rw [dif_neg h4, h1]
            simp only [ne_eq, not_true_eq_false, if_false]
            rw [if_neg hend]
          rw [e]
          rcases ih (buf.length - (pos + 4)) (by omega) (pos + 4) n sz (by omega) hsz rfl with
            ⟨recs, g1, g2, g3, g4, g5⟩ | g
          · left
            refine ⟨[] :: recs, by simp, ?_, ?_, by rw [auBytes_cons]; simpa using g4, by rw [g5, ne_cons_nil]⟩
            · intro x hx
              rcases List.mem_cons.mp hx with rfl | hx
              · simp
              · exact g2 x hx
            · rw [h2, g3, avccRecords_cons]; simp
          · exact .inr g
      · have e : avccCount buf pos n sz =
            if sz + l > maxAccessUnitSize then .err "access unit size is too big"
            else if buf.length - (pos + 4) < l then .err "invalid length"
            else if buf.length - (pos + 4 + l) = 0 then .ok (n + 1)
            else avccCount buf (pos + 4 + l) (n + 1) (sz + l) := by
          conv => lhs; unfold avccCount
          rw [dif_neg h4, h1]
          simp only [ne_eq, hl0, not_false_eq_true, if_true]
        rw [e]
        by_cases hbig : sz + l > maxAccessUnitSize
        · right; rw [if_pos hbig]; exact ⟨_, rfl⟩
        rw [if_neg hbig]
        by_cases hshort : buf.length - (pos + 4) < l
        · right; rw [if_pos hshort]; exact ⟨_, rfl⟩
        rw [if_neg hshort]
        let x := (buf.drop (pos + 4)).take l
        have hxl : x.length = l := by simp [x]; omega
        have hxne : x ≠ [] := by intro h; rw [h] at hxl; simp at hxl; omega
        have h5 : buf.drop (pos + 4) = x ++ buf.drop (pos + 4 + l) := by
          have : buf.drop (pos + 4 + l) = (buf.drop (pos + 4)).drop l := by rw [List.drop_drop]
          rw [this]; exact (List.take_append_drop _ _).symm
        by_cases hend : buf.length - (pos + 4 + l) = 0
        · left
          refine ⟨[x], by simp, by simpa [hxl] using hl, ?_, ?_, ?_⟩
          · rw [h2, h5, List.drop_eq_nil_of_le (i := pos + 4 + l) (by omega)]; simp [avccRecords, hxl]
          · simp [auBytes, hxl]; omega
          · rw [if_pos hend, ne_cons _ hxne]; simp
        · rw [if_neg hend]
          rcases ih (buf.length - (pos + 4 + l)) (by omega) (pos + 4 + l) (n + 1) (sz + l) (by omega) (by omega) rfl with
            ⟨recs, g1, g2, g3, g4, g5⟩ | g
          · left
            refine ⟨x :: recs, by simp, ?_, ?_, by rw [auBytes_cons, hxl]; omega, ?_⟩
            · intro y hy
              rcases List.mem_cons.mp hy with rfl | hy
              · rw [hxl]; exact hl
              · exact g2 y hy
            · rw [h2, h5, g3, avccRecords_cons, hxl, List.append_assoc]
            · rw [g5, ne_cons _ hxne, List.length_cons]; congr 1; omega
          · exact .inr g

theorem auBytes_ne (l : List Bytes) : auBytes (ne l) = auBytes l := by
  induction l with
  | nil => rfl
  | cons x l ih =>
    by_cases hx : x = []
    · subst hx; rw [ne_cons_nil, ih, auBytes_cons]; simp
    · rw [ne_cons _ hx, auBytes_cons, auBytes_cons, ih]

/-- Full description of `AVCC.Unmarshal`. -/
theorem avccUnmarshal_result (buf : Bytes) :
    (∃ recs : List Bytes, (∀ x ∈ recs, x.length < 2 ^ 32) ∧ buf = avccRecords recs ∧
      auBytes recs ≤ maxAccessUnitSize ∧ 1 ≤ (ne recs).length ∧ (ne recs).length ≤ maxNALUsPerAccessUnit ∧
      avccUnmarshal buf = .ok (ne recs)) ∨
    (∃ e, avccUnmarshal buf = .err e) := by
  rcases avccCount_sound buf 0 0 0 (by omega) (by omega) with ⟨recs, h1, h2, h3, h4, h5⟩ | ⟨e, he⟩
  · rw [List.drop_zero] at h3
    rw [avccUnmarshal, h5, Res.bind_ok, Nat.zero_add]
    by_cases h0 : (ne recs).length = 0
    · right; rw [if_pos h0]; exact ⟨_, rfl⟩
    rw [if_neg h0]
    by_cases hm : (ne recs).length > maxNALUsPerAccessUnit
    · right; rw [if_pos hm]; exact ⟨_, rfl⟩
    rw [if_neg hm]
    left
    exact ⟨recs, h2, h3, by omega, by omega, by omega, avccCollect_spec buf recs 0 h2 (by simpa using h3)⟩
  · right; exact ⟨e, by rw [avccUnmarshal, he, Res.bind_err]⟩

theorem avccUnmarshal_complete (recs : List Bytes) (hr : ∀ x ∈ recs, x.length < 2 ^ 32)
    (hsz : auBytes recs ≤ maxAccessUnitSize) (h1 : 1 ≤ (ne recs).length)
    (h50 : (ne recs).length ≤ maxNALUsPerAccessUnit) :
    avccUnmarshal (avccRecords recs) = .ok (ne recs) := by
  have hne : recs ≠ [] := by rintro rfl; simp at h1
  rw [avccUnmarshal, avccCount_complete _ recs 0 0 0 hne hr (by simp) (by omega), Res.bind_ok, Nat.zero_add,
    if_neg (by omega), if_neg (by omega)]
  exact avccCollect_spec _ recs 0 hr (by simp)

theorem marshalSize_eq (au : List Bytes) : marshalSize au = 4 * au.length + auBytes au := by
  have : ∀ n, au.foldl (fun n nalu => n + (4 + nalu.length)) n = n + (4 * au.length + auBytes au) := by
    induction au with
    | nil => intro n; simp [auBytes]
    | cons x l ih => intro n; rw [List.foldl_cons, ih, auBytes_cons, List.length_cons]; omega
  rw [marshalSize, this]; omega

theorem avccMarshalLoop_spec (au : List Bytes) (done : Bytes) (m : Nat)
    (hm : m = 4 * au.length + auBytes au) :
    avccMarshalLoop (done ++ List.replicate m 0) done.length au = .ok (done ++ avccRecords au) := by
  induction au generalizing done m with
  | nil => simp [avccMarshalLoop, hm, auBytes, avccRecords]
  | cons x l ih =>
    rw [auBytes_cons, List.length_cons] at hm
    rw [avccMarshalLoop]
    simp only
    rw [setSeq_append _ _ _ _ rfl (by simp; omega), Res.bind_ok,
      copyAt_append _ _ _ _ (by simp) (by simp; omega), Res.bind_ok]
    simp only [List.length_cons, List.length_nil]
    have e : [UInt8.ofNat (x.length >>> 24), UInt8.ofNat (x.length >>> 16), UInt8.ofNat (x.length >>> 8),
        UInt8.ofNat x.length] = be32 x.length := by
      simp only [be32, Nat.shiftRight_eq_div_pow]
    rw [e]
    have := ih (done ++ be32 x.length ++ x) (m - (0 + 1 + 1 + 1 + 1) - x.length) (by omega)
    simp only [List.length_append, be32_length] at this
    rw [this, avccRecords_cons]
    simp only [List.append_assoc]

theorem avccMarshal_spec (au : List Bytes) : avccMarshal au = .ok (avccRecords au) := by
  have := avccMarshalLoop_spec au [] (marshalSize au) (marshalSize_eq au)
  simpa [avccMarshal, makeBytes] using this

end Verif.H264
