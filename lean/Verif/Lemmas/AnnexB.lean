import Verif.Lemmas.Avcc

namespace Verif.H264
open Verif.Spec

theorem indexStartCode_none {l : Bytes} (h : indexStartCode l = none) : ¬ hasStartCode l := by
  induction l with
  | nil => rintro ⟨s, t, h⟩; simp at h
  | cons b l ih =>
    rw [indexStartCode] at h
    split at h
    · cases h
    · rename_i hp
      rw [Option.map_eq_none_iff] at h
      intro hs
      rcases List.infix_cons_iff.mp hs with hs | hs
      · exact hp (List.isPrefixOf_iff_prefix.mpr hs)
      · exact ih h hs

theorem indexStartCode_some {l : Bytes} {i : Nat} (h : indexStartCode l = some i) :
    ∃ a r, l = a ++ 0 :: 0 :: 1 :: r ∧ a.length = i ∧ ¬ hasStartCode a := by
  induction l generalizing i with
  | nil => cases h
  | cons b l ih =>
    rw [indexStartCode] at h
    split at h
    · rename_i hp
      obtain ⟨r, hr⟩ := List.isPrefixOf_iff_prefix.mp hp
      cases h
      exact ⟨[], r, by simpa using hr.symm, rfl, by rintro ⟨s, t, h⟩; simp at h⟩
    · rename_i hp
      rw [Option.map_eq_some_iff] at h
      obtain ⟨j, hj, rfl⟩ := h
      obtain ⟨a, r, h1, h2, h3⟩ := ih hj
      refine ⟨b :: a, r, by rw [h1]; rfl, by simp [h2], ?_⟩
      intro hs
      rcases List.infix_cons_iff.mp hs with hs | hs
      · apply hp
        rw [List.isPrefixOf_iff_prefix, h1]
        exact hs.trans (List.prefix_append (b :: a) _)
      · exact h3 hs

theorem indexStartCode_append (x r : Bytes) (h : ¬ hasStartCode x) :
    indexStartCode (x ++ 0 :: 0 :: 1 :: r) = some x.length := by
  induction x with
  | nil => simp [indexStartCode]
  | cons b x ih =>
    have hx : ¬ hasStartCode x := fun hs => h (List.infix_cons_iff.mpr (.inr hs))
    rw [List.cons_append, indexStartCode, if_neg, ih hx]
    · rfl
    · intro hp
      match x, h with
      | [], _ => simp at hp
      | [c], _ => simp at hp
      | c :: d :: x', h =>
        apply h
        simp at hp
        obtain ⟨rfl, rfl, rfl⟩ := hp
        exact ⟨[], x', rfl⟩

theorem no_sc_snoc0 {x : Bytes} (h : ¬ hasStartCode x) : ¬ hasStartCode (x ++ [0]) := by
  rintro ⟨s, t, he⟩
  rcases List.eq_nil_or_concat t with rfl | ⟨t', b, rfl⟩
  · rw [List.append_nil, show s ++ [0, 0, 1] = (s ++ [0, 0]) ++ [(1 : UInt8)] by simp] at he
    have := (List.append_inj' he rfl).2
    simp at this
  · rw [List.concat_eq_append, ← List.append_assoc] at he
    have := (List.append_inj' he rfl).1
    exact h ⟨s, t', this⟩

theorem slices_mem {buf : Bytes} {ps : List (Nat × Nat)} (h : ∀ p ∈ ps, p.1 ≤ p.2 ∧ p.2 ≤ buf.length) :
    slices buf ps = .ok (ps.map (fun p => (buf.drop p.1).take (p.2 - p.1))) := by
  induction ps with
  | nil => rfl
  | cons p ps ih =>
    obtain ⟨s, e⟩ := p
    obtain ⟨h1, h2⟩ := h (s, e) (by simp)
    rw [slices, slice_ok h1 h2, Res.bind_ok, ih (fun q hq => h q (List.mem_cons_of_mem _ hq)), Res.bind_ok]
    rfl

/-- Soundness of the scanning loop. -/
theorem annexbLoop_sound (buf : Bytes) (pos sz : Nat) (hsz : sz ≤ maxAccessUnitSize) :
    (∃ ps, annexbLoop buf pos sz = .ok ps ∧
      (∀ p ∈ ps, p.1 < p.2 ∧ p.2 ≤ buf.length ∧ ¬ hasStartCode ((buf.drop p.1).take (p.2 - p.1))) ∧
      sz + (ps.map (fun p => p.2 - p.1)).sum ≤ maxAccessUnitSize) ∨
    (∃ e, annexbLoop buf pos sz = .err e) := by
  induction hm : buf.length - pos using Nat.strongRecOn generalizing pos sz with
  | ind m ih =>
    unfold annexbLoop
    by_cases hp : pos < buf.length
    · rw [dif_pos hp]
      cases hi : indexStartCode (buf.drop pos) with
      | none =>
        simp only
        split
        · exact .inr ⟨_, rfl⟩
        · left
          refine ⟨_, rfl, ?_, by simp; omega⟩
          intro p hpm
          simp only [List.mem_singleton] at hpm
          subst hpm
          refine ⟨hp, Nat.le_refl _, ?_⟩
          rw [List.take_of_length_le (by simp)]
          exact indexStartCode_none hi
      | some i =>
        obtain ⟨a, r, h1, h2, h3⟩ := indexStartCode_some hi
        have hl := congrArg List.length h1
        simp only [List.length_drop, List.length_append, List.length_cons] at hl
        simp only
        have hprev : ∃ prev, (if 0 < i then idx buf (pos + i - 1) else Res.ok 1) = .ok prev := by
          split
          · rw [idx_of_lt (by omega)]; exact ⟨_, rfl⟩
          · exact ⟨_, rfl⟩
        obtain ⟨prev, hprev⟩ := hprev
        rw [hprev]
        simp only
        generalize he : (if 0 < i ∧ prev = 0 then pos + i - 1 else pos + i) = e
        have he1 : pos ≤ e ∧ e ≤ pos + i := by subst he; split <;> omega
        have hnosc : ¬ hasStartCode ((buf.drop pos).take (e - pos)) := by
          rw [h1, List.take_append_of_le_length (by omega)]
          intro hs
          exact h3 (List.IsInfix.trans hs (List.take_prefix _ _).isInfix)
        by_cases hz : e - pos > 0
        · rw [if_pos hz]
          by_cases hbig : sz + (e - pos) > maxAccessUnitSize
          · rw [if_pos hbig]; exact .inr ⟨_, rfl⟩
          rw [if_neg hbig]
          rcases ih (buf.length - (pos + i + 3)) (by omega) (pos + i + 3) (sz + (e - pos)) (by omega) rfl with
            ⟨ps, g1, g2, g3⟩ | ⟨er, g⟩
          · left
            refine ⟨(pos, e) :: ps, by rw [g1, Res.bind_ok], ?_, by simp; omega⟩
            intro p hpm
            rcases List.mem_cons.mp hpm with rfl | hpm
            · exact ⟨by omega, by simp only; omega, hnosc⟩
            · exact g2 p hpm
          · right; rw [g, Res.bind_err]; exact ⟨_, rfl⟩
        · rw [if_neg hz]
          exact ih (buf.length - (pos + i + 3)) (by omega) (pos + i + 3) sz hsz rfl
    · rw [dif_neg hp]
      exact .inl ⟨[], rfl, by simp, by simpa using hsz⟩

/-- The two start codes recognised at the beginning of a buffer. -/
theorem initial_delim (buf : Bytes) :
    (∃ d body, buf = startCode d ++ body ∧ initialDelimiter buf = .ok (startCode d).length) ∨
    ((∀ d body, buf ≠ startCode d ++ body) ∧ initialDelimiter buf = .err "initial delimiter not found") := by
  unfold initialDelimiter
  by_cases h4 : [0, 0, 0, 1].isPrefixOf buf = true
  · left
    obtain ⟨r, hr⟩ := List.isPrefixOf_iff_prefix.mp h4
    exact ⟨true, r, hr.symm, by rw [if_pos h4]; rfl⟩
  · by_cases h3 : [0, 0, 1].isPrefixOf buf = true
    · left
      obtain ⟨r, hr⟩ := List.isPrefixOf_iff_prefix.mp h3
      exact ⟨false, r, hr.symm, by rw [if_neg h4, if_pos h3]; rfl⟩
    · right
      refine ⟨?_, by rw [if_neg h4, if_neg h3]⟩
      intro d body hb
      cases d
      · exact h3 (List.isPrefixOf_iff_prefix.mpr ⟨body, hb.symm⟩)
      · exact h4 (List.isPrefixOf_iff_prefix.mpr ⟨body, hb.symm⟩)

/-- Full soundness of `AnnexB.Unmarshal`. -/
theorem annexbUnmarshal_result (buf : Bytes) :
    (∃ au, annexbUnmarshal buf = .ok au ∧ (∃ d body, buf = startCode d ++ body) ∧
      1 ≤ au.length ∧ au.length ≤ maxNALUsPerAccessUnit ∧ auBytes au ≤ maxAccessUnitSize ∧
      ∀ nalu ∈ au, nalu ≠ [] ∧ ¬ hasStartCode nalu ∧ nalu <:+: buf) ∨
    (∃ e, annexbUnmarshal buf = .err e) := by
  rw [annexbUnmarshal]
  rcases initial_delim buf with ⟨d, body, hb, h1⟩ | ⟨h0, h1⟩
  · rw [h1, Res.bind_ok]
    by_cases he : buf.length = (startCode d).length
    · rw [if_pos he]; exact .inr ⟨_, rfl⟩
    rw [if_neg he]
    rcases annexbLoop_sound buf (startCode d).length 0 (by omega) with ⟨ps, g1, g2, g3⟩ | ⟨e, g⟩
    · rw [g1, Res.bind_ok]
      by_cases hz : ps.length = 0
      · rw [if_pos hz]; exact .inr ⟨_, rfl⟩
      rw [if_neg hz]
      by_cases h50 : ps.length > maxNALUsPerAccessUnit
      · rw [if_pos h50]; exact .inr ⟨_, rfl⟩
      rw [if_neg h50, slices_mem (fun p hp => ⟨Nat.le_of_lt (g2 p hp).1, (g2 p hp).2.1⟩)]
      left
      refine ⟨_, rfl, ⟨d, body, hb⟩, by simp; omega, by simp; omega, ?_, ?_⟩
      · have : auBytes (ps.map (fun p => (buf.drop p.1).take (p.2 - p.1))) = (ps.map (fun p => p.2 - p.1)).sum := by
          unfold auBytes
          rw [List.map_map]
          congr 1
          apply List.map_congr_left
          intro p hp
          have := g2 p hp
          simp; omega
        rw [this]; omega
      · intro nalu hn
        obtain ⟨p, hp, rfl⟩ := List.mem_map.mp hn
        obtain ⟨a1, a2, a3⟩ := g2 p hp
        refine ⟨?_, a3, ?_⟩
        · intro h
          have := congrArg List.length h
          simp at this; omega
        · exact ((List.take_prefix _ _).isInfix).trans (List.drop_suffix _ _).isInfix
    · rw [g, Res.bind_err]; exact .inr ⟨_, rfl⟩
  · rw [h1, Res.bind_err]; exact .inr ⟨_, rfl⟩

theorem annexbStream_cons (x : Bool × Bytes) (l : List (Bool × Bytes)) :
    annexbStream (x :: l) = startCode x.1 ++ (x.2 ++ annexbStream l) := by simp [annexbStream]

theorem annexbLoop_none {buf : Bytes} {pos sz : Nat} (hp : pos < buf.length)
    (hi : indexStartCode (buf.drop pos) = none) (hsz : sz + (buf.length - pos) ≤ maxAccessUnitSize) :
    annexbLoop buf pos sz = .ok [(pos, buf.length)] := by
  unfold annexbLoop
  rw [dif_pos hp, hi]
  simp only
  rw [if_neg (by omega)]

theorem annexbLoop_some {buf : Bytes} {pos sz i e : Nat} (hp : pos < buf.length)
    (hi : indexStartCode (buf.drop pos) = some i) (h0 : 0 < i)
    (he : e = if buf[pos + i - 1]? = some 0 then pos + i - 1 else pos + i) (hep : pos < e) (hlen : pos + i ≤ buf.length)
    (hsz : sz + (e - pos) ≤ maxAccessUnitSize) :
    annexbLoop buf pos sz = (do
      let rest ← annexbLoop buf (pos + i + 3) (sz + (e - pos))
      .ok ((pos, e) :: rest)) := by
  conv => lhs; unfold annexbLoop
  rw [dif_pos hp, hi]
  have hlt : pos + i - 1 < buf.length := by omega
  simp only [h0, if_true, idx_of_lt hlt, true_and]
  rw [List.getElem?_eq_getElem hlt] at he
  simp only [Option.some.injEq] at he
  rw [← he]
  rw [if_pos (by omega), if_neg (by omega)]

theorem nalu_cases {α} (l : List α) (h : l ≠ []) : ∃ a b, l = a ++ [b] := by
  rcases List.eq_nil_or_concat l with rfl | ⟨a, b, rfl⟩
  · exact absurd rfl h
  · exact ⟨a, b, List.concat_eq_append⟩

theorem hasStartCode_infix {a b : Bytes} (h : a <:+: b) (hb : ¬ hasStartCode b) : ¬ hasStartCode a :=
  fun ha => hb (List.IsInfix.trans ha h)

theorem indexStartCode_eq_none {l : Bytes} (h : ¬ hasStartCode l) : indexStartCode l = none := by
  cases hi : indexStartCode l with
  | none => rfl
  | some i =>
    obtain ⟨a, r, h1, _, _⟩ := indexStartCode_some hi
    exact absurd ⟨a, r, by rw [h1]; simp⟩ h

/-- Completeness of the scanning loop on a well-formed stream. -/
theorem annexbLoop_complete (buf : Bytes) (rest : List (Bool × Bytes)) (nalu : Bytes) (d : Bool) (pos sz : Nat)
    (hbuf : buf.drop pos = nalu ++ annexbStream rest)
    (hn : ∀ x ∈ (d, nalu) :: rest, x.2 ≠ [] ∧ ¬ hasStartCode x.2)
    (hsep : annexbSeparable ((d, nalu) :: rest))
    (hsz : sz + nalu.length + auBytes (rest.map Prod.snd) ≤ maxAccessUnitSize) :
    ∃ ps, annexbLoop buf pos sz = .ok ps ∧ ps.length = rest.length + 1 ∧
      (∀ p ∈ ps, p.1 ≤ p.2 ∧ p.2 ≤ buf.length) ∧
      ps.map (fun p => (buf.drop p.1).take (p.2 - p.1)) = nalu :: rest.map Prod.snd := by
  induction rest generalizing nalu d pos sz with
  | nil =>
    obtain ⟨h1, h2⟩ := hn (d, nalu) (by simp)
    have hb : buf.drop pos = nalu := by simpa [annexbStream] using hbuf
    have hl := congrArg List.length hb
    simp only [List.length_drop] at hl
    have hpos : nalu.length ≠ 0 := by simpa using h1
    refine ⟨_, annexbLoop_none (by omega) (by rw [hb]; exact indexStartCode_eq_none h2) (by omega), rfl, ?_, ?_⟩
    · intro p hp; simp only [List.mem_singleton] at hp; subst hp; simp only; omega
    · simp only [List.map_cons, List.map_nil]
      rw [hb, List.take_of_length_le (by omega)]
  | cons y rest ih =>
    obtain ⟨d2, n2⟩ := y
    obtain ⟨h1, h2⟩ := hn (d, nalu) (by simp)
    rw [annexbStream_cons] at hbuf
    simp only [List.map_cons, auBytes_cons] at hsz
    obtain ⟨hs1, hs2⟩ := hsep
    have hpos : nalu.length ≠ 0 := by simpa using h1
    have hl := congrArg List.length hbuf
    simp only [List.length_drop, List.length_append] at hl
    -- the bytes before the 00 00 01
    let x := nalu ++ (if d2 then [0] else [])
    have hx : buf.drop pos = x ++ 0 :: 0 :: 1 :: (n2 ++ annexbStream rest) := by
      rw [hbuf]; cases d2 <;> simp [x, startCode]
    have hxl : x.length = nalu.length + (if d2 then 1 else 0) := by
      cases d2 <;> simp [x]
    have hxsc : ¬ hasStartCode x := by
      cases d2
      · simpa [x] using h2
      · simpa [x] using no_sc_snoc0 h2
    have hi : indexStartCode (buf.drop pos) = some x.length := by rw [hx]; exact indexStartCode_append _ _ hxsc
    have hsl : (startCode d2).length = 3 + (if d2 then 1 else 0) := by cases d2 <;> rfl
    have hsl3 : 3 ≤ (startCode d2).length := by cases d2 <;> decide
    have hprev : (if buf[pos + x.length - 1]? = some 0 then pos + x.length - 1 else pos + x.length)
        = pos + nalu.length := by
      have hg : buf[pos + x.length - 1]? = x.getLast? := by
        have : buf[pos + x.length - 1]? = (buf.drop pos)[x.length - 1]? := by
          rw [List.getElem?_drop]; congr 1; omega
        rw [this, hx, List.getElem?_append_left (by omega), List.getLast?_eq_getElem?]
      rw [hg]
      cases d2
      · have := hs1 rfl
        have hxe : x = nalu := by simp [x]
        rw [hxe, if_neg this]
      · have hxe : x = nalu ++ [0] := by simp [x]
        rw [hxe]
        simp
    have hdrop : buf.drop (pos + x.length + 3) = n2 ++ annexbStream rest := by
      rw [Nat.add_assoc, ← List.drop_drop, hx, ← List.drop_drop, List.drop_left]; rfl
    obtain ⟨ps, g1, g2, g3, g4⟩ := ih n2 d2 (pos + x.length + 3) (sz + nalu.length) hdrop
      (fun z hz => hn z (List.mem_cons_of_mem _ hz)) hs2 (by omega)
    refine ⟨(pos, pos + nalu.length) :: ps, ?_, by simp [g2], ?_, ?_⟩
    · rw [annexbLoop_some (e := pos + nalu.length) (by omega) hi (by omega) hprev.symm (by omega)
        (by rw [hxl]; omega) (by omega)]
      rw [show sz + (pos + nalu.length - pos) = sz + nalu.length by omega, g1]
      rfl
    · intro p hp
      rcases List.mem_cons.mp hp with rfl | hp
      · simp only; omega
      · exact g3 p hp
    · rw [List.map_cons, g4]
      simp only [List.map_cons]
      rw [hbuf, show pos + nalu.length - pos = nalu.length by omega, List.take_left]

theorem annexbUnmarshal_complete (l : List (Bool × Bytes)) (hne : l ≠ [])
    (hn : ∀ x ∈ l, x.2 ≠ [] ∧ ¬ hasStartCode x.2) (hsep : annexbSeparable l)
    (h50 : l.length ≤ maxNALUsPerAccessUnit) (hsz : auBytes (l.map Prod.snd) ≤ maxAccessUnitSize) :
    annexbUnmarshal (annexbStream l) = .ok (l.map Prod.snd) := by
  obtain ⟨⟨d, nalu⟩, rest, rfl⟩ := List.exists_cons_of_ne_nil hne
  have hb : annexbStream ((d, nalu) :: rest) = startCode d ++ (nalu ++ annexbStream rest) := annexbStream_cons _ _
  have hpos : nalu.length ≠ 0 := by simpa using (hn (d, nalu) (by simp)).1
  rw [annexbUnmarshal]
  have hdel : initialDelimiter (annexbStream ((d, nalu) :: rest)) = .ok (startCode d).length := by
    rw [hb]; cases d <;> simp [startCode, initialDelimiter]
  rw [hdel, Res.bind_ok]
  rw [if_neg (by rw [hb]; simp only [List.length_append]; omega)]
  simp only [List.map_cons, auBytes_cons] at hsz
  obtain ⟨ps, g1, g2, g3, g4⟩ := annexbLoop_complete (annexbStream ((d, nalu) :: rest)) rest nalu d (startCode d).length 0
    (by rw [hb, List.drop_left]) hn hsep (by omega)
  rw [List.length_cons] at h50
  rw [g1, Res.bind_ok, if_neg (by omega), if_neg (by omega), slices_mem g3, g4]
  rfl

theorem annexbMarshalLoop_spec (au : List Bytes) (done : Bytes) (m : Nat)
    (hm : m = 4 * au.length + auBytes au) :
    annexbMarshalLoop (done ++ List.replicate m 0) done.length au
      = .ok (done ++ annexbStream (au.map (fun x => (true, x)))) := by
  induction au generalizing done m with
  | nil => simp [annexbMarshalLoop, hm, auBytes, annexbStream]
  | cons x l ih =>
    rw [auBytes_cons, List.length_cons] at hm
    rw [annexbMarshalLoop]
    rw [copyAt_append _ _ _ _ rfl (by simp; omega), Res.bind_ok]
    simp only
    rw [copyAt_append _ _ _ _ (by simp) (by simp; omega), Res.bind_ok]
    simp only [List.length_cons, List.length_nil]
    have := ih (done ++ [0, 0, 0, 1] ++ x) (m - (0 + 1 + 1 + 1 + 1) - x.length) (by omega)
    simp only [List.length_append, List.length_cons, List.length_nil] at this
    rw [this, List.map_cons, annexbStream_cons]
    simp only [List.append_assoc, startCode]

theorem annexbMarshal_spec (au : List Bytes) :
    annexbMarshal au = .ok (annexbStream (au.map (fun x => (true, x)))) := by
  have := annexbMarshalLoop_spec au [] (marshalSize au) (marshalSize_eq au)
  simpa [annexbMarshal, makeBytes] using this

theorem annexbSeparable_four (au : List Bytes) : annexbSeparable (au.map (fun x => (true, x))) := by
  match au with
  | [] => trivial
  | [_] => trivial
  | x :: y :: l => exact ⟨by simp, annexbSeparable_four (y :: l)⟩

end Verif.H264
