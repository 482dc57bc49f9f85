import Verif.Model.PMP4
import Verif.Spec.SampleTables

/-!
# C48: MP4 samples are interleaved in time order without reordering a track
-/

namespace Verif.Props
open PMP4 SampleTables
open TS (wrap64)

theorem pmp4_tdiv_nonpos {a b : Int} (ha : a ≤ 0) (hb : 0 ≤ b) : a.tdiv b ≤ 0 := by
  have := Int.tdiv_nonneg (a := -a) (b := b) (by omega) hb
  rw [Int.neg_tdiv] at this
  omega

/-- The value that `durationMp4ToGo` returns when the time scale is not zero. -/
def goTime (v : Int) (ts : Nat) : Int :=
  wrap64 (wrap64 (v.tdiv ts * 1000000000) + (wrap64 (v.tmod ts * 1000000000)).tdiv ts)

theorem pmp4_duration (v : Int) (ts : Nat) (h : ts ≠ 0) : durationMp4ToGo v ts = .ok (goTime v ts) := by
  unfold durationMp4ToGo quot goTime
  have : (ts : Int) ≠ 0 := by omega
  simp only [if_neg this, Res.bind_ok]

def curKey (c : Cursor) : Int := goTime c.elapsed c.timeScale

/-- The samples that are left, each with the time that the writer computes. -/
def keyed (ts : Nat) : Int → List Sample → List (Int × Sample)
  | _, [] => []
  | t, sa :: l => (goTime t ts, sa) :: keyed ts (wrap64 (t + sa.duration)) l

theorem pmp4_best_some (l : List Cursor) :
    ∀ i b be, (∀ c ∈ l, c.left ≠ [] → c.timeScale ≠ 0) →
      (bestTrack i l (some (b, be)) = .ok (some (b, be)) ∧ ∀ c ∈ l, c.left ≠ [] → be ≤ curKey c) ∨
      ∃ pre c post, l = pre ++ c :: post ∧ bestTrack i l (some (b, be)) = .ok (some (i + pre.length, curKey c)) ∧ c.left ≠ [] ∧
        curKey c < be ∧ (∀ x ∈ pre, x.left ≠ [] → curKey c < curKey x) ∧ ∀ x ∈ post, x.left ≠ [] → curKey c ≤ curKey x := by
  induction l with
  | nil => intro i b be _; exact Or.inl ⟨rfl, fun c h => (by cases h)⟩
  | cons c l ih =>
    intro i b be hts
    have hts' : ∀ c ∈ l, c.left ≠ [] → c.timeScale ≠ 0 := fun x hx => hts x (List.mem_cons_of_mem _ hx)
    unfold bestTrack
    cases hl : c.left with
    | nil =>
      simp only
      rcases ih (i + 1) b be hts' with ⟨h1, h2⟩ | ⟨pre, d, post, h0, h1, h2, h3, h4, h5⟩
      · refine Or.inl ⟨h1, fun x hx hne => ?_⟩
        rcases List.mem_cons.mp hx with h | h
        · subst h; exact absurd hl hne
        · exact h2 x h hne
      · refine Or.inr ⟨c :: pre, d, post, by rw [h0]; rfl, ?_, h2, h3, ?_, h5⟩
        · rw [h1, List.length_cons, show i + 1 + pre.length = i + (pre.length + 1) by omega]
        · intro x hx hne
          rcases List.mem_cons.mp hx with h | h
          · subst h; exact absurd hl hne
          · exact h4 x h hne
    | cons sa left =>
      have hne : c.left ≠ [] := by rw [hl]; exact List.cons_ne_nil _ _
      simp only
      rw [pmp4_duration _ _ (hts c List.mem_cons_self hne), Res.bind_ok]
      by_cases hlt : goTime c.elapsed c.timeScale < be
      · simp only [if_pos hlt]
        rcases ih (i + 1) i (goTime c.elapsed c.timeScale) hts' with ⟨h1, h2⟩ | ⟨pre, d, post, h0, h1, h2, h3, h4, h5⟩
        · exact Or.inr ⟨[], c, l, rfl, h1, hne, hlt, fun x hx => (by cases hx), h2⟩
        · refine Or.inr ⟨c :: pre, d, post, by rw [h0]; rfl, ?_, h2, by omega, ?_, h5⟩
          · rw [h1, List.length_cons, show i + 1 + pre.length = i + (pre.length + 1) by omega]
          · intro x hx hxne
            rcases List.mem_cons.mp hx with h | h
            · subst h; exact h3
            · exact h4 x h hxne
      · simp only [if_neg hlt]
        rcases ih (i + 1) b be hts' with ⟨h1, h2⟩ | ⟨pre, d, post, h0, h1, h2, h3, h4, h5⟩
        · refine Or.inl ⟨h1, fun x hx hxne => ?_⟩
          rcases List.mem_cons.mp hx with h | h
          · subst h; exact Int.not_lt.mp hlt
          · exact h2 x h hxne
        · refine Or.inr ⟨c :: pre, d, post, by rw [h0]; rfl, ?_, h2, h3, ?_, h5⟩
          · rw [h1, List.length_cons, show i + 1 + pre.length = i + (pre.length + 1) by omega]
          · intro x hx hxne
            rcases List.mem_cons.mp hx with h | h
            · subst h
              have : goTime x.elapsed x.timeScale = curKey x := rfl
              omega
            · exact h4 x h hxne

theorem pmp4_best_none (l : List Cursor) :
    ∀ i, (∀ c ∈ l, c.left ≠ [] → c.timeScale ≠ 0) →
      (bestTrack i l none = .ok none ∧ ∀ c ∈ l, c.left = []) ∨
      ∃ pre c post, l = pre ++ c :: post ∧ bestTrack i l none = .ok (some (i + pre.length, curKey c)) ∧ c.left ≠ [] ∧
        (∀ x ∈ pre, x.left ≠ [] → curKey c < curKey x) ∧ ∀ x ∈ post, x.left ≠ [] → curKey c ≤ curKey x := by
  induction l with
  | nil => intro i _; exact Or.inl ⟨rfl, fun c h => (by cases h)⟩
  | cons c l ih =>
    intro i hts
    have hts' : ∀ c ∈ l, c.left ≠ [] → c.timeScale ≠ 0 := fun x hx => hts x (List.mem_cons_of_mem _ hx)
    unfold bestTrack
    cases hl : c.left with
    | nil =>
      simp only
      rcases ih (i + 1) hts' with ⟨h1, h2⟩ | ⟨pre, d, post, h0, h1, h2, h4, h5⟩
      · refine Or.inl ⟨h1, fun x hx => ?_⟩
        rcases List.mem_cons.mp hx with h | h
        · subst h; exact hl
        · exact h2 x h
      · refine Or.inr ⟨c :: pre, d, post, by rw [h0]; rfl, ?_, h2, ?_, h5⟩
        · rw [h1, List.length_cons, show i + 1 + pre.length = i + (pre.length + 1) by omega]
        · intro x hx hne
          rcases List.mem_cons.mp hx with h | h
          · subst h; exact absurd hl hne
          · exact h4 x h hne
    | cons sa left =>
      have hne : c.left ≠ [] := by rw [hl]; exact List.cons_ne_nil _ _
      simp only
      rw [pmp4_duration _ _ (hts c List.mem_cons_self hne), Res.bind_ok]
      rcases pmp4_best_some l (i + 1) i (goTime c.elapsed c.timeScale) hts' with ⟨h1, h2⟩ | ⟨pre, d, post, h0, h1, h2, h3, h4, h5⟩
      · exact Or.inr ⟨[], c, l, rfl, h1, hne, fun x hx => (by cases hx), h2⟩
      · refine Or.inr ⟨c :: pre, d, post, by rw [h0]; rfl, ?_, h2, ?_, h5⟩
        · rw [h1, List.length_cons, show i + 1 + pre.length = i + (pre.length + 1) by omega]
        · intro x hx hxne
          rcases List.mem_cons.mp hx with h | h
          · subst h; exact h3
          · exact h4 x h hxne

/-- A sample without its offset. -/
def unplaced (sa : Sample) : Sample := { sa with offset := 0 }

/-- Samples in the order of the file have consecutive offsets, as `uint32`. -/
def Placed : Nat → List Sample → Prop
  | _, [] => True
  | off, sa :: l => sa.offset = off ∧ Placed ((off + sa.payloadSize) % 2 ^ 32) l

/-- How the cursors end: nothing is left, and the samples of `new` (in reverse order) were laid out. -/
def Finished (c c' : Cursor) (new : List (Int × Sample)) : Prop :=
  c'.done = (new.map (·.2)).reverse ++ c.done ∧ c'.left = [] ∧
    new.map (fun x => (x.1, unplaced x.2)) = (keyed c.timeScale c.elapsed c.left).map (fun x => (x.1, unplaced x.2))

inductive AllFinished : List Cursor → List Cursor → List (List (Int × Sample)) → Prop
  | nil : AllFinished [] [] []
  | cons {c c' : Cursor} {new : List (Int × Sample)} {cs cs' : List Cursor} {news : List (List (Int × Sample))} :
      Finished c c' new → AllFinished cs cs' news → AllFinished (c :: cs) (c' :: cs') (new :: news)

theorem pmp4_allFinished_split (pre : List Cursor) (c : Cursor) (post : List Cursor) :
    ∀ cs' news, AllFinished (pre ++ c :: post) cs' news → ∃ pre' c' post' npre n npost, cs' = pre' ++ c' :: post' ∧
      news = npre ++ n :: npost ∧ AllFinished pre pre' npre ∧ Finished c c' n ∧ AllFinished post post' npost := by
  induction pre with
  | nil =>
    intro cs' news h
    cases h with
    | cons h1 h2 => exact ⟨[], _, _, [], _, _, rfl, rfl, .nil, h1, h2⟩
  | cons x pre ih =>
    intro cs' news h
    cases h with
    | cons h1 h2 =>
      obtain ⟨pre', c', post', npre, n, npost, e1, e2, h3, h4, h5⟩ := ih _ _ h2
      exact ⟨_ :: pre', c', post', _ :: npre, n, npost, by rw [e1]; rfl, by rw [e2]; rfl, .cons h1 h3, h4, h5⟩

theorem pmp4_allFinished_join (pre : List Cursor) (c : Cursor) (post : List Cursor) :
    ∀ pre' c' post' npre n npost, AllFinished pre pre' npre → Finished c c' n → AllFinished post post' npost →
      AllFinished (pre ++ c :: post) (pre' ++ c' :: post') (npre ++ n :: npost) := by
  induction pre with
  | nil => intro pre' c' post' npre n npost h1 h2 h3; cases h1; exact .cons h2 h3
  | cons x pre ih =>
    intro pre' c' post' npre n npost h1 h2 h3
    cases h1 with
    | cons ha hb => exact .cons ha (ih _ _ _ _ _ _ hb h2 h3)

/-- The head of a list that was laid out is the head of a cursor. -/
theorem pmp4_head {cs cs' : List Cursor} {news : List (List (Int × Sample))} (h : AllFinished cs cs' news) :
    ∀ b m, (b :: m) ∈ news → ∃ c ∈ cs, c.left ≠ [] ∧ curKey c = b.1 := by
  induction h with
  | nil => intro b m h; cases h
  | @cons c c' new cs cs' news h1 _ ih =>
    intro b m hm
    rcases List.mem_cons.mp hm with he | hm
    · refine ⟨c, List.mem_cons_self, ?_⟩
      obtain ⟨_, _, h3⟩ := h1
      rw [← he] at h3
      cases hl : c.left with
      | nil => rw [hl] at h3; cases h3
      | cons sa l =>
        rw [hl] at h3
        simp only [keyed, List.map_cons, List.cons.injEq, Prod.mk.injEq] at h3
        exact ⟨List.cons_ne_nil _ _, h3.1.1.symm⟩
    · obtain ⟨d, hd, h⟩ := ih b m hm
      exact ⟨d, List.mem_cons_of_mem _ hd, h⟩

theorem pmp4_finished_nil (cs : List Cursor) (h : ∀ c ∈ cs, c.left = []) : ∃ news, AllFinished cs cs news ∧ ∀ l ∈ news, l = [] := by
  induction cs with
  | nil => exact ⟨[], .nil, fun l h => (by cases h)⟩
  | cons c cs ih =>
    obtain ⟨news, h1, h2⟩ := ih (fun x hx => h x (List.mem_cons_of_mem _ hx))
    refine ⟨[] :: news, .cons ⟨rfl, h c List.mem_cons_self, by rw [h c List.mem_cons_self]; rfl⟩ h1, fun l hl => ?_⟩
    rcases List.mem_cons.mp hl with h | h
    · exact h
    · exact h2 l h

theorem pmp4_sortLoop (n : Nat) :
    ∀ cs offset sorted, (∀ c ∈ cs, c.left ≠ [] → c.timeScale ≠ 0) → (cs.map (·.left.length)).sum = n →
      ∃ (out : List (Int × Sample)) (cs' : List Cursor) (news : List (List (Int × Sample))),
        sortLoop n cs offset sorted =
          .ok ((offset % 2 ^ 32 + (out.map (·.2.payloadSize)).sum) % 2 ^ 32 + (if out = [] then offset - offset % 2 ^ 32 else 0),
            (out.map (·.2)).reverse ++ sorted, cs') ∧
        AllFinished cs cs' news ∧ MergeBy (·.1) news out ∧ Placed offset (out.map (·.2)) := by
  induction n with
  | zero =>
    intro cs offset sorted hts hsum
    rcases pmp4_best_none cs 0 hts with ⟨h1, h2⟩ | ⟨pre, c, post, h0, h1, h2, _⟩
    · obtain ⟨news, h3, h4⟩ := pmp4_finished_nil cs h2
      refine ⟨[], cs, news, ?_, h3, .nil h4, trivial⟩
      unfold sortLoop
      rw [h1, Res.bind_ok]
      have : (offset % 2 ^ 32 + 0) % 2 ^ 32 + (offset - offset % 2 ^ 32) = offset := by omega
      simp only [List.map_nil, List.sum_nil, if_true, this, List.reverse_nil, List.nil_append]
    · exfalso
      rw [h0] at hsum
      simp only [List.map_append, List.map_cons, List.sum_append, List.sum_cons] at hsum
      exact h2 (List.eq_nil_of_length_eq_zero (by omega))
  | succ n ih =>
    intro cs offset sorted hts hsum
    rcases pmp4_best_none cs 0 hts with ⟨h1, h2⟩ | ⟨pre, c, post, h0, h1, h2, hpre, hpost⟩
    · exfalso
      have : ∀ l : List Cursor, (∀ c ∈ l, c.left = []) → (l.map (·.left.length)).sum = 0 := by
        intro l
        induction l with
        | nil => intro _; rfl
        | cons x l ihl =>
          intro h
          simp only [List.map_cons, List.sum_cons, h x List.mem_cons_self, List.length_nil, Nat.zero_add]
          exact ihl (fun y hy => h y (List.mem_cons_of_mem _ hy))
      rw [this cs h2] at hsum
      cases hsum
    · cases hl : c.left with
      | nil => exact absurd hl h2
      | cons sa left =>
        unfold sortLoop
        rw [h1, Res.bind_ok]
        dsimp only
        rw [Nat.zero_add]
        have hidx : idx cs pre.length = .ok c := by rw [h0]; simp [idx]
        rw [hidx, Res.bind_ok]
        simp only [hl, idx_zero_cons, Res.bind_ok, List.drop_one, List.tail_cons]
        have hset : ∀ d, cs.set pre.length d = pre ++ d :: post := by
          intro d; rw [h0, List.set_append_right _ _ (Nat.le_refl _), Nat.sub_self]; rfl
        rw [hset]
        have hmem : ∀ x, x ∈ pre ∨ x ∈ post → x ∈ cs := by
          intro x hx; rw [h0]; rcases hx with h | h
          · exact List.mem_append_left _ h
          · exact List.mem_append_right _ (List.mem_cons_of_mem _ h)
        have hcts : c.timeScale ≠ 0 := hts c (by rw [h0]; exact List.mem_append_right _ List.mem_cons_self) h2
        obtain ⟨out, cs', news, ha, hb, hc, hd⟩ := ih (pre ++ ({ c with elapsed := wrap64 (c.elapsed + sa.duration),
                                                                          done := { sa with offset := offset } :: c.done,
                                                                          left := left } : Cursor) :: post)
          ((offset + sa.payloadSize) % 2 ^ 32) ({ sa with offset := offset } :: sorted) (by
            intro x hx hxne
            rcases List.mem_append.mp hx with h | h
            · exact hts x (hmem x (Or.inl h)) hxne
            · rcases List.mem_cons.mp h with h | h
              · subst h; exact hcts
              · exact hts x (hmem x (Or.inr h)) hxne) (by
            rw [h0] at hsum
            simp only [List.map_append, List.map_cons, List.sum_append, List.sum_cons, hl, List.length_cons] at hsum ⊢
            omega)
        rw [ha]
        obtain ⟨pre', c', post', npre, nn, npost, e1, e2, f1, f2, f3⟩ := pmp4_allFinished_split _ _ _ _ _ hb
        refine ⟨(curKey c, { sa with offset := offset }) :: out, cs', npre ++ ((curKey c, { sa with offset := offset }) :: nn) :: npost,
          ?_, ?_, ?_, ?_⟩
        · congr 1
          refine Prod.ext ?_ (Prod.ext ?_ rfl)
          · simp only [List.map_cons, List.sum_cons, if_neg (List.cons_ne_nil _ _)]
            by_cases ho : out = []
            · subst ho
              simp only [List.map_nil, List.sum_nil, if_true]
              omega
            · rw [if_neg ho]; omega
          · simp
        · rw [h0, e1]
          apply pmp4_allFinished_join _ _ _ _ _ _ _ _ _ f1 _ f3
          obtain ⟨g1, g2, g3⟩ := f2
          refine ⟨?_, g2, ?_⟩
          · rw [g1]; simp
          · rw [hl]
            simp only [List.map_cons, keyed]
            rw [g3]
            rfl
        · refine .cons ?_ ?_ (by rw [← e2]; exact hc)
          · intro b m hm
            obtain ⟨x, hx, hx1, hx2⟩ := pmp4_head f1 b m hm
            show curKey c < b.1
            rw [← hx2]; exact hpre x hx hx1
          · intro b m hm
            obtain ⟨x, hx, hx1, hx2⟩ := pmp4_head f3 b m hm
            show curKey c ≤ b.1
            rw [← hx2]; exact hpost x hx hx1
        · exact ⟨rfl, hd⟩

/-- The samples of a track with the times that the writer computes. -/
def keyedTrack (t : Track) : List (Int × Sample) := keyed t.timeScale t.timeOffset t.samples

theorem pmp4_keyed_snd (ts : Nat) (l : List Sample) : ∀ t, (keyed ts t l).map (·.2) = l := by
  induction l with
  | nil => intro t; rfl
  | cons sa l ih => intro t; simp [keyed, ih]

/-- Keys do not depend on offsets. -/
theorem pmp4_keyed_unplaced (ts : Nat) (l : List Sample) :
    ∀ (t : Int) (new : List (Int × Sample)),
      new.map (fun x => (x.1, unplaced x.2)) = (keyed ts t l).map (fun x => (x.1, unplaced x.2)) → new = keyed ts t (new.map (·.2)) := by
  induction l with
  | nil =>
    intro t new h
    cases new with
    | nil => rfl
    | cons x new => simp [keyed] at h
  | cons sa l ih =>
    intro t new h
    cases new with
    | nil => simp [keyed] at h
    | cons x new =>
      obtain ⟨k, sb⟩ := x
      simp only [keyed, List.map_cons, List.cons.injEq, Prod.mk.injEq] at h ⊢
      obtain ⟨⟨h1, h2⟩, h3⟩ := h
      have hd : sb.duration = sa.duration := by
        have := congrArg Sample.duration h2; exact this
      refine ⟨⟨h1, trivial⟩, ?_⟩
      rw [hd]
      exact ih _ _ h3

theorem pmp4_finished_tracks (tracks : List Track) :
    ∀ cs' news, AllFinished (tracks.map fun t => (⟨t.timeScale, t.timeOffset, [], t.samples⟩ : Cursor)) cs' news →
      (List.zipWith (fun (t : Track) (c : Cursor) => { t with samples := c.done.reverse ++ c.left }) tracks cs').map keyedTrack = news ∧
      (List.zipWith (fun (t : Track) (c : Cursor) => { t with samples := c.done.reverse ++ c.left }) tracks cs').map
        (fun t => { t with samples := t.samples.map unplaced }) = tracks.map (fun t => { t with samples := t.samples.map unplaced }) := by
  induction tracks with
  | nil => intro cs' news h; cases h; exact ⟨rfl, rfl⟩
  | cons t tracks ih =>
    intro cs' news h
    cases h with
    | @cons _ c' new _ cs' news h1 h2 =>
      obtain ⟨i1, i2⟩ := ih _ _ h2
      obtain ⟨g1, g2, g3⟩ := h1
      simp only [List.append_nil] at g1
      have hs : c'.done.reverse ++ c'.left = new.map (·.2) := by rw [g1, g2]; simp
      have hk := pmp4_keyed_unplaced _ _ _ _ g3
      refine ⟨?_, ?_⟩
      · simp only [List.zipWith_cons_cons, List.map_cons, i1, List.cons.injEq, and_true]
        rw [hs]
        exact hk.symm
      · simp only [List.zipWith_cons_cons, List.map_cons, i2, List.cons.injEq, and_true]
        rw [hs]
        have h3 : (new.map (·.2)).map unplaced = t.samples.map unplaced := by
          have := congrArg (List.map (·.2)) g3
          simp only [List.map_map] at this
          rw [show ((fun x : Int × Sample => x.2) ∘ fun x : Int × Sample => (x.1, unplaced x.2)) = unplaced ∘ (·.2) from rfl] at this
          rw [← List.map_map, ← List.map_map, pmp4_keyed_snd] at this
          exact this
        rw [h3]

/-- Everything about `sortSamples`. -/
theorem pmp4_sortSamples (tracks : List Track) (hts : ∀ t ∈ tracks, t.samples ≠ [] → t.timeScale ≠ 0) :
    ∃ L out, sortSamples tracks = .ok L ∧ L.sorted = out.map (·.2) ∧ MergeBy (·.1) (L.tracks.map keyedTrack) out ∧
      L.tracks.map (fun t => { t with samples := t.samples.map unplaced }) = tracks.map (fun t => { t with samples := t.samples.map unplaced }) ∧
      Placed 0 L.sorted ∧ L.dataSize = (L.sorted.map (·.payloadSize)).sum % 2 ^ 32 := by
  obtain ⟨out, cs', news, h1, h2, h3, h4⟩ := pmp4_sortLoop ((tracks.map (·.samples.length)).sum)
    (tracks.map fun t => (⟨t.timeScale, t.timeOffset, [], t.samples⟩ : Cursor)) 0 [] (by
      intro c hc hne
      obtain ⟨t, ht, rfl⟩ := List.mem_map.mp hc
      exact hts t ht hne) (by rw [List.map_map]; rfl)
  obtain ⟨h5, h6⟩ := pmp4_finished_tracks _ _ _ h2
  refine ⟨⟨(out.map (·.2.payloadSize)).sum % 2 ^ 32, out.map (·.2), _⟩, out, ?_, rfl, ?_, h6, h4, ?_⟩
  · unfold sortSamples
    simp only [h1, Res.bind_ok, List.append_nil, List.reverse_reverse]
    congr 1
    congr 1
    by_cases ho : out = []
    · subst ho; rfl
    · rw [if_neg ho]; simp
  · rw [h5]; exact h3
  · rw [List.map_map]; rfl

theorem pmp4_merge_interleaving {α β : Type} {key : α → Int} (f : α → β) {ls : List (List α)} {out : List α} (h : MergeBy key ls out) :
    Interleaving (ls.map (List.map f)) (out.map f) := by
  induction h with
  | nil h =>
    apply Interleaving.nil
    intro l hl
    obtain ⟨m, hm, rfl⟩ := List.mem_map.mp hl
    rw [h m hm]; rfl
  | cons _ _ _ ih =>
    rw [List.map_append, List.map_cons, List.map_cons, List.map_cons]
    rw [List.map_append, List.map_cons] at ih
    exact .cons ih

theorem pmp4_interleaving_sum {ls : List (List Sample)} {out : List Sample} (h : Interleaving ls out) :
    (out.map (·.payloadSize)).sum = (ls.flatten.map (·.payloadSize)).sum := by
  induction h with
  | @nil ls h =>
    have : ls.flatten = [] := List.flatten_eq_nil_iff.mpr h
    rw [this]
  | cons _ ih =>
    simp only [List.flatten_append, List.flatten_cons, List.map_append, List.map_cons, List.sum_append, List.sum_cons] at ih ⊢
    rw [ih]
    omega

theorem pmp4_sorted_sum (tracks : List Track) (L : Layout) (hint : Interleaving (L.tracks.map (·.samples)) L.sorted)
    (h4 : L.tracks.map (fun t => { t with samples := t.samples.map unplaced }) =
      tracks.map (fun t => { t with samples := t.samples.map unplaced })) :
    ((tracks.flatMap (·.samples)).map (·.payloadSize)).sum = (L.sorted.map (·.payloadSize)).sum := by
  rw [pmp4_interleaving_sum hint]
  have hx : ∀ ts : List Track, (ts.flatMap (·.samples)).map (·.payloadSize) =
      (ts.map (fun t => { t with samples := t.samples.map unplaced })).flatMap (fun t => t.samples.map (·.payloadSize)) := by
    intro ts
    induction ts with
    | nil => rfl
    | cons t ts ih =>
      simp only [List.flatMap_cons, List.map_append, List.map_cons, ih, List.map_map]
      rfl
  rw [hx tracks, ← h4, ← hx, List.flatMap_def]

/-- **C48.** For all tracks, whose time scale is not zero: the samples in the order of the file are an interleaving of those of the
tracks, in which each track keeps its order; nothing changes in samples except offsets, that are consecutive; the size is the sum of
the sizes. -/
theorem C48_interleaving (tracks : List Track) (hts : ∀ t ∈ tracks, t.samples ≠ [] → t.timeScale ≠ 0)
    (hsize : ((tracks.flatMap (·.samples)).map (·.payloadSize)).sum < 2 ^ 32) :
    ∃ L, sortSamples tracks = .ok L ∧ Interleaving (L.tracks.map (·.samples)) L.sorted ∧
      L.tracks.map (fun t => { t with samples := t.samples.map unplaced }) = tracks.map (fun t => { t with samples := t.samples.map unplaced }) ∧
      L.sorted.map (fun sa => (sa.offset, sa.payloadSize)) = chunkLocations 0 (L.sorted.map (·.payloadSize)) ∧
      L.dataSize = ((tracks.flatMap (·.samples)).map (·.payloadSize)).sum := by
  obtain ⟨L, out, h1, h2, h3, h4, h5, h6⟩ := pmp4_sortSamples tracks hts
  have hint : Interleaving (L.tracks.map (·.samples)) L.sorted := by
    have := pmp4_merge_interleaving (·.2) h3
    rw [← h2, List.map_map] at this
    have he : (List.map (fun x : Int × Sample => x.2)) ∘ keyedTrack = (·.samples) := by
      funext t; exact pmp4_keyed_snd _ _ _
    rw [he] at this
    exact this
  have hsame := pmp4_sorted_sum tracks L hint h4
  have hplace : ∀ (l : List Sample) (off : Nat), off + (l.map (·.payloadSize)).sum < 2 ^ 32 → Placed off l →
      l.map (fun sa => (sa.offset, sa.payloadSize)) = chunkLocations off (l.map (·.payloadSize)) := by
    intro l
    induction l with
    | nil => intro off _ _; rfl
    | cons sa l ih =>
      intro off hlt hp
      simp only [List.map_cons, List.sum_cons] at hlt
      simp only [List.map_cons, chunkLocations]
      have := hp.2
      rw [Nat.mod_eq_of_lt (by omega)] at this
      rw [ih _ (by omega) this, hp.1]
  refine ⟨L, h1, hint, h4, hplace _ _ (by omega) h5, ?_⟩
  rw [h6, ← hsame, Nat.mod_eq_of_lt hsize]

/-! ## Order in time -/

/-- The samples of a track with their start times, in nanoseconds. -/
def timedTrack (t : Track) : List (Int × Sample) :=
  List.zip ((startTimes t.timeOffset (t.samples.map (·.duration))).map (nanoseconds · t.timeScale)) t.samples

/-- All times of a track, in seconds, are less than 2^33 (272 years), and in units of the track they fit in 63 bits (that is so when
there are less than 2^31 samples). -/
def InTime (t : Track) : Prop :=
  (-(2 ^ 33 * t.timeScale) < t.timeOffset ∧ -(2 ^ 63) ≤ t.timeOffset) ∧
    t.timeOffset + ((t.samples.map (·.duration)).sum : Nat) < 2 ^ 33 * (t.timeScale : Int) ∧
    t.timeOffset + ((t.samples.map (·.duration)).sum : Nat) < 2 ^ 63

theorem pmp4_goTime (v : Int) (ts : Nat) (hpos : (0 : Int) < ts) (hts : ts < 2 ^ 32) (h1 : -(2 ^ 33 * ts) < v) (h2 : v < 2 ^ 33 * (ts : Int)) :
    goTime v ts = nanoseconds v ts := by
  have hdm := Int.mul_tdiv_add_tmod v ts
  have hq1 : v.tdiv ts < 2 ^ 33 := by
    refine Classical.byContradiction fun hc => ?_
    have hv : 0 ≤ v := by
      refine Classical.byContradiction fun hv => ?_
      have h3 : v.tdiv ts ≤ 0 := by
        have := pmp4_tdiv_nonpos (a := v) (b := ts) (by omega) (by omega)
        exact this
      omega
    have hm := Int.tmod_nonneg (ts : Int) hv
    have : (ts : Int) * v.tdiv ts ≥ ts * 2 ^ 33 := Int.mul_le_mul_of_nonneg_left (by omega) (by omega)
    rw [Int.mul_comm (ts : Int) (2 ^ 33)] at this
    omega
  have hq2 : -(2 ^ 33) < v.tdiv ts := by
    refine Classical.byContradiction fun hc => ?_
    have hv : v ≤ 0 := by
      refine Classical.byContradiction fun hv => ?_
      have h3 : 0 ≤ v.tdiv ts := Int.tdiv_nonneg (by omega) (by omega)
      omega
    have hm : v.tmod ts ≤ 0 := by
      have := Int.tmod_nonneg (ts : Int) (a := -v) (by omega)
      rw [Int.neg_tmod] at this
      omega
    have : (ts : Int) * v.tdiv ts ≤ ts * (-(2 ^ 33)) := Int.mul_le_mul_of_nonneg_left (by omega) (by omega)
    rw [Int.mul_comm (ts : Int) (-(2 ^ 33))] at this
    omega
  have hm1 : v.tmod ts < ts := Int.tmod_lt_of_pos v hpos
  have hm2 : -(ts : Int) < v.tmod ts := by
    have := Int.tmod_lt_of_pos (-v) hpos
    rw [Int.neg_tmod] at this
    omega
  have hnano : nanoseconds v ts = v.tdiv ts * 1000000000 + (v.tmod ts * 1000000000).tdiv ts := by
    unfold nanoseconds
    have : v * 1000000000 = v.tmod ts * 1000000000 + v.tdiv ts * 1000000000 * ts := by
      have e : (ts * v.tdiv ts + v.tmod ts) * 1000000000 = v * 1000000000 := by rw [hdm]
      rw [Int.add_mul] at e
      have e2 : (ts : Int) * v.tdiv ts * 1000000000 = v.tdiv ts * 1000000000 * ts := by
        rw [Int.mul_comm (ts : Int) (v.tdiv ts), Int.mul_assoc, Int.mul_comm (ts : Int) 1000000000, ← Int.mul_assoc]
      omega
    rw [this]
    rcases Int.lt_or_le v 0 with hv | hv
    · have hmn : v.tmod ts ≤ 0 := by
        have := Int.tmod_nonneg (ts : Int) (a := -v) (by omega)
        rw [Int.neg_tmod] at this
        omega
      have hqn : v.tdiv ts ≤ 0 := pmp4_tdiv_nonpos (by omega) (by omega)
      have key : ∀ a q : Int, a ≤ 0 → q ≤ 0 → (a + q * ts).tdiv ts = q + a.tdiv ts := by
        intro a q ha hq
        have h3 : (a + q * ts) = -((-a) + (-q) * ts) := by rw [Int.neg_mul]; omega
        have h4 : 0 ≤ (-q) * (ts : Int) := Int.mul_nonneg (by omega) (by omega)
        rw [h3, Int.neg_tdiv, Int.tdiv_eq_ediv_of_nonneg (by omega), Int.add_mul_ediv_right _ _ (by omega),
          ← Int.tdiv_eq_ediv_of_nonneg (by omega), Int.neg_tdiv]
        omega
      exact key _ _ (by omega) (by omega)
    · have hmn := Int.tmod_nonneg (ts : Int) hv
      have hqn : 0 ≤ v.tdiv ts := Int.tdiv_nonneg (by omega) (by omega)
      have h4 : 0 ≤ v.tdiv ts * 1000000000 * (ts : Int) := Int.mul_nonneg (by omega) (by omega)
      rw [Int.tdiv_eq_ediv_of_nonneg (by omega), Int.add_mul_ediv_right _ _ (by omega), ← Int.tdiv_eq_ediv_of_nonneg (by omega)]
      omega
  have hr : -1000000000 ≤ (v.tmod ts * 1000000000).tdiv ts ∧ (v.tmod ts * 1000000000).tdiv ts ≤ 1000000000 := by
    have key : ∀ a : Int, 0 ≤ a → a < ts → 0 ≤ (a * 1000000000).tdiv ts ∧ (a * 1000000000).tdiv ts ≤ 1000000000 := by
      intro a ha hb
      refine ⟨Int.tdiv_nonneg (by omega) (by omega), ?_⟩
      rw [Int.tdiv_eq_ediv_of_nonneg (by omega)]
      apply Int.le_of_lt_add_one
      apply Int.ediv_lt_of_lt_mul hpos
      omega
    rcases Int.lt_or_le (v.tmod ts) 0 with hv | hv
    · have := key (-(v.tmod ts)) (by omega) (by omega)
      rw [Int.neg_mul, Int.neg_tdiv] at this
      omega
    · have := key _ hv hm1
      omega
  rw [hnano]
  unfold goTime wrap64
  have w1 : (v.tmod ts * 1000000000 + 2 ^ 63) % 2 ^ 64 - 2 ^ 63 = v.tmod ts * 1000000000 := by omega
  rw [w1]
  generalize (v.tmod ts * 1000000000).tdiv ts = r at hr
  omega

theorem pmp4_keyed_timed (ts : Nat) (hts : ts < 2 ^ 32) (l : List Sample) :
    ∀ t : Int, -(2 ^ 33 * ts) < t ∧ -(2 ^ 63) ≤ t →
      t + ((l.map (·.duration)).sum : Nat) < 2 ^ 33 * (ts : Int) ∧ t + ((l.map (·.duration)).sum : Nat) < 2 ^ 63 →
      keyed ts t l = List.zip ((startTimes t (l.map (·.duration))).map (nanoseconds · ts)) l := by
  induction l with
  | nil => intro t _ _; rfl
  | cons sa l ih =>
    intro t h1 h2
    simp only [List.map_cons, List.sum_cons, Int.natCast_add] at h2
    simp only [keyed, List.map_cons, startTimes, List.zip_cons_cons]
    rw [pmp4_goTime t ts (by omega) hts h1.1 (by omega)]
    have hw : wrap64 (t + sa.duration) = t + sa.duration := by
      unfold wrap64
      omega
    rw [hw, ih _ ⟨by omega, by omega⟩ ⟨by omega, by omega⟩]

/-- **C48.** When times are less than 272 years, the order of the file is the merge by start time: at each point the sample whose start
is the earliest, in nanoseconds; between equal ones, that of the first track. -/
theorem C48_time_order (tracks : List Track) (hts : ∀ t ∈ tracks, t.timeScale ≠ 0 ∧ t.timeScale < 2 ^ 32) (hin : ∀ t ∈ tracks, InTime t) :
    ∃ L out, sortSamples tracks = .ok L ∧ L.sorted = out.map (·.2) ∧ MergeBy (·.1) (L.tracks.map timedTrack) out := by
  obtain ⟨L, out, h1, h2, h3, h4, _⟩ := pmp4_sortSamples tracks (fun t ht _ => (hts t ht).1)
  refine ⟨L, out, h1, h2, ?_⟩
  have : L.tracks.map timedTrack = L.tracks.map keyedTrack := by
    apply List.map_congr_left
    intro t ht
    have hm : (fun t : Track => { t with samples := t.samples.map unplaced }) t ∈
        tracks.map (fun t => { t with samples := t.samples.map unplaced }) := by
      rw [← h4]; exact List.mem_map_of_mem (f := fun t : Track => { t with samples := t.samples.map unplaced }) ht
    obtain ⟨u, hu, heq⟩ := List.mem_map.mp hm
    have e1 : u.timeScale = t.timeScale := by have := congrArg (fun t : Track => t.timeScale) heq; exact this
    have e2 : u.timeOffset = t.timeOffset := by have := congrArg (fun t : Track => t.timeOffset) heq; exact this
    have e3 : u.samples.map (·.duration) = t.samples.map (·.duration) := by
      have := congrArg (fun t : Track => t.samples.map (·.duration)) heq
      simp only [List.map_map] at this
      exact this
    obtain ⟨i1, i2⟩ := hin u hu
    rw [e1, e2] at i1
    rw [e1, e2, e3] at i2
    exact (pmp4_keyed_timed t.timeScale (by rw [← e1]; exact (hts u hu).2) _ _ i1 i2).symm
  rw [this]; exact h3

theorem pmp4_merge_sorted {α : Type} {key : α → Int} {ls : List (List α)} {out : List α} (h : MergeBy key ls out) :
    (∀ l ∈ ls, l.Pairwise (fun a b => key a ≤ key b)) →
      out.Pairwise (fun a b => key a ≤ key b) ∧ ∀ x ∈ out, ∃ l ∈ ls, x ∈ l := by
  induction h with
  | nil _ => intro _; exact ⟨List.Pairwise.nil, fun x h => (by cases h)⟩
  | @cons pre post a l out h1 h2 _ ih =>
    intro hs
    have hl : (a :: l).Pairwise (fun a b => key a ≤ key b) := hs _ (List.mem_append_right _ List.mem_cons_self)
    obtain ⟨i1, i2⟩ := ih (by
      intro m hm
      rcases List.mem_append.mp hm with h | h
      · exact hs m (List.mem_append_left _ h)
      · rcases List.mem_cons.mp h with h | h
        · subst h; exact (List.pairwise_cons.mp hl).2
        · exact hs m (List.mem_append_right _ (List.mem_cons_of_mem _ h)))
    have hall : ∀ m : List α, m ∈ pre ∨ m ∈ post → ∀ x ∈ m, key a ≤ key x := by
      intro m hm x hx
      cases m with
      | nil => cases hx
      | cons b m =>
        have hb : key a ≤ key b := by
          rcases hm with h | h
          · have := h1 b m h; omega
          · exact h2 b m h
        have hp : (b :: m).Pairwise (fun a b => key a ≤ key b) := hs _ (by
          rcases hm with h | h
          · exact List.mem_append_left _ h
          · exact List.mem_append_right _ (List.mem_cons_of_mem _ h))
        rcases List.mem_cons.mp hx with h | h
        · subst h; exact hb
        · have := (List.pairwise_cons.mp hp).1 x h; omega
    refine ⟨List.Pairwise.cons ?_ i1, ?_⟩
    · intro x hx
      obtain ⟨m, hm, hxm⟩ := i2 x hx
      rcases List.mem_append.mp hm with h | h
      · exact hall m (Or.inl h) x hxm
      · rcases List.mem_cons.mp h with h | h
        · subst h; exact (List.pairwise_cons.mp hl).1 x hxm
        · exact hall m (Or.inr h) x hxm
    · intro x hx
      rcases List.mem_cons.mp hx with h | h
      · subst h; exact ⟨x :: l, List.mem_append_right _ List.mem_cons_self, List.mem_cons_self⟩
      · obtain ⟨m, hm, hxm⟩ := i2 x h
        rcases List.mem_append.mp hm with h | h
        · exact ⟨m, List.mem_append_left _ h, hxm⟩
        · rcases List.mem_cons.mp h with h | h
          · subst h; exact ⟨a :: m, List.mem_append_right _ List.mem_cons_self, List.mem_cons_of_mem _ hxm⟩
          · exact ⟨m, List.mem_append_right _ (List.mem_cons_of_mem _ h), hxm⟩

/-- **C48.** Start times do not decrease along the file. -/
theorem C48_nondecreasing (tracks : List Track) (hts : ∀ t ∈ tracks, t.timeScale ≠ 0 ∧ t.timeScale < 2 ^ 32) (hin : ∀ t ∈ tracks, InTime t) :
    ∃ L out, sortSamples tracks = .ok L ∧ L.sorted = out.map (·.2) ∧ Interleaving (L.tracks.map timedTrack) out ∧
      out.Pairwise (fun a b => a.1 ≤ b.1) := by
  obtain ⟨L, out, h1, h2, h3⟩ := C48_time_order tracks hts hin
  refine ⟨L, out, h1, h2, ?_, ?_⟩
  · have := pmp4_merge_interleaving id h3
    simpa using this
  · refine (pmp4_merge_sorted h3 ?_).1
    intro l hl
    obtain ⟨t, _, rfl⟩ := List.mem_map.mp hl
    have key : ∀ (ts : Nat) (ss : List Sample) (x : Int),
        (List.zip ((startTimes x (ss.map (·.duration))).map (nanoseconds · ts)) ss).Pairwise (fun a b => a.1 ≤ b.1) ∧
          ∀ y ∈ List.zip ((startTimes x (ss.map (·.duration))).map (nanoseconds · ts)) ss, nanoseconds x ts ≤ y.1 := by
      intro ts ss
      have mono : ∀ a b : Int, a ≤ b → nanoseconds a ts ≤ nanoseconds b ts := by
        intro a b hab
        unfold nanoseconds
        rcases Nat.eq_zero_or_pos ts with h | h
        · subst h; simp
        · have hp : (0 : Int) < ts := by omega
          rcases Int.lt_or_le a 0 with ha | ha
          · rcases Int.lt_or_le b 0 with hb | hb
            · have : ((-b) * 1000000000).tdiv ts ≤ ((-a) * 1000000000).tdiv ts := by
                rw [Int.tdiv_eq_ediv_of_nonneg (by omega), Int.tdiv_eq_ediv_of_nonneg (by omega)]
                exact Int.ediv_le_ediv hp (by omega)
              rw [Int.neg_mul, Int.neg_mul, Int.neg_tdiv, Int.neg_tdiv] at this
              omega
            · have h1 : (a * 1000000000).tdiv ts ≤ 0 := pmp4_tdiv_nonpos (by omega) (by omega)
              have h2 : 0 ≤ (b * 1000000000).tdiv ts := Int.tdiv_nonneg (by omega) (by omega)
              omega
          · rw [Int.tdiv_eq_ediv_of_nonneg (by omega), Int.tdiv_eq_ediv_of_nonneg (by omega)]
            exact Int.ediv_le_ediv hp (by omega)
      induction ss with
      | nil => intro x; exact ⟨List.Pairwise.nil, fun y h => (by cases h)⟩
      | cons sa ss ih =>
        intro x
        obtain ⟨i1, i2⟩ := ih (x + sa.duration)
        have hx := mono x (x + sa.duration) (by omega)
        refine ⟨List.Pairwise.cons (fun y hy => ?_) i1, fun y hy => ?_⟩
        · have := i2 y hy; simp only; omega
        · rcases List.mem_cons.mp hy with h | h
          · subst h; exact Int.le_refl _
          · have := i2 y h; omega
    exact (key _ _ _).1

/-- Two tracks, with different time scales; the second one starts later. -/
def exampleTracks : List Track :=
  [{ id := 1, timeScale := 90000, samples := [{ duration := 90000, payloadSize := 3, payload := [1, 2, 3] },
      { duration := 90000, payloadSize := 1, payload := [4], isNonSync := true, ptsOffset := -5 }] },
   { id := 2, timeScale := 48000, timeOffset := 24000, samples := [{ duration := 12000, payloadSize := 2, payload := [5, 6] },
      { duration := 24000, payloadSize := 0, payload := [] }, { duration := 12000, payloadSize := 1, payload := [7] }] }]

example : ∃ L, sortSamples exampleTracks = .ok L ∧ L.sorted.map (·.payload) = [[1, 2, 3], [5, 6], [], [4], [7]] ∧
    L.sorted.map (·.offset) = [0, 3, 5, 5, 6] ∧ L.dataSize = 7 := by
  refine ⟨_, rfl, ?_, ?_, ?_⟩ <;> decide

example : ∀ t ∈ exampleTracks, InTime t ∧ t.timeScale ≠ 0 ∧ t.timeScale < 2 ^ 32 := by
  simp [exampleTracks, InTime]

/-- Two tracks with long samples: those of the first one start at 0, 4, 8 and 12 thousand million seconds, those of the second one at 1,
5 and 9. -/
def longTracks : List Track :=
  [{ samples := [{ duration := 4000000000, payload := [1] }, { duration := 4000000000, payload := [2] },
      { duration := 4000000000, payload := [3] }, { duration := 4000000000, payload := [4] }] },
   { timeOffset := 1000000000, samples := [{ duration := 4000000000, payload := [5] }, { duration := 4000000000, payload := [6] },
      { duration := 4000000000, payload := [7] }] }]

/-- Without a bound on times, the order may be wrong: `durationMp4ToGo` overflows. -/
theorem C48_overflow_false : ∃ tracks : List Track, (∀ t ∈ tracks, t.timeScale = 1 ∧ ∀ sa ∈ t.samples, sa.duration < 2 ^ 32) ∧
    ∃ L, sortSamples tracks = .ok L ∧ ¬ ∃ out, L.sorted = out.map (·.2) ∧ Interleaving (L.tracks.map timedTrack) out ∧
      out.Pairwise (fun a b => a.1 ≤ b.1) := by
  refine ⟨longTracks, by simp [longTracks], ⟨0, [{ duration := 4000000000, payload := [1] }, { duration := 4000000000, payload := [5] },
    { duration := 4000000000, payload := [2] }, { duration := 4000000000, payload := [6] }, { duration := 4000000000, payload := [3] },
    { duration := 4000000000, payload := [4] }, { duration := 4000000000, payload := [7] }], longTracks⟩, by decide +kernel, ?_⟩
  rintro ⟨out, h1, h2, h3⟩
  have hmem : ∀ (ls : List (List (Int × Sample))) (out : List (Int × Sample)), Interleaving ls out → ∀ x ∈ out, x ∈ ls.flatten := by
    intro ls out h
    induction h with
    | nil _ => intro x hx; cases hx
    | cons _ ih =>
      intro x hx
      simp only [List.flatten_append, List.flatten_cons, List.mem_append] at ih ⊢
      rcases List.mem_cons.mp hx with h | h
      · subst h; exact Or.inr (Or.inl List.mem_cons_self)
      · rcases ih x h with h | h | h
        · exact Or.inl h
        · exact Or.inr (Or.inl (List.mem_cons_of_mem _ h))
        · exact Or.inr (Or.inr h)
  have hlen : out.length = 7 := by
    have := congrArg List.length h1
    simpa using this.symm
  have h5 : (out.map (·.2))[5]? = some { duration := 4000000000, payload := [4] } := by rw [← h1]; rfl
  have h6 : (out.map (·.2))[6]? = some { duration := 4000000000, payload := [7] } := by rw [← h1]; rfl
  have e5 : out[5].2 = { duration := 4000000000, payload := [4] } := by simpa [hlen] using h5
  have e6 : out[6].2 = { duration := 4000000000, payload := [7] } := by simpa [hlen] using h6
  have m5 := hmem _ _ h2 out[5] (List.getElem_mem _)
  have m6 := hmem _ _ h2 out[6] (List.getElem_mem _)
  have t5 : ∀ x ∈ (longTracks.map timedTrack).flatten, x.2 = { duration := 4000000000, payload := [4] } → x.1 = 12000000000000000000 := by
    decide
  have t6 : ∀ x ∈ (longTracks.map timedTrack).flatten, x.2 = { duration := 4000000000, payload := [7] } → x.1 = 9000000000000000000 := by
    decide
  have hle := List.pairwise_iff_getElem.mp h3 5 6 (by omega) (by omega) (by omega)
  rw [t5 _ m5 e5, t6 _ m6 e6] at hle
  exact absurd hle (by decide)

end Verif.Props
