import Verif.Props.DTSBuffers

/-!
# C115: DTS do not depend on the origin of time
-/

namespace Verif.Props
open Verif.TS (wrap64)

/-! ## Specification -/

/-- Times that are far from the limits of `int64`. -/
def NearTime (v : Int) : Prop := -2 ^ 60 ≤ v ∧ v ≤ 2 ^ 60

/-- The stream, when clocks are `c` ahead. -/
def clockAhead {α : Type} (c : Int) (l : List (α × Int)) : List (α × Int) := l.map fun a => (a.1, a.2 + c)

/-- The result of a call, when clocks are `c` ahead: errors are the same. -/
def resultAhead (c : Int) : Res Int → Res Int
  | .ok v => .ok (v + c)
  | .err e => .err e
  | .panic => .panic

/-! ## Code that does not look at times -/

section
variable {σ α β γ : Type} {S : Int → σ → σ} {g : σ → γ}

/-- Code that neither reads nor writes the last DTS, that is written by `S` and is a part of `g`. -/
def Blind (S : Int → σ → σ) (g : σ → γ) (m : StepM σ α) : Prop := ∀ d, g (m d).1 = g d ∧ ∀ p, m (S p d) = (S p (m d).1, (m d).2)

theorem origin_run (m : StepM σ α) (k : α → StepM σ β) (d : σ) :
    (m >>= k) d = match m d with | (s, .ok a) => k a s | (s, .err e) => (s, .err e) | (s, .panic) => (s, .panic) := rfl

theorem origin_pure (a : α) : Blind S g (pure a : StepM σ α) := fun _ => ⟨rfl, fun _ => rfl⟩
theorem origin_fail (e : String) : Blind S g (StepM.fail e : StepM σ α) := fun _ => ⟨rfl, fun _ => rfl⟩
theorem origin_lift (x : Res α) : Blind S g (StepM.lift x : StepM σ α) := fun _ => ⟨rfl, fun _ => rfl⟩
theorem origin_modify (f : σ → σ) (h : ∀ d, g (f d) = g d ∧ ∀ p, f (S p d) = S p (f d)) : Blind S g (StepM.modify f) :=
  fun d => ⟨(h d).1, fun p => by unfold StepM.modify; rw [(h d).2 p]⟩

theorem origin_bind {m : StepM σ α} {k : α → StepM σ β} (hm : Blind S g m) (hk : ∀ a, Blind S g (k a)) : Blind S g (m >>= k) := by
  intro d
  obtain ⟨h1, h2⟩ := hm d
  show g (match m d with | (s, .ok a) => k a s | (s, .err e) => (s, .err e) | (s, .panic) => (s, .panic)).1 = g d ∧ ∀ p,
    (match m (S p d) with | (s, .ok a) => k a s | (s, .err e) => (s, .err e) | (s, .panic) => (s, .panic)) =
      (S p (match m d with | (s, .ok a) => k a s | (s, .err e) => (s, .err e) | (s, .panic) => (s, .panic)).1,
        (match m d with | (s, .ok a) => k a s | (s, .err e) => (s, .err e) | (s, .panic) => (s, .panic)).2)
  rcases hd : m d with ⟨s, x⟩
  rw [hd] at h1 h2
  cases x with
  | ok a => exact ⟨((hk a s).1).trans h1, fun p => by rw [h2 p]; exact (hk a s).2 p⟩
  | err e => exact ⟨h1, fun p => by rw [h2 p]⟩
  | panic => exact ⟨h1, fun p => by rw [h2 p]⟩

theorem origin_get {k : σ → StepM σ β} (hk : ∀ d, Blind S g (k d)) (hs : ∀ d p, k (S p d) = k d) : Blind S g (StepM.get >>= k) := by
  intro d
  refine ⟨(hk d d).1, fun p => ?_⟩
  show k (S p d) (S p d) = (S p (k d d).1, (k d d).2)
  rw [hs]
  exact (hk d d).2 p

theorem origin_if {c : Prop} [Decidable c] {x y : StepM σ α} (hx : Blind S g x) (hy : Blind S g y) : Blind S g (if c then x else y) := by
  by_cases h : c
  · rw [if_pos h]; exact hx
  · rw [if_neg h]; exact hy

/-- Two receivers that differ in the last DTS only, by `c`. -/
def Ahead (S : Int → σ → σ) (filled : σ → Bool) (prev : σ → Int) (c : Int) (d d' : σ) : Prop :=
  ∃ p, d' = S p d ∧ (filled d = true → p = prev d + c ∧ NearTime (prev d))

/-- The values that are computed from the two receivers. -/
def ValueAhead (c : Int) (near : Bool) : Res (Int × Bool) → Res (Int × Bool) → Prop
  | .ok v, .ok w => w = (wrap64 (v.1 + c), v.2) ∧ (near = true → -2 ^ 62 ≤ v.1 ∧ v.1 ≤ 2 ^ 62)
  | .err e, .err e' => e = e'
  | .panic, .panic => True
  | _, _ => False

/-- Code that computes a DTS. `always` tells whether also the first one is near the PTS. -/
def Moves (S : Int → σ → σ) (filled : σ → Bool) (prev : σ → Int) (always : Bool) (c : Int) (m m' : StepM σ (Int × Bool)) : Prop :=
  ∀ d d', Ahead S filled prev c d d' →
    Ahead S filled prev c (m d).1 (m' d').1 ∧ (filled (m d).1, prev (m d).1) = (filled d, prev d) ∧
      ValueAhead c (filled d || always) (m d).2 (m' d').2

theorem origin_blind {filled : σ → Bool} {prev : σ → Int} {always : Bool} {c : Int} {m : StepM σ (Int × Bool)} (e : String) (h : m = StepM.fail e) :
    Moves S filled prev always c m m := by
  subst h
  exact fun d d' h => ⟨h, rfl, rfl⟩

theorem origin_panic {filled : σ → Bool} {prev : σ → Int} {always : Bool} {c : Int} : Moves S filled prev always c (StepM.lift .panic) (StepM.lift .panic) :=
  fun d d' h => ⟨h, rfl, trivial⟩

theorem origin_then {filled : σ → Bool} {prev : σ → Int} {always : Bool} {c : Int} {m : StepM σ α} {k k' : α → StepM σ (Int × Bool)}
    (hm : Blind S (fun d => (filled d, prev d)) m) (hk : ∀ a, Moves S filled prev always c (k a) (k' a)) : Moves S filled prev always c (m >>= k) (m >>= k') := by
  rintro d d' ⟨p, rfl, hp⟩
  obtain ⟨h1, h2⟩ := hm d
  show Ahead S filled prev c (match m d with | (s, .ok a) => k a s | (s, .err e) => (s, .err e) | (s, .panic) => (s, .panic)).1
      (match m (S p d) with | (s, .ok a) => k' a s | (s, .err e) => (s, .err e) | (s, .panic) => (s, .panic)).1 ∧
    (filled (match m d with | (s, .ok a) => k a s | (s, .err e) => (s, .err e) | (s, .panic) => (s, .panic)).1,
      prev (match m d with | (s, .ok a) => k a s | (s, .err e) => (s, .err e) | (s, .panic) => (s, .panic)).1) = (filled d, prev d) ∧
    ValueAhead c (filled d || always) (match m d with | (s, .ok a) => k a s | (s, .err e) => (s, .err e) | (s, .panic) => (s, .panic)).2
      (match m (S p d) with | (s, .ok a) => k' a s | (s, .err e) => (s, .err e) | (s, .panic) => (s, .panic)).2
  rw [h2 p]
  rcases hd : m d with ⟨s, x⟩
  rw [hd] at h1
  dsimp only at h1
  have hf : filled s = filled d := congrArg Prod.fst h1
  have hv : prev s = prev d := congrArg Prod.snd h1
  have ha : Ahead S filled prev c s (S p s) := ⟨p, rfl, by rw [hf, hv]; exact hp⟩
  cases x with
  | ok a =>
    obtain ⟨g1, g2, g3⟩ := hk a s (S p s) ha
    exact ⟨g1, g2.trans h1, by rw [← hf]; exact g3⟩
  | err e => exact ⟨ha, h1, rfl⟩
  | panic => exact ⟨ha, h1, trivial⟩

theorem origin_get_then {filled : σ → Bool} {prev : σ → Int} {always : Bool} {c : Int} {k k' : σ → StepM σ (Int × Bool)} (hk : ∀ d, Moves S filled prev always c (k d) (k' d))
    (hs : ∀ d p, k' (S p d) = k' d) : Moves S filled prev always c (StepM.get >>= k) (StepM.get >>= k') := by
  rintro d d' ⟨p, rfl, hp⟩
  show Ahead S filled prev c (k d d).1 (k' (S p d) (S p d)).1 ∧ _ ∧ ValueAhead c (filled d || always) (k d d).2 (k' (S p d) (S p d)).2
  rw [hs]
  exact hk d d _ ⟨p, rfl, hp⟩

end

theorem origin_wrap (v : Int) (h : -2 ^ 63 ≤ v ∧ v < 2 ^ 63) : wrap64 v = v := by unfold wrap64; omega

theorem origin_wrap_add (v c : Int) : wrap64 (wrap64 v + c) = wrap64 (v + c) := by unfold wrap64; omega

theorem origin_wrap_sub (v c p : Int) : wrap64 (v + c - (p + c)) = wrap64 (v - p) := by congr 1; omega

/-- A DTS between the last one and the PTS. -/
theorem origin_between (p v n : Int) (hp : NearTime p) (hv : NearTime v) :
    -2 ^ 62 ≤ wrap64 (p + (wrap64 (v - p)).tdiv n) ∧ wrap64 (p + (wrap64 (v - p)).tdiv n) ≤ 2 ^ 62 := by
  obtain ⟨h1, h2⟩ := hp
  obtain ⟨h3, h4⟩ := hv
  rw [origin_wrap (v - p) (by omega)]
  have hq : ((v - p).tdiv n).natAbs ≤ (v - p).natAbs := by
    rw [Int.natAbs_tdiv]
    exact Nat.div_le_self _ _
  generalize (v - p).tdiv n = q at hq ⊢
  rw [origin_wrap (p + q) (by omega)]
  omega

/-! ## Extract -/

section
variable {σ α : Type} {S : Int → σ → σ} {filled : σ → Bool} {prev : σ → Int} {always : Bool} {c : Int}

/-- What both extractors do with a DTS. -/
def checked (filled : σ → Bool) (prev : σ → Int) (F : Int → σ → σ) (pts : Int) (r : Int × Bool) : StepM σ Int := do
  let d ← StepM.get
  if r.2 = false ∧ r.1 > pts then StepM.fail "DTS is greater than PTS"
  else if filled d = true ∧ r.1 < prev d then StepM.fail "DTS is not monotonically increasing"
  else do
    StepM.modify (F r.1)
    pure r.1

theorem origin_checked (F : Int → σ → σ) (pts : Int) (r : Int × Bool) (d : σ) : checked filled prev F pts r d =
    if r.2 = false ∧ r.1 > pts then (d, .err "DTS is greater than PTS")
    else if filled d = true ∧ r.1 < prev d then (d, .err "DTS is not monotonically increasing") else (F r.1 d, .ok r.1) := by
  show (if r.2 = false ∧ r.1 > pts then StepM.fail "DTS is greater than PTS"
    else if filled d = true ∧ r.1 < prev d then StepM.fail "DTS is not monotonically increasing"
    else do StepM.modify (F r.1); pure r.1 : StepM σ Int) d = _
  split
  · rfl
  split <;> rfl

theorem origin_step {F : Int → σ → σ} (hF : ∀ v d, filled (F v d) = true ∧ prev (F v d) = v ∧ ∀ p w, F w (S p d) = S w (F v d))
    (hS : ∀ p d, filled (S p d) = filled d ∧ prev (S p d) = p) {m m' : StepM σ (Int × Bool)} (hm : Moves S filled prev always c m m') {pts : Int}
    (hc : NearTime c) (hp : NearTime pts) {d d' : σ} (ha : Ahead S filled prev c d d')
    (ho : ∀ v, ((m >>= checked filled prev F pts) d).2 = .ok v → NearTime v)
    (he : filled d = true ∨ always = true ∨ ((m >>= checked filled prev F pts) d).2 ≠ .err "DTS is greater than PTS") :
    Ahead S filled prev c ((m >>= checked filled prev F pts) d).1 ((m' >>= checked filled prev F (pts + c)) d').1 ∧
      ((m' >>= checked filled prev F (pts + c)) d').2 = resultAhead c ((m >>= checked filled prev F pts) d).2 ∧
      (filled d = true ∨ (∃ v, ((m >>= checked filled prev F pts) d).2 = .ok v) → filled ((m >>= checked filled prev F pts) d).1 = true) := by
  obtain ⟨h1, h2, h3⟩ := hm d d' ha
  have hf : filled (m d).1 = filled d := congrArg Prod.fst h2
  rw [origin_run] at ho he ⊢
  rw [origin_run]
  rcases hd : m d with ⟨s, x⟩
  rcases hd' : m' d' with ⟨s', x'⟩
  rw [hd, hd'] at h1 h3
  rw [hd] at hf ho he
  dsimp only at h1 h3 hf
  match x, x', h3 with
  | .err e, .err e', h3 =>
    cases (show e = e' from h3)
    exact ⟨h1, rfl, fun h => h.elim (fun h => hf.trans h) fun ⟨v, h⟩ => by cases h⟩
  | .panic, .panic, _ => exact ⟨h1, rfl, fun h => h.elim (fun h => hf.trans h) fun ⟨v, h⟩ => by cases h⟩
  | .ok r, .ok w, ⟨h4, h5⟩ =>
    subst h4
    obtain ⟨p, rfl, hq⟩ := h1
    dsimp only at ho he ⊢
    rw [origin_checked] at ho he ⊢
    rw [origin_checked]
    have hr : -2 ^ 62 ≤ r.1 ∧ r.1 ≤ 2 ^ 62 := by
      cases hnear : (filled d || always) with
      | true => exact h5 hnear
      | false =>
        rw [Bool.or_eq_false_iff] at hnear
        rw [hnear.1, hnear.2] at he
        rw [hnear.1] at hf
        by_cases c1 : r.2 = false ∧ r.1 > pts
        · rw [if_pos c1] at he
          simp at he
        · rw [if_neg c1, if_neg (by rw [hf]; simp)] at ho
          have := ho _ rfl
          unfold NearTime at this
          omega
    have hw : wrap64 (r.1 + c) = r.1 + c := origin_wrap _ (by unfold NearTime at hc; omega)
    dsimp only
    rw [hw]
    by_cases c1 : r.2 = false ∧ r.1 > pts
    · rw [if_pos c1, if_pos ⟨c1.1, by omega⟩]
      exact ⟨⟨p, rfl, hq⟩, rfl, fun h => h.elim (fun h => hf.trans h) fun ⟨v, h⟩ => by cases h⟩
    rw [if_neg c1] at ho ⊢
    rw [if_neg (show ¬ (r.2 = false ∧ r.1 + c > pts + c) from fun h => c1 ⟨h.1, by omega⟩), (hS p s).1, (hS p s).2]
    by_cases c2 : filled s = true ∧ r.1 < prev s
    · obtain ⟨h6, _⟩ := hq c2.1
      rw [if_pos c2, if_pos ⟨c2.1, by omega⟩]
      exact ⟨⟨p, rfl, hq⟩, rfl, fun h => h.elim (fun h => hf.trans h) fun ⟨v, h⟩ => by cases h⟩
    · rw [if_neg c2] at ho ⊢
      rw [if_neg (show ¬ (filled s = true ∧ r.1 + c < p) from fun h => c2 ⟨h.1, by have := (hq h.1).1; omega⟩)]
      obtain ⟨g1, g2, g3⟩ := hF r.1 s
      refine ⟨⟨r.1 + c, g3 _ _, fun _ => ⟨by rw [g2], by rw [g2]; exact ho _ rfl⟩⟩, rfl, fun _ => g1⟩

/-- Successive calls. -/
theorem origin_calls {F : Int → σ → σ} (hF : ∀ v d, filled (F v d) = true ∧ prev (F v d) = v ∧ ∀ p w, F w (S p d) = S w (F v d))
    (hS : ∀ p d, filled (S p d) = filled d ∧ prev (S p d) = p) (ex : α × Int → StepM σ Int) (inner : α → Int → StepM σ (Int × Bool))
    (hex : ∀ a, ex a = inner a.1 a.2 >>= checked filled prev F a.2) (hc : NearTime c)
    (hm : ∀ a pts, NearTime pts → Moves S filled prev always c (inner a pts) (inner a (pts + c))) :
    ∀ (l : List (α × Int)) (d d' : σ), Ahead S filled prev c d d' → (∀ a ∈ l, NearTime a.2) → (∀ v, .ok v ∈ StepM.calls ex d l → NearTime v) →
      (filled d = true ∨ always = true ∨ ∀ x y, StepM.calls ex d l = x ++ .err "DTS is greater than PTS" :: y → ∃ v, Res.ok v ∈ x) →
      StepM.calls ex d' (clockAhead c l) = (StepM.calls ex d l).map (resultAhead c)
  | [], d, d', _, _, _, _ => rfl
  | a :: l, d, d', ha, hp, ho, he => by
    have hpa := hp a List.mem_cons_self
    have st := origin_step hF hS (hm a.1 a.2 hpa) hc hpa ha (d := d) (d' := d')
      (by rw [← hex]; exact fun v hv => ho v (by unfold StepM.calls; rw [hv]; exact List.mem_cons_self))
      (by
        rw [← hex]
        rcases he with h | h | h
        · exact .inl h
        · exact .inr (.inl h)
        · refine .inr (.inr fun h' => ?_)
          obtain ⟨v, hv⟩ := h [] _ (by unfold StepM.calls; rw [h']; rfl)
          cases hv)
    have e' : (inner a.1 (a.2 + c) >>= checked filled prev F (a.2 + c)) = ex (a.1, a.2 + c) := (hex (a.1, a.2 + c)).symm
    rw [← hex, e'] at st
    obtain ⟨g1, g2, g3⟩ := st
    show (ex (a.1, a.2 + c) d').2 :: StepM.calls ex (ex (a.1, a.2 + c) d').1 (clockAhead c l) =
      resultAhead c (ex a d).2 :: (StepM.calls ex (ex a d).1 l).map (resultAhead c)
    rw [g2]
    congr 1
    refine origin_calls hF hS ex inner hex hc hm l _ _ g1 (fun b hb => hp b (List.mem_cons_of_mem _ hb))
      (fun v hv => ho v (by unfold StepM.calls; exact List.mem_cons_of_mem _ hv)) ?_
    rcases he with h | h | h
    · exact .inl (g3 (.inl h))
    · exact .inr (.inl h)
    · by_cases hv : ∃ v, (ex a d).2 = .ok v
      · exact .inl (g3 (.inr hv))
      · refine .inr (.inr fun x y hxy => ?_)
        obtain ⟨v, hx⟩ := h ((ex a d).2 :: x) y (by unfold StepM.calls; rw [hxy]; rfl)
        rcases List.mem_cons.1 hx with hx | hx
        · exact absurd ⟨v, hx.symm⟩ hv
        · exact ⟨v, hx⟩

end

/-! ## H264 -/

namespace Origin264
open Verif.H264

def put (p : Int) (d : DTSExtractor) : DTSExtractor := { d with prevDTS := p }
def look (d : DTSExtractor) : Bool × Int := (d.prevDTSFilled, d.prevDTS)

abbrev B {α : Type} (m : DM α) : Prop := Blind put (fun d => (d.prevDTSFilled, d.prevDTS)) m
abbrev M (c : Int) (m m' : DM (Int × Bool)) : Prop := Moves put DTSExtractor.prevDTSFilled DTSExtractor.prevDTS true c m m'

theorem handleSPS (nalu : Bytes) : B (H264.handleSPS nalu) := by
  unfold H264.handleSPS
  refine origin_get (fun d => origin_if (origin_pure _) ?_) fun d p => rfl
  cases ({} : SPS).unmarshal nalu with
  | ok s => exact origin_modify _ fun d => ⟨rfl, fun p => rfl⟩
  | err e => exact origin_fail _
  | panic => exact origin_lift _

theorem scan : ∀ (l : List Bytes) (nz : Bool), B (H264.scan nz l)
  | [], nz => origin_pure _
  | nalu :: l, nz => by
    unfold H264.scan
    refine origin_bind (origin_lift _) fun b => ?_
    exact origin_if (origin_bind (handleSPS nalu) fun _ => scan l _) (origin_if (origin_pure _) (origin_if (origin_pure _) (scan l _)))

theorem checkRandom (f : Found) : B (H264.checkRandom f) := by
  unfold H264.checkRandom
  refine origin_get (fun d => origin_if (origin_pure _) (origin_if (origin_fail _) (origin_modify _ fun d => ⟨rfl, fun p => rfl⟩))) fun d p => rfl

theorem handleIDR (n : Bytes) (sps : SPS) : B (H264.handleIDR n sps) := by
  unfold H264.handleIDR
  cases getPictureOrderCount n sps true with
  | err e => exact origin_bind (origin_modify _ fun d => ⟨rfl, fun p => rfl⟩) fun _ => origin_fail _
  | panic => exact origin_lift _
  | ok poc =>
    refine origin_bind (origin_modify _ fun d => ⟨rfl, fun p => rfl⟩) fun _ => origin_get (fun d => ?_) fun d p => rfl
    exact origin_if (origin_bind (origin_modify _ fun d => ⟨rfl, fun p => rfl⟩) fun _ => origin_pure _) (origin_pure _)

theorem increaseReordered (n : Int) : B (H264.increaseReordered n) := by
  unfold H264.increaseReordered
  exact origin_get (fun d => origin_if (origin_fail _) (origin_modify _ fun d => ⟨rfl, fun p => rfl⟩)) fun d p => rfl

theorem detectIncrement (poc : Nat) : B (H264.detectIncrement poc) := by
  unfold H264.detectIncrement
  refine origin_get (fun d => ?_) fun d p => rfl
  refine origin_if (origin_bind (origin_modify _ fun d => ⟨rfl, fun p => rfl⟩) fun _ => origin_if (increaseReordered _) (origin_pure _)) ?_
  exact origin_if (origin_modify _ fun d => ⟨rfl, fun p => rfl⟩) (origin_pure _)

theorem updateIncrement (poc : Nat) : B (H264.updateIncrement poc) := by
  unfold H264.updateIncrement
  refine origin_get (fun d => ?_) fun d p => rfl
  exact origin_if (origin_bind (detectIncrement poc) fun _ => origin_modify _ fun d => ⟨rfl, fun p => rfl⟩) (origin_pure _)

theorem advance (poc : Nat) (sps : SPS) : B (H264.advance poc sps) := by
  unfold H264.advance
  refine origin_bind (origin_modify _ fun d => ⟨rfl, fun p => rfl⟩) fun _ => origin_get (fun d => ?_) fun d p => rfl
  exact origin_if (origin_lift _) (origin_pure _)

theorem handleNonIDR (n : Bytes) (sps : SPS) : B (H264.handleNonIDR n sps) := by
  unfold H264.handleNonIDR
  exact origin_bind (origin_lift _) fun poc => origin_bind (updateIncrement poc) fun _ => advance poc sps

theorem adjust (diff : Int) : B (H264.adjust diff) := by
  unfold H264.adjust
  refine origin_get (fun d => ?_) fun d p => rfl
  refine origin_if (origin_bind (increaseReordered _) fun _ => origin_pure _) ?_
  exact origin_if (origin_bind (increaseReordered _) fun _ => origin_pure _) (origin_pure _)

theorem finish (c diff pts : Int) (hc : NearTime c) (hp : NearTime pts) : M c (H264.finish diff pts) (H264.finish diff (pts + c)) := by
  rintro d d' ⟨p, rfl, h⟩
  have hw : pts + c = wrap64 (pts + c) := (origin_wrap _ (by unfold NearTime at hc hp; omega)).symm
  have hpts : -2 ^ 62 ≤ pts ∧ pts ≤ 2 ^ 62 := by unfold NearTime at hp; omega
  by_cases h1 : d.pause > 0
  · by_cases h2 : d.prevDTSFilled = true
    · obtain ⟨rfl, hn⟩ := h h2
      have e1 : H264.finish diff pts d = ({ d with pause := d.pause - 1 }, .ok (wrap64 (d.prevDTS + 90), true)) := by
        show (if d.pause > 0 then _ else _ : DM (Int × Bool)) d = _
        rw [if_pos h1]
        show (if d.prevDTSFilled = true then _ else _ : DM (Int × Bool)) { d with pause := d.pause - 1 } = _
        rw [if_pos h2]
        rfl
      have e2 : H264.finish diff (pts + c) (put (d.prevDTS + c) d) =
          (put (d.prevDTS + c) { d with pause := d.pause - 1 }, .ok (wrap64 (d.prevDTS + c + 90), true)) := by
        show (if d.pause > 0 then _ else _ : DM (Int × Bool)) (put (d.prevDTS + c) d) = _
        rw [if_pos h1]
        show (if d.prevDTSFilled = true then _ else _ : DM (Int × Bool)) (put (d.prevDTS + c) { d with pause := d.pause - 1 }) = _
        rw [if_pos h2]
        rfl
      rw [e1, e2]
      refine ⟨⟨_, rfl, fun _ => ⟨rfl, hn⟩⟩, rfl, ?_, fun _ => ?_⟩
      · dsimp only
        rw [origin_wrap_add, show d.prevDTS + 90 + c = d.prevDTS + c + 90 by omega]
      · dsimp only
        unfold NearTime at hn
        rw [origin_wrap _ (by omega)]
        omega
    · have e1 : H264.finish diff pts d = ({ d with pause := d.pause - 1 }, .ok (pts, true)) := by
        show (if d.pause > 0 then _ else _ : DM (Int × Bool)) d = _
        rw [if_pos h1]
        show (if d.prevDTSFilled = true then _ else _ : DM (Int × Bool)) { d with pause := d.pause - 1 } = _
        rw [if_neg h2]
        rfl
      have e2 : H264.finish diff (pts + c) (put p d) = (put p { d with pause := d.pause - 1 }, .ok (pts + c, true)) := by
        show (if d.pause > 0 then _ else _ : DM (Int × Bool)) (put p d) = _
        rw [if_pos h1]
        show (if d.prevDTSFilled = true then _ else _ : DM (Int × Bool)) (put p { d with pause := d.pause - 1 }) = _
        rw [if_neg h2]
        rfl
      rw [e1, e2]
      exact ⟨⟨_, rfl, fun h => absurd h h2⟩, rfl, by dsimp only; rw [← hw], fun _ => hpts⟩
  · by_cases h2 : d.prevDTSFilled = true
    · obtain ⟨rfl, hn⟩ := h h2
      by_cases h3 : diff + 1 = 0
      · have e1 : H264.finish diff pts d = (d, .panic) := by
          show (if d.pause > 0 then _ else _ : DM (Int × Bool)) d = _
          rw [if_neg h1, if_pos h2, if_pos h3]
          rfl
        have e2 : H264.finish diff (pts + c) (put (d.prevDTS + c) d) = (put (d.prevDTS + c) d, .panic) := by
          show (if d.pause > 0 then _ else if d.prevDTSFilled = true then _ else _ : DM (Int × Bool)) (put (d.prevDTS + c) d) = _
          rw [if_neg h1, if_pos h2, if_pos h3]
          rfl
        rw [e1, e2]
        exact ⟨⟨_, rfl, fun _ => ⟨rfl, hn⟩⟩, rfl, trivial⟩
      · have e1 : H264.finish diff pts d = (d, .ok (wrap64 (d.prevDTS + (wrap64 (pts - d.prevDTS)).tdiv (diff + 1)), false)) := by
          show (if d.pause > 0 then _ else _ : DM (Int × Bool)) d = _
          rw [if_neg h1, if_pos h2, if_neg h3]
          rfl
        have e2 : H264.finish diff (pts + c) (put (d.prevDTS + c) d) =
            (put (d.prevDTS + c) d, .ok (wrap64 (d.prevDTS + c + (wrap64 (pts + c - (d.prevDTS + c))).tdiv (diff + 1)), false)) := by
          show (if d.pause > 0 then _ else if d.prevDTSFilled = true then _ else _ : DM (Int × Bool)) (put (d.prevDTS + c) d) = _
          rw [if_neg h1, if_pos h2, if_neg h3]
          rfl
        rw [e1, e2]
        refine ⟨⟨_, rfl, fun _ => ⟨rfl, hn⟩⟩, rfl, ?_, fun _ => origin_between _ _ _ hn hp⟩
        dsimp only
        rw [origin_wrap_add, origin_wrap_sub, Int.add_right_comm]
    · have e1 : H264.finish diff pts d = (d, .ok (pts, true)) := by
        show (if d.pause > 0 then _ else _ : DM (Int × Bool)) d = _
        rw [if_neg h1, if_neg h2]
        rfl
      have e2 : H264.finish diff (pts + c) (put p d) = (put p d, .ok (pts + c, true)) := by
        show (if d.pause > 0 then _ else if d.prevDTSFilled = true then _ else _ : DM (Int × Bool)) (put p d) = _
        rw [if_neg h1, if_neg h2]
        rfl
      rw [e1, e2]
      exact ⟨⟨_, rfl, fun h => absurd h h2⟩, rfl, by dsimp only; rw [← hw], fun _ => hpts⟩

theorem repeatDTS (c pts : Int) (hc : NearTime c) (hp : NearTime pts) : M c (H264.repeatDTS pts) (H264.repeatDTS (pts + c)) := by
  rintro d d' ⟨p, rfl, h⟩
  have hw : pts + c = wrap64 (pts + c) := (origin_wrap _ (by unfold NearTime at hc hp; omega)).symm
  by_cases h2 : d.prevDTSFilled = true
  · obtain ⟨rfl, hn⟩ := h h2
    have e1 : H264.repeatDTS pts d = (d, .ok (d.prevDTS, false)) := by
      show (if d.prevDTSFilled = true then _ else _ : DM (Int × Bool)) d = _
      rw [if_pos h2]
      rfl
    have e2 : H264.repeatDTS (pts + c) (put (d.prevDTS + c) d) = (put (d.prevDTS + c) d, .ok (d.prevDTS + c, false)) := by
      show (if d.prevDTSFilled = true then _ else _ : DM (Int × Bool)) (put (d.prevDTS + c) d) = _
      rw [if_pos h2]
      rfl
    rw [e1, e2]
    unfold NearTime at hn hc
    exact ⟨⟨_, rfl, fun _ => ⟨rfl, hn⟩⟩, rfl, by dsimp only; rw [origin_wrap _ (by omega)], fun _ => by dsimp only; omega⟩
  · have e1 : H264.repeatDTS pts d = (d, .ok (pts, true)) := by
      show (if d.prevDTSFilled = true then _ else _ : DM (Int × Bool)) d = _
      rw [if_neg h2]
      rfl
    have e2 : H264.repeatDTS (pts + c) (put p d) = (put p d, .ok (pts + c, true)) := by
      show (if d.prevDTSFilled = true then _ else _ : DM (Int × Bool)) (put p d) = _
      rw [if_neg h2]
      rfl
    rw [e1, e2]
    unfold NearTime at hp
    exact ⟨⟨_, rfl, fun h => absurd h h2⟩, rfl, by dsimp only; rw [← hw], fun _ => by dsimp only; omega⟩

theorem inner (c pts : Int) (au : List Bytes) (hc : NearTime c) (hp : NearTime pts) : M c (H264.extractInner au pts) (H264.extractInner au (pts + c)) := by
  unfold H264.extractInner
  refine origin_then (scan au false) fun f => origin_get_then (fun d => ?_) fun d p => rfl
  cases d.spsp with
  | none => exact origin_blind _ rfl
  | some sps =>
    dsimp only
    by_cases h1 : sps.picOrderCntType = 2 ∨ sps.frameMbsOnlyFlag = false
    · rw [if_pos h1, if_pos h1]
      intro d d' h
      unfold NearTime at hp hc
      exact ⟨h, rfl, by dsimp only; rw [origin_wrap _ (by omega)], fun _ => by dsimp only; omega⟩
    rw [if_neg h1, if_neg h1]
    by_cases h2 : sps.picOrderCntType = 1
    · rw [if_pos h2, if_pos h2]
      exact origin_blind _ rfl
    rw [if_neg h2, if_neg h2]
    refine origin_then (checkRandom f) fun _ => ?_
    unfold H264.handleFrame
    cases f.idr with
    | some n => exact origin_then (handleIDR n sps) fun diff => origin_then (adjust diff) fun diff => finish c diff pts hc hp
    | none =>
      cases f.nonIDR with
      | some n => exact origin_then (handleNonIDR n sps) fun diff => origin_then (adjust diff) fun diff => finish c diff pts hc hp
      | none =>
        dsimp only
        by_cases h3 : f.nonZeroNalRefIDFound = true
        · rw [if_pos h3, if_pos h3]
          exact origin_blind _ rfl
        · rw [if_neg h3, if_neg h3]
          exact repeatDTS c pts hc hp

end Origin264

open Origin264 in
/-- **C115, H264.** When all PTS are moved by the same amount, so are all DTS, and errors are the same: as long as times are between -2^60 and 2^60,
400000 years at 90 kHz. -/
theorem C115_h264 (c : Int) (hc : NearTime c) (l : List (List Bytes × Int)) (hp : ∀ a ∈ l, NearTime a.2)
    (hd : ∀ v, .ok v ∈ StepM.calls H264.extract .new l → NearTime v) :
    StepM.calls H264.extract .new (clockAhead c l) = (StepM.calls H264.extract .new l).map (resultAhead c) := by
  refine origin_calls (S := put) (filled := H264.DTSExtractor.prevDTSFilled) (prev := H264.DTSExtractor.prevDTS) (always := true)
    (F := fun v d => { d with prevDTSFilled := true, prevDTS := v }) (fun v d => ⟨rfl, rfl, fun _ _ => rfl⟩) (fun p d => ⟨rfl, rfl⟩)
    H264.extract H264.extractInner (fun a => rfl) hc (fun a pts h => inner c pts a hc h) l _ _ ⟨0, rfl, fun h => by cases h⟩ hp hd (.inr (.inl rfl))

/-- A stream that meets the conditions, with a call that fails, and the same stream when clocks are a year ahead. -/
def originList : List (List Bytes × Int) := [([reuseSPS0, reuseIDR], 0), ([reuseSlice], 3000), ([], 1), ([reuseSlice], 7000)]

example : StepM.calls H264.extract .new originList = [.ok 0, .ok 3000, .err "DTS is greater than PTS", .ok 3090] ∧
    StepM.calls H264.extract .new (clockAhead 2838240000000 originList) =
      [.ok 2838240000000, .ok 2838240003000, .err "DTS is greater than PTS", .ok 2838240003090] := by decide +kernel

example : ∀ a ∈ originList, NearTime a.2 := by
  intro a ha
  simp only [originList, List.mem_cons, List.not_mem_nil, or_false] at ha
  rcases ha with rfl | rfl | rfl | rfl <;> exact ⟨by decide, by decide⟩

/-! ## H265 -/

namespace Origin265
open Verif.H265

def put (p : Int) (d : DTSExtractor) : DTSExtractor := { d with prevDTS := p }

abbrev B {α : Type} (m : DM α) : Prop := Blind put (fun d => (d.prevDTSFilled, d.prevDTS)) m
abbrev M (c : Int) (m m' : DM (Int × Bool)) : Prop := Moves put DTSExtractor.prevDTSFilled DTSExtractor.prevDTS false c m m'

theorem handleSPS (nalu : Bytes) : B (H265.handleSPS nalu) := by
  unfold H265.handleSPS
  refine origin_get (fun d => origin_if (origin_pure _) ?_) fun d p => rfl
  cases ({} : SPS).unmarshal nalu with
  | ok s => exact origin_modify _ fun d => ⟨rfl, fun p => rfl⟩
  | err e => exact origin_fail _
  | panic => exact origin_lift _

theorem handlePPS (nalu : Bytes) : B (H265.handlePPS nalu) := by
  unfold H265.handlePPS
  refine origin_get (fun d => origin_if (origin_pure _) ?_) fun d p => rfl
  cases PPS.unmarshal nalu with
  | ok s => exact origin_modify _ fun d => ⟨rfl, fun p => rfl⟩
  | err e => exact origin_fail _
  | panic => exact origin_lift _

theorem scan : ∀ l : List Bytes, B (H265.scan l)
  | [] => origin_pure _
  | nalu :: l => by
    unfold H265.scan
    refine origin_bind (origin_lift _) fun b => ?_
    refine origin_if (origin_bind (handleSPS nalu) fun _ => scan l) (origin_if (origin_bind (handlePPS nalu) fun _ => scan l) ?_)
    exact origin_if (origin_pure _) (origin_if (origin_pure _) (origin_if (origin_pure _) (scan l)))

theorem checkRandom (f : Found) : B (H265.checkRandom f) := by
  unfold H265.checkRandom
  exact origin_get (fun d => origin_if (origin_pure _) (origin_if (origin_modify _ fun d => ⟨rfl, fun p => rfl⟩) (origin_fail _))) fun d p => rfl

/-- `Extract` does not let a DTS pass that is greater than the PTS. -/
def inner (au : List Bytes) (pts : Int) : DM (Int × Bool) := do
  let v ← H265.extractInner au pts
  pure (v, false)

theorem finish_eq (diff pts : Int) (sps : SPS) (d : DTSExtractor) : (do let v ← H265.finish diff pts sps; pure (v, false) : DM (Int × Bool)) d =
    if diff + d.reorderedFrames < 0 then (d, .err "negative pts-dts difference")
    else if d.pause > 0 then
      ({ d with pause := d.pause - 1 }, .ok ((if d.prevDTSFilled = true then wrap64 (d.prevDTS + 90)
        else wrap64 (pts - firstDiff sps (diff + d.reorderedFrames))), false))
    else if d.prevDTSFilled = true then
      if diff + d.reorderedFrames + 1 = 0 then (d, .panic)
      else (d, .ok (wrap64 (d.prevDTS + (wrap64 (pts - d.prevDTS)).tdiv (diff + d.reorderedFrames + 1)), false))
    else (d, .ok (wrap64 (pts - firstDiff sps (diff + d.reorderedFrames)), false)) := by
  rw [origin_run]
  have e : H265.finish diff pts sps d = (if diff + d.reorderedFrames < 0 then StepM.fail "negative pts-dts difference"
    else if d.pause > 0 then do
      StepM.modify fun d => { d with pause := d.pause - 1 }
      if d.prevDTSFilled then pure (wrap64 (d.prevDTS + 90)) else pure (wrap64 (pts - firstDiff sps (diff + d.reorderedFrames)))
    else if d.prevDTSFilled then
      if diff + d.reorderedFrames + 1 = 0 then StepM.lift .panic
      else pure (wrap64 (d.prevDTS + (wrap64 (pts - d.prevDTS)).tdiv (diff + d.reorderedFrames + 1)))
    else pure (wrap64 (pts - firstDiff sps (diff + d.reorderedFrames))) : DM Int) d := rfl
  rw [e]
  by_cases h1 : diff + d.reorderedFrames < 0
  · rw [if_pos h1, if_pos h1]; rfl
  rw [if_neg h1, if_neg h1]
  by_cases h2 : d.pause > 0
  · rw [if_pos h2, if_pos h2]
    by_cases h3 : d.prevDTSFilled = true
    · rw [if_pos h3, if_pos h3]; rfl
    · rw [if_neg h3, if_neg h3]; rfl
  rw [if_neg h2, if_neg h2]
  by_cases h3 : d.prevDTSFilled = true
  · rw [if_pos h3, if_pos h3]
    by_cases h4 : diff + d.reorderedFrames + 1 = 0
    · rw [if_pos h4, if_pos h4]; rfl
    · rw [if_neg h4, if_neg h4]; rfl
  · rw [if_neg h3, if_neg h3]; rfl

theorem first (c pts k : Int) : wrap64 (pts + c - k) = wrap64 (wrap64 (pts - k) + c) := by
  rw [origin_wrap_add]
  congr 1
  omega

theorem finish (c diff pts : Int) (sps : SPS) (hp : NearTime pts) :
    M c (do let v ← H265.finish diff pts sps; pure (v, false)) (do let v ← H265.finish diff (pts + c) sps; pure (v, false)) := by
  rintro d d' ⟨p, rfl, h⟩
  rw [finish_eq, finish_eq]
  show Ahead put _ _ c _ (if diff + d.reorderedFrames < 0 then (put p d, .err "negative pts-dts difference")
    else if d.pause > 0 then
      (put p { d with pause := d.pause - 1 }, .ok ((if d.prevDTSFilled = true then wrap64 (p + 90)
        else wrap64 (pts + c - firstDiff sps (diff + d.reorderedFrames))), false))
    else if d.prevDTSFilled = true then
      if diff + d.reorderedFrames + 1 = 0 then (put p d, .panic)
      else (put p d, .ok (wrap64 (p + (wrap64 (pts + c - p)).tdiv (diff + d.reorderedFrames + 1)), false))
    else (put p d, .ok (wrap64 (pts + c - firstDiff sps (diff + d.reorderedFrames)), false)) : DTSExtractor × Res (Int × Bool)).1 ∧ _ ∧
    ValueAhead c _ _ (if diff + d.reorderedFrames < 0 then (put p d, .err "negative pts-dts difference")
    else if d.pause > 0 then
      (put p { d with pause := d.pause - 1 }, .ok ((if d.prevDTSFilled = true then wrap64 (p + 90)
        else wrap64 (pts + c - firstDiff sps (diff + d.reorderedFrames))), false))
    else if d.prevDTSFilled = true then
      if diff + d.reorderedFrames + 1 = 0 then (put p d, .panic)
      else (put p d, .ok (wrap64 (p + (wrap64 (pts + c - p)).tdiv (diff + d.reorderedFrames + 1)), false))
    else (put p d, .ok (wrap64 (pts + c - firstDiff sps (diff + d.reorderedFrames)), false)) : DTSExtractor × Res (Int × Bool)).2
  by_cases h1 : diff + d.reorderedFrames < 0
  · rw [if_pos h1, if_pos h1]
    exact ⟨⟨p, rfl, h⟩, rfl, rfl⟩
  rw [if_neg h1, if_neg h1]
  by_cases h2 : d.pause > 0
  · rw [if_pos h2, if_pos h2]
    refine ⟨⟨p, rfl, h⟩, rfl, ?_⟩
    by_cases h3 : d.prevDTSFilled = true
    · rw [if_pos h3, if_pos h3]
      obtain ⟨rfl, hn⟩ := h h3
      refine ⟨?_, fun _ => ?_⟩
      · dsimp only
        rw [origin_wrap_add, show d.prevDTS + 90 + c = d.prevDTS + c + 90 by omega]
      · dsimp only
        unfold NearTime at hn
        rw [origin_wrap _ (by omega)]
        omega
    · rw [if_neg h3, if_neg h3]
      refine ⟨?_, fun h => ?_⟩
      · dsimp only
        rw [first]
      · rw [Bool.or_false] at h
        exact absurd h h3
  rw [if_neg h2, if_neg h2]
  by_cases h3 : d.prevDTSFilled = true
  · rw [if_pos h3, if_pos h3]
    by_cases h4 : diff + d.reorderedFrames + 1 = 0
    · rw [if_pos h4, if_pos h4]
      exact ⟨⟨p, rfl, h⟩, rfl, trivial⟩
    · rw [if_neg h4, if_neg h4]
      obtain ⟨rfl, hn⟩ := h h3
      refine ⟨⟨_, rfl, h⟩, rfl, ?_, fun _ => origin_between _ _ _ hn hp⟩
      dsimp only
      rw [origin_wrap_add, origin_wrap_sub, Int.add_right_comm]
  · rw [if_neg h3, if_neg h3]
    refine ⟨⟨p, rfl, h⟩, rfl, ?_, fun h => ?_⟩
    · dsimp only
      rw [first]
    · rw [Bool.or_false] at h
      exact absurd h h3

theorem assoc {α β γ : Type} (m : DM α) (k : α → DM β) (f : β → DM γ) : ((m >>= k) >>= f) = (m >>= fun a => k a >>= f) := by
  funext d
  rw [origin_run, origin_run, origin_run]
  rcases m d with ⟨s, x⟩
  cases x <;> rfl

theorem moves (c pts : Int) (au : List Bytes) (hp : NearTime pts) : M c (inner au pts) (inner au (pts + c)) := by
  unfold inner H265.extractInner
  rw [assoc, assoc]
  refine origin_then (scan au) fun f => ?_
  rw [assoc, assoc]
  refine origin_get_then (fun d => ?_) fun d p => rfl
  cases d.spsp with
  | none => exact origin_blind _ rfl
  | some sps =>
    dsimp only
    cases d.ppsp with
    | none => exact origin_blind _ rfl
    | some pps =>
      dsimp only
      simp only [assoc]
      refine origin_then (checkRandom f) fun _ => ?_
      exact origin_then (origin_lift _) fun diff => finish c diff pts sps hp

theorem extract_eq (a : List Bytes × Int) : H265.extract a = inner a.1 a.2 >>=
    checked DTSExtractor.prevDTSFilled DTSExtractor.prevDTS (fun v d => { d with prevDTSFilled := true, prevDTS := v }) a.2 := by
  unfold inner
  rw [assoc]
  unfold H265.extract
  congr 1
  funext v d
  show (if v > a.2 then StepM.fail "DTS is greater than PTS"
    else if d.prevDTSFilled = true ∧ v < d.prevDTS then StepM.fail "DTS is not monotonically increasing"
    else do StepM.modify (fun d => { d with prevDTSFilled := true, prevDTS := v }); pure v : DM Int) d =
      checked DTSExtractor.prevDTSFilled DTSExtractor.prevDTS (fun v d => { d with prevDTSFilled := true, prevDTS := v }) a.2 (v, false) d
  rw [origin_checked]
  dsimp only
  by_cases h1 : v > a.2
  · rw [if_pos h1, if_pos ⟨rfl, h1⟩]; rfl
  rw [if_neg h1, if_neg (show ¬ (false = false ∧ v > a.2) from fun h => h1 h.2)]
  by_cases h2 : d.prevDTSFilled = true ∧ v < d.prevDTS
  · rw [if_pos h2, if_pos h2]; rfl
  · rw [if_neg h2, if_neg h2]; rfl

end Origin265

open Origin265 in
/-- **C115, H265.** The same, when no access unit before the first DTS is refused since its DTS is greater than its PTS: this DTS is computed from the
frame rate in the SPS, and may be anywhere. -/
theorem C115_h265 (c : Int) (hc : NearTime c) (l : List (List Bytes × Int)) (hp : ∀ a ∈ l, NearTime a.2)
    (hd : ∀ v, .ok v ∈ StepM.calls H265.extract {} l → NearTime v)
    (he : ∀ x y, StepM.calls H265.extract {} l = x ++ .err "DTS is greater than PTS" :: y → ∃ v, Res.ok v ∈ x) :
    StepM.calls H265.extract {} (clockAhead c l) = (StepM.calls H265.extract {} l).map (resultAhead c) := by
  refine origin_calls (S := put) (filled := H265.DTSExtractor.prevDTSFilled) (prev := H265.DTSExtractor.prevDTS) (always := false)
    (F := fun v d => { d with prevDTSFilled := true, prevDTS := v }) (fun v d => ⟨rfl, rfl, fun _ _ => rfl⟩) (fun p d => ⟨rfl, rfl⟩)
    H265.extract inner extract_eq hc (fun a pts h => moves c pts a h) l _ _ ⟨0, rfl, fun h => by cases h⟩ hp hd (.inr (.inr he))

/-- A stream that meets the conditions. -/
example : StepM.calls H265.extract {} [([reuseSPS265, reusePPS265, reuseIDR265], 0), ([reuseSlice265], 9000), ([], 9001)] =
      [.ok (-6000), .ok (-5910), .err "access unit doesn't contain an IDR or non-IDR NALU"] ∧
    StepM.calls H265.extract {} (clockAhead 1000000 [([reuseSPS265, reusePPS265, reuseIDR265], 0), ([reuseSlice265], 9000), ([], 9001)]) =
      [.ok 994000, .ok 994090, .err "access unit doesn't contain an IDR or non-IDR NALU"] := by decide +kernel

/-- **C115 is false at the limits of `int64`**: the first DTS of H265 is before the PTS, and wraps. -/
theorem C115_limits_false : StepM.calls H265.extract {} [([reuseSPS265, reusePPS265, reuseIDR265], -2 ^ 63)] = [.err "DTS is greater than PTS"] ∧
    StepM.calls H265.extract {} (clockAhead 6000 [([reuseSPS265, reusePPS265, reuseIDR265], -2 ^ 63)]) = [.ok (-2 ^ 63)] := by decide +kernel

end Verif.Props
