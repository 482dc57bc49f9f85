import Verif.Props.H265SPS
import Verif.Props.SliceHeader
import Verif.Spec.RefPicSets

/-!
# C109: short-term reference picture sets of H265
-/

namespace Verif.Props
open Verif.Bits Verif.BitM Verif.H265 Verif.Spec Verif.Spec.Slice
open Verif.Spec.RefPics (Ordered)

/-! ## Grammars -/

theorem refs_bind {α β : Type} {G G' : Gr α} {F F' : α → Gr β} {P : α → Prop} (h0 : Sat G P) (h1 : GrLe G G')
    (h2 : ∀ a, P a → GrLe (F a) (F' a)) : GrLe (G >>= F) (G' >>= F') := by
  rintro c _ ⟨a, b1, b2, g, k, rfl⟩
  exact ⟨a, b1, b2, h1 a b1 g, h2 a (h0 a b1 g) c b2 k, rfl⟩

theorem refs_ue {m : Nat} (hm : m ≤ 2 ^ 32 - 2) : GrLe (ueMax m) Gr.ue := fun _ _ h => slice_ueMax hm h

theorem refs_ueMax (m : Nat) : Sat (ueMax m) (· ≤ m) := fun _ _ h => h.1

theorem refs_must {α : Type} {c : Prop} {G F : Gr α} (hc : c) (h : GrLe G F) : GrLe G (Gr.must c >>= fun _ => F) :=
  fun a b g => ⟨(), [], b, ⟨hc, rfl⟩, h a b g, rfl⟩

/-! ## Distances -/

/-- The set is in order and no picture is further than `k` times 2^15. -/
structure RefsNear (k : Nat) (r : RPS) : Prop where
  ordered : Ordered r
  near0 : ∀ d ∈ r.deltaPocS0, -(32768 * (k : Int)) ≤ d
  near1 : ∀ d ∈ r.deltaPocS1, d ≤ 32768 * (k : Int)

theorem RefsNear.mono {k m : Nat} {r : RPS} (h : RefsNear k r) (hk : k ≤ m) : RefsNear m r :=
  ⟨h.ordered, fun d hd => by have := h.near0 d hd; omega, fun d hd => by have := h.near1 d hd; omega⟩

theorem refs_wrap (x : Int) (h1 : -2 ^ 31 ≤ x) (h2 : x < 2 ^ 31) : Spec.H265.wrap32 x = x := by
  unfold Spec.H265.wrap32; omega

theorem refs_distances0 (n : Nat) (prev : Int) : Sat (RefPics.distances (-1) n prev) fun l =>
    (prev :: l.map (·.1)).Pairwise (· > ·) ∧ ∀ d ∈ l.map (·.1), prev - 32768 * (n : Int) ≤ d := by
  induction n generalizing prev with
  | zero => exact Sat.pure ⟨by simp, fun d hd => by cases hd⟩
  | succ n ih =>
    unfold RefPics.distances
    refine Sat.bind (refs_ueMax _) fun v hv => Sat.skip fun used => Sat.bind (ih _) fun l hl => Sat.pure ⟨?_, ?_⟩
    · rw [List.map_cons, List.pairwise_cons]
      refine ⟨fun d hd => ?_, hl.1⟩
      rcases List.mem_cons.1 hd with rfl | hd
      · show prev > prev + -1 * ((v : Int) + 1); omega
      · have := (List.pairwise_cons.1 hl.1).1 d hd; omega
    · intro d hd
      rw [List.map_cons] at hd
      rcases List.mem_cons.1 hd with rfl | hd
      · show _ ≤ prev + -1 * ((v : Int) + 1); omega
      · have := hl.2 d hd; omega

theorem refs_distances1 (n : Nat) (prev : Int) : Sat (RefPics.distances 1 n prev) fun l =>
    (prev :: l.map (·.1)).Pairwise (· < ·) ∧ ∀ d ∈ l.map (·.1), d ≤ prev + 32768 * (n : Int) := by
  induction n generalizing prev with
  | zero => exact Sat.pure ⟨by simp, fun d hd => by cases hd⟩
  | succ n ih =>
    unfold RefPics.distances
    refine Sat.bind (refs_ueMax _) fun v hv => Sat.skip fun used => Sat.bind (ih _) fun l hl => Sat.pure ⟨?_, ?_⟩
    · rw [List.map_cons, List.pairwise_cons]
      refine ⟨fun d hd => ?_, hl.1⟩
      rcases List.mem_cons.1 hd with rfl | hd
      · show prev < prev + 1 * ((v : Int) + 1); omega
      · have := (List.pairwise_cons.1 hl.1).1 d hd; omega
    · intro d hd
      rw [List.map_cons] at hd
      rcases List.mem_cons.1 hd with rfl | hd
      · show prev + 1 * ((v : Int) + 1) ≤ _; omega
      · have := hl.2 d hd; omega

theorem refs_distances_le (sign : Int) (hs : sign = 1 ∨ sign = -1) (n : Nat) (prev : Int)
    (h : prev.natAbs + 32768 * n < 2 ^ 31) : GrLe (RefPics.distances sign n prev) (Spec.H265.distances sign n prev) := by
  induction n generalizing prev with
  | zero => exact GrLe.refl _
  | succ n ih =>
    unfold RefPics.distances Spec.H265.distances
    refine refs_bind (refs_ueMax _) (refs_ue (by decide)) fun v hv => ?_
    have e : Spec.H265.wrap32 (prev + sign * (v + 1)) = prev + sign * (v + 1) := by
      rcases hs with rfl | rfl
      · refine refs_wrap _ ?_ ?_ <;> omega
      · refine refs_wrap _ ?_ ?_ <;> omega
    rw [e]
    refine (GrLe.refl _).bind fun used => GrLe.bind (ih _ ?_) fun l => GrLe.refl _
    rcases hs with rfl | rfl <;> omega

theorem refs_intra : Sat RefPics.intraSet (RefsNear 255) := by
  refine Sat.bind (refs_ueMax _) fun neg hn => Sat.bind (refs_ueMax _) fun pos hp => Sat.bind (refs_distances0 _ _) fun s0 h0 =>
    Sat.bind (refs_distances1 _ _) fun s1 h1 => Sat.pure ⟨⟨h0.1, h1.1⟩, ?_, ?_⟩
  · intro d hd; have := h0.2 d hd; omega
  · intro d hd; have := h1.2 d hd; omega

theorem refs_intra_le : GrLe RefPics.intraSet Spec.H265.intraSet := by
  unfold RefPics.intraSet Spec.H265.intraSet
  refine refs_bind (refs_ueMax _) (refs_ue (by decide)) fun neg hn => refs_bind (refs_ueMax _) (refs_ue (by decide)) fun pos hp =>
    refs_must hn ((refs_distances_le _ (.inr rfl) _ _ (by simp; omega)).bind fun s0 =>
      refs_must hp ((refs_distances_le _ (.inl rfl) _ _ (by simp; omega)).bind fun s1 => GrLe.refl _))

/-! ## Prediction -/

theorem refs_zip {R : Int → Int → Prop} (l : List Int) (f : List (Bool × Bool)) (h : l.Pairwise R) :
    (l.zip f).Pairwise fun x y => R x.1 y.1 := by
  induction l generalizing f with
  | nil => simp
  | cons a l ih =>
    cases f with
    | nil => simp
    | cons b f =>
      rw [List.zip_cons_cons, List.pairwise_cons]
      refine ⟨fun x hx => ?_, ih f (List.pairwise_cons.1 h).2⟩
      exact (List.pairwise_cons.1 h).1 _ (List.of_mem_zip (a := x.1) (b := x.2) hx).1

theorem refs_step (delta : Int) (neg : Bool) (z : Int × Bool × Bool) (y : Int × Bool) (e : RefPics.predicted delta neg z = some y) :
    (if neg then z.1 + delta < 0 else z.1 + delta > 0) ∧ y.1 = z.1 + delta := by
  rw [RefPics.predicted] at e
  by_cases hc : z.2.2 = true ∧ (if neg then z.1 + delta < 0 else z.1 + delta > 0)
  · rw [if_pos hc, Option.some.injEq] at e
    exact ⟨hc.2, by rw [← e]⟩
  · rw [if_neg hc] at e
    exact absurd e (by simp)

/-- What is kept of a list is in the order of the list. -/
theorem refs_predicted {R : Int → Int → Prop} (hR : ∀ a b c, R a b → R (a + c) (b + c)) (delta : Int) (neg : Bool)
    (l : List (Int × Bool × Bool)) (h : l.Pairwise fun x y => R x.1 y.1) :
    ((l.filterMap (RefPics.predicted delta neg)).map (·.1)).Pairwise R := by
  induction l with
  | nil => exact List.Pairwise.nil
  | cons x l ih =>
    have h' := List.pairwise_cons.1 h
    have key : ∀ d ∈ (l.filterMap (RefPics.predicted delta neg)).map (·.1), R (x.1 + delta) d := by
      intro d hd
      obtain ⟨y, hy, rfl⟩ := List.mem_map.1 hd
      obtain ⟨z, hz, e⟩ := List.mem_filterMap.1 hy
      rw [(refs_step _ _ _ _ e).2]
      exact hR _ _ _ (h'.1 z hz)
    rw [List.filterMap_cons]
    unfold RefPics.predicted
    by_cases hc : x.2.2 = true ∧ (if neg then x.1 + delta < 0 else x.1 + delta > 0)
    · rw [if_pos hc]
      exact List.pairwise_cons.2 ⟨key, ih h'.2⟩
    · rw [if_neg hc]
      exact ih h'.2

theorem refs_kept (delta : Int) (neg : Bool) (l : List (Int × Bool × Bool)) (d : Int)
    (hd : d ∈ (l.filterMap (RefPics.predicted delta neg)).map (·.1)) :
    (if neg then d < 0 else d > 0) ∧ ∃ x ∈ l, d = x.1 + delta := by
  obtain ⟨y, hy, rfl⟩ := List.mem_map.1 hd
  obtain ⟨z, hz, e⟩ := List.mem_filterMap.1 hy
  have h := refs_step _ _ _ _ e
  rw [h.2]
  exact ⟨h.1, z, hz, rfl⟩

theorem refs_self (r : RPS) (flags : List (Bool × Bool)) (x : Int × Bool × Bool) (hx : x ∈ Spec.H265.self r flags) : x.1 = 0 := by
  have := (List.of_mem_zip (a := x.1) (b := x.2) hx).1
  simpa using this

theorem refs_after (r : RPS) (flags : List (Bool × Bool)) (x : Int × Bool × Bool) (hx : x ∈ Spec.H265.after r flags) :
    x.1 ∈ r.deltaPocS1 := (List.of_mem_zip (a := x.1) (b := x.2) hx).1

theorem refs_before (r : RPS) (flags : List (Bool × Bool)) (x : Int × Bool × Bool) (hx : x ∈ Spec.H265.before r flags) :
    x.1 ∈ r.deltaPocS0 := (List.of_mem_zip (a := x.1) (b := x.2) hx).1

theorem refs_self_pairwise {R : Int → Int → Prop} (r : RPS) (flags : List (Bool × Bool)) :
    (Spec.H265.self r flags).Pairwise fun x y => R x.1 y.1 := refs_zip _ _ (List.pairwise_singleton ..)

/-- The reference set from the last picture to the first one. -/
theorem refs_down (r : RPS) (h : Ordered r) (flags : List (Bool × Bool)) :
    ((Spec.H265.after r flags).reverse ++ Spec.H265.self r flags ++ Spec.H265.before r flags).Pairwise fun x y => x.1 > y.1 := by
  have h0 := List.pairwise_cons.1 h.before
  have h1 := List.pairwise_cons.1 h.after
  refine List.pairwise_append.2 ⟨List.pairwise_append.2 ⟨List.pairwise_reverse.2 (refs_zip _ _ h1.2), refs_self_pairwise (R := (· > ·)) r flags, ?_⟩,
    refs_zip (R := (· > ·)) _ _ h0.2, ?_⟩
  · intro x hx y hy
    have := h1.1 _ (refs_after r flags x (List.mem_reverse.1 hx))
    rw [refs_self r flags y hy]; exact this
  · intro x hx y hy
    have hy' := h0.1 _ (refs_before r flags y hy)
    rcases List.mem_append.1 hx with hx | hx
    · have := h1.1 _ (refs_after r flags x (List.mem_reverse.1 hx)); omega
    · rw [refs_self r flags x hx]; exact hy'

/-- And from the first picture to the last one. -/
theorem refs_up (r : RPS) (h : Ordered r) (flags : List (Bool × Bool)) :
    ((Spec.H265.before r flags).reverse ++ Spec.H265.self r flags ++ Spec.H265.after r flags).Pairwise fun x y => x.1 < y.1 := by
  have h0 := List.pairwise_cons.1 h.before
  have h1 := List.pairwise_cons.1 h.after
  refine List.pairwise_append.2 ⟨List.pairwise_append.2 ⟨List.pairwise_reverse.2 (refs_zip _ _ h0.2), refs_self_pairwise (R := (· < ·)) r flags, ?_⟩,
    refs_zip (R := (· < ·)) _ _ h1.2, ?_⟩
  · intro x hx y hy
    have := h0.1 _ (refs_before r flags x (List.mem_reverse.1 hx))
    rw [refs_self r flags y hy]; exact this
  · intro x hx y hy
    have hy' := h1.1 _ (refs_after r flags y hy)
    rcases List.mem_append.1 hx with hx | hx
    · have := h0.1 _ (refs_before r flags x (List.mem_reverse.1 hx)); omega
    · rw [refs_self r flags x hx]; exact hy'

/-- All pictures of the reference set are within the distance. -/
theorem refs_range (k : Nat) (r : RPS) (h : RefsNear k r) (flags : List (Bool × Bool)) (x : Int × Bool × Bool)
    (hx : x ∈ Spec.H265.after r flags ∨ x ∈ Spec.H265.self r flags ∨ x ∈ Spec.H265.before r flags) :
    -(32768 * (k : Int)) ≤ x.1 ∧ x.1 ≤ 32768 * (k : Int) := by
  have h0 := List.pairwise_cons.1 h.ordered.before
  have h1 := List.pairwise_cons.1 h.ordered.after
  rcases hx with hx | hx | hx
  · have a := h.near1 _ (refs_after r flags x hx)
    have b := h1.1 _ (refs_after r flags x hx)
    omega
  · rw [refs_self r flags x hx]; omega
  · have a := h.near0 _ (refs_before r flags x hx)
    have b := h0.1 _ (refs_before r flags x hx)
    omega

theorem refs_mem {α : Type} (a b c : List α) (x : α) (h : x ∈ a.reverse ++ b ++ c) : x ∈ a ∨ x ∈ b ∨ x ∈ c := by
  rcases List.mem_append.1 h with h | h
  · rcases List.mem_append.1 h with h | h
    · exact .inl (List.mem_reverse.1 h)
    · exact .inr (.inl h)
  · exact .inr (.inr h)

theorem refs_mem' {α : Type} (a b c : List α) (x : α) (h : x ∈ a.reverse ++ b ++ c) : x ∈ c ∨ x ∈ b ∨ x ∈ a := by
  rcases refs_mem a b c x h with h | h | h
  · exact .inr (.inr h)
  · exact .inr (.inl h)
  · exact .inl h

theorem refs_delta (sign : Bool) (abs : Nat) (h : abs ≤ 32767) :
    -32768 ≤ (if sign then -((abs : Int) + 1) else (abs : Int) + 1) ∧ (if sign then -((abs : Int) + 1) else (abs : Int) + 1) ≤ 32768 := by
  cases sign <;> simp <;> omega

theorem refs_exact (delta : Int) (neg : Bool) (l : List (Int × Bool × Bool))
    (h : ∀ x ∈ l, -2 ^ 31 ≤ x.1 + delta ∧ x.1 + delta < 2 ^ 31) :
    l.filterMap (Spec.H265.predicted delta neg) = l.filterMap (RefPics.predicted delta neg) := by
  induction l with
  | nil => rfl
  | cons x l ih =>
    have e : Spec.H265.predicted delta neg x = RefPics.predicted delta neg x := by
      unfold Spec.H265.predicted RefPics.predicted
      rw [refs_wrap _ (h x (List.mem_cons_self ..)).1 (h x (List.mem_cons_self ..)).2]
    rw [List.filterMap_cons, List.filterMap_cons, e, ih fun y hy => h y (List.mem_cons_of_mem _ hy)]

/-- The set that is predicted from one that is near. -/
theorem refs_near (k : Nat) (r : RPS) (hn : RefsNear k r) (sign : Bool) (abs : Nat) (ha : abs ≤ 32767) (flags : List (Bool × Bool)) (r' : RPS)
    (h0 : r'.deltaPocS0 = (RefPics.predictedS0 r (if sign then -((abs : Int) + 1) else (abs : Int) + 1) flags).map (·.1))
    (h1 : r'.deltaPocS1 = (RefPics.predictedS1 r (if sign then -((abs : Int) + 1) else (abs : Int) + 1) flags).map (·.1)) :
    RefsNear (k + 1) r' := by
  refine ⟨⟨?_, ?_⟩, ?_, ?_⟩
  · rw [h0]
    refine List.pairwise_cons.2 ⟨fun d hd => ?_, ?_⟩
    · have := (refs_kept _ _ _ d hd).1; simpa using this
    · exact refs_predicted (fun a b c h => by omega) _ _ _ (refs_down r hn.ordered flags)
  · rw [h1]
    refine List.pairwise_cons.2 ⟨fun d hd => ?_, ?_⟩
    · have := (refs_kept _ _ _ d hd).1; simpa using this
    · exact refs_predicted (fun a b c h => by omega) _ _ _ (refs_up r hn.ordered flags)
  · intro d hd
    rw [h0] at hd
    obtain ⟨-, x, hx, rfl⟩ := refs_kept _ _ _ d hd
    have := refs_range k r hn flags x (refs_mem _ _ _ x hx)
    have := refs_delta sign abs ha
    omega
  · intro d hd
    rw [h1] at hd
    obtain ⟨-, x, hx, rfl⟩ := refs_kept _ _ _ d hd
    have := refs_range k r hn flags x (refs_mem' _ _ _ x hx)
    have := refs_delta sign abs ha
    omega

/-- Nothing overflows when a set is predicted from one that is near. -/
theorem refs_same (k : Nat) (hk : k ≤ 1000) (r : RPS) (hn : RefsNear k r) (sign : Bool) (abs : Nat) (ha : abs ≤ 32767) (flags : List (Bool × Bool)) :
    Spec.H265.predictedS0 r (Spec.H265.wrap32 (if sign then -((abs : Int) + 1) else (abs : Int) + 1)) flags =
      RefPics.predictedS0 r (if sign then -((abs : Int) + 1) else (abs : Int) + 1) flags ∧
    Spec.H265.predictedS1 r (Spec.H265.wrap32 (if sign then -((abs : Int) + 1) else (abs : Int) + 1)) flags =
      RefPics.predictedS1 r (if sign then -((abs : Int) + 1) else (abs : Int) + 1) flags := by
  have hd := refs_delta sign abs ha
  rw [refs_wrap _ (by omega) (by omega)]
  constructor
  · refine refs_exact _ _ _ fun x hx => ?_
    have := refs_range k r hn flags x (refs_mem _ _ _ x hx)
    omega
  · refine refs_exact _ _ _ fun x hx => ?_
    have := refs_range k r hn flags x (refs_mem' _ _ _ x hx)
    omega

theorem refs_inter (k : Nat) (sets : List RPS) (inSlice : Bool) (hs : ∀ r ∈ sets, RefsNear k r) :
    Sat (RefPics.interSet sets inSlice) (RefsNear (k + 1)) := by
  refine Sat.skip fun idx => Sat.skip fun sign => Sat.bind (refs_ueMax _) fun abs ha => ?_
  cases hr : sets.reverse[idx]? with
  | none => exact fun _ _ h => h.elim
  | some r =>
    have hn := hs r (List.mem_reverse.1 (List.mem_of_getElem? hr))
    exact Sat.skip fun flags => Sat.pure (refs_near k r hn sign abs ha flags _ rfl rfl)

theorem refs_inter_le (k : Nat) (hk : k ≤ 1000) (sets : List RPS) (inSlice : Bool) (hs : ∀ r ∈ sets, RefsNear k r) :
    GrLe (RefPics.interSet sets inSlice) (Spec.H265.interSet sets inSlice) := by
  unfold RefPics.interSet Spec.H265.interSet
  refine (GrLe.opt (refs_ue (by decide))).bind fun idx => (GrLe.refl _).bind fun sign =>
    refs_bind (refs_ueMax _) (refs_ue (by decide)) fun abs ha => ?_
  cases hr : sets.reverse[idx]? with
  | none => exact fun _ _ h => h.elim
  | some r =>
    have hn := hs r (List.mem_reverse.1 (List.mem_of_getElem? hr))
    refine (GrLe.refl _).bind fun flags => ?_
    obtain ⟨e0, e1⟩ := refs_same k hk r hn sign abs ha flags
    dsimp only
    rw [e0, e1]
    exact GrLe.refl _

theorem refs_inter_decoded (k : Nat) (hk : k ≤ 1000) (sets : List RPS) (inSlice : Bool) (hs : ∀ r ∈ sets, RefsNear k r) :
    Sat (Spec.H265.interSet sets inSlice) fun r => RefPics.InRange r → RefsNear (k + 1) r := by
  refine Sat.skip fun idx => Sat.skip fun sign => Sat.skip fun abs => ?_
  cases hr : sets.reverse[idx]? with
  | none => exact fun _ _ h => h.elim
  | some r =>
    have hn := hs r (List.mem_reverse.1 (List.mem_of_getElem? hr))
    refine Sat.skip fun flags => Sat.pure fun ha => ?_
    obtain ⟨e0, e1⟩ := refs_same k hk r hn sign abs ha flags
    exact refs_near k r hn sign abs ha flags _ (congrArg (List.map (·.1)) e0) (congrArg (List.map (·.1)) e1)

theorem refs_set (k : Nat) (hk : 255 ≤ k + 1) (sets : List RPS) (inSlice : Bool) (hs : ∀ r ∈ sets, RefsNear k r) :
    Sat (RefPics.refPicSet sets inSlice) (RefsNear (k + 1)) :=
  Sat.skip fun _ => Sat.ite (fun _ => refs_inter k sets inSlice hs) fun _ => refs_intra.imp fun _ h => h.mono hk

theorem refs_set_le (k : Nat) (hk : k ≤ 1000) (sets : List RPS) (inSlice : Bool) (hs : ∀ r ∈ sets, RefsNear k r) :
    GrLe (RefPics.refPicSet sets inSlice) (Spec.H265.refPicSet sets inSlice) := by
  unfold RefPics.refPicSet Spec.H265.refPicSet
  refine (GrLe.refl _).bind fun inter => ?_
  cases inter with
  | true => exact refs_inter_le k hk sets inSlice hs
  | false => exact refs_intra_le

theorem refs_sets (n : Nat) (sets : List RPS) (hs : ∀ r ∈ sets, RefsNear (254 + sets.length) r) :
    Sat (RefPics.refPicSets n sets) fun l => l.length = sets.length + n ∧ ∀ r ∈ l, RefsNear (254 + (sets.length + n)) r := by
  induction n generalizing sets with
  | zero => exact Sat.pure ⟨rfl, hs⟩
  | succ n ih =>
    refine Sat.bind (refs_set _ (by omega) sets false hs) fun r hr => ?_
    refine (ih (sets ++ [r]) ?_).imp fun l hl => ?_
    · intro x hx
      simp only [List.mem_append, List.mem_singleton, List.length_append, List.length_singleton] at hx ⊢
      rcases hx with hx | rfl
      · exact (hs x hx).mono (by omega)
      · exact hr.mono (by omega)
    · simp only [List.length_append, List.length_singleton] at hl
      exact ⟨by omega, fun x hx => (hl.2 x hx).mono (by omega)⟩

theorem refs_sets_le (n : Nat) (sets : List RPS) (hs : ∀ r ∈ sets, RefsNear (254 + sets.length) r) (hn : sets.length + n ≤ 64) :
    GrLe (RefPics.refPicSets n sets) (Spec.H265.refPicSets n sets) := by
  induction n generalizing sets with
  | zero => exact GrLe.refl _
  | succ n ih =>
    unfold RefPics.refPicSets Spec.H265.refPicSets
    refine refs_bind (refs_set _ (by omega) sets false hs) (refs_set_le _ (by omega) sets false hs) fun r hr => ?_
    refine ih (sets ++ [r]) ?_ (by simp; omega)
    intro x hx
    simp only [List.mem_append, List.mem_singleton, List.length_append, List.length_singleton] at hx ⊢
    rcases hx with hx | rfl
    · exact (hs x hx).mono (by omega)
    · exact hr.mono (by omega)

theorem refs_fields (s : SPS) : Sat (RefPics.refFields s) fun x => ∀ r ∈ x.shortTermRefPicSets, RefsNear 318 r := by
  refine Sat.bind (refs_ueMax _) fun n hn => Sat.bind (refs_sets n [] (fun r h => by cases h)) fun sets h => ?_
  refine Sat.skip fun _ => Sat.skip fun _ => Sat.skip fun _ => Sat.skip fun _ => Sat.skip fun _ => Sat.skip fun _ => Sat.pure ?_
  intro r hr
  exact (h.2 r hr).mono (by simp; omega)

theorem refs_fields_le (s : SPS) : GrLe (RefPics.refFields s) (Spec.H265.refFields s) := by
  unfold RefPics.refFields Spec.H265.refFields
  refine refs_bind (refs_ueMax _) (refs_ue (by decide)) fun n hn => refs_must hn ?_
  exact (refs_sets_le n [] (fun r h => by cases h) (by simp; omega)).bind fun _ => GrLe.refl _

theorem refs_sps (s : SPS) : Sat (RefPics.spsData s) fun x => ∀ r ∈ x.shortTermRefPicSets, RefsNear 318 r := by
  refine Sat.skip fun _ => Sat.skip fun _ => Sat.skip fun _ => Sat.skip fun _ => Sat.skip fun _ => Sat.skip fun _ =>
    Sat.skip fun _ => refs_fields _

theorem refs_sps_le (s : SPS) : GrLe (RefPics.spsData s) (Spec.H265.spsData s) := by
  unfold RefPics.spsData Spec.H265.spsData
  refine (GrLe.refl _).bind fun _ => (GrLe.refl _).bind fun _ => (GrLe.refl _).bind fun _ => (GrLe.refl _).bind fun _ =>
    (GrLe.refl _).bind fun _ => (GrLe.refl _).bind fun _ => (GrLe.refl _).bind fun _ => refs_fields_le _

/-! ## Sets that were decoded -/

def refsInt32 (d : Int) : Prop := -2 ^ 31 ≤ d ∧ d < 2 ^ 31

theorem refs_wrapped (x : Int) : refsInt32 (Spec.H265.wrap32 x) := by
  unfold refsInt32 Spec.H265.wrap32; omega

theorem refs_int32 (sign : Int) (n : Nat) (prev : Int) : Sat (Spec.H265.distances sign n prev) fun l => ∀ d ∈ l.map (·.1), refsInt32 d := by
  induction n generalizing prev with
  | zero => exact Sat.pure fun d hd => by cases hd
  | succ n ih =>
    unfold Spec.H265.distances
    refine Sat.skip fun v => Sat.skip fun used => Sat.bind (ih _) fun l hl => Sat.pure fun d hd => ?_
    rw [List.map_cons] at hd
    rcases List.mem_cons.1 hd with rfl | hd
    · exact refs_wrapped _
    · exact hl d hd

theorem refs_list0 (l : List Int) (prev : Int) (hp : prev.natAbs + 32768 * l.length < 2 ^ 31) (hi : ∀ d ∈ l, refsInt32 d)
    (h : RefPics.Steps (-1) prev l) : (prev :: l).Pairwise (· > ·) ∧ ∀ d ∈ l, prev - 32768 * (l.length : Int) ≤ d := by
  induction l generalizing prev with
  | nil => exact ⟨by simp, fun d hd => by cases hd⟩
  | cons a l ih =>
    obtain ⟨h1, h2, h3⟩ := h
    have ha := hi a (List.mem_cons_self ..)
    unfold refsInt32 at ha
    rw [List.length_cons] at hp ⊢
    have e : a < prev ∧ prev - 32768 ≤ a := by omega
    have hl := ih a (by omega) (fun d hd => hi d (List.mem_cons_of_mem _ hd)) h3
    refine ⟨List.pairwise_cons.2 ⟨fun d hd => ?_, hl.1⟩, fun d hd => ?_⟩
    · rcases List.mem_cons.1 hd with rfl | hd
      · exact e.1
      · have := (List.pairwise_cons.1 hl.1).1 d hd; omega
    · rcases List.mem_cons.1 hd with rfl | hd
      · omega
      · have := hl.2 d hd; omega

theorem refs_list1 (l : List Int) (prev : Int) (hp : prev.natAbs + 32768 * l.length < 2 ^ 31) (hi : ∀ d ∈ l, refsInt32 d)
    (h : RefPics.Steps 1 prev l) : (prev :: l).Pairwise (· < ·) ∧ ∀ d ∈ l, d ≤ prev + 32768 * (l.length : Int) := by
  induction l generalizing prev with
  | nil => exact ⟨by simp, fun d hd => by cases hd⟩
  | cons a l ih =>
    obtain ⟨h1, h2, h3⟩ := h
    have ha := hi a (List.mem_cons_self ..)
    unfold refsInt32 at ha
    rw [List.length_cons] at hp ⊢
    have e : prev < a ∧ a ≤ prev + 32768 := by omega
    have hl := ih a (by omega) (fun d hd => hi d (List.mem_cons_of_mem _ hd)) h3
    refine ⟨List.pairwise_cons.2 ⟨fun d hd => ?_, hl.1⟩, fun d hd => ?_⟩
    · rcases List.mem_cons.1 hd with rfl | hd
      · exact e.1
      · have := (List.pairwise_cons.1 hl.1).1 d hd; omega
    · rcases List.mem_cons.1 hd with rfl | hd
      · omega
      · have := hl.2 d hd; omega

theorem refs_intra_decoded : Sat Spec.H265.intraSet fun r => RefPics.InRange r → RefsNear 255 r := by
  refine Sat.skip fun neg => Sat.skip fun pos => Sat.bind (P := fun _ => neg ≤ 255) (fun _ _ h => h.1) fun _ hn =>
    Sat.bind ((distances_length _ _ _).and (refs_int32 _ _ _)) fun s0 h0 => Sat.bind (P := fun _ => pos ≤ 255) (fun _ _ h => h.1) fun _ hp =>
    Sat.bind ((distances_length _ _ _).and (refs_int32 _ _ _)) fun s1 h1 => Sat.pure fun hr => ?_
  obtain ⟨e0, i0⟩ := h0
  obtain ⟨e1, i1⟩ := h1
  have hr0 : RefPics.Steps (-1) 0 (s0.map (·.1)) := hr.1
  have hr1 : RefPics.Steps 1 0 (s1.map (·.1)) := hr.2
  have l0 := refs_list0 _ 0 (by simp; omega) i0 hr0
  have l1 := refs_list1 _ 0 (by simp; omega) i1 hr1
  refine ⟨⟨l0.1, l1.1⟩, fun d hd => ?_, fun d hd => ?_⟩
  · have := l0.2 d hd
    rw [List.length_map] at this; omega
  · have := l1.2 d hd
    rw [List.length_map] at this; omega

theorem refs_set_decoded (k : Nat) (h1 : 255 ≤ k + 1) (h2 : k ≤ 1000) (sets : List RPS) (inSlice : Bool) (hs : ∀ r ∈ sets, RefsNear k r) :
    Sat (Spec.H265.refPicSet sets inSlice) fun r => RefPics.InRange r → RefsNear (k + 1) r :=
  Sat.skip fun _ => Sat.ite (fun _ => refs_inter_decoded k h2 sets inSlice hs) fun _ =>
    refs_intra_decoded.imp fun _ h hr => (h hr).mono h1

theorem refs_sets_decoded (n : Nat) (sets : List RPS) (hs : (∀ r ∈ sets, RefPics.InRange r) → ∀ r ∈ sets, RefsNear (254 + sets.length) r)
    (hn : sets.length + n ≤ 64) :
    Sat (Spec.H265.refPicSets n sets) fun l => (∃ l', l = sets ++ l') ∧ ((∀ r ∈ l, RefPics.InRange r) → ∀ r ∈ l, RefsNear 318 r) := by
  induction n generalizing sets with
  | zero => exact Sat.pure ⟨⟨[], by simp⟩, fun h r hr => (hs h r hr).mono (by omega)⟩
  | succ n ih =>
    rintro l _ ⟨r, b1, b2, g, k, rfl⟩
    have key := ih (sets ++ [r]) (fun h => by
      have h' : ∀ x ∈ sets, RefPics.InRange x := fun x hx => h x (List.mem_append_left _ hx)
      have hr := refs_set_decoded _ (by omega) (by omega) sets false (hs h') r b1 g (h r (by simp))
      intro x hx
      simp only [List.mem_append, List.mem_singleton, List.length_append, List.length_singleton] at hx ⊢
      rcases hx with hx | rfl
      · exact (hs h' x hx).mono (by omega)
      · exact hr.mono (by omega)) (by simp; omega) l b2 k
    obtain ⟨⟨l', e⟩, h⟩ := key
    exact ⟨⟨r :: l', by rw [e]; simp⟩, h⟩

theorem refs_fields_decoded (s : SPS) : Sat (Spec.H265.refFields s) fun x =>
    (∀ r ∈ x.shortTermRefPicSets, RefPics.InRange r) → ∀ r ∈ x.shortTermRefPicSets, RefsNear 318 r := by
  refine Sat.skip fun n => Sat.bind (P := fun _ => n ≤ 64) (fun _ _ h => h.1) fun _ hn =>
    Sat.bind (refs_sets_decoded n [] (fun _ r h => by cases h) (by simp; omega)) fun sets h => ?_
  exact Sat.skip fun _ => Sat.skip fun _ => Sat.skip fun _ => Sat.skip fun _ => Sat.skip fun _ => Sat.skip fun _ => Sat.pure h.2

theorem refs_sps_decoded (s x : SPS) (buf : Bytes) (e : s.unmarshal buf = .ok x) (h : ∀ r ∈ x.shortTermRefPicSets, RefPics.InRange r) :
    ∀ r ∈ x.shortTermRefPicSets, RefsNear 318 r := by
  obtain ⟨_, bits, _, -, hd, -⟩ := (C51_decode s x buf).1 e
  have key : Sat (Spec.H265.spsData s) fun x =>
      (∀ r ∈ x.shortTermRefPicSets, RefPics.InRange r) → ∀ r ∈ x.shortTermRefPicSets, RefsNear 318 r :=
    Sat.skip fun _ => Sat.skip fun _ => Sat.skip fun _ => Sat.skip fun _ => Sat.skip fun _ => Sat.skip fun _ =>
      Sat.skip fun _ => refs_fields_decoded _
  exact key x bits hd h

/-! ## The property -/

/-- C109: the reference picture sets of every sequence parameter set that is accepted are in order: pictures before the
current one with the nearest one first, then those after it, none of them twice. -/
def C109_statement : Prop := ∀ (s x : SPS) (buf : Bytes), s.unmarshal buf = .ok x → ∀ r ∈ x.shortTermRefPicSets, Ordered r

/-- C109 when the distances that were coded are in the range of the standard. What is missing: distances out of range are accepted
too, and then sets are not in order (`C109_false`). -/
theorem C109_partial (s x : SPS) (buf : Bytes) (e : s.unmarshal buf = .ok x) (h : ∀ r ∈ x.shortTermRefPicSets, RefPics.InRange r) :
    ∀ r ∈ x.shortTermRefPicSets, Ordered r :=
  fun r hr => (refs_sps_decoded s x buf e h r hr).ordered

/-- C109: sequence parameter sets as in the standard (for sets with at most 255 pictures before and after) are accepted, and the sets
are those that are computed with integers without a limit; they are in range and in order. -/
theorem C109_standard (s x : SPS) (buf rbsp : Bytes) (bits rest : List Bool) (hn : Spec.H265.IsNAL 33 buf rbsp)
    (hb : bitsOf rbsp = bits ++ rest) (hx : RefPics.spsData s x bits) :
    s.unmarshal buf = .ok x ∧ ∀ r ∈ x.shortTermRefPicSets, Ordered r :=
  ⟨(C51_decode s x buf).2 ⟨rbsp, bits, rest, hn, refs_sps_le s x bits hx, hb⟩, fun r hr => (refs_sps s x bits hx r hr).ordered⟩

/-- C109 for the set of a slice header, which is read with the sets of the sequence parameter set. -/
theorem C109_slice_partial (s x : SPS) (buf : Bytes) (e : s.unmarshal buf = .ok x) (h : ∀ r ∈ x.shortTermRefPicSets, RefPics.InRange r)
    (r : RPS) (bits : List Bool) (fromSPS : Bool) (hr : currentSet x.shortTermRefPicSets fromSPS r bits) (h' : RefPics.InRange r) : Ordered r := by
  have hs := refs_sps_decoded s x buf e h
  unfold currentSet at hr
  cases fromSPS with
  | true =>
    obtain ⟨_, i, _, _, hi, _⟩ := hr
    exact (hs r (List.mem_of_getElem? hi)).ordered
  | false => exact (refs_set_decoded 318 (by decide) (by decide) _ _ hs r bits hr h').ordered

/-- What the DTS extractor takes for pictures with a P or I slice: the number of pictures between the current one and the nearest
picture before it. It is not negative, and nothing overflows. -/
theorem C109_estimate_partial (s x : SPS) (buf : Bytes) (e : s.unmarshal buf = .ok x) (h : ∀ r ∈ x.shortTermRefPicSets, RefPics.InRange r)
    (hd : Header265) (bits : List Bool) (hr : currentSet x.shortTermRefPicSets hd.fromSPS hd.set bits) (h' : RefPics.InRange hd.set)
    (type : Nat) (hp : hd.sliceType ≠ 0) (v : Int) (hv : estimate type hd = some v) :
    0 ≤ v ∧ - (v + 1) ∈ hd.set.deltaPocS0 ∧ ∀ d ∈ hd.set.deltaPocS0, d ≤ - (v + 1) := by
  have hs := refs_sps_decoded s x buf e h
  have hn : RefsNear 319 hd.set := by
    unfold currentSet at hr
    cases hf : hd.fromSPS with
    | true =>
      rw [hf] at hr
      obtain ⟨_, i, _, _, hi, _⟩ := hr
      exact (hs _ (List.mem_of_getElem? hi)).mono (by decide)
    | false =>
      rw [hf] at hr
      exact refs_set_decoded 318 (by decide) (by decide) _ _ hs _ bits hr h'
  unfold estimate at hv
  dsimp only at hv
  rw [if_neg hp] at hv
  cases hl : hd.set.deltaPocS0 with
  | nil => rw [hl] at hv; cases hv
  | cons a l =>
    rw [hl] at hv
    have hv' : Spec.H265.wrap32 (- a - 1) = v := Option.some.inj hv
    have ho := hn.ordered.before
    rw [hl] at ho
    have ho' := List.pairwise_cons.1 ho
    have h0 := ho'.1 a (List.mem_cons_self ..)
    have h1 := hn.near0 a (by rw [hl]; exact List.mem_cons_self ..)
    rw [refs_wrap _ (by omega) (by omega)] at hv'
    have ea : - (v + 1) = a := by omega
    refine ⟨by omega, ?_, fun d hd' => ?_⟩
    · rw [ea]; exact List.mem_cons_self ..
    · rw [ea]
      rcases List.mem_cons.1 hd' with rfl | hd'
      · exact Int.le_refl _
      · have := (List.pairwise_cons.1 ho'.2).1 d hd'; omega

/-- A sequence parameter set with a picture at a distance of 2^31 + 1, which is an `int32` of the other sign. -/
def refsFar : Bytes :=
  [0x42, 0x01, 0x01, 0x01, 0x60, 0x00, 0x00, 0x03, 0x00, 0x90, 0x00, 0x00, 0x03, 0x00, 0x00, 0x03, 0x00, 0x5d, 0xa0, 0x05, 0x02,
   0x01, 0xe1, 0x65, 0x95, 0x9a, 0x49, 0x32, 0x4a, 0x00, 0x00, 0x03, 0x00, 0x02, 0x00, 0x00, 0x03, 0x00, 0x06, 0xd0]

theorem refs_far : (({} : SPS).unmarshal refsFar >>= fun x => .ok x.shortTermRefPicSets) =
    .ok [{ numNegativePics := 1, deltaPocS0 := [2147483647], usedByCurrPicS0Flag := [true] }] := by decide +kernel

/-- C109 is false: this picture, of the pictures before the current one, is after it. -/
theorem C109_false : ¬ C109_statement := by
  intro h
  obtain ⟨x, e1, e2⟩ := Res.bind_eq_ok.1 refs_far
  have e3 := Res.ok.inj e2
  have := (h {} x refsFar e1 _ (by rw [e3]; exact List.mem_cons_self ..)).before
  revert this
  decide

/-- The number of pictures is not limited by the size of the buffer of decoded pictures either: 17 pictures with a buffer for 5. -/
def refsMany : Bytes :=
  [0x42, 0x01, 0x01, 0x01, 0x60, 0x00, 0x00, 0x03, 0x00, 0x90, 0x00, 0x00, 0x03, 0x00, 0x00, 0x03, 0x00, 0x5d, 0xa0, 0x05, 0x02,
   0x01, 0xe1, 0x65, 0x95, 0x9a, 0x49, 0x32, 0x41, 0x2f, 0xff, 0xff, 0xff, 0xfe, 0xd0]

theorem refs_many : (({} : SPS).unmarshal refsMany >>= fun x => .ok (x.maxDecPicBufferingMinus1, x.shortTermRefPicSets.map (·.deltaPocS0.length))) =
    .ok ([4], [17]) := by decide +kernel

/-- ITU-T H.265 7.4.8: num_negative_pics and num_positive_pics together are at most sps_max_dec_pic_buffering_minus1. -/
theorem C109_buffer_false : ¬ ∀ (s x : SPS) (buf : Bytes), s.unmarshal buf = .ok x → ∀ r ∈ x.shortTermRefPicSets, ∀ m ∈ x.maxDecPicBufferingMinus1.getLast?,
    r.deltaPocS0.length + r.deltaPocS1.length ≤ m := by
  intro h
  obtain ⟨x, e1, e2⟩ := Res.bind_eq_ok.1 refs_many
  have e3 := Res.ok.inj e2
  have h1 : x.maxDecPicBufferingMinus1 = [4] := congrArg Prod.fst e3
  have h2 : x.shortTermRefPicSets.map (·.deltaPocS0.length) = [17] := congrArg Prod.snd e3
  have h3 : 17 ∈ x.shortTermRefPicSets.map (·.deltaPocS0.length) := by rw [h2]; exact List.mem_cons_self ..
  obtain ⟨r, hr, hl⟩ := List.mem_map.1 h3
  have := h {} x refsMany e1 r hr 4 (by rw [h1]; rfl)
  omega

/-! ## Examples -/

/-- Two sets: pictures at -1, -4 and 2, and the set that is predicted from it at a distance of -3. -/
def refsTwo : Bytes :=
  [0x42, 0x01, 0x01, 0x01, 0x60, 0x00, 0x00, 0x03, 0x00, 0x90, 0x00, 0x00, 0x03, 0x00, 0x00, 0x03, 0x00, 0x5d, 0xa0, 0x05, 0x02,
   0x01, 0xe1, 0x65, 0x95, 0x9a, 0x49, 0x32, 0x6d, 0x6e, 0xbb, 0xf6, 0x80]

def refsFirst : RPS :=
  { numNegativePics := 2, numPositivePics := 1, deltaPocS0 := [-1, -4], usedByCurrPicS0Flag := [true, true], deltaPocS1 := [2],
    usedByCurrPicS1Flag := [true] }

def refsSecond : RPS :=
  { interRefPicSetPredictionFlag := true, deltaRpsSign := true, absDeltaRpsMinus1 := 2, numNegativePics := 4,
    deltaPocS0 := [-1, -3, -4, -7], usedByCurrPicS0Flag := [true, true, true, true] }

theorem refs_two : (({} : SPS).unmarshal refsTwo >>= fun x => .ok x.shortTermRefPicSets) = .ok [refsFirst, refsSecond] := by decide +kernel

/-- Hypotheses of `C109_partial`. -/
example : ∃ x, ({} : SPS).unmarshal refsTwo = .ok x ∧ (∀ r ∈ x.shortTermRefPicSets, RefPics.InRange r) := by
  obtain ⟨x, e1, e2⟩ := Res.bind_eq_ok.1 refs_two
  have e3 := Res.ok.inj e2
  refine ⟨x, e1, ?_⟩
  rw [e3]; decide

/-- Hypotheses of `C109_slice_partial` and `C109_estimate_partial`: a P slice that uses the first set, with no picture between it and the
picture before, and a slice with a set of its own, with two pictures between. -/
example : currentSet [refsFirst, refsSecond] true refsFirst [false] ∧ RefPics.InRange refsFirst ∧
    estimate 1 ⟨0, 1, 7, refsFirst, true⟩ = some 0 :=
  ⟨⟨1, 0, by decide, by decide, rfl, by decide, rfl⟩, by decide, by decide⟩

example : ∃ bits, currentSet [refsFirst, refsSecond] false { numNegativePics := 1, deltaPocS0 := [-3], usedByCurrPicS0Flag := [true] } bits ∧
    RefPics.InRange { numNegativePics := 1, deltaPocS0 := [-3], usedByCurrPicS0Flag := [true] } ∧
    estimate 1 ⟨0, 1, 7, { numNegativePics := 1, deltaPocS0 := [-3], usedByCurrPicS0Flag := [true] }, false⟩ = some 2 :=
  ⟨_, ⟨false, [false], _, rfl, ⟨1, _, _, ⟨1, by decide, rfl, rfl⟩, ⟨0, _, _, ⟨0, by decide, rfl, rfl⟩, ⟨(), [], _, ⟨by decide, rfl⟩,
    ⟨[(-3, true)], _, _, ⟨2, _, _, ⟨2, by decide, rfl, rfl⟩, ⟨true, _, _, rfl, ⟨[], [], [], ⟨rfl, rfl⟩, ⟨rfl, rfl⟩, rfl⟩, rfl⟩, rfl⟩,
    ⟨(), [], _, ⟨by decide, rfl⟩, ⟨[], [], [], ⟨rfl, rfl⟩, ⟨rfl, rfl⟩, rfl⟩, rfl⟩, rfl⟩, rfl⟩, rfl⟩, rfl⟩, rfl⟩, by decide, by decide⟩

theorem refs_one (s : SPS) : ∃ x bits, RefPics.refFields s x bits ∧ x.shortTermRefPicSets.map (·.deltaPocS0) = [[-3]] :=
  ⟨_, _, ⟨1, _, _, ⟨by decide, rfl⟩, ⟨[{ numNegativePics := 1, deltaPocS0 := [-3], usedByCurrPicS0Flag := [true] }], _, _,
    ⟨{ numNegativePics := 1, deltaPocS0 := [-3], usedByCurrPicS0Flag := [true] }, _, [], ⟨false, [], _, ⟨rfl, rfl⟩,
      ⟨1, _, _, ⟨by decide, rfl⟩, ⟨0, _, _, ⟨by decide, rfl⟩, ⟨[(-3, true)], _, _, ⟨2, _, _, ⟨by decide, rfl⟩, ⟨true, _, _, rfl,
        ⟨[], [], [], ⟨rfl, rfl⟩, ⟨rfl, rfl⟩, rfl⟩, rfl⟩, rfl⟩, ⟨[], [], [], ⟨rfl, rfl⟩, ⟨rfl, rfl⟩, rfl⟩, rfl⟩, rfl⟩, rfl⟩, rfl⟩,
      ⟨rfl, rfl⟩, rfl⟩,
    ⟨false, _, _, rfl, ⟨0, [], _, ⟨rfl, rfl⟩, ⟨(), [], _, ⟨rfl, rfl⟩, ⟨true, _, _, rfl, ⟨true, _, _, rfl,
      ⟨none, _, [], ⟨false, _, [], rfl, ⟨rfl, rfl⟩, rfl⟩, ⟨rfl, rfl⟩, rfl⟩, rfl⟩, rfl⟩, rfl⟩, rfl⟩, rfl⟩, rfl⟩, rfl⟩, rfl⟩

/-- Hypotheses of `C109_standard`: the sequence parameter set of the example, with a set with one picture instead of its sets. -/
example : ∃ x bits, RefPics.spsData {} x bits ∧ x.shortTermRefPicSets.map (·.deltaPocS0) = [[-3]] := by
  obtain ⟨x, e1, -⟩ := Res.bind_eq_ok.1 refs_two
  obtain ⟨_, _, _, -, ⟨a1, b1, _, g1, ⟨a2, b2, _, g2, ⟨a3, b3, _, g3, ⟨a4, b4, _, g4, ⟨a5, b5, _, g5, ⟨a6, b6, _, g6, ⟨a7, b7, _, g7, -, -⟩,
    -⟩, -⟩, -⟩, -⟩, -⟩, -⟩, -⟩ := (C51_decode {} x refsTwo).1 e1
  obtain ⟨y, b8, g8, h8⟩ := refs_one a7
  exact ⟨y, _, ⟨a1, b1, _, g1, ⟨a2, b2, _, g2, ⟨a3, b3, _, g3, ⟨a4, b4, _, g4, ⟨a5, b5, _, g5, ⟨a6, b6, _, g6, ⟨a7, b7, _, g7, g8, rfl⟩,
    rfl⟩, rfl⟩, rfl⟩, rfl⟩, rfl⟩, rfl⟩, h8⟩

end Verif.Props
