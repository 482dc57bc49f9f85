import Verif.Model.StepM

/-!
# Reasoning about methods that change their receiver
-/

namespace Verif.StepM

variable {σ α β : Type}

/-- From every state in `P`, the code ends in `Q` if it succeeds, in `E` if it fails, and in `K` if it panics. -/
def Triple (P : σ → Prop) (p : StepM σ α) (Q : σ → α → Prop) (E K : σ → Prop) : Prop :=
  ∀ s, P s → match p s with
    | (s', .ok a) => Q s' a
    | (s', .err _) => E s'
    | (s', .panic) => K s'

namespace Triple

variable {P P' : σ → Prop} {p : StepM σ α} {Q Q' : σ → α → Prop} {E E' K K' : σ → Prop}

theorem run_ok (h : Triple P p Q E K) {s s' : σ} {a : α} (hs : P s) (e : p s = (s', .ok a)) : Q s' a := by
  have := h s hs; rw [e] at this; exact this

theorem run_err (h : Triple P p Q E K) {s s' : σ} {m : String} (hs : P s) (e : p s = (s', .err m)) : E s' := by
  have := h s hs; rw [e] at this; exact this

theorem run_panic (h : Triple P p Q E K) {s s' : σ} (hs : P s) (e : p s = (s', .panic)) : K s' := by
  have := h s hs; rw [e] at this; exact this

theorem conseq (h : Triple P p Q E K) (hP : ∀ s, P' s → P s) (hQ : ∀ s a, Q s a → Q' s a) (hE : ∀ s, E s → E' s)
    (hK : ∀ s, K s → K' s) : Triple P' p Q' E' K' := by
  intro s hs
  have := h s (hP s hs)
  revert this
  rcases p s with ⟨s', _ | _ | _⟩
  · exact hQ _ _
  · exact hE _
  · exact hK _

theorem pre (h : Triple P p Q E K) (hP : ∀ s, P' s → P s) : Triple P' p Q E K :=
  h.conseq hP (fun _ _ h => h) (fun _ h => h) fun _ h => h

theorem post (h : Triple P p Q E K) (hQ : ∀ s a, Q s a → Q' s a) : Triple P p Q' E K :=
  h.conseq (fun _ h => h) hQ (fun _ h => h) fun _ h => h

theorem pure {a : α} (h : ∀ s, P s → Q s a) : Triple P (Pure.pure a) Q E K := fun s hs => h s hs

theorem fail {m : String} (h : ∀ s, P s → E s) : Triple P (StepM.fail (α := α) m) Q E K := fun s hs => h s hs

theorem panic (h : ∀ s, P s → K s) : Triple P (StepM.lift (α := α) .panic) Q E K := fun s hs => h s hs

theorem bind {R : σ → α → Prop} {f : α → StepM σ β} {Q : σ → β → Prop} (hp : Triple P p R E K)
    (hf : ∀ a, Triple (fun s => R s a) (f a) Q E K) : Triple P (p >>= f) Q E K := by
  intro s hs
  have := hp s hs
  show match (match p s with
    | (s, .ok a) => f a s
    | (s, .err e) => (s, .err e)
    | (s, .panic) => (s, .panic)) with
    | (s', .ok a) => Q s' a
    | (s', .err _) => E s'
    | (s', .panic) => K s'
  revert this
  rcases p s with ⟨s', a | _ | _⟩
  · exact fun h => hf a s' h
  · exact fun h => h
  · exact fun h => h

theorem get {f : σ → StepM σ β} {Q : σ → β → Prop} (hf : ∀ a, P a → Triple (fun s => s = a) (f a) Q E K) :
    Triple P (StepM.get >>= f) Q E K := fun s hs => hf s hs s rfl

theorem modify {g : σ → σ} {f : Unit → StepM σ β} {Q : σ → β → Prop} {R : σ → Prop} (hg : ∀ s, P s → R (g s))
    (hf : Triple R (f ()) Q E K) : Triple P (StepM.modify g >>= f) Q E K := fun s hs => hf (g s) (hg s hs)

theorem modify' {g : σ → σ} {Q : σ → Unit → Prop} (hg : ∀ s, P s → Q (g s) ()) : Triple P (StepM.modify g) Q E K :=
  fun s hs => hg s hs

theorem lift {x : Res α} {f : α → StepM σ β} {Q : σ → β → Prop} (he : ∀ m s, x = .err m → P s → E s)
    (hk : ∀ s, x = .panic → P s → K s) (hf : ∀ a, x = .ok a → Triple P (f a) Q E K) :
    Triple P (StepM.lift x >>= f) Q E K := by
  intro s hs
  cases hx : x with
  | ok a => exact hf a hx s hs
  | err m => exact he m s hx hs
  | panic => exact hk s hx hs

theorem ite {c : Prop} [Decidable c] {p q : StepM σ α} (h1 : c → Triple P p Q E K) (h2 : ¬ c → Triple P q Q E K) :
    Triple P (if c then p else q) Q E K := by
  by_cases h : c
  · rw [if_pos h]; exact h1 h
  · rw [if_neg h]; exact h2 h

theorem and {P2 : σ → Prop} {Q2 : σ → α → Prop} {E2 K2 : σ → Prop} (h1 : Triple P p Q E K) (h2 : Triple P2 p Q2 E2 K2) :
    Triple (fun s => P s ∧ P2 s) p (fun s a => Q s a ∧ Q2 s a) (fun s => E s ∧ E2 s) (fun s => K s ∧ K2 s) := by
  intro s hs
  have a1 := h1 s hs.1
  have a2 := h2 s hs.2
  revert a1 a2
  rcases p s with ⟨s', _ | _ | _⟩ <;> exact fun a b => ⟨a, b⟩

end Triple

theorem calls_append (f : α → StepM σ β) (s : σ) (l : List α) (a : α) :
    calls f s (l ++ [a]) = calls f s l ++ [(f a (after f s l)).2] := by
  induction l generalizing s with
  | nil => rfl
  | cons x l ih => simp only [List.cons_append, calls, after, ih]

theorem length_calls (f : α → StepM σ β) (s : σ) (l : List α) : (calls f s l).length = l.length := by
  induction l generalizing s with
  | nil => rfl
  | cons x l ih => simp only [calls, List.length_cons, ih]

/-- An invariant of every call holds after all of them. -/
theorem after_inv (f : α → StepM σ β) (I : σ → Prop) (P : α → Prop) (h : ∀ a s, P a → I s → I (f a s).1) (s : σ) (l : List α)
    (hl : ∀ a ∈ l, P a) (hs : I s) : I (after f s l) := by
  induction l generalizing s with
  | nil => exact hs
  | cons x l ih =>
    exact ih _ (fun a ha => hl a (List.mem_cons_of_mem _ ha)) (h x s (hl x (List.mem_cons_self ..)) hs)

end Verif.StepM
