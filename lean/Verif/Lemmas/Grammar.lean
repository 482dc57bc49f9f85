import Verif.Spec.Grammar
import Verif.Lemmas.BitM

/-!
# Parsers and grammars

`Exact n p G`: where at least `n` bits are left, `p` does not panic, and it returns `a` exactly where what is left starts
with bits that carry `a` according to `G`.
-/

namespace Verif.BitM
open Verif.Spec

variable {α β : Type}

instance : LawfulMonad Gr := LawfulMonad.mk'
  (id_map := by
    intro α x; funext c bits
    exact propext ⟨fun ⟨a, b1, b2, h1, ⟨h2, h3⟩, h4⟩ => by subst h2; subst h3; rw [h4, List.append_nil]; exact h1,
      fun h => ⟨c, bits, [], h, ⟨rfl, rfl⟩, (List.append_nil _).symm⟩⟩)
  (pure_bind := by
    intro α β x f; funext c bits
    exact propext ⟨fun ⟨a, b1, b2, ⟨h1, h2⟩, h3, h4⟩ => by subst h1; subst h2; rw [h4]; exact h3,
      fun h => ⟨x, [], bits, ⟨rfl, rfl⟩, h, rfl⟩⟩)
  (bind_assoc := by
    intro α β γ x f g; funext c bits
    exact propext ⟨fun ⟨b, b1, b2, ⟨a, c1, c2, h1, h2, h3⟩, h4, h5⟩ =>
        ⟨a, c1, c2 ++ b2, h1, ⟨b, c2, b2, h2, h4, rfl⟩, by rw [h5, h3, List.append_assoc]⟩,
      fun ⟨a, c1, d, h1, ⟨b, c2, b2, h2, h4, h3⟩, h5⟩ =>
        ⟨b, c1 ++ c2, b2, ⟨a, c1, c2, h1, h2, rfl⟩, h4, by rw [h5, h3, List.append_assoc]⟩⟩)

structure Exact (n : Nat) (p : BitM α) (G : Gr α) : Prop where
  tot : Tot n p G
  parses : ∀ a b, G a b → Parses p b a
  len : ∀ a b, G a b → n ≤ b.length

namespace Exact

theorem congr {n : Nat} {p : BitM α} {G F : Gr α} (h : Exact n p G) (e : ∀ a b, G a b ↔ F a b) : Exact n p F :=
  ⟨h.tot.imp fun a b => (e a b).1, fun a b g => h.parses a b ((e a b).2 g), fun a b g => h.len a b ((e a b).2 g)⟩

theorem pure (a : α) : Exact 0 (pure a) (pure a : Gr α) :=
  ⟨Tot.pure ⟨rfl, rfl⟩, by rintro _ _ ⟨rfl, rfl⟩; exact Parses.pure _, fun _ _ _ => Nat.zero_le _⟩

theorem bind {n : Nat} {p : BitM α} {G : Gr α} {f : α → BitM β} {F : α → Gr β} (h1 : Exact n p G)
    (h2 : ∀ a b, G a b → Exact 0 (f a) (F a)) : Exact n (p >>= f) (G >>= F) := by
  refine ⟨?_, ?_, ?_⟩
  · refine Tot.bind h1.tot fun a b1 g => ((h2 a b1 g).tot).mono (Nat.zero_le _) fun c b2 k => ⟨a, b1, b2, g, k, rfl⟩
  · rintro c _ ⟨a, b1, b2, g, k, rfl⟩
    exact Parses.bind (h1.parses a b1 g) ((h2 a b1 g).parses c b2 k)
  · rintro c _ ⟨a, b1, b2, g, k, rfl⟩
    have := h1.len a b1 g
    rw [List.length_append]; omega

theorem bindN {n k : Nat} {p : BitM α} {G : Gr α} {f : α → BitM β} {F : α → Gr β} (h1 : Exact k p G)
    (hk : ∀ a b, G a b → b.length = k) (hn : k ≤ n)
    (h2 : ∀ a b, G a b → Exact (n - k) (f a) (F a)) : Exact n (p >>= f) (G >>= F) := by
  refine ⟨?_, ?_, ?_⟩
  · refine Tot.bind (h1.tot.mono hn fun _ _ h => h) fun a b1 g => ?_
    rw [hk a b1 g]
    exact (h2 a b1 g).tot.imp fun c b2 k => ⟨a, b1, b2, g, k, rfl⟩
  · rintro c _ ⟨a, b1, b2, g, k, rfl⟩
    exact Parses.bind (h1.parses a b1 g) ((h2 a b1 g).parses c b2 k)
  · rintro c _ ⟨a, b1, b2, g, k, rfl⟩
    have h3 := hk a b1 g
    have h4 := (h2 a b1 g).len c b2 k
    rw [List.length_append]; omega

/-- One step of the code for two lines of the table. -/
theorem bind2 {A B : Type} {p : BitM (A × B)} {G1 : Gr A} {G2 : A → Gr B} {f : A × B → BitM β} {F : A → B → Gr β}
    (h1 : Exact 0 p (G1 >>= fun a => G2 a >>= fun b => Pure.pure (a, b))) (h2 : ∀ a b, Exact 0 (f (a, b)) (F a b)) :
    Exact 0 (p >>= f) (G1 >>= fun a => G2 a >>= fun b => F a b) := by
  have := bind (F := fun x => F x.1 x.2) h1 fun a _ _ => h2 a.1 a.2
  simpa only [bind_assoc, pure_bind] using this

/-- One step of the code for three lines of the table. -/
theorem bind3 {A B C : Type} {p : BitM (A × B × C)} {G1 : Gr A} {G2 : A → Gr B} {G3 : A → B → Gr C} {f : A × B × C → BitM β}
    {F : A → B → C → Gr β}
    (h1 : Exact 0 p (G1 >>= fun a => G2 a >>= fun b => G3 a b >>= fun c => Pure.pure (a, b, c)))
    (h2 : ∀ a b c, Exact 0 (f (a, b, c)) (F a b c)) :
    Exact 0 (p >>= f) (G1 >>= fun a => G2 a >>= fun b => G3 a b >>= fun c => F a b c) := by
  have := bind (F := fun x => F x.1 x.2.1 x.2.2) h1 fun a _ _ => h2 a.1 a.2.1 a.2.2
  simpa only [bind_assoc, pure_bind] using this

/-- One step of the code for six lines of the table. -/
theorem bind6 {A B C D E K : Type} {p : BitM (A × B × C × D × E × K)} {G1 : Gr A} {G2 : A → Gr B} {G3 : A → B → Gr C}
    {G4 : A → B → C → Gr D} {G5 : A → B → C → D → Gr E} {G6 : A → B → C → D → E → Gr K}
    {f : A × B × C × D × E × K → BitM β} {F : A → B → C → D → E → K → Gr β}
    (h1 : Exact 0 p (G1 >>= fun a => G2 a >>= fun b => G3 a b >>= fun c => G4 a b c >>= fun d => G5 a b c d >>= fun e =>
      G6 a b c d e >>= fun k => Pure.pure (a, b, c, d, e, k)))
    (h2 : ∀ a b c d e k, Exact 0 (f (a, b, c, d, e, k)) (F a b c d e k)) :
    Exact 0 (p >>= f) (G1 >>= fun a => G2 a >>= fun b => G3 a b >>= fun c => G4 a b c >>= fun d => G5 a b c d >>= fun e =>
      G6 a b c d e >>= fun k => F a b c d e k) := by
  have := bind (F := fun x => F x.1 x.2.1 x.2.2.1 x.2.2.2.1 x.2.2.2.2.1 x.2.2.2.2.2) h1
    fun a _ _ => h2 a.1 a.2.1 a.2.2.1 a.2.2.2.1 a.2.2.2.2.1 a.2.2.2.2.2
  simpa only [bind_assoc, pure_bind] using this

theorem readBits' {k : Nat} (h1 : 1 ≤ k) (h64 : k ≤ 64) : Exact 0 (readBits k) (Gr.u k) :=
  ⟨Tot.readBits' h1 h64 fun v hv => ⟨hv, rfl⟩, by rintro v _ ⟨hv, rfl⟩; exact Parses.readBits h1 h64 hv,
    fun _ _ _ => Nat.zero_le _⟩

theorem readFlag' : Exact 0 readFlag Gr.flag :=
  ⟨Tot.readFlag' fun _ => rfl, by rintro v _ rfl; exact Parses.readFlag, fun _ _ _ => Nat.zero_le _⟩

theorem readBitsU' {k : Nat} (h1 : 1 ≤ k) (h64 : k ≤ 64) : Exact k (readBitsU k) (Gr.u k) :=
  ⟨Tot.readBitsU' h1 h64 (Nat.le_refl _) fun v hv => ⟨hv, rfl⟩, by rintro v _ ⟨hv, rfl⟩; exact Parses.readBitsU h1 h64 hv,
    by rintro v _ ⟨hv, rfl⟩; rw [length_bitsOfNat]; exact Nat.le_refl _⟩

theorem readFlagU' : Exact 1 readFlagU Gr.flag :=
  ⟨Tot.readFlagU' (Nat.le_refl _) fun _ => rfl, by rintro v _ rfl; exact Parses.readFlagU, by rintro v _ rfl; simp⟩

theorem skip' {k : Nat} : Exact k (skip k) (Gr.reserved k) := by
  refine ⟨?_, ?_, ?_⟩
  · have := Tot.skip (n := k) (k := k) (f := fun _ => (Pure.pure () : BitM Unit)) (Q := Gr.reserved k) (Nat.le_refl _)
      fun sk hs => Tot.pure (by simpa [Gr.reserved] using hs)
    rw [bind_pure_unit] at this
    exact this
  · rintro _ b rfl; exact Parses.skip
  · rintro _ b rfl; exact Nat.le_refl _

theorem readUE' : Exact 0 readUE Gr.ue := by
  refine ⟨Tot.readUE' fun w hw => ⟨w, hw, rfl, rfl⟩, ?_, fun _ _ _ => Nat.zero_le _⟩
  rintro v _ ⟨w, hw, rfl, rfl⟩
  intro buf pos rest hp h
  unfold BitM.readUE
  rw [Bits.readGolombUnsigned_spec buf pos w rest hw h]

theorem readSE_eq : BitM.readSE = (BitM.readUE >>= fun v => Pure.pure
    (if Bits.toInt32 v % 2 ≠ 0 then (Bits.wrapInt32 (Bits.toInt32 v + 1)).tdiv 2
     else (Bits.wrapInt32 (-Bits.toInt32 v)).tdiv 2) : BitM Int) := by
  funext buf pos
  unfold BitM.readSE Bits.readGolombSigned
  rw [bind_run]
  unfold BitM.readUE
  rcases Bits.readGolombUnsigned buf pos with ⟨v, q⟩ | e | _
  · rw [Res.bind_ok, Res.bind_ok]
    dsimp only
    split <;> rfl
  · rfl
  · rfl

theorem signed_eq (w : Nat) :
    (if Bits.toInt32 (w % 2 ^ 32) % 2 ≠ 0 then (Bits.wrapInt32 (Bits.toInt32 (w % 2 ^ 32) + 1)).tdiv 2
     else (Bits.wrapInt32 (-Bits.toInt32 (w % 2 ^ 32))).tdiv 2) = Gr.wrap31 (Gr.signed w) := by
  have tdiv2 : ∀ x y : Int, x = 2 * y → x.tdiv 2 = y := by
    intro x y h; rw [h]; exact Int.mul_tdiv_cancel_left y (by decide)
  unfold Gr.wrap31 Gr.signed Bits.wrapInt32 Bits.toInt32
  split <;> split <;> (first | (apply tdiv2; split <;> omega) | (split at * <;> omega))

theorem readSE' : Exact 0 readSE Gr.se := by
  rw [readSE_eq]
  refine congr (bind readUE' fun v _ _ => pure _) fun a b => ?_
  constructor
  · rintro ⟨v, _, _, ⟨w, hw, rfl, rfl⟩, ⟨rfl, rfl⟩, rfl⟩
    exact ⟨w, hw, signed_eq w, by simp⟩
  · rintro ⟨w, hw, rfl, rfl⟩
    exact ⟨_, _, [], ⟨w, hw, rfl, rfl⟩, ⟨(signed_eq w).symm, rfl⟩, by simp⟩

theorem readSE {f : Int → BitM β} {F : Int → Gr β}
    (h : ∀ v, - 2 ^ 30 ≤ v → v < 2 ^ 30 → Exact 0 (f v) (F v)) : Exact 0 (BitM.readSE >>= f) (Gr.se >>= F) :=
  bind readSE' fun v _ g => by
    obtain ⟨w, _, rfl, _⟩ := g
    exact h _ (by unfold Gr.wrap31; omega) (by unfold Gr.wrap31; omega)

theorem readBits {k : Nat} {f : Nat → BitM β} {F : Nat → Gr β} (h1 : 1 ≤ k) (h64 : k ≤ 64)
    (h : ∀ v, v < 2 ^ k → Exact 0 (f v) (F v)) : Exact 0 (BitM.readBits k >>= f) (Gr.u k >>= F) :=
  bind (readBits' h1 h64) fun v _ g => h v g.1

theorem readFlag {f : Bool → BitM β} {F : Bool → Gr β}
    (h : ∀ v, Exact 0 (f v) (F v)) : Exact 0 (BitM.readFlag >>= f) (Gr.flag >>= F) :=
  bind readFlag' fun v _ _ => h v

theorem readBitsU {n k : Nat} {f : Nat → BitM β} {F : Nat → Gr β} (h1 : 1 ≤ k) (h64 : k ≤ 64) (hn : k ≤ n)
    (h : ∀ v, v < 2 ^ k → Exact (n - k) (f v) (F v)) : Exact n (BitM.readBitsU k >>= f) (Gr.u k >>= F) :=
  bindN (readBitsU' h1 h64) (by rintro v _ ⟨_, rfl⟩; exact length_bitsOfNat _ _) hn fun v _ g => h v g.1

theorem readFlagU {n : Nat} {f : Bool → BitM β} {F : Bool → Gr β} (hn : 1 ≤ n)
    (h : ∀ v, Exact (n - 1) (f v) (F v)) : Exact n (BitM.readFlagU >>= f) (Gr.flag >>= F) :=
  bindN readFlagU' (by rintro v _ rfl; rfl) hn fun v _ _ => h v

theorem skip {n k : Nat} {f : Unit → BitM β} {F : Unit → Gr β} (hn : k ≤ n)
    (h : Exact (n - k) (f ()) (F ())) : Exact n (BitM.skip k >>= f) (Gr.reserved k >>= F) :=
  bindN skip' (fun _ _ h => h) hn fun _ _ _ => h

theorem readUE {f : Nat → BitM β} {F : Nat → Gr β}
    (h : ∀ v, v < 2 ^ 32 → Exact 0 (f v) (F v)) : Exact 0 (BitM.readUE >>= f) (Gr.ue >>= F) :=
  bind readUE' fun v _ g => h v (by obtain ⟨w, _, rfl, _⟩ := g; exact Nat.mod_lt _ (by omega))

theorem hasSpace {k : Nat} {f : Unit → BitM β} {G : Gr β} (h : Exact k (f ()) G) : Exact 0 (BitM.hasSpace k >>= f) G :=
  ⟨Tot.hasSpace h.tot, fun a b g => Parses.hasSpace (h.len a b g) (h.parses a b g), fun _ _ _ => Nat.zero_le _⟩

/-- `if c { return err }`. -/
theorem guard {n : Nat} {c d : Prop} [Decidable c] {e : String} {q : BitM β} {F : Unit → Gr β} (hd : d ↔ ¬ c)
    (h : ¬ c → Exact n q (F ())) : Exact n (if c then BitM.fail e else q) (Gr.must d >>= F) := by
  refine ⟨?_, ?_, ?_⟩
  · exact Tot.ite (fun _ => Tot.fail) fun hc => (h hc).tot.imp fun a b g => ⟨(), [], b, ⟨hd.2 hc, rfl⟩, g, rfl⟩
  · rintro a _ ⟨_, _, b, ⟨hc, rfl⟩, g, rfl⟩
    exact Parses.ite_neg (hd.1 hc) ((h (hd.1 hc)).parses a _ g)
  · rintro a _ ⟨_, _, b, ⟨hc, rfl⟩, g, rfl⟩
    exact (h (hd.1 hc)).len a _ g

/-- A number that must have one value. -/
theorem lit {n k v : Nat} {e : String} {q : BitM β} {F : Unit → Gr β} (h1 : 1 ≤ k) (h64 : k ≤ 64) (hn : k ≤ n)
    (hv : v < 2 ^ k) (h : Exact (n - k) q (F ())) :
    Exact n (BitM.readBitsU k >>= fun x => if x ≠ v then BitM.fail e else q) (Gr.lit k v >>= F) := by
  refine congr (readBitsU (F := fun x => Gr.must (x = v) >>= F) h1 h64 hn fun x _ => guard (by simp) fun _ => h) ?_
  intro a b
  constructor
  · rintro ⟨_, _, _, ⟨_, rfl⟩, ⟨_, _, b2, ⟨rfl, rfl⟩, g, rfl⟩, rfl⟩
    exact ⟨(), _, _, rfl, g, rfl⟩
  · rintro ⟨_, _, b2, rfl, g, rfl⟩
    exact ⟨v, _, b2, ⟨hv, rfl⟩, ⟨(), [], b2, ⟨rfl, rfl⟩, g, rfl⟩, rfl⟩

theorem ite {n : Nat} {c : Prop} [Decidable c] {p q : BitM α} {G F : Gr α} (h1 : c → Exact n p G) (h2 : ¬ c → Exact n q F) :
    Exact n (if c then p else q) (if c then G else F) := by
  by_cases hc : c
  · rw [if_pos hc, if_pos hc]; exact h1 hc
  · rw [if_neg hc, if_neg hc]; exact h2 hc

theorem cond {c : Bool} {p : BitM α} {G : Gr α} {d : α} (h : c = true → Exact 0 p G) :
    Exact 0 (cond c p d) (Gr.opt c G d) := by
  cases c
  · exact pure d
  · exact h rfl

theorem times {p : BitM α} {G : Gr α} (h : Exact 0 p G) : ∀ n, Exact 0 (times p n) (Gr.times G n)
  | 0 => pure []
  | n + 1 => bind h fun _ _ _ => bind (times h n) fun _ _ _ => pure _

theorem each {f : α → BitM β} {F : α → Gr β} : ∀ {l : List α}, (∀ a ∈ l, Exact 0 (f a) (F a)) →
    Exact 0 (each f l) (Gr.each F l)
  | [], _ => pure []
  | a :: _, h => bind (h a (List.mem_cons_self ..)) fun _ _ _ =>
      bind (each fun x hx => h x (List.mem_cons_of_mem _ hx)) fun _ _ _ => pure _

theorem lift {n : Nat} {x : Res α} {y : α} {f : α → BitM β} {G : Gr β} (hx : x = .ok y) (h : Exact n (f y) G) :
    Exact n (lift x >>= f) G := by
  subst hx; exact h

/-- What `Exact` says about a whole buffer. -/
theorem run {p : BitM α} {G : Gr α} (h : Exact 0 p G) (buf : Bytes) (a : α) :
    (∃ pos, p buf 0 = .ok (a, pos)) ↔ ∃ bits rest, G a bits ∧ bitsOf buf = bits ++ rest := by
  constructor
  · rintro ⟨pos, e⟩
    obtain ⟨bits, h1, _, h2, _⟩ := (h.tot.run buf).2 a pos e
    exact ⟨bits, _, h1, h2⟩
  · rintro ⟨bits, rest, h1, h2⟩
    exact ⟨_, (h.parses a bits h1).run h2⟩

theorem noPanic {p : BitM α} {G : Gr α} (h : Exact 0 p G) (buf : Bytes) : (p buf 0).NoPanic := (h.tot.run buf).1

/-- What `Exact` says about a buffer from a position. -/
theorem runAt {p : BitM α} {G : Gr α} (h : Exact 0 p G) (buf : Bytes) (pos : Nat) (hp : pos ≤ 8 * buf.length) (a : α) :
    (∃ pos', p buf pos = .ok (a, pos')) ↔ ∃ bits rest, G a bits ∧ (bitsOf buf).drop pos = bits ++ rest := by
  constructor
  · rintro ⟨pos', e⟩
    obtain ⟨bits, h1, _, h2, _⟩ := (h.tot buf pos (by omega)).2 a pos' e
    exact ⟨bits, _, h1, h2⟩
  · rintro ⟨bits, rest, h1, h2⟩
    exact ⟨_, h.parses a bits h1 buf pos rest hp h2⟩

theorem noPanicAt {p : BitM α} {G : Gr α} (h : Exact 0 p G) (buf : Bytes) (pos : Nat) (hp : pos ≤ 8 * buf.length) :
    (p buf pos).NoPanic := (h.tot buf pos (by omega)).1

/-- A decoder that never succeeds. -/
theorem never {n : Nat} {e : String} : Exact n (BitM.fail e : BitM α) (fun _ _ => False) :=
  ⟨Tot.fail, fun _ _ h => h.elim, fun _ _ h => h.elim⟩

theorem bindNever {n : Nat} {p : BitM α} {G : Gr α} {f : α → BitM β} (h1 : Exact n p G)
    (h2 : ∀ a b, G a b → Exact 0 (f a) (fun _ _ => False)) : Exact n (p >>= f) (fun _ _ => False) :=
  congr (bind h1 h2) fun _ _ => ⟨fun ⟨_, _, _, _, h, _⟩ => h, fun h => h.elim⟩

/-- A flag that must not be set, because decoding always fails otherwise. -/
theorem zeroU {n : Nat} {f : Bool → BitM β} {F : Unit → Gr β} (hn : 1 ≤ n) (h0 : Exact (n - 1) (f false) (F ()))
    (h1 : Exact (n - 1) (f true) (fun _ _ => False)) : Exact n (BitM.readFlagU >>= f) (Gr.lit 1 0 >>= F) := by
  refine congr (readFlagU (F := fun x => if x then (fun _ _ => False) else F ()) hn fun x => ?_) fun a b => ?_
  · cases x
    · exact h0
    · exact h1
  · constructor
    · rintro ⟨x, _, b2, rfl, h, rfl⟩
      cases x
      · exact ⟨(), _, b2, rfl, h, rfl⟩
      · exact h.elim
    · rintro ⟨_, _, b2, rfl, h, rfl⟩
      exact ⟨false, _, b2, rfl, h, rfl⟩

theorem zero {f : Bool → BitM β} {F : Unit → Gr β} (h0 : Exact 0 (f false) (F ()))
    (h1 : Exact 0 (f true) (fun _ _ => False)) : Exact 0 (BitM.readFlag >>= f) (Gr.lit 1 0 >>= F) := by
  refine congr (readFlag (F := fun x => if x then (fun _ _ => False) else F ()) fun x => ?_) fun a b => ?_
  · cases x
    · exact h0
    · exact h1
  · constructor
    · rintro ⟨x, _, b2, rfl, h, rfl⟩
      cases x
      · exact ⟨(), _, b2, rfl, h, rfl⟩
      · exact h.elim
    · rintro ⟨_, _, b2, rfl, h, rfl⟩
      exact ⟨false, _, b2, rfl, h, rfl⟩

end Exact

theorem gr_times_length {G : Gr α} : ∀ {n : Nat} {l : List α} {b : List Bool}, Gr.times G n l b → l.length = n
  | 0, _, _, ⟨rfl, _⟩ => rfl
  | n + 1, _, _, ⟨_, _, _, _, ⟨_, _, _, h, ⟨rfl, _⟩, _⟩, _⟩ => by rw [List.length_cons, gr_times_length h]

theorem gr_times_mem {G : Gr α} : ∀ {n : Nat} {l : List α} {b : List Bool}, Gr.times G n l b → ∀ a ∈ l, ∃ c, G a c
  | 0, _, _, ⟨rfl, _⟩, a, ha => by simp at ha
  | n + 1, _, _, ⟨_, _, _, g, ⟨_, _, _, h, ⟨rfl, _⟩, _⟩, _⟩, a, ha => by
    rcases List.mem_cons.1 ha with rfl | ha
    · exact ⟨_, g⟩
    · exact gr_times_mem h a ha

theorem gr_times_bits {G : Gr α} {k : Nat} (hG : ∀ a b, G a b → b.length = k) : ∀ {n : Nat} {l : List α} {b : List Bool},
    Gr.times G n l b → b.length = n * k
  | 0, _, _, ⟨_, rfl⟩ => by simp
  | n + 1, _, _, ⟨_, _, _, g, ⟨_, _, _, h, ⟨rfl, rfl⟩, rfl⟩, rfl⟩ => by
    rw [List.append_nil, List.length_append, hG _ _ g, gr_times_bits hG h, Nat.succ_mul]; omega

/-- A loop over elements of a fixed size, after a check for all of them. -/
theorem Exact.timesU {p : BitM α} {G : Gr α} {k : Nat} (h : Exact k p G) (hG : ∀ a b, G a b → b.length = k) :
    ∀ n, Exact (n * k) (BitM.times p n) (Gr.times G n)
  | 0 => by rw [Nat.zero_mul]; exact Exact.pure []
  | n + 1 => by
    refine Exact.bindN h hG (by rw [Nat.succ_mul]; omega) fun a _ _ => ?_
    refine Exact.bindN (k := n * k) (Exact.timesU h hG n) (fun _ _ g => gr_times_bits hG g) (by rw [Nat.succ_mul]; omega)
      fun l _ _ => ?_
    rw [show (n + 1) * k - k - n * k = 0 by rw [Nat.succ_mul]; omega]
    exact Exact.pure _

theorem gr_u {n : Nat} {F : Nat → Gr β} {c : β} {bits b2 : List Bool} (v : Nat) (hv : v < 2 ^ n)
    (e : bits = bitsOfNat n v ++ b2) (h : F v c b2) : (Gr.u n >>= F) c bits :=
  ⟨v, _, b2, ⟨hv, rfl⟩, h, e⟩

theorem gr_flag {F : Bool → Gr β} {c : β} {b2 : List Bool} (v : Bool) (h : F v c b2) : (Gr.flag >>= F) c (v :: b2) :=
  ⟨v, [v], b2, rfl, h, rfl⟩

theorem gr_each_append {α β : Type} (F : α → Gr β) : ∀ l1 l2 : List α,
    Gr.each F (l1 ++ l2) = (Gr.each F l1 >>= fun a => Gr.each F l2 >>= fun b => pure (a ++ b))
  | [], l2 => by simp [Gr.each]
  | x :: l1, l2 => by
    simp only [List.cons_append, Gr.each, gr_each_append F l1 l2, bind_assoc, pure_bind]

theorem gr_each_times {α β : Type} {F : α → Gr β} {G : Gr β} : ∀ {l : List α}, (∀ a ∈ l, F a = G) →
    Gr.each F l = Gr.times G l.length
  | [], _ => rfl
  | a :: l, h => by
    simp only [Gr.each, Gr.times, List.length_cons, h a (List.mem_cons_self ..),
      gr_each_times fun x hx => h x (List.mem_cons_of_mem _ hx)]

/-- Every value of the grammar meets `P`. -/
def Sat (G : Gr α) (P : α → Prop) : Prop := ∀ a b, G a b → P a

namespace Sat

theorem pure {a : α} {P : α → Prop} (h : P a) : Sat (pure a : Gr α) P := by
  rintro _ _ ⟨rfl, _⟩; exact h

theorem bind {G : Gr α} {F : α → Gr β} {P : α → Prop} {Q : β → Prop} (h1 : Sat G P) (h2 : ∀ a, P a → Sat (F a) Q) :
    Sat (G >>= F) Q := by
  rintro c _ ⟨a, b1, b2, g, k, rfl⟩
  exact h2 a (h1 a b1 g) c b2 k

theorem skip {G : Gr α} {F : α → Gr β} {Q : β → Prop} (h2 : ∀ a, Sat (F a) Q) : Sat (G >>= F) Q :=
  bind (P := fun _ => True) (fun _ _ _ => trivial) fun a _ => h2 a

theorem u {n : Nat} : Sat (Gr.u n) (· < 2 ^ n) := fun _ _ h => h.1

theorem ite {c : Prop} [Decidable c] {G F : Gr α} {P : α → Prop} (h1 : c → Sat G P) (h2 : ¬ c → Sat F P) :
    Sat (if c then G else F) P := by
  by_cases hc : c
  · rw [if_pos hc]; exact h1 hc
  · rw [if_neg hc]; exact h2 hc

theorem imp {G : Gr α} {P Q : α → Prop} (h : Sat G P) (hi : ∀ a, P a → Q a) : Sat G Q := fun a b g => hi a (h a b g)

theorem and {G : Gr α} {P Q : α → Prop} (h : Sat G P) (h' : Sat G Q) : Sat G fun a => P a ∧ Q a :=
  fun a b g => ⟨h a b g, h' a b g⟩

theorem times {G : Gr α} {n : Nat} : Sat (Gr.times G n) fun l => l.length = n := fun _ _ g => gr_times_length g

end Sat

end Verif.BitM
