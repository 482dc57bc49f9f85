import Verif.Model.BitM
import Verif.Spec.Bytes
import Verif.Lemmas.BitField
import Verif.Lemmas.Golomb
import Verif.Lemmas.BitWrite

/-!
Reasoning about bit parsers and bit writers.

* `Tot n p P`: from every position with at least `n` bits left, `p` does not panic, and if it succeeds with `a` it has
  consumed bits `b` with `P a b` and the position is still inside the buffer.
* `Parses p bits a`: on every input that continues with `bits`, `p` consumes exactly them and returns `a`.
* `Writes w bits`: into every zeroed rest of a buffer with enough room, `w` writes exactly `bits`.
-/

namespace Verif
open Verif.Spec

namespace BitM
variable {α β γ : Type}

theorem bind_run (p : BitM α) (f : α → BitM β) (buf : Bytes) (pos : Nat) :
    (p >>= f) buf pos = (p buf pos >>= fun r => f r.1 buf r.2) := rfl

theorem pure_run (a : α) (buf : Bytes) (pos : Nat) : (pure a : BitM α) buf pos = .ok (a, pos) := rfl

instance : LawfulMonad BitM := LawfulMonad.mk'
  (id_map := by
    intro α x; funext buf pos
    show Res.bind (x buf pos) _ = x buf pos
    cases x buf pos <;> rfl)
  (pure_bind := by intros; rfl)
  (bind_assoc := by
    intro α β γ x f g; funext buf pos
    show Res.bind (Res.bind (x buf pos) _) _ = Res.bind (x buf pos) _
    cases x buf pos <;> rfl)

def Tot (n : Nat) (p : BitM α) (P : α → List Bool → Prop) : Prop :=
  ∀ buf pos, pos + n ≤ 8 * buf.length →
    (p buf pos).NoPanic ∧ ∀ a pos', p buf pos = .ok (a, pos') →
      ∃ bits, P a bits ∧ pos' = pos + bits.length ∧ (bitsOf buf).drop pos = bits ++ (bitsOf buf).drop pos' ∧
        pos' ≤ 8 * buf.length

theorem Tot.mono {n m : Nat} {p : BitM α} {P Q : α → List Bool → Prop} (h : Tot n p P) (hn : n ≤ m)
    (hP : ∀ a b, P a b → Q a b) : Tot m p Q := by
  intro buf pos hp
  obtain ⟨h1, h2⟩ := h buf pos (by omega)
  refine ⟨h1, fun a pos' e => ?_⟩
  obtain ⟨bits, g1, g2⟩ := h2 a pos' e
  exact ⟨bits, hP _ _ g1, g2⟩

theorem Tot.imp {n : Nat} {p : BitM α} {P Q : α → List Bool → Prop} (h : Tot n p P) (hP : ∀ a b, P a b → Q a b) :
    Tot n p Q := h.mono (Nat.le_refl _) hP

theorem Tot.pure {n : Nat} {a : α} {P : α → List Bool → Prop} (h : P a []) : Tot n (pure a) P := by
  intro buf pos hp
  rw [pure_run]
  refine ⟨by simp, ?_⟩
  intro a' pos' e
  cases e
  exact ⟨[], h, by simp, by simp, by omega⟩

theorem Tot.fail {n : Nat} {e : String} {P : α → List Bool → Prop} : Tot n (fail e : BitM α) P := by
  intro buf pos hp
  exact ⟨by simp [BitM.fail], by simp [BitM.fail]⟩

theorem Tot.bind {n : Nat} {p : BitM α} {f : α → BitM β} {P : α → List Bool → Prop} {Q : β → List Bool → Prop}
    (h1 : Tot n p P) (h2 : ∀ a b1, P a b1 → Tot (n - b1.length) (f a) (fun c b2 => Q c (b1 ++ b2))) :
    Tot n (p >>= f) Q := by
  intro buf pos hp
  obtain ⟨g1, g2⟩ := h1 buf pos hp
  rw [bind_run]
  rcases hr : p buf pos with ⟨a, pos'⟩ | e | _
  · obtain ⟨bits, k1, k2, k3, k4⟩ := g2 a pos' hr
    obtain ⟨m1, m2⟩ := h2 a bits k1 buf pos' (by omega)
    refine ⟨by rw [Res.bind_ok]; exact m1, ?_⟩
    intro b q e
    rw [Res.bind_ok] at e
    obtain ⟨bits2, n1, n2, n3, n4⟩ := m2 b q e
    exact ⟨bits ++ bits2, n1, by rw [List.length_append]; omega, by rw [k3, n3, List.append_assoc], n4⟩
  · exact ⟨by simp, by simp⟩
  · exact absurd hr g1

/-- Sequencing when only the value matters and no bits are promised to the rest. -/
theorem Tot.bind0 {n : Nat} {p : BitM α} {f : α → BitM β} {P : α → List Bool → Prop} {Q : β → Prop}
    (h1 : Tot n p P) (h2 : ∀ a b1, P a b1 → Tot 0 (f a) (fun c _ => Q c)) :
    Tot n (p >>= f) (fun c _ => Q c) :=
  Tot.bind h1 fun a b1 h => (h2 a b1 h).mono (by omega) fun _ _ h => h

/-- A single step that reads exactly `k` bits. -/
theorem Tot.readBits' {n k : Nat} {P : Nat → List Bool → Prop} (h1 : 1 ≤ k) (h64 : k ≤ 64)
    (h : ∀ v, v < 2 ^ k → P v (bitsOfNat k v)) : Tot n (readBits k) P := by
  intro buf pos hp
  rcases Bits.readBits_sound (buf := buf) (pos := pos) h1 h64 with ⟨_, e⟩ | ⟨v, e, hv, hs, hd⟩
  · unfold BitM.readBits; rw [e]; exact ⟨by simp, by simp⟩
  · unfold BitM.readBits; rw [e]
    refine ⟨by simp, ?_⟩
    intro a q e
    cases e
    exact ⟨_, h v hv, by simp, hd, hs⟩

theorem Tot.readBits {n k : Nat} {f : Nat → BitM β} {Q : β → List Bool → Prop} (h1 : 1 ≤ k) (h64 : k ≤ 64)
    (h : ∀ v, v < 2 ^ k → Tot (n - k) (f v) (fun c bs => Q c (bitsOfNat k v ++ bs))) :
    Tot n (BitM.readBits k >>= f) Q := by
  refine Tot.bind (Tot.readBits' h1 h64 (P := fun v b => v < 2 ^ k ∧ b = bitsOfNat k v) fun v hv => ⟨hv, rfl⟩) ?_
  rintro v _ ⟨hv, rfl⟩
  rw [length_bitsOfNat]
  exact h v hv

theorem Tot.readFlag' {n : Nat} {P : Bool → List Bool → Prop} (h : ∀ b, P b [b]) : Tot n readFlag P := by
  intro buf pos hp
  rcases Bits.readFlag_sound (buf := buf) (pos := pos) with ⟨_, e⟩ | ⟨v, e, hs, hd⟩
  · unfold BitM.readFlag; rw [e]; exact ⟨by simp, by simp⟩
  · unfold BitM.readFlag; rw [e]
    refine ⟨by simp, ?_⟩
    intro a q e
    cases e
    exact ⟨_, h v, by simp, by simpa using hd, hs⟩

theorem Tot.readFlag {n : Nat} {f : Bool → BitM β} {Q : β → List Bool → Prop}
    (h : ∀ v, Tot (n - 1) (f v) (fun c bs => Q c ([v] ++ bs))) : Tot n (BitM.readFlag >>= f) Q := by
  refine Tot.bind (Tot.readFlag' (P := fun v b => b = [v]) fun v => rfl) ?_
  rintro v _ rfl
  exact h v

theorem Tot.readBitsU' {n k : Nat} {P : Nat → List Bool → Prop} (h1 : 1 ≤ k) (h64 : k ≤ 64) (hk : k ≤ n)
    (h : ∀ v, v < 2 ^ k → P v (bitsOfNat k v)) : Tot n (readBitsU k) P := by
  intro buf pos hp
  obtain ⟨v, e, hv, hd⟩ := Bits.read_sound (buf := buf) (pos := pos) h1 h64 (by omega)
  unfold BitM.readBitsU; rw [e]
  refine ⟨by simp, ?_⟩
  intro a q e
  cases e
  exact ⟨_, h v hv, by simp, hd, by omega⟩

theorem Tot.readBitsU {n k : Nat} {f : Nat → BitM β} {Q : β → List Bool → Prop} (h1 : 1 ≤ k) (h64 : k ≤ 64) (hk : k ≤ n)
    (h : ∀ v, v < 2 ^ k → Tot (n - k) (f v) (fun c bs => Q c (bitsOfNat k v ++ bs))) :
    Tot n (BitM.readBitsU k >>= f) Q := by
  refine Tot.bind (Tot.readBitsU' h1 h64 hk (P := fun v b => v < 2 ^ k ∧ b = bitsOfNat k v) fun v hv => ⟨hv, rfl⟩) ?_
  rintro v _ ⟨hv, rfl⟩
  rw [length_bitsOfNat]
  exact h v hv

theorem Tot.readFlagU' {n : Nat} {P : Bool → List Bool → Prop} (hk : 1 ≤ n) (h : ∀ b, P b [b]) : Tot n readFlagU P := by
  intro buf pos hp
  obtain ⟨v, e, hd⟩ := Bits.flag_sound (buf := buf) (pos := pos) (by omega)
  unfold BitM.readFlagU; rw [e]
  refine ⟨by simp, ?_⟩
  intro a q e
  cases e
  exact ⟨_, h v, by simp, by simpa using hd, by omega⟩

theorem Tot.readFlagU {n : Nat} {f : Bool → BitM β} {Q : β → List Bool → Prop} (hk : 1 ≤ n)
    (h : ∀ v, Tot (n - 1) (f v) (fun c bs => Q c ([v] ++ bs))) : Tot n (BitM.readFlagU >>= f) Q := by
  refine Tot.bind (Tot.readFlagU' hk (P := fun v b => b = [v]) fun v => rfl) ?_
  rintro v _ rfl
  exact h v

theorem Tot.skip {n k : Nat} {f : Unit → BitM β} {Q : β → List Bool → Prop} (hk : k ≤ n)
    (h : ∀ sk : List Bool, sk.length = k → Tot (n - k) (f ()) (fun c bs => Q c (sk ++ bs))) :
    Tot n (skip k >>= f) Q := by
  have h0 : Tot n (BitM.skip k) (fun _ b => b.length = k) := by
    intro buf pos hp
    refine ⟨by simp [BitM.skip], ?_⟩
    intro a q e
    cases e
    refine ⟨((bitsOf buf).drop pos).take k, ?_, ?_, ?_, by omega⟩
    · simp; omega
    · simp; omega
    · rw [← List.drop_drop, List.take_append_drop]
  refine Tot.bind h0 ?_
  rintro _ sk rfl
  exact h sk rfl

theorem Tot.hasSpace {n k : Nat} {f : Unit → BitM β} {Q : β → List Bool → Prop}
    (h : Tot k (f ()) Q) : Tot n (hasSpace k >>= f) Q := by
  intro buf pos hp
  rw [bind_run]
  by_cases hs : pos + k ≤ 8 * buf.length
  · rw [BitM.hasSpace, Bits.hasSpace_ok hs]
    exact h buf pos hs
  · rw [BitM.hasSpace, Bits.hasSpace_err (by omega)]
    exact ⟨by simp [Res.bind], by simp [Res.bind]⟩

theorem drop_golomb {buf : Bytes} {pos v : Nat} (h : ((bitsOf buf).drop pos).take (golombBits v).length = golombBits v) :
    (bitsOf buf).drop pos = golombBits v ++ (bitsOf buf).drop (pos + (golombBits v).length) := by
  conv => lhs; rw [← List.take_append_drop (golombBits v).length ((bitsOf buf).drop pos), h]
  rw [List.drop_drop]

/-- The value is that of the code word modulo `2^32`. -/
theorem Tot.readUE' {n : Nat} {P : Nat → List Bool → Prop}
    (h : ∀ w, Nat.log2 (w + 1) ≤ 32 → P (w % 2 ^ 32) (golombBits w)) : Tot n readUE P := by
  intro buf pos hp
  rcases Bits.readGolombUnsigned_result buf pos (by omega) with ⟨v, h1, h2, h3, h4⟩ | ⟨e, he⟩
  · unfold readUE; rw [h3]
    refine ⟨by simp, ?_⟩
    intro a q e
    cases e
    exact ⟨_, h v h1, rfl, drop_golomb h4, h2⟩
  · unfold readUE; rw [he]; exact ⟨by simp, by simp⟩

theorem Tot.readUE {n : Nat} {f : Nat → BitM β} {Q : β → List Bool → Prop}
    (h : ∀ w, Nat.log2 (w + 1) ≤ 32 → Tot (n - (golombBits w).length) (f (w % 2 ^ 32)) (fun c bs => Q c (golombBits w ++ bs))) :
    Tot n (readUE >>= f) Q := by
  refine Tot.bind (Tot.readUE' (P := fun v b => ∃ w, Nat.log2 (w + 1) ≤ 32 ∧ v = w % 2 ^ 32 ∧ b = golombBits w)
    fun w hw => ⟨w, hw, rfl, rfl⟩) ?_
  rintro v _ ⟨w, hw, rfl, rfl⟩
  exact h w hw

/-- Only the range of the value matters. -/
theorem Tot.readUE0 {n : Nat} {f : Nat → BitM β} {Q : β → Prop}
    (h : ∀ v, v < 2 ^ 32 → Tot 0 (f v) (fun c _ => Q c)) : Tot n (BitM.readUE >>= f) (fun c _ => Q c) :=
  Tot.readUE fun w _ => (h (w % 2 ^ 32) (Nat.mod_lt _ (by omega))).mono (by omega) fun _ _ h => h

theorem Tot.readSE' {n : Nat} {P : Int → Prop} (h : ∀ v, P v) : Tot n readSE (fun v _ => P v) := by
  intro buf pos hp
  unfold readSE Bits.readGolombSigned
  rcases Bits.readGolombUnsigned_result buf pos (by omega) with ⟨v, h1, h2, h3, h4⟩ | ⟨e, he⟩
  · rw [h3, Res.bind_ok]
    simp only
    refine ⟨by split <;> simp, ?_⟩
    intro a q e
    split at e <;> cases e <;> exact ⟨_, h _, rfl, drop_golomb h4, h2⟩
  · rw [he]; exact ⟨by simp, by simp⟩

theorem Tot.readSE0 {n : Nat} {f : Int → BitM β} {Q : β → Prop} (h : ∀ v, Tot 0 (f v) (fun c _ => Q c)) :
    Tot n (readSE >>= f) (fun c _ => Q c) :=
  Tot.bind0 (Tot.readSE' (P := fun _ => True) fun _ => trivial) fun v _ _ => h v

theorem Tot.cond {n : Nat} {c : Bool} {p : BitM α} {d : α} {P : α → List Bool → Prop} (h1 : c = true → Tot n p P)
    (h2 : c = false → P d []) : Tot n (cond c p d) P := by
  unfold BitM.cond
  cases c
  · exact Tot.pure (h2 rfl)
  · exact h1 rfl

theorem Tot.times {n k : Nat} {p : BitM α} {enc : α → List Bool} {P : α → Prop}
    (h : Tot 0 p (fun a b => P a ∧ b = enc a)) :
    Tot n (times p k) (fun l b => l.length = k ∧ (∀ a ∈ l, P a) ∧ b = l.flatMap enc) := by
  induction k generalizing n with
  | zero => exact Tot.pure ⟨rfl, by simp, rfl⟩
  | succ k ih =>
    unfold BitM.times
    refine Tot.bind (h.mono (by omega) fun _ _ h => h) ?_
    rintro a _ ⟨ha, rfl⟩
    refine Tot.bind ih ?_
    rintro l _ ⟨h1, h2, rfl⟩
    refine Tot.pure ⟨by simp [h1], by simpa [ha] using h2, by simp⟩

theorem Tot.times0 {n k : Nat} {p : BitM α} {P : α → Prop} (h : Tot 0 p (fun a _ => P a)) :
    Tot n (BitM.times p k) (fun l _ => l.length = k ∧ ∀ a ∈ l, P a) := by
  induction k generalizing n with
  | zero => exact Tot.pure ⟨rfl, by simp⟩
  | succ k ih =>
    unfold BitM.times
    refine Tot.bind (h.mono (by omega) fun _ _ h => h) ?_
    intro a _ ha
    refine Tot.bind ih ?_
    rintro l _ ⟨h1, h2⟩
    refine Tot.pure ⟨by simp [h1], by simpa [ha] using h2⟩

theorem Tot.ite {n : Nat} {c : Prop} [Decidable c] {p q : BitM α} {P : α → List Bool → Prop} (h1 : c → Tot n p P)
    (h2 : ¬ c → Tot n q P) : Tot n (if c then p else q) P := by
  split
  · exact h1 ‹_›
  · exact h2 ‹_›

/-- Running a total parser from the start of a buffer. -/
theorem Tot.run {p : BitM α} {P : α → List Bool → Prop} (h : Tot 0 p P) (buf : Bytes) :
    (p buf 0).NoPanic ∧ ∀ a pos', p buf 0 = .ok (a, pos') →
      ∃ bits, P a bits ∧ pos' = bits.length ∧ bitsOf buf = bits ++ (bitsOf buf).drop pos' ∧ pos' ≤ 8 * buf.length := by
  obtain ⟨h1, h2⟩ := h buf 0 (by omega)
  refine ⟨h1, fun a q e => ?_⟩
  obtain ⟨bits, g1, g2, g3, g4⟩ := h2 a q e
  exact ⟨bits, g1, by omega, by simpa using g3, g4⟩

def Parses (p : BitM α) (bits : List Bool) (a : α) : Prop :=
  ∀ buf pos rest, pos ≤ 8 * buf.length → (bitsOf buf).drop pos = bits ++ rest → p buf pos = .ok (a, pos + bits.length)

theorem Parses.pure (a : α) : Parses (pure a) [] a := by
  intro buf pos rest _ h; rfl

theorem drop_after {buf : Bytes} {pos : Nat} {bits rest : List Bool} (h : (bitsOf buf).drop pos = bits ++ rest) :
    (bitsOf buf).drop (pos + bits.length) = rest := by
  rw [← List.drop_drop, h, List.drop_left' rfl]

theorem Parses.bind {p : BitM α} {f : α → BitM β} {b1 b2 : List Bool} {a : α} {c : β}
    (h1 : Parses p b1 a) (h2 : Parses (f a) b2 c) : Parses (p >>= f) (b1 ++ b2) c := by
  intro buf pos rest hp h
  rw [List.append_assoc] at h
  have hl := congrArg List.length h
  rw [Bits.drop_length, List.length_append] at hl
  rw [bind_run, h1 buf pos _ hp h, Res.bind_ok, h2 buf _ rest (by omega) (drop_after h)]
  simp [Nat.add_assoc]

theorem Parses.readBits {n v : Nat} (h1 : 1 ≤ n) (hn : n ≤ 64) (hv : v < 2 ^ n) :
    Parses (readBits n) (bitsOfNat n v) v := by
  intro buf pos rest hp h
  rw [length_bitsOfNat]
  exact (Bits.readBits_field h1 hn hv h).1

theorem Parses.readBitsU {n v : Nat} (h1 : 1 ≤ n) (hn : n ≤ 64) (hv : v < 2 ^ n) :
    Parses (readBitsU n) (bitsOfNat n v) v := by
  intro buf pos rest hp h
  rw [length_bitsOfNat]
  exact (Bits.read_field h1 hn hv h).1

theorem Parses.readFlag {b : Bool} : Parses readFlag [b] b := by
  intro buf pos rest hp h
  exact (Bits.readFlag_field h).1

theorem Parses.readFlagU {b : Bool} : Parses readFlagU [b] b := by
  intro buf pos rest hp h
  exact (Bits.flag_field h).1

theorem Parses.skip {bits : List Bool} : Parses (skip bits.length) bits () := by
  intro buf pos rest _ h; rfl

theorem Parses.hasSpace {n : Nat} {f : Unit → BitM β} {bits : List Bool} {c : β} (hn : n ≤ bits.length)
    (h : Parses (f ()) bits c) : Parses (hasSpace n >>= f) bits c := by
  intro buf pos rest hp hd
  have hl := congrArg List.length hd
  rw [Bits.drop_length, List.length_append] at hl
  rw [bind_run, BitM.hasSpace, Bits.hasSpace_ok (by omega)]
  exact h buf pos rest hp hd

theorem Parses.cond_true {p : BitM α} {d a : α} {bits : List Bool} (h : Parses p bits a) :
    Parses (cond true p d) bits a := h

theorem Parses.cond_false {p : BitM α} {d : α} : Parses (cond false p d) [] d := Parses.pure d

theorem Parses.readUE {v : Nat} (hv : v ≤ 2 ^ 32 - 2) : Parses readUE (golombBits v) v := by
  intro buf pos rest hp h
  have hlog : Nat.log2 (v + 1) < 32 := (Nat.log2_lt (by omega)).mpr (by omega)
  unfold BitM.readUE
  rw [Bits.readGolombUnsigned_spec buf pos v rest (by omega) h, Nat.mod_eq_of_lt (by omega)]

theorem Parses.times {p : BitM α} {enc : α → List Bool} {l : List α} (h : ∀ a ∈ l, Parses p (enc a) a) :
    Parses (times p l.length) (l.flatMap enc) l := by
  induction l with
  | nil => exact Parses.pure []
  | cons a l ih =>
    rw [List.flatMap_cons, List.length_cons]
    unfold BitM.times
    refine Parses.bind (h a (by simp)) ?_
    rw [← List.append_nil (l.flatMap enc)]
    exact Parses.bind (ih fun x hx => h x (by simp [hx])) (Parses.pure _)

theorem Parses.congr {p : BitM α} {b1 b2 : List Bool} {a : α} (h : Parses p b1 a) (e : b1 = b2) : Parses p b2 a := e ▸ h

theorem Parses.lift {x : Res α} {a : α} (h : x = .ok a) : Parses (lift x) [] a := by
  subst h; intro buf pos rest _ _; rfl

theorem Parses.ite_neg {c : Prop} [Decidable c] {p q : BitM α} {bits : List Bool} {a : α} (hc : ¬ c) (h : Parses q bits a) :
    Parses (if c then p else q) bits a := by rwa [if_neg hc]

theorem Parses.ite_pos {c : Prop} [Decidable c] {p q : BitM α} {bits : List Bool} {a : α} (hc : c) (h : Parses p bits a) :
    Parses (if c then p else q) bits a := by rwa [if_pos hc]

theorem Parses.condP {c : Bool} {p : BitM α} {d a : α} {bits : List Bool} (h1 : c = true → Parses p bits a)
    (h2 : c = false → a = d ∧ bits = []) : Parses (cond c p d) bits a := by
  cases c
  · obtain ⟨rfl, rfl⟩ := h2 rfl; exact Parses.cond_false
  · exact Parses.cond_true (h1 rfl)

theorem Parses.tryBits {n v : Nat} (h1 : 1 ≤ n) (hn : n ≤ 64) (hv : v < 2 ^ n) :
    Parses (tryBits n) (bitsOfNat n v) (some v) := by
  intro buf pos rest hp h
  unfold BitM.tryBits
  rw [(Bits.readBits_field h1 hn hv h).1, length_bitsOfNat]

/-- Parsing one item for each element of a list. -/
theorem Parses.each {f : α → BitM β} {P : α → β → List Bool → Prop} (h : ∀ a b x, P a b x → Parses (f a) x b) :
    ∀ (l : List α) (r : List β) (bits : List Bool), Tiles2 P l r bits → Parses (each f l) bits r := by
  intro l
  induction l with
  | nil =>
    intro r bits ht
    cases r with
    | nil => simp only [Tiles2] at ht; subst ht; exact Parses.pure []
    | cons => simp [Tiles2] at ht
  | cons a l ih =>
    intro r bits ht
    cases r with
    | nil => simp [Tiles2] at ht
    | cons b r =>
      obtain ⟨x, y, rfl, h1, h2⟩ := ht
      unfold BitM.each
      refine Parses.bind (h a b x h1) ?_
      refine Parses.congr (Parses.bind (ih r y h2) ?_) (List.append_nil _)
      exact Parses.pure _

/-- As `Parses`, when what follows satisfies `R`. -/
def ParsesR (R : List Bool → Prop) (p : BitM α) (bits : List Bool) (a : α) : Prop :=
  ∀ buf pos rest, pos ≤ 8 * buf.length → R rest → (bitsOf buf).drop pos = bits ++ rest →
    p buf pos = .ok (a, pos + bits.length)

theorem ParsesR.of {R : List Bool → Prop} {p : BitM α} {bits : List Bool} {a : α} (h : Parses p bits a) : ParsesR R p bits a :=
  fun buf pos rest hp _ hd => h buf pos rest hp hd

theorem ParsesR.congr {R : List Bool → Prop} {p : BitM α} {b1 b2 : List Bool} {a : α} (h : ParsesR R p b1 a) (e : b1 = b2) :
    ParsesR R p b2 a := e ▸ h

theorem ParsesR.bind {R : List Bool → Prop} {p : BitM α} {f : α → BitM β} {b1 b2 : List Bool} {a : α} {c : β}
    (h1 : Parses p b1 a) (h2 : ParsesR R (f a) b2 c) : ParsesR R (p >>= f) (b1 ++ b2) c := by
  intro buf pos rest hp hR h
  rw [List.append_assoc] at h
  have hl := congrArg List.length h
  rw [Bits.drop_length, List.length_append] at hl
  rw [bind_run, h1 buf pos _ hp h, Res.bind_ok, h2 buf _ rest (by omega) hR (drop_after h)]
  simp [Nat.add_assoc]

/-- The last step that reads something. -/
theorem ParsesR.bind_last {R : List Bool → Prop} {p : BitM α} {f : α → BitM β} {b1 : List Bool} {a : α} {c : β}
    (h1 : ParsesR R p b1 a) (h2 : ParsesR R (f a) [] c) : ParsesR R (p >>= f) b1 c := by
  intro buf pos rest hp hR h
  have hl := congrArg List.length h
  rw [Bits.drop_length, List.length_append] at hl
  rw [bind_run, h1 buf pos _ hp hR h, Res.bind_ok, h2 buf _ rest (by omega) hR (by simpa using drop_after h)]
  simp

theorem ParsesR.hasSpace {R : List Bool → Prop} {n : Nat} {f : Unit → BitM β} {bits : List Bool} {c : β} (hn : n ≤ bits.length)
    (h : ParsesR R (f ()) bits c) : ParsesR R (BitM.hasSpace n >>= f) bits c := by
  intro buf pos rest hp hR hd
  have hl := congrArg List.length hd
  rw [Bits.drop_length, List.length_append] at hl
  rw [bind_run, BitM.hasSpace, Bits.hasSpace_ok (by omega)]
  exact h buf pos rest hp hR hd

theorem ParsesR.tryBits_none {R : List Bool → Prop} {n : Nat} (h1 : 1 ≤ n) (h64 : n ≤ 64) (hR : ∀ r, R r → r.length < n) :
    ParsesR R (tryBits n) [] none := by
  intro buf pos rest hp hr hd
  have hl := congrArg List.length hd
  rw [Bits.drop_length, List.length_append, List.length_nil] at hl
  have := hR rest hr
  unfold BitM.tryBits
  rcases Bits.readBits_sound (buf := buf) (pos := pos) h1 h64 with ⟨hs, e⟩ | ⟨v, e, hv, hs, hdd⟩
  · rw [e]; rfl
  · omega

/-- Parsing a buffer from its start. -/
theorem ParsesR.run {R : List Bool → Prop} {p : BitM α} {bits : List Bool} {a : α} (h : ParsesR R p bits a) {buf : Bytes}
    {rest : List Bool} (hR : R rest) (hb : bitsOf buf = bits ++ rest) : p buf 0 = .ok (a, bits.length) := by
  have := h buf 0 rest (by omega) hR (by simpa using hb)
  simpa using this

theorem Tot.lift {n : Nat} {x : Res α} {f : α → BitM β} {Q : β → List Bool → Prop} (h1 : x.NoPanic)
    (h2 : ∀ a, x = .ok a → Tot n (f a) Q) : Tot n (BitM.lift x >>= f) Q := by
  intro buf pos hl
  rw [bind_run]
  rcases x with a | e | _
  · exact h2 a rfl buf pos hl
  · exact ⟨by simp [BitM.lift, Res.bind], by simp [BitM.lift, Res.bind]⟩
  · exact absurd rfl h1

theorem Tot.lift' {n : Nat} {x : Res α} {Q : α → List Bool → Prop} (h1 : x.NoPanic)
    (h2 : ∀ a, x = .ok a → Q a []) : Tot n (BitM.lift x) Q := by
  rw [← bind_pure (BitM.lift x)]
  exact Tot.lift h1 fun a ha => Tot.pure (h2 a ha)

theorem Tot.condP {n : Nat} {c : Bool} {p : BitM α} {d : α} {P : α → List Bool → Prop} (h : Tot n p P) :
    Tot n (BitM.cond c p d) (fun a b => (c = true ∧ P a b) ∨ (c = false ∧ a = d ∧ b = [])) := by
  refine Tot.cond ?_ ?_
  · rintro rfl; exact h.imp fun a b h => Or.inl ⟨rfl, h⟩
  · rintro rfl; exact Or.inr ⟨rfl, rfl, rfl⟩

theorem Tot.each {n : Nat} {f : α → BitM β} {l : List α} {P : α → β → List Bool → Prop}
    (h : ∀ a ∈ l, Tot 0 (f a) (P a)) : Tot n (each f l) (fun r b => Tiles2 P l r b) := by
  induction l generalizing n with
  | nil => exact Tot.pure rfl
  | cons a l ih =>
    unfold BitM.each
    refine Tot.bind ((h a (by simp)).mono (by omega) fun _ _ h => h) ?_
    intro c b1 h1
    refine Tot.bind (ih fun x hx => h x (by simp [hx])) ?_
    intro r b2 h2
    exact Tot.pure ⟨b1, b2, by simp, h1, h2⟩

/-- As `Tot`, at a position with exactly `k` bits left. -/
def TotL (k : Nat) (p : BitM α) (P : α → List Bool → Prop) : Prop :=
  ∀ buf pos, pos ≤ 8 * buf.length → 8 * buf.length - pos = k →
    (p buf pos).NoPanic ∧ ∀ a pos', p buf pos = .ok (a, pos') →
      ∃ bits, P a bits ∧ pos' = pos + bits.length ∧ (bitsOf buf).drop pos = bits ++ (bitsOf buf).drop pos' ∧
        pos' ≤ 8 * buf.length

theorem TotL.of {n k : Nat} {p : BitM α} {P : α → List Bool → Prop} (h : Tot n p P) (hn : n ≤ k) : TotL k p P :=
  fun buf pos hp hk => h buf pos (by omega)

theorem Tot.ofL {n : Nat} {p : BitM α} {P : α → List Bool → Prop} (h : ∀ k, n ≤ k → TotL k p P) : Tot n p P :=
  fun buf pos hp => h (8 * buf.length - pos) (by omega) buf pos (by omega) rfl

theorem TotL.imp {k : Nat} {p : BitM α} {P Q : α → List Bool → Prop} (h : TotL k p P)
    (hP : ∀ a b, b.length ≤ k → P a b → Q a b) : TotL k p Q := by
  intro buf pos hp hk
  obtain ⟨h1, h2⟩ := h buf pos hp hk
  refine ⟨h1, fun a pos' e => ?_⟩
  obtain ⟨bits, g1, g2, g3, g4⟩ := h2 a pos' e
  exact ⟨bits, hP _ _ (by omega) g1, g2, g3, g4⟩

theorem TotL.pure {k : Nat} {a : α} {P : α → List Bool → Prop} (h : P a []) : TotL k (pure a) P :=
  TotL.of (n := 0) (Tot.pure h) (by omega)

theorem TotL.fail {k : Nat} {e : String} {P : α → List Bool → Prop} : TotL k (fail e : BitM α) P :=
  TotL.of (n := 0) Tot.fail (by omega)

theorem TotL.bind {k : Nat} {p : BitM α} {f : α → BitM β} {P : α → List Bool → Prop} {Q : β → List Bool → Prop}
    (h1 : TotL k p P) (h2 : ∀ a b1, b1.length ≤ k → P a b1 → TotL (k - b1.length) (f a) (fun c b2 => Q c (b1 ++ b2))) :
    TotL k (p >>= f) Q := by
  intro buf pos hp hk
  obtain ⟨g1, g2⟩ := h1 buf pos hp hk
  rw [bind_run]
  rcases hr : p buf pos with ⟨a, pos'⟩ | e | _
  · obtain ⟨bits, k1, k2, k3, k4⟩ := g2 a pos' hr
    obtain ⟨m1, m2⟩ := h2 a bits (by omega) k1 buf pos' k4 (by omega)
    refine ⟨by rw [Res.bind_ok]; exact m1, ?_⟩
    intro b q e
    rw [Res.bind_ok] at e
    obtain ⟨bits2, n1, n2, n3, n4⟩ := m2 b q e
    exact ⟨bits ++ bits2, n1, by rw [List.length_append]; omega, by rw [k3, n3, List.append_assoc], n4⟩
  · exact ⟨by simp, by simp⟩
  · exact absurd hr g1

theorem TotL.ite {k : Nat} {c : Prop} [Decidable c] {p q : BitM α} {P : α → List Bool → Prop} (h1 : c → TotL k p P)
    (h2 : ¬ c → TotL k q P) : TotL k (if c then p else q) P := by
  split
  · exact h1 ‹_›
  · exact h2 ‹_›

theorem TotL.tryBits {k n : Nat} (h1 : 1 ≤ n) (h64 : n ≤ 64) : TotL k (tryBits n) (fun r b =>
    (r = none ∧ k < n ∧ b = []) ∨ ∃ v, v < 2 ^ n ∧ r = some v ∧ b = bitsOfNat n v) := by
  intro buf pos hp hk
  unfold BitM.tryBits
  rcases Bits.readBits_sound (buf := buf) (pos := pos) h1 h64 with ⟨hs, e⟩ | ⟨v, e, hv, hs, hd⟩
  · rw [e]
    refine ⟨by simp, ?_⟩
    intro a q e
    cases e
    exact ⟨[], Or.inl ⟨rfl, by omega, rfl⟩, by simp, by simp, hp⟩
  · rw [e]
    refine ⟨by simp, ?_⟩
    intro a q e
    cases e
    exact ⟨_, Or.inr ⟨v, hv, rfl, rfl⟩, by simp, hd, hs⟩

/-- Parsing a buffer from its start. -/
theorem Parses.run {p : BitM α} {bits : List Bool} {a : α} (h : Parses p bits a) {buf : Bytes} {rest : List Bool}
    (hb : bitsOf buf = bits ++ rest) : p buf 0 = .ok (a, bits.length) := by
  have := h buf 0 rest (by omega) (by simpa using hb)
  simpa using this

end BitM

namespace BitW

def Writes (w : BitW) (bits : List Bool) : Prop :=
  ∀ buf pos pre m, bitsOf buf = pre ++ List.replicate m false → pre.length = pos → bits.length ≤ m →
    ∃ buf', w buf pos = .ok (buf', pos + bits.length) ∧ buf'.length = buf.length ∧
      bitsOf buf' = pre ++ bits ++ List.replicate (m - bits.length) false

theorem Writes.nop : Writes nop [] := by
  intro buf pos pre m h1 h2 h3
  exact ⟨buf, rfl, rfl, by simpa using h1⟩

theorem Writes.seq {a b : BitW} {x y : List Bool} (ha : Writes a x) (hb : Writes b y) : Writes (seq a b) (x ++ y) := by
  intro buf pos pre m h1 h2 h3
  rw [List.length_append] at h3
  obtain ⟨b1, e1, l1, c1⟩ := ha buf pos pre m h1 h2 (by omega)
  obtain ⟨b2, e2, l2, c2⟩ := hb b1 (pos + x.length) (pre ++ x) (m - x.length) c1 (by simp [h2]) (by omega)
  refine ⟨b2, ?_, by omega, ?_⟩
  · rw [BitW.seq, e1]
    simp only [Res.bind]
    rw [e2, List.length_append, Nat.add_assoc]
  · rw [c2, List.length_append]; simp [Nat.sub_sub]

theorem Writes.bits {v n : Nat} (h1 : 1 ≤ n) (hv : v < 2 ^ n) : Writes (bits v n) (bitsOfNat n v) := by
  intro buf pos pre m g1 g2 g3
  rw [length_bitsOfNat] at g3 ⊢
  exact Bits.writeBitsUnsafe_spec buf pos v n m pre g1 g2 (by omega) g3 hv

theorem Writes.flag {v : Bool} : Writes (flag v) [v] := by
  intro buf pos pre m g1 g2 g3
  simp only [List.length_cons, List.length_nil] at g3 ⊢
  cases v
  · obtain ⟨b, h1, h2, h3⟩ := Bits.writeBitsUnsafe_spec buf pos 0 1 m pre g1 g2 (by omega) g3 (by omega)
    exact ⟨b, h1, h2, by simpa [bitsOfNat] using h3⟩
  · obtain ⟨b, h1, h2, h3⟩ := Bits.writeBitsUnsafe_spec buf pos 1 1 m pre g1 g2 (by omega) g3 (by omega)
    exact ⟨b, h1, h2, by simpa [bitsOfNat] using h3⟩

theorem Writes.skip {n : Nat} : Writes (skip n) (List.replicate n false) := by
  intro buf pos pre m g1 g2 g3
  rw [List.length_replicate] at g3 ⊢
  refine ⟨buf, rfl, rfl, ?_⟩
  rw [g1, List.append_assoc, ← Bits.replicate_add]
  congr 2
  omega

theorem Writes.all_nil : Writes (all []) [] := Writes.nop
theorem Writes.all_cons {w : BitW} {ws : List BitW} {x y : List Bool} (h1 : Writes w x) (h2 : Writes (all ws) y) :
    Writes (all (w :: ws)) (x ++ y) := Writes.seq h1 h2

theorem Writes.congr {w : BitW} {b1 b2 : List Bool} (h : Writes w b1) (e : b1 = b2) : Writes w b2 := e ▸ h

/-- Writing into a new buffer. -/
theorem Writes.run {w : BitW} {bits : List Bool} (h : Writes w bits) (n : Nat) (hn : bits.length ≤ 8 * n) :
    ∃ buf', w (List.replicate n 0) 0 = .ok (buf', bits.length) ∧ buf'.length = n ∧
      bitsOf buf' = bits ++ List.replicate (8 * n - bits.length) false := by
  obtain ⟨b, h1, h2, h3⟩ := h (List.replicate n 0) 0 [] (8 * n) (by rw [Bits.bitsOf_replicate_zero]; rfl) rfl hn
  exact ⟨b, by simpa using h1, by simpa using h2, by simpa using h3⟩

end BitW

end Verif
