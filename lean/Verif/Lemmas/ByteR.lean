import Verif.Model.ByteR
import Verif.Spec.Bytes
import Verif.Lemmas.BE
import Verif.Lemmas.BitM

namespace Verif.ByteR
open Verif.Spec Verif.BitM

theorem beBytes_length (k v : Nat) : (beBytes k v).length = k := by
  induction k with
  | zero => rfl
  | succ k ih => simp [beBytes, ih]

theorem beBytes_2 (v : Nat) : beBytes 2 v = [UInt8.ofNat (v >>> 8), UInt8.ofNat v] := by
  simp [beBytes, Nat.shiftRight_eq_div_pow]

theorem beBytes_3 (v : Nat) : beBytes 3 v = [UInt8.ofNat (v >>> 16), UInt8.ofNat (v >>> 8), UInt8.ofNat v] := by
  simp [beBytes, Nat.shiftRight_eq_div_pow]

theorem beBytes_4 (v : Nat) :
    beBytes 4 v = [UInt8.ofNat (v >>> 24), UInt8.ofNat (v >>> 16), UInt8.ofNat (v >>> 8), UInt8.ofNat v] := by
  simp [beBytes, Nat.shiftRight_eq_div_pow]

theorem be16_of (a b : UInt8) : beBytes 2 (a.toNat <<< 8 ||| b.toNat) = [a, b] ∧ a.toNat <<< 8 ||| b.toNat < 2 ^ 16 := by
  have ha := a.toNat_lt
  have hb := b.toNat_lt
  rw [or2]
  refine ⟨?_, by omega⟩
  rw [beBytes_2, Nat.shiftRight_eq_div_pow]
  congr 1
  · apply UInt8.toNat_inj.1; simp; omega
  · congr 1; apply UInt8.toNat_inj.1; simp

theorem be24_of (a b c : UInt8) : beBytes 3 (a.toNat <<< 16 ||| b.toNat <<< 8 ||| c.toNat) = [a, b, c] ∧
    a.toNat <<< 16 ||| b.toNat <<< 8 ||| c.toNat < 2 ^ 24 := by
  have ha := a.toNat_lt
  have hb := b.toNat_lt
  have hc := c.toNat_lt
  rw [or3]
  refine ⟨?_, by omega⟩
  rw [beBytes_3, Nat.shiftRight_eq_div_pow, Nat.shiftRight_eq_div_pow]
  congr 1
  · apply UInt8.toNat_inj.1; simp; omega
  · congr 1
    · apply UInt8.toNat_inj.1; simp; omega
    · congr 1; apply UInt8.toNat_inj.1; simp

theorem be32_of (a b c d : UInt8) :
    beBytes 4 (a.toNat <<< 24 ||| b.toNat <<< 16 ||| c.toNat <<< 8 ||| d.toNat) = [a, b, c, d] ∧
    a.toNat <<< 24 ||| b.toNat <<< 16 ||| c.toNat <<< 8 ||| d.toNat < 2 ^ 32 := by
  have ha := a.toNat_lt
  have hb := b.toNat_lt
  have hc := c.toNat_lt
  have hd := d.toNat_lt
  rw [H264.or4 _ _ _ _ (UInt8.toNat_lt _) (UInt8.toNat_lt _) (UInt8.toNat_lt _)]
  refine ⟨?_, by omega⟩
  rw [beBytes_4, Nat.shiftRight_eq_div_pow, Nat.shiftRight_eq_div_pow, Nat.shiftRight_eq_div_pow]
  congr 1
  · apply UInt8.toNat_inj.1; simp; omega
  · congr 1
    · apply UInt8.toNat_inj.1; simp; omega
    · congr 1
      · apply UInt8.toNat_inj.1; simp; omega
      · congr 1; apply UInt8.toNat_inj.1; simp

variable {α β : Type}

/-- `p` reads exactly `bs`, wherever they are, and returns `a`. -/
def Reads (p : BitM α) (bs : Bytes) (a : α) : Prop :=
  ∀ pre post : Bytes, p (pre ++ (bs ++ post)) pre.length = .ok (a, pre.length + bs.length)

theorem Reads.pure (a : α) : Reads (pure a) [] a := by intro pre post; rfl

theorem Reads.bind {p : BitM α} {f : α → BitM β} {x y : Bytes} {a : α} {c : β} (h1 : Reads p x a) (h2 : Reads (f a) y c) :
    Reads (p >>= f) (x ++ y) c := by
  intro pre post
  rw [bind_run, List.append_assoc, h1 pre (y ++ post), Res.bind_ok]
  have := h2 (pre ++ x) post
  rw [List.length_append] at this
  simp only
  rw [← List.append_assoc, this, List.length_append, Nat.add_assoc]

theorem Reads.need {k : Nat} {f : Unit → BitM β} {bs : Bytes} {c : β} (hk : k ≤ bs.length) (h : Reads (f ()) bs c) :
    Reads (need k >>= f) bs c := by
  intro pre post
  rw [bind_run]
  unfold ByteR.need
  rw [sliceFrom_ok (by simp)]
  simp only [Res.bind, List.drop_left]
  rw [if_neg (by simp; omega)]
  exact h pre post

theorem Reads.byte (b : UInt8) : Reads byte [b] b := by
  intro pre post
  unfold ByteR.byte
  rw [idx_of_lt (by simp)]
  simp [Res.bind]

theorem Reads.be16 {v : Nat} (hv : v < 2 ^ 16) : Reads be16 (beBytes 2 v) v := by
  rw [beBytes_2]
  unfold ByteR.be16
  refine Reads.bind (x := [_]) (Reads.byte _) (Reads.bind (x := [_]) (y := []) (Reads.byte _) ?_)
  rw [be16_back v hv]
  exact Reads.pure _

theorem Reads.be24 {v : Nat} (hv : v < 2 ^ 24) : Reads be24 (beBytes 3 v) v := by
  rw [beBytes_3]
  unfold ByteR.be24
  refine Reads.bind (x := [_]) (Reads.byte _) (Reads.bind (x := [_]) (Reads.byte _)
    (Reads.bind (x := [_]) (y := []) (Reads.byte _) ?_))
  rw [be24_back v hv]
  exact Reads.pure _

theorem Reads.be32 {v : Nat} (hv : v < 2 ^ 32) : Reads be32 (beBytes 4 v) v := by
  rw [beBytes_4]
  unfold ByteR.be32
  refine Reads.bind (x := [_]) (Reads.byte _) (Reads.bind (x := [_]) (Reads.byte _)
    (Reads.bind (x := [_]) (Reads.byte _) (Reads.bind (x := [_]) (y := []) (Reads.byte _) ?_)))
  rw [be32_back v hv]
  exact Reads.pure _

theorem Reads.take (bs : Bytes) : Reads (take bs.length) bs bs := by
  intro pre post
  unfold ByteR.take
  rw [slice_ok (by omega) (by simp)]
  simp [Res.bind]

theorem Reads.cond_true {p : BitM α} {d a : α} {bs : Bytes} (h : Reads p bs a) : Reads (cond true p d) bs a := h
theorem Reads.cond_false {p : BitM α} {d : α} : Reads (cond false p d) [] d := Reads.pure d
theorem Reads.congr {p : BitM α} {x y : Bytes} {a : α} (h : Reads p x a) (e : x = y) : Reads p y a := e ▸ h

theorem Reads.run {p : BitM α} {bs : Bytes} {a : α} (h : Reads p bs a) (post : Bytes) : p (bs ++ post) 0 = .ok (a, bs.length) := by
  simpa using h [] post

/-- `p` reads exactly `bs` when they are the end of the buffer. -/
def ReadsEnd (p : BitM α) (bs : Bytes) (a : α) : Prop :=
  ∀ pre : Bytes, p (pre ++ bs) pre.length = .ok (a, pre.length + bs.length)

theorem Reads.toEnd {p : BitM α} {bs : Bytes} {a : α} (h : Reads p bs a) : ReadsEnd p bs a := by
  intro pre; simpa using h pre []

theorem ReadsEnd.bind {p : BitM α} {f : α → BitM β} {x y : Bytes} {a : α} {c : β} (h1 : Reads p x a)
    (h2 : ReadsEnd (f a) y c) : ReadsEnd (p >>= f) (x ++ y) c := by
  intro pre
  rw [bind_run, h1 pre y, Res.bind_ok]
  have := h2 (pre ++ x)
  rw [List.length_append] at this
  simp only
  rw [← List.append_assoc, this, List.length_append, Nat.add_assoc]

theorem ReadsEnd.need {k : Nat} {f : Unit → BitM β} {bs : Bytes} {c : β} (hk : k ≤ bs.length) (h : ReadsEnd (f ()) bs c) :
    ReadsEnd (need k >>= f) bs c := by
  intro pre
  rw [bind_run]
  unfold ByteR.need
  rw [sliceFrom_ok (by simp)]
  simp only [Res.bind, List.drop_left]
  rw [if_neg (by omega)]
  exact h pre

theorem ReadsEnd.rest {f : Bytes → BitM β} {bs : Bytes} {c : β} (h : ∀ b pos, f bs b pos = .ok (c, pos)) :
    ReadsEnd (rest >>= f) bs c := by
  intro pre
  rw [bind_run]
  have : ByteR.rest (pre ++ bs) pre.length = .ok (bs, pre.length + bs.length) := by
    unfold ByteR.rest
    rw [sliceFrom_ok (by simp)]
    simp [Res.bind]
  rw [this, Res.bind_ok]
  exact h _ _

theorem ReadsEnd.atEnd {f : Unit → BitM β} {c : β} (h : ReadsEnd (f ()) [] c) : ReadsEnd (atEnd >>= f) [] c := by
  intro pre
  rw [bind_run]
  unfold ByteR.atEnd
  rw [sliceFrom_ok (by simp)]
  simp only [Res.bind, List.drop_left]
  exact h pre

theorem ReadsEnd.run {p : BitM α} {bs : Bytes} {a : α} (h : ReadsEnd p bs a) : p bs 0 = .ok (a, bs.length) := by
  simpa using h []

/-- With `n` bytes left `p` does not panic; when it succeeds it has read bytes `bs` with `P a bs`. -/
def Tot (n : Nat) (p : BitM α) (P : α → Bytes → Prop) : Prop :=
  ∀ pre post : Bytes, n ≤ post.length →
    (p (pre ++ post) pre.length).NoPanic ∧ ∀ a pos', p (pre ++ post) pre.length = .ok (a, pos') →
      ∃ bs post', post = bs ++ post' ∧ pos' = pre.length + bs.length ∧ P a bs

theorem Tot.mono {n m : Nat} {p : BitM α} {P Q : α → Bytes → Prop} (h : Tot n p P) (hn : n ≤ m) (hP : ∀ a b, P a b → Q a b) :
    Tot m p Q := by
  intro pre post hl
  obtain ⟨h1, h2⟩ := h pre post (by omega)
  refine ⟨h1, fun a q e => ?_⟩
  obtain ⟨bs, post', e1, e2, e3⟩ := h2 a q e
  exact ⟨bs, post', e1, e2, hP _ _ e3⟩

theorem Tot.pure {n : Nat} {a : α} {P : α → Bytes → Prop} (h : P a []) : Tot n (pure a) P := by
  intro pre post hl
  refine ⟨by simp [pure_run], ?_⟩
  intro a q e
  cases e
  exact ⟨[], post, rfl, rfl, h⟩

theorem Tot.fail {n : Nat} {e : String} {P : α → Bytes → Prop} : Tot n (fail e : BitM α) P := by
  intro pre post hl
  exact ⟨by simp [BitM.fail], by simp [BitM.fail]⟩

theorem Tot.bind {n : Nat} {p : BitM α} {f : α → BitM β} {P : α → Bytes → Prop} {Q : β → Bytes → Prop} (h1 : Tot n p P)
    (h2 : ∀ a x, P a x → Tot (n - x.length) (f a) (fun c y => Q c (x ++ y))) : Tot n (p >>= f) Q := by
  intro pre post hl
  obtain ⟨g1, g2⟩ := h1 pre post hl
  rw [bind_run]
  rcases hr : p (pre ++ post) pre.length with ⟨a, q⟩ | e | _
  · obtain ⟨bs, post', rfl, rfl, k3⟩ := g2 a q hr
    rw [Res.bind_ok]
    rw [List.length_append] at hl
    obtain ⟨j1, j2⟩ := h2 a bs k3 (pre ++ bs) post' (by omega)
    rw [List.append_assoc, List.length_append] at j1 j2
    refine ⟨j1, fun c q e => ?_⟩
    obtain ⟨bs', post'', rfl, rfl, i3⟩ := j2 c q e
    exact ⟨bs ++ bs', post'', by simp, by simp [Nat.add_assoc], i3⟩
  · exact ⟨by simp, by simp⟩
  · exact absurd hr g1

theorem Tot.need {n k : Nat} {f : Unit → BitM β} {Q : β → Bytes → Prop} (h : Tot k (f ()) Q) : Tot n (need k >>= f) Q := by
  intro pre post hl
  rw [bind_run]
  unfold ByteR.need
  rw [sliceFrom_ok (by simp)]
  simp only [Res.bind, List.drop_left]
  by_cases hk : post.length < k
  · rw [if_pos hk]; exact ⟨by simp, by simp⟩
  · rw [if_neg hk]; exact h pre post (by omega)

theorem Tot.byte {n : Nat} {f : UInt8 → BitM β} {Q : β → Bytes → Prop} (hn : 1 ≤ n)
    (h : ∀ b, Tot (n - 1) (f b) (fun c y => Q c ([b] ++ y))) : Tot n (byte >>= f) Q := by
  refine Tot.bind (P := fun b x => x = [b]) ?_ (by rintro a _ rfl; exact h a)
  intro pre post hl
  obtain ⟨b, post, rfl, _⟩ := exists_cons (n := 0) (l := post) (by omega)
  have := Reads.byte b pre post
  rw [List.singleton_append] at this
  rw [this]
  refine ⟨by simp, ?_⟩
  intro a q e
  cases e
  exact ⟨[b], post, rfl, rfl, rfl⟩

theorem Tot.be16 {n : Nat} {f : Nat → BitM β} {Q : β → Bytes → Prop} (hn : 2 ≤ n)
    (h : ∀ v, v < 2 ^ 16 → Tot (n - 2) (f v) (fun c y => Q c (beBytes 2 v ++ y))) : Tot n (be16 >>= f) Q := by
  refine Tot.bind (P := fun v x => v < 2 ^ 16 ∧ x = beBytes 2 v) ?_ ?_
  · unfold ByteR.be16
    refine Tot.byte (by omega) fun a => Tot.byte (by omega) fun b => Tot.pure ?_
    obtain ⟨h1, h2⟩ := be16_of a b
    exact ⟨h2, by rw [h1]; rfl⟩
  · rintro v _ ⟨hv, rfl⟩
    rw [beBytes_length]; exact h v hv

theorem Tot.be24 {n : Nat} {f : Nat → BitM β} {Q : β → Bytes → Prop} (hn : 3 ≤ n)
    (h : ∀ v, v < 2 ^ 24 → Tot (n - 3) (f v) (fun c y => Q c (beBytes 3 v ++ y))) : Tot n (be24 >>= f) Q := by
  refine Tot.bind (P := fun v x => v < 2 ^ 24 ∧ x = beBytes 3 v) ?_ ?_
  · unfold ByteR.be24
    refine Tot.byte (by omega) fun a => Tot.byte (by omega) fun b => Tot.byte (by omega) fun c => Tot.pure ?_
    obtain ⟨h1, h2⟩ := be24_of a b c
    exact ⟨h2, by rw [h1]; rfl⟩
  · rintro v _ ⟨hv, rfl⟩
    rw [beBytes_length]; exact h v hv

theorem Tot.be32 {n : Nat} {f : Nat → BitM β} {Q : β → Bytes → Prop} (hn : 4 ≤ n)
    (h : ∀ v, v < 2 ^ 32 → Tot (n - 4) (f v) (fun c y => Q c (beBytes 4 v ++ y))) : Tot n (be32 >>= f) Q := by
  refine Tot.bind (P := fun v x => v < 2 ^ 32 ∧ x = beBytes 4 v) ?_ ?_
  · unfold ByteR.be32
    refine Tot.byte (by omega) fun a => Tot.byte (by omega) fun b => Tot.byte (by omega) fun c =>
      Tot.byte (by omega) fun d => Tot.pure ?_
    obtain ⟨h1, h2⟩ := be32_of a b c d
    exact ⟨h2, by rw [h1]; rfl⟩
  · rintro v _ ⟨hv, rfl⟩
    rw [beBytes_length]; exact h v hv

theorem Tot.take {n k : Nat} {f : Bytes → BitM β} {Q : β → Bytes → Prop} (hn : k ≤ n)
    (h : ∀ bs : Bytes, bs.length = k → Tot (n - k) (f bs) (fun c y => Q c (bs ++ y))) : Tot n (take k >>= f) Q := by
  refine Tot.bind (P := fun b x => x = b ∧ b.length = k) ?_ (by rintro a _ ⟨rfl, rfl⟩; exact h _ rfl)
  intro pre post hl
  have := Reads.take (post.take k) pre (post.drop k)
  rw [List.take_append_drop, List.length_take, Nat.min_eq_left (by omega)] at this
  rw [this]
  refine ⟨by simp, ?_⟩
  intro a q e
  cases e
  have hk : (post.take k).length = k := by simp; omega
  exact ⟨post.take k, post.drop k, by simp, by rw [hk], rfl, hk⟩

theorem Tot.rest {n : Nat} : Tot n rest (fun b x => x = b) := by
  intro pre post hl
  unfold ByteR.rest
  rw [sliceFrom_ok (by simp)]
  simp only [Res.bind, List.drop_left]
  refine ⟨by simp, ?_⟩
  intro a q e
  cases e
  exact ⟨post, [], by simp, by simp, rfl⟩

theorem Tot.cond {n : Nat} {c : Bool} {p : BitM α} {d : α} {P : α → Bytes → Prop} (h1 : c = true → Tot n p P)
    (h2 : c = false → P d []) : Tot n (cond c p d) P := by
  unfold BitM.cond
  cases c
  · exact Tot.pure (h2 rfl)
  · exact h1 rfl

theorem Tot.ite {n : Nat} {c : Prop} [Decidable c] {p q : BitM α} {P : α → Bytes → Prop} (h1 : c → Tot n p P)
    (h2 : ¬ c → Tot n q P) : Tot n (if c then p else q) P := by
  split
  · exact h1 ‹_›
  · exact h2 ‹_›

/-- As `Tot`, for a reader that must consume everything. -/
def TotEnd (n : Nat) (p : BitM α) (P : α → Bytes → Prop) : Prop :=
  ∀ pre post : Bytes, n ≤ post.length →
    (p (pre ++ post) pre.length).NoPanic ∧ ∀ a pos', p (pre ++ post) pre.length = .ok (a, pos') → P a post

theorem TotEnd.bind {n : Nat} {p : BitM α} {f : α → BitM β} {P : α → Bytes → Prop} {Q : β → Bytes → Prop} (h1 : Tot n p P)
    (h2 : ∀ a x, P a x → TotEnd (n - x.length) (f a) (fun c y => Q c (x ++ y))) : TotEnd n (p >>= f) Q := by
  intro pre post hl
  obtain ⟨g1, g2⟩ := h1 pre post hl
  rw [bind_run]
  rcases hr : p (pre ++ post) pre.length with ⟨a, q⟩ | e | _
  · obtain ⟨bs, post', rfl, rfl, k3⟩ := g2 a q hr
    rw [Res.bind_ok]
    rw [List.length_append] at hl
    obtain ⟨j1, j2⟩ := h2 a bs k3 (pre ++ bs) post' (by omega)
    rw [List.append_assoc, List.length_append] at j1 j2
    exact ⟨j1, j2⟩
  · exact ⟨by simp, by simp⟩
  · exact absurd hr g1

theorem TotEnd.need {n k : Nat} {f : Unit → BitM β} {Q : β → Bytes → Prop} (h : TotEnd k (f ()) Q) :
    TotEnd n (need k >>= f) Q := by
  intro pre post hl
  rw [bind_run]
  unfold ByteR.need
  rw [sliceFrom_ok (by simp)]
  simp only [Res.bind, List.drop_left]
  by_cases hk : post.length < k
  · rw [if_pos hk]; exact ⟨by simp, by simp⟩
  · rw [if_neg hk]; exact h pre post (by omega)

theorem TotEnd.fail {n : Nat} {e : String} {P : α → Bytes → Prop} : TotEnd n (fail e : BitM α) P := by
  intro pre post hl
  exact ⟨by simp [BitM.fail], by simp [BitM.fail]⟩

theorem TotEnd.ite {n : Nat} {c : Prop} [Decidable c] {p q : BitM α} {P : α → Bytes → Prop} (h1 : c → TotEnd n p P)
    (h2 : ¬ c → TotEnd n q P) : TotEnd n (if c then p else q) P := by
  split
  · exact h1 ‹_›
  · exact h2 ‹_›

theorem TotEnd.rest {n : Nat} {f : Bytes → β} {Q : β → Bytes → Prop} (h : ∀ bs, Q (f bs) bs) :
    TotEnd n (ByteR.rest >>= fun b => (Pure.pure (f b) : BitM β)) Q := by
  intro pre post hl
  have : ByteR.rest (pre ++ post) pre.length = .ok (post, (pre ++ post).length) := by
    unfold ByteR.rest
    rw [sliceFrom_ok (by simp)]
    simp [Res.bind]
  rw [bind_run, this, Res.bind_ok]
  refine ⟨by simp [pure_run], ?_⟩
  intro a q e
  cases e
  exact h post

theorem TotEnd.atEnd {n : Nat} {a : β} {Q : β → Bytes → Prop} (h : Q a []) :
    TotEnd n (ByteR.atEnd >>= fun _ => (Pure.pure a : BitM β)) Q := by
  intro pre post hl
  rw [bind_run]
  unfold ByteR.atEnd
  rw [sliceFrom_ok (by simp)]
  simp only [Res.bind, List.drop_left]
  by_cases hk : post.length ≠ 0
  · rw [if_pos hk]; exact ⟨by simp, by simp⟩
  · rw [if_neg hk]
    have : post = [] := List.length_eq_zero_iff.1 (by omega)
    subst this
    refine ⟨by simp [pure_run], ?_⟩
    intro a' q e
    cases e
    exact h

theorem TotEnd.byte {n : Nat} {f : UInt8 → BitM β} {Q : β → Bytes → Prop} (hn : 1 ≤ n)
    (h : ∀ b, TotEnd (n - 1) (f b) (fun c y => Q c ([b] ++ y))) : TotEnd n (byte >>= f) Q := by
  refine TotEnd.bind (P := fun b x => x = [b]) ?_ (by rintro a _ rfl; exact h a)
  have := Tot.byte (n := n) (f := fun b => (Pure.pure b : BitM UInt8)) (Q := fun v x => x = [v]) (by omega)
    (fun v => Tot.pure (by simp))
  simpa using this

theorem TotEnd.be16 {n : Nat} {f : Nat → BitM β} {Q : β → Bytes → Prop} (hn : 2 ≤ n)
    (h : ∀ v, v < 2 ^ 16 → TotEnd (n - 2) (f v) (fun c y => Q c (beBytes 2 v ++ y))) : TotEnd n (be16 >>= f) Q := by
  refine TotEnd.bind (P := fun v x => v < 2 ^ 16 ∧ x = beBytes 2 v) ?_ (by
    rintro v _ ⟨hv, rfl⟩
    rw [beBytes_length]; exact h v hv)
  have := Tot.be16 (n := n) (f := fun b => (Pure.pure b : BitM Nat)) (Q := fun v x => v < 2 ^ 16 ∧ x = beBytes 2 v) (by omega)
    (fun v hv => Tot.pure ⟨hv, by simp⟩)
  simpa using this

theorem TotEnd.run {p : BitM α} {P : α → Bytes → Prop} (h : TotEnd 0 p P) (buf : Bytes) :
    (p buf 0).NoPanic ∧ ∀ a pos', p buf 0 = .ok (a, pos') → P a buf := by
  have := h [] buf (by omega)
  simpa using this

theorem Tot.run {p : BitM α} {P : α → Bytes → Prop} (h : Tot 0 p P) (buf : Bytes) :
    (p buf 0).NoPanic ∧ ∀ a pos', p buf 0 = .ok (a, pos') → ∃ bs post, buf = bs ++ post ∧ pos' = bs.length ∧ P a bs := by
  have := h [] buf (by omega)
  simpa using this

theorem Reads.lift {x : Res α} {a : α} (h : x = .ok a) : Reads (BitM.lift x) [] a := by
  subst h; intro pre post; rfl

theorem Reads.ite_neg {c : Prop} [Decidable c] {p q : BitM α} {bs : Bytes} {a : α} (hc : ¬ c) (h : Reads q bs a) :
    Reads (if c then p else q) bs a := by rwa [if_neg hc]

theorem Tot.lift {n : Nat} {x : Res α} {f : α → BitM β} {Q : β → Bytes → Prop} (h1 : x.NoPanic)
    (h2 : ∀ a, x = .ok a → Tot n (f a) Q) : Tot n (BitM.lift x >>= f) Q := by
  intro pre post hl
  rw [bind_run]
  rcases x with a | e | _
  · exact h2 a rfl pre post hl
  · exact ⟨by simp [BitM.lift, Res.bind], by simp [BitM.lift, Res.bind]⟩
  · exact absurd rfl h1

theorem untilEnd_step (p : BitM α) (fuel : Nat) (buf : Bytes) (pos pos' : Nat) (a : α) (h : p buf pos = .ok (a, pos')) :
    untilEnd p (fuel + 1) buf pos =
      if buf.length - pos' = 0 then .ok ([a], pos') else
        (untilEnd p fuel buf pos' >>= fun r => .ok (a :: r.1, r.2)) := by
  rw [ByteR.untilEnd, bind_run, h, Res.bind_ok]
  simp only [bind_run, getPos, bufLen, Res.bind_ok]
  split <;> rfl

/-- Items one after the other up to the end of the buffer. -/
theorem ReadsEnd.untilEnd {p : BitM α} {frame : α → Bytes → Prop} (h : ∀ a bs, frame a bs → bs ≠ [] ∧ Reads p bs a) :
    ∀ (l : List α) (buf : Bytes) (fuel : Nat), l ≠ [] → l.length ≤ fuel → Tiles frame l buf →
      ReadsEnd (untilEnd p fuel) buf l := by
  intro l
  induction l with
  | nil => intro _ _ h; simp at h
  | cons a l ih =>
    rintro _ fuel _ hf ⟨bs, rest, rfl, hfr, ht⟩ pre
    obtain ⟨fuel, rfl⟩ : ∃ f, fuel = f + 1 := ⟨fuel - 1, by simp at hf; omega⟩
    have ha := (h a bs hfr).2 pre rest
    rw [untilEnd_step p fuel _ _ _ a ha]
    cases l with
    | nil => simp only [Tiles] at ht; simp [ht]
    | cons b l =>
      have := ih rest fuel (by simp) (by simpa using hf) ht (pre ++ bs)
      obtain ⟨bs', rest', rfl, hfr', _⟩ := ht
      have hb : 0 < bs'.length := List.length_pos_iff.2 (h b bs' hfr').1
      rw [if_neg (by simp only [List.length_append]; omega)]
      rw [List.append_assoc, List.length_append] at this
      rw [this, Res.bind_ok]
      simp [Nat.add_assoc]

/-- There are no more items than bytes. -/
theorem tiles_length {frame : α → Bytes → Prop} (h : ∀ a bs, frame a bs → bs ≠ []) :
    ∀ (l : List α) (buf : Bytes), Tiles frame l buf → l.length ≤ buf.length := by
  intro l
  induction l with
  | nil => intro buf h; simp
  | cons a l ih =>
    rintro _ ⟨bs, rest, rfl, hf, ht⟩
    have := ih rest ht
    have hb : 0 < bs.length := List.length_pos_iff.2 (h a bs hf)
    simp only [List.length_cons, List.length_append]; omega

/-- A loop over items that each take at least one byte ends, and has read all of the buffer. -/
theorem TotEnd.untilEnd {p : BitM α} {P : α → Bytes → Prop} (h : Tot 0 p P) (hne : ∀ a x, P a x → x ≠ []) :
    ∀ (fuel : Nat) (pre post : Bytes), post.length < fuel →
      (untilEnd p fuel (pre ++ post) pre.length).NoPanic ∧
      ∀ l pos', untilEnd p fuel (pre ++ post) pre.length = .ok (l, pos') → l ≠ [] ∧ Tiles P l post := by
  intro fuel
  induction fuel with
  | zero => intro _ _ h; omega
  | succ fuel ih =>
    intro pre post hl
    obtain ⟨h1, h2⟩ := h pre post (by omega)
    rcases hr : p (pre ++ post) pre.length with ⟨a, pos'⟩ | e | _
    · obtain ⟨bs, post', rfl, rfl, hP⟩ := h2 a pos' hr
      rw [untilEnd_step p fuel _ _ _ a hr]
      have hpos : 0 < bs.length := List.length_pos_iff.2 (hne a bs hP)
      split
      · rename_i he
        simp only [List.length_append] at he
        have hp : post' = [] := List.eq_nil_of_length_eq_zero (by omega)
        refine ⟨by simp, ?_⟩
        intro l q e
        cases e
        exact ⟨by simp, bs, post', rfl, hP, hp⟩
      · have := ih (pre ++ bs) post' (by simp at hl; omega)
        rw [List.append_assoc, List.length_append] at this
        obtain ⟨g1, g2⟩ := this
        rcases hq : ByteR.untilEnd p fuel (pre ++ (bs ++ post')) (pre.length + bs.length) with ⟨l, q⟩ | e | _
        · rw [Res.bind_ok]
          refine ⟨by simp, ?_⟩
          intro l' q' e
          cases e
          exact ⟨by simp, bs, post', rfl, hP, (g2 l q hq).2⟩
        · exact ⟨by simp, by simp⟩
        · exact absurd hq g1
    · rw [ByteR.untilEnd, bind_run, hr]; exact ⟨by simp, by simp⟩
    · exact absurd hr h1

end Verif.ByteR
