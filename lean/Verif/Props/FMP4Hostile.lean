import Verif.Model.FMP4

/-!
# C69: hostile fMP4 parts
-/

namespace Verif.Props
open FMP4
open Bits (toInt32)

/-- The call does not panic, does not stop for lack of fuel and its value, if any, is right. -/
def Sound {α : Type} (P : α → Prop) : Res α → Prop
  | .ok a => P a
  | .err e => e ≠ "out of fuel"
  | .panic => False

theorem sound_bind {α β : Type} {P : α → Prop} {Q : β → Prop} {x : Res α} {f : α → Res β} (hx : Sound P x)
    (hf : ∀ a, P a → Sound Q (f a)) : Sound Q (x >>= f) := by
  cases x with
  | ok a => exact hf a hx
  | err e => exact hx
  | panic => exact hx.elim

theorem sound_if {α : Type} {P : α → Prop} {c : Prop} [Decidable c] {x y : Res α} (hx : c → Sound P x) (hy : ¬c → Sound P y) :
    Sound P (if c then x else y) := by
  by_cases h : c
  · rw [if_pos h]; exact hx h
  · rw [if_neg h]; exact hy h

theorem sound_err {α : Type} {P : α → Prop} {e : String} (h : e ≠ "out of fuel") : Sound P (.err e : Res α) := h

theorem sound_ok {α : Type} {P : α → Prop} {a : α} (h : P a) : Sound P (.ok a) := h

theorem sound_takeBE (k : Nat) (b : Bytes) : Sound (fun _ => True) (takeBE k b) :=
  sound_if (fun _ => sound_err (by decide)) fun _ => sound_ok trivial

theorem sound_takeOpt (c : Bool) (b : Bytes) : Sound (fun _ => True) (takeOpt c b) :=
  sound_if (fun _ => sound_takeBE _ _) fun _ => sound_ok trivial

theorem sound_takeFull (b : Bytes) : Sound (fun _ => True) (takeFull b) :=
  sound_bind (sound_takeBE _ _) fun _ _ => sound_bind (sound_takeBE _ _) fun _ _ => sound_ok trivial

theorem sound_mfhd (b : Bytes) : Sound (fun _ => True) (decodeMfhd b) :=
  sound_bind (sound_takeFull _) fun _ _ => sound_bind (sound_takeBE _ _) fun _ _ => sound_ok trivial

theorem sound_tfhd (b : Bytes) : Sound (fun _ => True) (decodeTfhd b) :=
  sound_bind (sound_takeFull _) fun _ _ => sound_bind (sound_takeBE _ _) fun _ _ =>
    sound_bind (sound_takeBE _ _) fun _ _ =>
      sound_bind (sound_takeOpt _ _) fun _ _ => sound_bind (sound_takeOpt _ _) fun _ _ =>
        sound_bind (sound_takeOpt _ _) fun _ _ => sound_bind (sound_takeOpt _ _) fun _ _ => sound_ok trivial

theorem sound_tfdt (b : Bytes) : Sound (fun _ => True) (decodeTfdt b) :=
  sound_bind (sound_takeFull _) fun _ _ => sound_bind (sound_takeBE _ _) fun _ _ => sound_ok trivial

theorem sound_entries (flags : Nat) : ∀ (n : Nat) (b : Bytes), Sound (fun l => l.length = n) (decodeEntries flags n b) := by
  intro n
  induction n with
  | zero => intro b; exact sound_ok rfl
  | succ n ih =>
    intro b
    exact sound_bind (sound_takeOpt _ _) fun _ _ => sound_bind (sound_takeOpt _ _) fun _ _ =>
      sound_bind (sound_takeOpt _ _) fun _ _ => sound_bind (sound_takeOpt _ _) fun _ _ =>
        sound_bind (ih _) fun l hl => sound_ok (by simp [hl])

theorem sound_trun (b : Bytes) : Sound (fun t => t.entries.length = t.sampleCount) (decodeTrun b) :=
  sound_bind (sound_takeFull _) fun _ _ => sound_bind (sound_takeBE _ _) fun _ _ =>
    sound_bind (sound_takeOpt _ _) fun _ _ => sound_bind (sound_takeOpt _ _) fun _ _ =>
      sound_bind (sound_entries _ _ _) fun _ hl => sound_ok hl

theorem sound_readEntries (t : Trun) (tfhd : Tfhd) : ∀ (l : List TrunEntry) (ptr : Bytes),
    Sound (fun s => s.length = l.length) (readEntries t tfhd l ptr) := by
  intro l
  induction l with
  | nil => intro ptr; exact sound_ok rfl
  | cons e l ih =>
    intro ptr
    unfold readEntries
    dsimp only
    generalize (if hasFlag t.flags 0x200 = true then e.size else tfhd.defaultSize) = size
    refine sound_if (fun _ => sound_err (by decide)) fun h => ?_
    rw [slice_ok (Nat.zero_le _) (by omega), Res.bind_ok, sliceFrom_ok (by omega), Res.bind_ok]
    exact sound_bind (ih _) fun r hr => sound_ok (by simp [hr])

/-- Where the reader is in the structure: `curPart` and `curTrack` are there when they are used. -/
def AtBox (r : Reader) : Prop :=
  (r.state ≠ .waitingMoof → r.parts ≠ []) ∧
    (r.state = .waitingBoxes → ∃ l p, r.parts = l ++ [p] ∧ p.tracks ≠ [])

theorem fmp4_onPart (r : Reader) (g : Part → Part) (h : r.parts ≠ []) :
    ∃ l p, r.parts = l ++ [p] ∧ r.onPart g = .ok { r with parts := l ++ [g p] } := by
  obtain ⟨l, p, e⟩ : ∃ l p, r.parts = l ++ [p] := ⟨_, _, (List.dropLast_concat_getLast h).symm⟩
  refine ⟨l, p, e, ?_⟩
  unfold Reader.onPart
  rw [e]
  simp

theorem fmp4_onTrack (r : Reader) (g : PartTrack → PartTrack) (l : List Part) (p : Part) (e : r.parts = l ++ [p]) (h : p.tracks ≠ []) :
    ∃ ts t, p.tracks = ts ++ [t] ∧ r.onTrack g = .ok { r with parts := l ++ [{ p with tracks := ts ++ [g t] }] } := by
  obtain ⟨ts, t, e'⟩ : ∃ l p', p.tracks = l ++ [p'] := ⟨_, _, (List.dropLast_concat_getLast h).symm⟩
  refine ⟨ts, t, e', ?_⟩
  unfold Reader.onTrack
  simp only [e, e', List.reverse_append, List.reverse_cons, List.reverse_nil, List.nil_append, List.singleton_append, List.reverse_reverse]

theorem sound_onTrack (r : Reader) (g : PartTrack → PartTrack) (h : AtBox r) (hs : r.state = .waitingBoxes) :
    Sound (fun r' => AtBox r' ∧ r'.state = .waitingBoxes) (r.onTrack g) := by
  obtain ⟨l, p, e, ht⟩ := h.2 hs
  obtain ⟨ts, t, _, e'⟩ := fmp4_onTrack r g l p e ht
  rw [e']
  exact ⟨⟨fun _ => by simp, fun _ => ⟨l, _, rfl, by simp⟩⟩, hs⟩

theorem sound_rawCount (raw : Bytes) : Sound (fun _ => True) (rawCount raw) := by
  refine sound_if (fun h => ?_) fun _ => sound_ok trivial
  rw [idx_of_lt (show 12 < _ by omega), Res.bind_ok, idx_of_lt (show 13 < _ by omega), Res.bind_ok,
    idx_of_lt (show 14 < _ by omega), Res.bind_ok, idx_of_lt (show 15 < _ by omega), Res.bind_ok]
  exact sound_ok trivial

theorem sound_readTrun (b : Bytes) (bi : BoxInfo) (r : Reader) (h : AtBox r) (ho : bi.offset ≤ b.length) : Sound AtBox (readTrun b bi r) := by
  unfold readTrun
  split
  · exact sound_err (by decide)
  · refine sound_if (fun _ => sound_err (by decide)) fun hs => ?_
    have hs : r.state = .waitingBoxes := by simpa using hs
    rw [sliceFrom_ok ho, Res.bind_ok]
    refine sound_bind (sound_rawCount _) fun count _ => ?_
    · refine sound_if (fun _ => sound_err (by decide)) fun _ => ?_
      refine sound_bind (sound_trun _) fun t _ => ?_
      refine sound_if (fun _ => ?_) fun _ => sound_ok h
      refine sound_if (fun _ => sound_err (by decide)) fun _ => ?_
      dsimp only
      generalize (((t.dataOffset % 2 ^ 64).toNat + r.moofOffset) % 2 ^ 64) = pos
      refine sound_if (fun _ => sound_err (by decide)) fun hp => ?_
      rw [sliceFrom_ok (by omega), Res.bind_ok]
      refine sound_bind (sound_readEntries _ _ _ _) fun s _ => ?_
      have := sound_onTrack r (fun tr => { tr with samples := tr.samples ++ s }) h hs
      revert this
      generalize r.onTrack _ = x
      intro this
      cases x with
      | ok a => exact this.1
      | err e => exact this
      | panic => exact this

theorem sound_handle (b : Bytes) (bi : BoxInfo) (expand : Reader → Res Reader) (r : Reader) (h : AtBox r) (ho : bi.offset ≤ b.length)
    (he : ∀ r, AtBox r → Sound AtBox (expand r)) : Sound AtBox (handle b bi expand r) := by
  unfold handle
  refine sound_if (fun _ => sound_if (fun _ => sound_err (by decide)) fun _ => he _ ⟨fun _ => by simp, fun h => by simp at h⟩) fun _ => ?_
  refine sound_if (fun _ => sound_if (fun _ => sound_err (by decide)) fun hs => ?_) fun _ => ?_
  · refine sound_bind (sound_mfhd _) fun seq _ => ?_
    obtain ⟨l, p, e, e'⟩ := fmp4_onPart r (fun p => { p with sequenceNumber := seq }) (h.1 (by
      intro hh; apply hs; rw [hh]; decide))
    rw [e', Res.bind_ok]
    exact ⟨fun _ => by simp, fun hh => by simp at hh⟩
  refine sound_if (fun _ => sound_if (fun _ => sound_err (by decide)) fun hs => ?_) fun _ => ?_
  · refine sound_if (fun _ => sound_err (by decide)) fun _ => ?_
    obtain ⟨l, p, e, e'⟩ := fmp4_onPart r (fun p => { p with tracks := p.tracks ++ [{}] }) (h.1 (by
      intro hh; apply hs; rw [hh]; decide))
    rw [e', Res.bind_ok]
    exact he _ ⟨fun _ => by simp, fun _ => ⟨l, _, rfl, by simp⟩⟩
  refine sound_if (fun _ => sound_if (fun _ => sound_err (by decide)) fun hs => ?_) fun _ => ?_
  · have hs : r.state = .waitingBoxes := by
      apply Decidable.byContradiction; intro hh; exact hs (Or.inl hh)
    refine sound_bind (sound_tfhd _) fun tfhd _ => ?_
    refine sound_bind (sound_onTrack r _ h hs) fun r' hr => ?_
    exact ⟨fun hh => hr.1.1 hh, fun hh => hr.1.2 hh⟩
  refine sound_if (fun _ => sound_if (fun _ => sound_err (by decide)) fun hs => ?_) fun _ => ?_
  · have hs : r.state = .waitingBoxes := by
      apply Decidable.byContradiction; intro hh; exact hs (Or.inl hh)
    refine sound_bind (sound_tfdt _) fun tfdt _ => ?_
    refine sound_bind (sound_onTrack r _ h hs) fun r' hr => ?_
    exact ⟨fun hh => hr.1.1 hh, fun hh => hr.1.2 hh⟩
  refine sound_if (fun _ => sound_readTrun b bi r h ho) fun _ => ?_
  refine sound_if (fun _ => sound_if (fun _ => sound_err (by decide)) fun hs => ?_) fun _ => ?_
  · exact sound_if (fun _ => sound_err (by decide)) fun _ => ⟨fun hh => absurd rfl hh, fun hh => by simp at hh⟩
  exact sound_ok h

/-- A box that was read is inside the file, and its size is not smaller than its header. -/
theorem sound_readBoxInfo (b : Bytes) (pos : Nat) :
    Sound (fun x => ∀ bi, x = some bi → bi.offset = pos ∧ pos + 8 ≤ b.length ∧ 8 ≤ bi.headerSize ∧ bi.headerSize ≤ bi.size) (readBoxInfo b pos) := by
  unfold readBoxInfo
  refine sound_if (fun _ => sound_ok fun bi hb => by cases hb) fun h => ?_
  rw [List.length_drop] at h
  refine sound_bind (sound_takeBE _ _) fun x _ => ?_
  refine sound_if (fun _ => sound_ok ?_) fun _ => sound_if (fun _ => ?_) fun _ => sound_if (fun _ => sound_err (by decide)) fun _ => sound_ok ?_
  · intro bi hb; cases hb; exact ⟨rfl, by omega, Nat.le_refl 8, by show 8 ≤ b.length - pos; omega⟩
  · refine sound_if (fun _ => sound_ok fun bi hb => by cases hb) fun _ => ?_
    refine sound_bind (sound_takeBE _ _) fun y _ => ?_
    refine sound_if (fun _ => sound_err (by decide)) fun _ => sound_ok ?_
    intro bi hb; cases hb; exact ⟨rfl, by omega, (by show 8 ≤ 16; omega), by show 16 ≤ y.1; omega⟩
  · intro bi hb; cases hb; exact ⟨rfl, by omega, Nat.le_refl 8, by show 8 ≤ x.1; omega⟩

theorem sound_readLevel (b : Bytes) :
    ∀ (n pos : Nat) (left : Option Nat) (r : Reader), AtBox r → 0 < n → b.length < pos + n → Sound AtBox (readLevel n b pos left r) := by
  intro n
  induction n with
  | zero => intro pos left r _ h; omega
  | succ n ih =>
    intro pos left r hr _ hn
    unfold readLevel
    refine sound_if (fun _ => sound_if (fun _ => sound_ok hr) fun _ => sound_err (by decide)) fun _ => ?_
    refine sound_bind (sound_readBoxInfo b pos) fun x hx => ?_
    cases x with
    | none => exact sound_if (fun _ => sound_ok hr) fun _ => sound_err (by decide)
    | some bi =>
      obtain ⟨h1, h2, h3, h4⟩ := hx bi rfl
      refine sound_if (fun _ => sound_err (by decide)) fun _ => ?_
      refine sound_bind (sound_handle b bi _ r hr (by omega) fun r' hr' => ih _ _ _ hr' (by omega) (by omega)) fun r' hr' => ?_
      exact ih _ _ _ hr' (by omega) (by omega)

/-- C69: `Parts.Unmarshal` does not panic on any bytes, and the recursion ends. -/
theorem C69_unmarshal_never_panics (b : Bytes) : (unmarshal b).NoPanic ∧ unmarshal b ≠ .err "out of fuel" := by
  have h : Sound (fun _ => True) (unmarshal b) := by
    refine sound_bind (sound_readLevel b (b.length + 1) 0 none {} ⟨fun h => absurd rfl h, fun h => by cases h⟩ (by omega) (by omega)) fun r _ => ?_
    exact sound_if (fun _ => sound_err (by decide)) fun _ => sound_ok trivial
  cases hx : unmarshal b with
  | ok a => exact ⟨Res.noPanic_ok _, by simp⟩
  | err e =>
    rw [hx] at h
    exact ⟨Res.noPanic_err _, fun he => h (by simpa using he)⟩
  | panic => rw [hx] at h; exact h.elim

/-- A `trun` in a file that begins with it. -/
example : unmarshal [0, 0, 0, 8, 0x74, 0x72, 0x75, 0x6E] = .err "unexpected trun" := by decide

/-- A `moof` without `mfhd`. -/
example : unmarshal [0, 0, 0, 16, 0x6D, 0x6F, 0x6F, 0x66, 0, 0, 0, 8, 0x74, 0x72, 0x61, 0x66] = .err "unexpected traf" := by decide

end Verif.Props
