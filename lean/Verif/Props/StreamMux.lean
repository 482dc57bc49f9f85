import Verif.Props.ASC

/-!
# Property C24: StreamMuxConfig
-/

namespace Verif.Props
open Verif.Spec Verif.MPEG4Audio Verif.BitM

/-! ## Layers -/

theorem frameField_cut (l : Layer) (h : l.frameLengthType < 8) : frameFieldBits l =
    (if l.frameLengthType == 0 then bitsOfNat 8 l.latmBufferFullness else []) ++
    ((if l.frameLengthType == 1 then bitsOfNat 9 l.frameLength else []) ++
    ((if l.frameLengthType == 4 || l.frameLengthType == 5 || l.frameLengthType == 3 then bitsOfNat 6 l.celpIndex else []) ++
    (if l.frameLengthType == 6 || l.frameLengthType == 7 then [l.hvxcIndex] else []))) := by
  rcases l with ⟨_, t, _, _, _, _⟩
  dsimp only at h
  have : t = 0 ∨ t = 1 ∨ t = 2 ∨ t = 3 ∨ t = 4 ∨ t = 5 ∨ t = 6 ∨ t = 7 := by omega
  rcases this with rfl | rfl | rfl | rfl | rfl | rfl | rfl | rfl <;> simp [frameFieldBits]

theorem frameInfo_parses {l : Layer} (h : FrameInfoFits l) :
    Parses (readFrameInfo l.asc l.frameLengthType) (frameFieldBits l) l := by
  obtain ⟨h1, h2, h3, h4, h5, h6, h7, h8⟩ := h
  rw [frameField_cut l h1]
  unfold readFrameInfo
  refine Parses.bind (a := l.latmBufferFullness) (Parses.condP ?_ ?_) ?_
  · intro h; rw [if_pos h]; exact Parses.readBits (by omega) (by omega) h2
  · intro h; rw [h]; exact ⟨h3 (by simpa using h), rfl⟩
  refine Parses.bind (a := l.frameLength) (Parses.condP ?_ ?_) ?_
  · intro h; rw [if_pos h]; exact Parses.readBits (by omega) (by omega) h4
  · intro h; rw [h]; exact ⟨h5 (by simpa using h), rfl⟩
  refine Parses.bind (a := l.celpIndex) (Parses.condP ?_ ?_) ?_
  · intro h; rw [if_pos h]; exact Parses.readBits (by omega) (by omega) h6
  · intro h; rw [h]; refine ⟨h7 ?_, rfl⟩; simp at h; omega
  refine Parses.congr (Parses.bind (a := l.hvxcIndex) (Parses.condP ?_ ?_) (Parses.pure _)) (List.append_nil _)
  · intro h; rw [if_pos h]; exact Parses.readFlag
  · intro h; rw [h]; refine ⟨h8 ?_, rfl⟩; simp at h; omega

theorem frameInfo_tot (n : Nat) (asc : Option ASC) (t : Nat) (ht : t < 8) : Tot n (readFrameInfo asc t) (fun l b =>
    l.asc = asc ∧ l.frameLengthType = t ∧ FrameInfoFits l ∧ b = frameFieldBits l) := by
  unfold readFrameInfo
  refine Tot.bind (Tot.condP (Tot.readBits' (P := fun v b => v < 2 ^ 8 ∧ b = bitsOfNat 8 v) (by omega) (by omega)
    fun v hv => ⟨hv, rfl⟩)) ?_
  intro latm b1 h1
  refine Tot.bind (Tot.condP (Tot.readBits' (P := fun v b => v < 2 ^ 9 ∧ b = bitsOfNat 9 v) (by omega) (by omega)
    fun v hv => ⟨hv, rfl⟩)) ?_
  intro fl b2 h2
  refine Tot.bind (Tot.condP (Tot.readBits' (P := fun v b => v < 2 ^ 6 ∧ b = bitsOfNat 6 v) (by omega) (by omega)
    fun v hv => ⟨hv, rfl⟩)) ?_
  intro celp b3 h3
  refine Tot.bind (Tot.condP (Tot.readFlag' (P := fun v b => b = [v]) fun v => rfl)) ?_
  intro hv b4 h4
  refine Tot.pure ⟨rfl, rfl, ?_, ?_⟩
  · simp only [beq_iff_eq, beq_eq_false_iff_ne, Bool.or_eq_true, Bool.or_eq_false_iff] at h1 h2 h3 h4
    constructor <;> dsimp only
    · exact ht
    · omega
    · omega
    · omega
    · omega
    · omega
    · omega
    · intro h6
      rcases h4 with ⟨h, _⟩ | ⟨_, h, _⟩
      · omega
      · exact h
  · rw [frameField_cut _ (by exact ht)]
    dsimp only
    rw [List.append_nil]
    refine congr (congrArg _ ?_) (congr (congrArg _ ?_) (congr (congrArg _ ?_) ?_))
    · rcases h1 with ⟨h, _, rfl⟩ | ⟨h, _, rfl⟩ <;> simp [h]
    · rcases h2 with ⟨h, _, rfl⟩ | ⟨h, _, rfl⟩ <;> simp [h]
    · rcases h3 with ⟨h, _, rfl⟩ | ⟨h, _, rfl⟩ <;> rw [h] <;> rfl
    · rcases h4 with ⟨h, rfl⟩ | ⟨h, _, rfl⟩ <;> rw [h] <;> rfl

theorem layerASC_parses {asc : Option ASC} {b : List Bool}
    (h : IsOptASC asc b) : Parses (cond (!asc.isNone) readLayerASC none) b asc := by
  cases asc with
  | none => obtain rfl : b = [] := h; exact Parses.cond_false
  | some c =>
    refine Parses.cond_true ?_
    unfold readLayerASC
    exact Parses.congr (Parses.bind (C22_decode_complete h) (Parses.pure _)) (List.append_nil _)

theorem layerSame_parses {first : Bool} {asc : Option ASC} (h : first = true → asc ≠ none) :
    Parses (cond (!first) readFlag false) (if first then [] else [asc.isNone]) asc.isNone := by
  cases first
  · exact Parses.cond_true Parses.readFlag
  · cases asc with
    | none => exact absurd rfl (h rfl)
    | some c => exact Parses.cond_false

theorem layer_parses {first : Bool} {l : Layer} {bits : List Bool} (h : IsLayer first l bits) :
    Parses (readLayer first) bits (l, false) := by
  obtain ⟨hf, hb, ⟨h1, b, h2, rfl⟩, rfl⟩ := h
  unfold readLayer
  rw [List.append_assoc]
  refine Parses.bind (layerSame_parses h1) ?_
  refine Parses.bind (layerASC_parses h2) ?_
  refine Parses.bind (Parses.tryBits (by omega) (by omega) hf.type) ?_
  exact Parses.congr (Parses.bind (frameInfo_parses hf) (Parses.pure _)) (List.append_nil _)

/-- Fewer bits than a frame length type needs. -/
def Short (rest : List Bool) : Prop := rest.length < 3

theorem cutLayer_parses {first : Bool} {l : Layer} {bits : List Bool} (h : IsCutLayer first l bits) :
    ParsesR Short (readLayer first) bits (l, true) := by
  obtain ⟨hl, h1, b, h2, rfl⟩ := h
  unfold readLayer
  refine ParsesR.bind (layerSame_parses h1) ?_
  refine ParsesR.congr (ParsesR.bind (layerASC_parses h2) ?_) (List.append_nil _)
  refine ParsesR.bind_last (ParsesR.tryBits_none (by omega) (by omega) fun r hr => hr) ?_
  dsimp only
  rw [← hl]
  exact ParsesR.of (Parses.pure _)

theorem layers_parses {ls : List Layer} {first : Bool} {bits : List Bool} (h : IsLayers first ls bits) :
    Parses (readLayers first ls.length) bits (ls, false) := by
  induction ls generalizing first bits with
  | nil => obtain rfl : bits = [] := h; exact Parses.pure _
  | cons l ls ih =>
    obtain ⟨a, b, h1, h2, rfl⟩ := h
    rw [List.length_cons]
    unfold readLayers
    refine Parses.bind (layer_parses h1) (Parses.ite_neg (by simp) ?_)
    exact Parses.congr (Parses.bind (ih h2) (Parses.pure _)) (List.append_nil _)

theorem cutLayers_parses {ls : List Layer} {first : Bool} {bits : List Bool} {n : Nat} (hn : ls.length ≤ n)
    (h : IsCutLayers first ls bits) : ParsesR Short (readLayers first n) bits (ls, true) := by
  induction ls generalizing first bits n with
  | nil => exact absurd h (by simp [IsCutLayers])
  | cons l ls ih =>
    obtain ⟨n, rfl⟩ : ∃ m, n = m + 1 := ⟨n - 1, by simp at hn; omega⟩
    unfold readLayers
    rcases h with ⟨rfl, h⟩ | ⟨a, b, h1, h2, rfl⟩
    · refine ParsesR.bind_last (cutLayer_parses h) ?_
      exact ParsesR.of (Parses.pure _)
    · refine ParsesR.bind (layer_parses h1) ?_
      dsimp only
      rw [if_neg (by simp)]
      refine ParsesR.bind_last (ih (by simpa using hn) h2) ?_
      exact ParsesR.of (Parses.pure _)

/-- What the reader returns about a list that may be cut. -/
def Cuttable {α : Type} (k : Nat) (n : Nat) (P Q : List α → List Bool → Prop) (r : List α × Bool) (b : List Bool) : Prop :=
  (r.2 = false ∧ r.1.length = n ∧ P r.1 b) ∨ (r.2 = true ∧ r.1.length ≤ n ∧ Q r.1 b ∧ k - b.length < 3)

theorem layer_tot (k : Nat) (first : Bool) : TotL k (readLayer first) (fun r b =>
    (r.2 = false ∧ IsLayer first r.1 b) ∨ (r.2 = true ∧ IsCutLayer first r.1 b ∧ k - b.length < 3)) := by
  unfold readLayer
  refine TotL.bind (TotL.of (n := 0) (Tot.condP (Tot.readFlag' (P := fun v b => b = [v]) fun v => rfl)) (by omega)) ?_
  intro same b1 _ h1
  have hA : Tot 0 readLayerASC (fun r b => ∃ c, r = some c ∧ IsASC c b) := by
    unfold readLayerASC
    refine Tot.bind C23_decode_sound ?_
    intro c b hc
    exact Tot.pure ⟨c, rfl, by simpa using hc⟩
  refine TotL.bind (TotL.of (n := 0) (Tot.condP hA) (by omega)) ?_
  intro asc b2 _ h2
  have hhead : IsLayerHead first asc (b1 ++ b2) := by
    rcases h2 with ⟨hs, c, rfl, hc⟩ | ⟨hs, rfl, rfl⟩
    · have hs : same = false := by simpa using hs
      subst hs
      refine ⟨by simp, b2, hc, ?_⟩
      congr 1
      rcases h1 with ⟨hf, rfl⟩ | ⟨hf, -, rfl⟩
      · have : first = false := by simpa using hf
        subst this; rfl
      · have : first = true := by simpa using hf
        subst this; rfl
    · have hs : same = true := by simpa using hs
      subst hs
      rcases h1 with ⟨hf, rfl⟩ | ⟨hf, h, rfl⟩
      · have : first = false := by simpa using hf
        subst this
        exact ⟨by simp, [], rfl, rfl⟩
      · cases h
  refine TotL.bind (TotL.tryBits (by omega) (by omega)) ?_
  intro t b3 _ h3
  rcases h3 with ⟨rfl, hk, rfl⟩ | ⟨v, hv, rfl, rfl⟩
  · refine TotL.pure (Or.inr ⟨rfl, ⟨rfl, by simpa using hhead⟩, ?_⟩)
    simp only [List.append_nil, List.length_append]
    omega
  · dsimp only
    refine TotL.bind (TotL.of (n := 0) (frameInfo_tot 0 asc v hv) (by omega)) ?_
    rintro l b4 _ ⟨rfl, rfl, h5, rfl⟩
    exact TotL.pure (Or.inl ⟨rfl, h5, b1 ++ b2, hhead, by simp⟩)

theorem layers_tot (n : Nat) (k : Nat) (first : Bool) :
    TotL k (readLayers first n) (Cuttable k n (IsLayers first) (IsCutLayers first)) := by
  induction n generalizing k first with
  | zero => exact TotL.pure (Or.inl ⟨rfl, rfl, rfl⟩)
  | succ n ih =>
    unfold readLayers
    refine TotL.bind (layer_tot k first) ?_
    rintro ⟨l, cut⟩ b1 hb1 h1
    refine TotL.ite ?_ ?_
    · intro hc
      rcases h1 with ⟨h, _⟩ | ⟨_, h2, h3⟩
      · rw [hc] at h; cases h
      · exact TotL.pure (Or.inr ⟨rfl, by simp, Or.inl ⟨rfl, by simpa using h2⟩, by simpa using h3⟩)
    · intro hc
      rcases h1 with ⟨_, h2⟩ | ⟨h, _⟩
      · refine TotL.bind (ih (k - b1.length) false) ?_
        rintro ⟨ls, cut⟩ b2 hb2 h
        rcases h with ⟨h3, h4, h5⟩ | ⟨h3, h4, h5, h6⟩
        · exact TotL.pure (Or.inl ⟨h3, by simpa using h4, b1, b2, h2, h5, by simp⟩)
        · refine TotL.pure (Or.inr ⟨h3, by simpa using h4, Or.inr ⟨b1, b2, h2, h5, by simp⟩, ?_⟩)
          simp only [List.append_nil, List.length_append]
          omega
      · exact absurd h hc

/-! ## Programs -/

theorem program_parses {p : List Layer} {first : Bool} {bits : List Bool} (h : IsProgram first p bits) :
    Parses (readProgram first) bits (p, false) := by
  obtain ⟨h1, h2, b, hb, rfl⟩ := h
  unfold readProgram
  refine Parses.bind (Parses.readBits (by omega) (by omega) (by omega)) ?_
  rw [show p.length - 1 + 1 = p.length by omega]
  exact layers_parses hb

theorem cutProgram_parses {p : List Layer} {first : Bool} {bits : List Bool} (h : IsCutProgram first p bits) :
    ParsesR Short (readProgram first) bits (p, true) := by
  obtain ⟨n, b, h0, h1, h2, hb, rfl⟩ := h
  unfold readProgram
  refine ParsesR.bind (Parses.readBits (by omega) (by omega) (by omega)) ?_
  exact cutLayers_parses (by omega) hb

theorem programs_parses {ps : List (List Layer)} {first : Bool} {bits : List Bool} (h : IsPrograms first ps bits) :
    Parses (readPrograms first ps.length) bits (ps, false) := by
  induction ps generalizing first bits with
  | nil => obtain rfl : bits = [] := h; exact Parses.pure _
  | cons l ls ih =>
    obtain ⟨a, b, h1, h2, rfl⟩ := h
    rw [List.length_cons]
    unfold readPrograms
    refine Parses.bind (program_parses h1) (Parses.ite_neg (by simp) ?_)
    exact Parses.congr (Parses.bind (ih h2) (Parses.pure _)) (List.append_nil _)

theorem cutPrograms_parses {ps : List (List Layer)} {first : Bool} {bits : List Bool} {n : Nat} (hn : ps.length ≤ n)
    (h : IsCutPrograms first ps bits) : ParsesR Short (readPrograms first n) bits (ps, true) := by
  induction ps generalizing first bits n with
  | nil => exact absurd h (by simp [IsCutPrograms])
  | cons l ls ih =>
    obtain ⟨n, rfl⟩ : ∃ m, n = m + 1 := ⟨n - 1, by simp at hn; omega⟩
    unfold readPrograms
    rcases h with ⟨rfl, h⟩ | ⟨a, b, h1, h2, rfl⟩
    · refine ParsesR.bind_last (cutProgram_parses h) ?_
      exact ParsesR.of (Parses.pure _)
    · refine ParsesR.bind (program_parses h1) ?_
      dsimp only
      rw [if_neg (by simp)]
      refine ParsesR.bind_last (ih (by simpa using hn) h2) ?_
      exact ParsesR.of (Parses.pure _)

theorem program_tot (k : Nat) (first : Bool) : TotL k (readProgram first) (fun r b =>
    (r.2 = false ∧ IsProgram first r.1 b) ∨ (r.2 = true ∧ IsCutProgram first r.1 b ∧ k - b.length < 3)) := by
  unfold readProgram
  refine TotL.bind (TotL.of (n := 0) (Tot.readBits' (P := fun v b => v < 2 ^ 3 ∧ b = bitsOfNat 3 v) (by omega) (by omega)
    fun v hv => ⟨hv, rfl⟩) (by omega)) ?_
  rintro n _ hk ⟨hn, rfl⟩
  refine TotL.imp (layers_tot (n + 1) _ first) ?_
  rintro ⟨ls, cut⟩ b hb (⟨h1, h2, h3⟩ | ⟨h1, h2, h3, h4⟩)
  · dsimp only at h1 h2 h3 ⊢
    exact Or.inl ⟨h1, by omega, by omega, b, h3, by rw [h2]; rfl⟩
  · dsimp only at h1 h2 h3 h4 ⊢
    refine Or.inr ⟨h1, ⟨n + 1, b, h2, by omega, by omega, h3, rfl⟩, ?_⟩
    rw [List.length_append]
    omega

theorem programs_tot (n : Nat) (k : Nat) (first : Bool) :
    TotL k (readPrograms first n) (Cuttable k n (IsPrograms first) (IsCutPrograms first)) := by
  induction n generalizing k first with
  | zero => exact TotL.pure (Or.inl ⟨rfl, rfl, rfl⟩)
  | succ n ih =>
    unfold readPrograms
    refine TotL.bind (program_tot k first) ?_
    rintro ⟨l, cut⟩ b1 hb1 h1
    refine TotL.ite ?_ ?_
    · intro hc
      rcases h1 with ⟨h, _⟩ | ⟨_, h2, h3⟩
      · rw [hc] at h; cases h
      · exact TotL.pure (Or.inr ⟨rfl, by simp, Or.inl ⟨rfl, by simpa using h2⟩, by simpa using h3⟩)
    · intro hc
      rcases h1 with ⟨_, h2⟩ | ⟨h, _⟩
      · refine TotL.bind (ih (k - b1.length) false) ?_
        rintro ⟨ls, cut⟩ b2 hb2 h
        rcases h with ⟨h3, h4, h5⟩ | ⟨h3, h4, h5, h6⟩
        · exact TotL.pure (Or.inl ⟨h3, by simpa using h4, b1, b2, h2, h5, by simp⟩)
        · refine TotL.pure (Or.inr ⟨h3, by simpa using h4, Or.inr ⟨b1, b2, h2, h5, by simp⟩, ?_⟩)
          simp only [List.append_nil, List.length_append]
          omega
      · exact absurd h hc

/-! ## The length of the other data -/

theorem otherData_parses (ds : Bytes) (d : UInt8) (fuel acc A : Nat) (hf : ds.length < fuel) (ha : acc = A % 2 ^ 32) :
    Parses (otherDataLoop fuel acc) (ds.flatMap (fun x => true :: byteBits x) ++ false :: byteBits d)
      ((ds.foldl (fun a x => a * 256 + x.toNat) A * 256 + d.toNat) % 2 ^ 32) := by
  induction ds generalizing fuel acc A with
  | nil =>
    obtain ⟨fuel, rfl⟩ : ∃ f, fuel = f + 1 := ⟨fuel - 1, by simp at hf; omega⟩
    unfold otherDataLoop
    refine Parses.hasSpace (by simp) ?_
    refine Parses.congr (Parses.bind (b1 := [false]) (b2 := byteBits d ++ []) Parses.readFlagU ?_) (by simp)
    refine Parses.bind (a := d.toNat) ?_ ?_
    · rw [byteBits_eq]; exact Parses.readBitsU (by omega) (by omega) d.toNat_lt
    · refine Parses.ite_pos rfl ?_
      have : (acc * 256 % 2 ^ 32 + d.toNat) % 2 ^ 32 = (A * 256 + d.toNat) % 2 ^ 32 := by omega
      simp only [List.foldl_nil]
      rw [this]
      exact Parses.pure _
  | cons x ds ih =>
    obtain ⟨fuel, rfl⟩ : ∃ f, fuel = f + 1 := ⟨fuel - 1, by simp at hf; omega⟩
    unfold otherDataLoop
    refine Parses.hasSpace (by simp) ?_
    refine Parses.congr (Parses.bind (b1 := [true]) (b2 := byteBits x ++ (ds.flatMap (fun x => true :: byteBits x) ++
      false :: byteBits d)) Parses.readFlagU ?_) (by simp)
    refine Parses.bind (a := x.toNat) ?_ ?_
    · rw [byteBits_eq]; exact Parses.readBitsU (by omega) (by omega) x.toNat_lt
    · refine Parses.ite_neg (by simp) ?_
      exact ih fuel _ (A * 256 + x.toNat) (by simp at hf; omega) (by omega)

theorem otherLen_parses {v : Nat} {bits : List Bool} (h : IsOtherData v bits) : Parses readOtherData bits v := by
  obtain ⟨ds, d, rfl, rfl⟩ := h
  intro buf pos rest hp h
  have hl := congrArg List.length h
  have hlen : (ds.flatMap (fun x => true :: byteBits x)).length = 9 * ds.length := by
    clear h hl
    induction ds with
    | nil => rfl
    | cons x ds ih => simp [ih]; omega
  rw [Bits.drop_length, List.length_append, List.length_append, hlen, List.length_cons] at hl
  exact otherData_parses ds d (buf.length + 1) 0 0 (by omega) rfl buf pos rest hp h

theorem otherData_tot (fuel acc A : Nat) (ha : acc = A % 2 ^ 32) (buf : Bytes) (pos : Nat) (hp : pos ≤ 8 * buf.length)
    (hf : 8 * buf.length - pos < 9 * fuel) :
    (otherDataLoop fuel acc buf pos).NoPanic ∧ ∀ a pos', otherDataLoop fuel acc buf pos = .ok (a, pos') →
      ∃ bits, (∃ (ds : Bytes) (d : UInt8), a = (ds.foldl (fun a x => a * 256 + x.toNat) A * 256 + d.toNat) % 2 ^ 32 ∧
          bits = ds.flatMap (fun x => true :: byteBits x) ++ false :: byteBits d) ∧ pos' = pos + bits.length ∧
        (bitsOf buf).drop pos = bits ++ (bitsOf buf).drop pos' ∧ pos' ≤ 8 * buf.length := by
  induction fuel generalizing acc A pos with
  | zero => omega
  | succ fuel ih =>
    unfold otherDataLoop
    rw [bind_run]
    by_cases hs : pos + 9 ≤ 8 * buf.length
    · rw [BitM.hasSpace, Bits.hasSpace_ok hs, show (Res.ok ()).bind (fun _ => Res.ok ((), pos)) = Res.ok ((), pos) from rfl,
        Res.bind_ok]
      dsimp only
      obtain ⟨esc, e1, d1⟩ := Bits.flag_sound (buf := buf) (pos := pos) (by omega)
      obtain ⟨v, e2, hv, d2⟩ := Bits.read_sound (buf := buf) (pos := pos + 1) (n := 8) (by omega) (by omega) (by omega)
      rw [bind_run, BitM.readFlagU, e1, Res.bind_ok]
      dsimp only
      rw [bind_run, BitM.readBitsU, e2, Res.bind_ok]
      dsimp only
      have hbits : bitsOfNat 8 v = byteBits (UInt8.ofNat v) := by
        rw [byteBits_eq]; congr 1; simp; omega
      have hvv : (UInt8.ofNat v).toNat = v := by simp; omega
      cases esc
      · rw [if_pos (by rfl)]
        refine ⟨by simp [pure_run], ?_⟩
        intro a q e
        cases e
        refine ⟨false :: byteBits (UInt8.ofNat v), ⟨[], UInt8.ofNat v, ?_, by simp⟩, by simp, ?_, by omega⟩
        · rw [hvv]; simp only [List.foldl_nil]; omega
        · rw [d1, d2, hbits]; simp
      · rw [if_neg (by simp)]
        obtain ⟨g1, g2⟩ := ih ((acc * 256 % 2 ^ 32 + v) % 2 ^ 32) (A * 256 + v) (by omega) (pos + 1 + 8) (by omega) (by omega)
        refine ⟨g1, ?_⟩
        intro a q e
        obtain ⟨bits, ⟨ds, d, k1, k2⟩, k3, k4, k5⟩ := g2 a q e
        refine ⟨true :: byteBits (UInt8.ofNat v) ++ bits, ⟨UInt8.ofNat v :: ds, d, ?_, ?_⟩, ?_, ?_, k5⟩
        · rw [List.foldl_cons, hvv]; exact k1
        · rw [k2]; simp
        · simp; omega
        · rw [d1, d2, hbits, k4]; simp
    · rw [BitM.hasSpace, Bits.hasSpace_err (by omega)]
      exact ⟨by simp [Res.bind], by simp [Res.bind]⟩

theorem otherLen_tot (n : Nat) : Tot n readOtherData IsOtherData := by
  intro buf pos hp
  exact otherData_tot (buf.length + 1) 0 0 rfl buf pos (by omega) (by omega)

/-! ## The whole configuration -/

theorem muxTail_parses {c : StreamMuxConfig} {bits : List Bool} (h : IsMuxTail c bits) :
    Parses (readMuxTail c.numSubFrames c.programs) bits c := by
  obtain ⟨h1, h2, h3, ob, h4, rfl⟩ := h
  unfold readMuxTail
  refine Parses.bind Parses.readFlag ?_
  refine Parses.bind (a := c.otherDataLenBits) (Parses.condP ?_ ?_) ?_
  · intro h; rw [if_pos h] at h4; exact otherLen_parses h4
  · intro h; rw [h] at h4; exact ⟨h2 h, h4⟩
  refine Parses.bind Parses.readFlag ?_
  refine Parses.congr (Parses.bind (a := c.crcCheckSum) (Parses.condP ?_ ?_) (Parses.pure _)) (List.append_nil _)
  · intro h; rw [if_pos h]; exact Parses.readBits (by omega) (by omega) h1
  · intro h; rw [h]; exact ⟨h3 h, rfl⟩

theorem muxTail_tot (n s : Nat) (ps : List (List Layer)) : Tot n (readMuxTail s ps) (fun c b =>
    c.numSubFrames = s ∧ c.programs = ps ∧ IsMuxTail c b) := by
  unfold readMuxTail
  refine Tot.readFlag fun op => ?_
  refine Tot.bind (Tot.condP (otherLen_tot _)) ?_
  intro ol b1 h1
  refine Tot.readFlag fun cp => ?_
  refine Tot.bind (Tot.condP (Tot.readBits' (P := fun v b => v < 2 ^ 8 ∧ b = bitsOfNat 8 v) (by omega) (by omega)
    fun v hv => ⟨hv, rfl⟩)) ?_
  intro cs b2 h2
  refine Tot.pure ⟨rfl, rfl, ?_, ?_, ?_, b1, ?_, ?_⟩ <;> dsimp only
  · rcases h2 with ⟨_, h, _⟩ | ⟨_, rfl, _⟩ <;> omega
  · rintro rfl
    rcases h1 with ⟨h, _⟩ | ⟨_, h, _⟩
    · cases h
    · exact h
  · rintro rfl
    rcases h2 with ⟨h, _⟩ | ⟨_, h, _⟩
    · cases h
    · exact h
  · rcases h1 with ⟨rfl, h⟩ | ⟨rfl, _, h⟩
    · exact h
    · exact h
  · rcases h2 with ⟨rfl, _, rfl⟩ | ⟨rfl, _, rfl⟩ <;> simp

theorem mux_parses {c : StreamMuxConfig} {bits : List Bool} (h : IsMux c bits) :
    Parses StreamMuxConfig.unmarshalBits bits c := by
  obtain ⟨h1, h2, h3, pb, tb, h4, h5, rfl⟩ := h
  unfold StreamMuxConfig.unmarshalBits
  refine Parses.hasSpace (by simp only [List.length_append, length_bitsOfNat, List.length_cons, List.length_nil]; omega) ?_
  refine Parses.bind Parses.readFlagU (Parses.ite_neg (by simp) ?_)
  refine Parses.bind Parses.readFlagU (Parses.ite_neg (by simp) ?_)
  refine Parses.bind (Parses.readBitsU (by omega) (by omega) h1) ?_
  refine Parses.bind (Parses.readBitsU (by omega) (by omega) (by omega)) ?_
  rw [show c.programs.length - 1 + 1 = c.programs.length by omega]
  refine Parses.bind (programs_parses h4) ?_
  exact Parses.ite_neg (by simp) (muxTail_parses h5)

theorem cutMux_parses {c : StreamMuxConfig} {bits : List Bool} (h : IsCutMux c bits) :
    ParsesR Short StreamMuxConfig.unmarshalBits bits c := by
  obtain ⟨h1, h2, n, pb, h3, h4, h5, h6, rfl⟩ := h
  unfold StreamMuxConfig.unmarshalBits
  refine ParsesR.hasSpace (by simp only [List.length_append, length_bitsOfNat, List.length_cons, List.length_nil]; omega) ?_
  refine ParsesR.bind Parses.readFlagU ?_
  rw [if_neg (by simp)]
  refine ParsesR.bind Parses.readFlagU ?_
  rw [if_neg (by simp)]
  refine ParsesR.bind (Parses.readBitsU (by omega) (by omega) h2) ?_
  refine ParsesR.bind (Parses.readBitsU (by omega) (by omega) (by omega)) ?_
  refine ParsesR.bind_last (cutPrograms_parses (by omega) h6) ?_
  rw [if_pos rfl]
  dsimp only
  rw [← h1]
  exact ParsesR.of (Parses.pure _)

theorem mux_tot (k : Nat) : TotL k StreamMuxConfig.unmarshalBits (fun c b =>
    IsMux c b ∨ (IsCutMux c b ∧ k - b.length < 3)) := by
  unfold StreamMuxConfig.unmarshalBits
  by_cases hk : 12 ≤ k
  case neg =>
    intro buf pos hp hkk
    rw [bind_run, BitM.hasSpace, Bits.hasSpace_err (by omega)]
    exact ⟨by simp [Res.bind], by simp [Res.bind]⟩
  have key : ∀ n f, n + 1 ≤ 2 ^ 4 → TotL (k - 12) (do
      let r ← readPrograms true (n + 1)
      if r.2 then pure (StreamMuxConfig.mk f r.1 false 0 false 0) else readMuxTail f r.1)
      (fun c b => c.numSubFrames = f ∧ ((∃ pb tb, c.programs.length = n + 1 ∧ IsPrograms true c.programs pb ∧
        IsMuxTail c tb ∧ b = pb ++ tb) ∨ (c = StreamMuxConfig.mk f c.programs false 0 false 0 ∧ c.programs.length ≤ n + 1 ∧
          IsCutPrograms true c.programs b ∧ k - 12 - b.length < 3))) := by
    intro n f hn
    refine TotL.bind (programs_tot (n + 1) _ true) ?_
    rintro ⟨ps, cut⟩ b1 hb1 h1
    refine TotL.ite ?_ ?_
    · intro hc
      rcases h1 with ⟨h, _⟩ | ⟨_, h2, h3, h4⟩
      · rw [hc] at h; cases h
      · exact TotL.pure ⟨rfl, Or.inr ⟨rfl, h2, by simpa using h3, by simpa using h4⟩⟩
    · intro hc
      rcases h1 with ⟨_, h2, h3⟩ | ⟨h, _⟩
      · refine TotL.imp (TotL.of (n := 0) (muxTail_tot 0 f ps) (by omega)) ?_
        rintro c b2 hb2 ⟨g1, rfl, g3⟩
        exact ⟨g1, Or.inl ⟨b1, b2, h2, h3, g3, rfl⟩⟩
      · exact absurd h hc
  refine TotL.bind (P := fun _ b => b = []) (fun buf pos hp hkk => ?_) ?_
  · rw [BitM.hasSpace, Bits.hasSpace_ok (by omega)]
    exact ⟨by simp [Res.bind], fun a q e => by cases e; exact ⟨[], rfl, by simp, by simp, by omega⟩⟩
  rintro _ _ _ rfl
  dsimp only [List.nil_append, List.length_nil]
  rw [Nat.sub_zero]
  refine TotL.bind (TotL.of (n := 1) (Tot.readFlagU' (P := fun v b => b = [v]) (by omega) fun v => rfl) (by omega)) ?_
  rintro v _ _ rfl
  refine TotL.ite (fun _ => TotL.fail) fun hv => ?_
  have hv : v = false := by simpa using hv
  subst hv
  dsimp only [List.length_cons, List.length_nil]
  refine TotL.bind (TotL.of (n := 1) (Tot.readFlagU' (P := fun v b => b = [v]) (by omega) fun v => rfl) (by omega)) ?_
  rintro v _ _ rfl
  refine TotL.ite (fun _ => TotL.fail) fun hv => ?_
  have hv : v = true := by simpa using hv
  subst hv
  dsimp only [List.length_cons, List.length_nil]
  refine TotL.bind (TotL.of (n := 6) (Tot.readBitsU' (P := fun v b => v < 2 ^ 6 ∧ b = bitsOfNat 6 v) (by omega) (by omega)
    (by omega) fun v hv => ⟨hv, rfl⟩) (by omega)) ?_
  rintro f _ _ ⟨hf, rfl⟩
  rw [length_bitsOfNat]
  refine TotL.bind (TotL.of (n := 4) (Tot.readBitsU' (P := fun v b => v < 2 ^ 4 ∧ b = bitsOfNat 4 v) (by omega) (by omega)
    (by omega) fun v hv => ⟨hv, rfl⟩) (by omega)) ?_
  rintro n _ _ ⟨hn, rfl⟩
  rw [length_bitsOfNat, show k - (0 + 1) - (0 + 1) - 6 - 4 = k - 12 by omega]
  refine TotL.imp (key n f (by omega)) ?_
  rintro c b hb ⟨rfl, ⟨pb, tb, g1, g2, g3, rfl⟩ | ⟨g1, g2, g3, g4⟩⟩
  · left
    exact ⟨hf, by omega, by omega, pb, tb, g2, g3, by rw [g1]; simp⟩
  · right
    refine ⟨⟨g1, hf, n + 1, b, g2, by omega, by omega, g3, by simp⟩, ?_⟩
    simp only [List.length_append, List.length_cons, List.length_nil, length_bitsOfNat]
    omega

/-- C24: the decoder accepts exactly the buffers that are a StreamMuxConfig followed by less than a byte of padding, and
returns its fields. Besides the layout of the standard, one that ends before the frame length type of a layer is accepted,
when fewer than the three bits of it are left. -/
theorem C24_decode (buf : Bytes) (c : StreamMuxConfig) :
    StreamMuxConfig.unmarshal buf = .ok c ↔ ∃ bits rest, bitsOf buf = bits ++ rest ∧
      ((IsMux c bits ∧ rest.length < 8) ∨ (IsCutMux c bits ∧ rest.length < 3)) := by
  unfold StreamMuxConfig.unmarshal
  have hlen : ∀ bits rest, bitsOf buf = bits ++ rest → (ceil8 bits.length = buf.length ↔ rest.length < 8) := by
    intro bits rest h
    have hl := congrArg List.length h
    rw [length_bitsOf, List.length_append] at hl
    have := ceil8_le bits.length
    omega
  constructor
  · intro e
    obtain ⟨⟨c', pos⟩, he, e⟩ := Res.bind_eq_ok.1 e
    dsimp only at e
    split at e
    · cases e
    · rename_i hc
      rw [Decidable.not_not] at hc
      cases e
      obtain ⟨bits, h1, h2, h3, h4⟩ := (mux_tot (8 * buf.length) buf 0 (by omega) (by omega)).2 c pos he
      rw [Nat.zero_add] at h2
      subst h2
      rw [List.drop_zero] at h3
      refine ⟨bits, _, h3, ?_⟩
      have hr := (hlen _ _ h3).1 hc
      rcases h1 with h | ⟨h, hs⟩
      · exact Or.inl ⟨h, hr⟩
      · exact Or.inr ⟨h, by rw [Bits.drop_length]; exact hs⟩
  · rintro ⟨bits, rest, h1, h2⟩
    have hr : rest.length < 8 := by omega
    have he : StreamMuxConfig.unmarshalBits buf 0 = .ok (c, bits.length) := by
      rcases h2 with ⟨h, _⟩ | ⟨h, hs⟩
      · exact (mux_parses h).run h1
      · exact (cutMux_parses h).run hs h1
    rw [he, Res.bind_ok]
    dsimp only
    rw [if_neg]
    rw [Decidable.not_not]
    exact (hlen _ _ h1).2 hr

/-- C24: `Unmarshal` never panics. -/
theorem C24_no_panic (buf : Bytes) : (StreamMuxConfig.unmarshal buf).NoPanic := by
  unfold StreamMuxConfig.unmarshal
  refine Res.noPanic_bind (mux_tot (8 * buf.length) buf 0 (by omega) (by omega)).1 ?_
  intro r
  split <;> simp

/-! ## Encoding -/

/-- A layer in scope. -/
def LayerValid (first : Bool) (l : Layer) : Prop :=
  FrameInfoFits l ∧ (first = true → l.asc ≠ none) ∧ ∀ c ∈ l.asc, ASCValid c

/-- The layer with the channel fields of its configuration made consistent. -/
def layerNormal (l : Layer) : Layer := { l with asc := l.asc.map ascNormal }

/-- Layers in scope: the first layer of the first program has a configuration. -/
def LayersValid : Bool → List Layer → Prop
  | _, [] => True
  | first, l :: ls => LayerValid first l ∧ LayersValid false ls

/-- Programs in scope. -/
def ProgramsValid : Bool → List (List Layer) → Prop
  | _, [] => True
  | first, p :: ps => (1 ≤ p.length ∧ p.length ≤ 8 ∧ LayersValid first p) ∧ ProgramsValid false ps

/-- Configurations in scope. -/
structure MuxValid (c : StreamMuxConfig) : Prop where
  numSubFrames : c.numSubFrames < 2 ^ 6
  programs : 1 ≤ c.programs.length ∧ c.programs.length ≤ 16 ∧ ProgramsValid true c.programs
  otherLen : c.otherDataLenBits < 2 ^ 32
  noOther : c.otherDataPresent = false → c.otherDataLenBits = 0
  crc : c.crcCheckSum < 2 ^ 8
  noCrc : c.crcCheckPresent = false → c.crcCheckSum = 0

/-- The configuration with the channel fields of its layers made consistent. -/
def muxNormal (c : StreamMuxConfig) : StreamMuxConfig := { c with programs := c.programs.map (·.map layerNormal) }

theorem layer_writes {first : Bool} {l : Layer} (h : LayerValid first l) :
    ∃ bits, IsLayer first (layerNormal l) bits ∧ BitW.Writes (layerW first l) bits ∧ bits.length = layerSize first l := by
  obtain ⟨hf, hn, ha⟩ := h
  have hA : ∃ ab, IsOptASC (l.asc.map ascNormal) ab ∧
      BitW.Writes (match l.asc with | some c => c.marshalW | none => BitW.nop) ab ∧
      ab.length = (match l.asc with | some c => c.marshalSizeBits | none => 0) := by
    cases hc : l.asc with
    | none => exact ⟨[], rfl, BitW.Writes.nop, rfl⟩
    | some c => exact asc_writes c (ha c hc)
  obtain ⟨ab, a1, a2, a3⟩ := hA
  have hS : BitW.Writes (if !first then BitW.flag l.asc.isNone else BitW.nop) (if first then [] else [l.asc.isNone]) := by
    cases first
    · exact BitW.Writes.flag
    · exact BitW.Writes.nop
  have hF : BitW.Writes (if l.frameLengthType = 0 then BitW.bits l.latmBufferFullness 8
      else if l.frameLengthType = 1 then BitW.bits l.frameLength 9
      else if l.frameLengthType = 4 ∨ l.frameLengthType = 5 ∨ l.frameLengthType = 3 then BitW.bits l.celpIndex 6
      else if l.frameLengthType = 6 ∨ l.frameLengthType = 7 then BitW.flag l.hvxcIndex
      else BitW.nop) (frameFieldBits l) ∧ (frameFieldBits l).length = (if l.frameLengthType = 0 then 8
     else if l.frameLengthType = 1 then 9
     else if l.frameLengthType = 4 ∨ l.frameLengthType = 5 ∨ l.frameLengthType = 3 then 6
     else if l.frameLengthType = 6 ∨ l.frameLengthType = 7 then 1
     else 0) := by
    obtain ⟨h1, h2, h3, h4, h5, h6, h7, h8⟩ := hf
    have : l.frameLengthType = 0 ∨ l.frameLengthType = 1 ∨ l.frameLengthType = 2 ∨ l.frameLengthType = 3 ∨
      l.frameLengthType = 4 ∨ l.frameLengthType = 5 ∨ l.frameLengthType = 6 ∨ l.frameLengthType = 7 := by omega
    unfold frameFieldBits
    rcases this with h | h | h | h | h | h | h | h <;> simp only [h]
    · exact ⟨BitW.Writes.bits (by omega) h2, by simp⟩
    · exact ⟨BitW.Writes.bits (by omega) h4, by simp⟩
    · exact ⟨BitW.Writes.nop, by simp⟩
    · exact ⟨BitW.Writes.bits (by omega) h6, by simp⟩
    · exact ⟨BitW.Writes.bits (by omega) h6, by simp⟩
    · exact ⟨BitW.Writes.bits (by omega) h6, by simp⟩
    · exact ⟨BitW.Writes.flag, by simp⟩
    · exact ⟨BitW.Writes.flag, by simp⟩
  have hnone : (layerNormal l).asc.isNone = l.asc.isNone := by simp [layerNormal]
  refine ⟨_, ⟨⟨hf.1, hf.2, hf.3, hf.4, hf.5, hf.6, hf.7, hf.8⟩, _, ⟨?_, ab, a1, rfl⟩, rfl⟩, ?_, ?_⟩
  · intro h hc
    exact hn h (by simpa [layerNormal] using hc)
  · unfold layerW
    refine BitW.Writes.congr (BitW.Writes.all_cons hS (BitW.Writes.all_cons a2 (BitW.Writes.all_cons
      (BitW.Writes.bits (by omega) hf.type) (BitW.Writes.all_cons hF.1 BitW.Writes.all_nil)))) ?_
    rw [hnone]
    simp [layerNormal, frameFieldBits]
  · have : frameFieldBits (layerNormal l) = frameFieldBits l := rfl
    unfold layerSize
    rw [this, hnone, ← hF.2]
    simp only [List.length_append, length_bitsOfNat]
    cases hl : l.asc <;> rw [hl] at a3 <;> dsimp only at a3 ⊢ <;> cases first <;> simp [a3] <;> omega

theorem layers_writes {first : Bool} {ls : List Layer} (h : LayersValid first ls) :
    ∃ bits, IsLayers first (ls.map layerNormal) bits ∧ BitW.Writes (layersW first ls) bits ∧
      bits.length = layersSize first ls := by
  induction ls generalizing first with
  | nil => exact ⟨[], rfl, BitW.Writes.nop, rfl⟩
  | cons l ls ih =>
    obtain ⟨h1, h2⟩ := h
    obtain ⟨a, a1, a2, a3⟩ := layer_writes h1
    obtain ⟨b, b1, b2, b3⟩ := ih h2
    exact ⟨a ++ b, ⟨a, b, a1, b1, rfl⟩, BitW.Writes.seq a2 b2, by rw [List.length_append, layersSize]; omega⟩

theorem predU64_pos {n : Nat} (h : 1 ≤ n) : predU64 n = n - 1 := by unfold predU64; rw [if_neg (by omega)]

theorem programs_writes {first : Bool} {ps : List (List Layer)} (h : ProgramsValid first ps) :
    ∃ bits, IsPrograms first (ps.map (·.map layerNormal)) bits ∧ BitW.Writes (programsW first ps) bits ∧
      bits.length = programsSize first ps := by
  induction ps generalizing first with
  | nil => exact ⟨[], rfl, BitW.Writes.nop, rfl⟩
  | cons p ps ih =>
    obtain ⟨⟨h1, h2, h3⟩, h4⟩ := h
    obtain ⟨a, a1, a2, a3⟩ := layers_writes h3
    obtain ⟨b, b1, b2, b3⟩ := ih h4
    refine ⟨(bitsOfNat 3 (p.length - 1) ++ a) ++ b, ⟨_, b, ⟨by simpa using h1, by simpa using h2, a, a1, by simp⟩, b1, rfl⟩, ?_, ?_⟩
    · unfold programsW
      refine BitW.Writes.seq (BitW.Writes.seq ?_ a2) b2
      rw [predU64_pos h1]
      exact BitW.Writes.bits (by omega) (by omega)
    · rw [List.length_append, List.length_append, length_bitsOfNat, programsSize]; omega

theorem lenBytes_writes (v : Nat) : ∃ bits, (∃ (ds : Bytes) (d : UInt8),
      v = ds.foldl (fun a x => a * 256 + x.toNat) 0 * 256 + d.toNat ∧
      bits = ds.flatMap (fun x => true :: byteBits x) ++ false :: byteBits d) ∧
    BitW.Writes (lenBytesW (lenBytes v)) bits ∧ bits.length = otherDataSize v := by
  have hall : ∀ l : List Nat, (∀ x ∈ l, x < 256) → BitW.Writes (BitW.all (l.map fun x => BitW.seq (BitW.flag true) (BitW.bits x 8)))
      ((l.map UInt8.ofNat).flatMap (fun x => true :: byteBits x)) := by
    intro l hl
    induction l with
    | nil => exact BitW.Writes.nop
    | cons x l ih =>
      rw [List.map_cons, List.map_cons, List.flatMap_cons]
      refine BitW.Writes.all_cons ?_ (ih fun y hy => hl y (by simp [hy]))
      refine BitW.Writes.congr (BitW.Writes.seq BitW.Writes.flag (BitW.Writes.bits (by omega) (hl x (by simp)))) ?_
      rw [Bits.byteBits_ofNat]; rfl
  have hfold : ∀ l : List Nat, (∀ x ∈ l, x < 256) → ((l.reverse.map UInt8.ofNat).foldl (fun a x => a * 256 + x.toNat) 0) =
      l.foldr (fun x a => a * 256 + x) 0 := by
    intro l hl
    induction l with
    | nil => rfl
    | cons x l ih =>
      have hx := hl x (by simp)
      rw [List.reverse_cons, List.map_append, List.foldl_append, ih fun y hy => hl y (by simp [hy])]
      simp
      omega
  have hlen : ∀ v, (∀ x ∈ lenBytes v, x < 256) ∧ (lenBytes v).foldr (fun x a => a * 256 + x) 0 = v ∧
      9 * (lenBytes v).length = otherDataSize v ∧ lenBytes v ≠ [] := by
    intro v
    induction v using Nat.strongRecOn with
    | ind v ih =>
      unfold lenBytes otherDataSize
      by_cases h : v / 256 = 0
      · rw [dif_pos h, dif_pos h]
        refine ⟨by simp; omega, by simp; omega, by simp, by simp⟩
      · rw [dif_neg h, dif_neg h]
        obtain ⟨h1, h2, h3, h4⟩ := ih (v / 256) (by omega)
        refine ⟨?_, ?_, ?_, by simp⟩
        · intro x hx
          rcases List.mem_cons.1 hx with rfl | hx
          · omega
          · exact h1 x hx
        · rw [List.foldr_cons, h2]; omega
        · rw [List.length_cons]; omega
  obtain ⟨h1, h2, h3, h4⟩ := hlen v
  rcases hl : lenBytes v with _ | ⟨b, bs⟩
  · exact absurd hl h4
  · rw [hl] at h1 h2 h3
    have hb : b < 256 := h1 b (by simp)
    have hbs : ∀ x ∈ bs, x < 256 := fun x hx => h1 x (by simp [hx])
    refine ⟨_, ⟨bs.reverse.map UInt8.ofNat, UInt8.ofNat b, ?_, rfl⟩, ?_, ?_⟩
    · rw [hfold bs hbs, ← h2, List.foldr_cons]; simp; omega
    · unfold lenBytesW
      refine BitW.Writes.seq (hall bs.reverse fun x hx => hbs x (by simpa using hx)) ?_
      refine BitW.Writes.congr (BitW.Writes.seq BitW.Writes.flag (BitW.Writes.bits (by omega) hb)) ?_
      rw [Bits.byteBits_ofNat]; rfl
    · rw [← h3]
      have : ∀ l : Bytes, (l.flatMap (fun x => true :: byteBits x)).length = 9 * l.length := by
        intro l
        induction l with
        | nil => rfl
        | cons x l ih => simp [ih]; omega
      rw [List.length_append, this]
      simp
      omega

theorem mux_writes {c : StreamMuxConfig} (h : MuxValid c) : ∃ bits, IsMux (muxNormal c) bits ∧
    BitW.Writes c.marshalW bits ∧ bits.length = c.marshalSizeBits := by
  obtain ⟨h1, ⟨h2, h3, h4⟩, h5, h6, h7, h8⟩ := h
  obtain ⟨pb, p1, p2, p3⟩ := programs_writes h4
  have hO : ∃ ob, (if c.otherDataPresent then IsOtherData c.otherDataLenBits ob else ob = []) ∧
      BitW.Writes (if c.otherDataPresent then BitW.seq (BitW.flag true) (lenBytesW (lenBytes c.otherDataLenBits))
        else BitW.flag false) ([c.otherDataPresent] ++ ob) ∧
      ob.length = if c.otherDataPresent then otherDataSize c.otherDataLenBits else 0 := by
    cases c.otherDataPresent
    · exact ⟨[], rfl, BitW.Writes.flag, rfl⟩
    · obtain ⟨ob, ⟨ds, d, o1, o2⟩, o3, o4⟩ := lenBytes_writes c.otherDataLenBits
      refine ⟨ob, ⟨ds, d, ?_, o2⟩, BitW.Writes.seq BitW.Writes.flag o3, o4⟩
      rw [← o1, Nat.mod_eq_of_lt h5]
  obtain ⟨ob, o1, o2, o3⟩ := hO
  have hC : BitW.Writes (if c.crcCheckPresent then BitW.bits c.crcCheckSum 8 else BitW.nop)
      (if c.crcCheckPresent then bitsOfNat 8 c.crcCheckSum else []) := by
    cases c.crcCheckPresent
    · exact BitW.Writes.nop
    · exact BitW.Writes.bits (by omega) h7
  refine ⟨_, ⟨h1, by simpa [muxNormal] using h2, by simpa [muxNormal] using h3, pb, _, p1,
    ⟨h7, h6, h8, ob, o1, rfl⟩, rfl⟩, ?_, ?_⟩
  · unfold StreamMuxConfig.marshalW
    refine BitW.Writes.congr (BitW.Writes.all_cons BitW.Writes.flag (BitW.Writes.all_cons BitW.Writes.flag
      (BitW.Writes.all_cons (BitW.Writes.bits (by omega) h1) (BitW.Writes.all_cons
      (BitW.Writes.bits (v := predU64 c.programs.length) (n := 4) (by omega) (by rw [predU64_pos h2]; omega))
      (BitW.Writes.all_cons p2 (BitW.Writes.all_cons o2
      (BitW.Writes.all_cons BitW.Writes.flag (BitW.Writes.all_cons hC BitW.Writes.all_nil)))))))) ?_
    rw [predU64_pos h2]
    simp [muxNormal]
    rfl
  · unfold StreamMuxConfig.marshalSizeBits
    rw [← p3, ← o3]
    simp only [List.length_append, List.length_cons, List.length_nil, length_bitsOfNat]
    have : (muxNormal c).crcCheckPresent = c.crcCheckPresent := rfl
    rw [this]
    split <;> simp <;> omega

/-- C24: encoding a configuration in scope writes its layout, padded with zeros to a whole byte. -/
theorem C24_encode (c : StreamMuxConfig) (h : MuxValid c) : ∃ buf bits k, c.marshal = .ok buf ∧
    IsMux (muxNormal c) bits ∧ bitsOf buf = bits ++ List.replicate k false ∧ k < 8 := by
  obtain ⟨bits, h1, h2, h3⟩ := mux_writes h
  have hc := ceil8_le c.marshalSizeBits
  obtain ⟨buf, g1, g2, g3⟩ := h2.run (ceil8 c.marshalSizeBits) (by omega)
  refine ⟨buf, bits, _, ?_, h1, g3, by omega⟩
  unfold StreamMuxConfig.marshal makeBytes
  rw [g1]
  rfl

/-- C24: StreamMuxConfig round trip, with the channel fields of the layers made consistent. -/
theorem C24_round_trip_normal (c : StreamMuxConfig) (h : MuxValid c) :
    (c.marshal >>= StreamMuxConfig.unmarshal) = .ok (muxNormal c) := by
  obtain ⟨buf, bits, k, h1, h2, h3, h4⟩ := C24_encode c h
  rw [h1, Res.bind_ok]
  exact (C24_decode _ _).2 ⟨bits, _, h3, Or.inl ⟨h2, by simpa using h4⟩⟩

/-- C24: StreamMuxConfig round trip. -/
theorem C24_round_trip (c : StreamMuxConfig) (h : MuxValid c)
    (hc : ∀ p ∈ c.programs, ∀ l ∈ p, ∀ a ∈ l.asc, a.channelConfig ≤ 7 ∧ a.channelCount = channelsOfConfig a.channelConfig) :
    (c.marshal >>= StreamMuxConfig.unmarshal) = .ok c := by
  rw [C24_round_trip_normal c h]
  have hn : c.programs.map (·.map layerNormal) = c.programs := by
    have h1 : ∀ p ∈ c.programs, p.map layerNormal = p := by
      intro p hp
      have h2 : ∀ l ∈ p, layerNormal l = l := by
        intro l hl
        have h3 : l.asc.map ascNormal = l.asc := by
          cases ha : l.asc with
          | none => rfl
          | some a =>
            obtain ⟨g1, g2⟩ := hc p hp l hl a ha
            rw [Option.map_some, ascNormal_id a g1 g2]
        unfold layerNormal
        rw [h3]
      exact (List.map_congr_left h2).trans (List.map_id' p)
    exact (List.map_congr_left h1).trans (List.map_id' _)
  unfold muxNormal
  rw [hn]

/-- Two programs, the second with a layer that has no configuration of its own. -/
def muxSample : StreamMuxConfig :=
  ⟨1, [[⟨some ⟨2, 48000, 2, 2, 0, 0, false, false, 0⟩, 0, 255, 0, 0, false⟩],
       [⟨some ⟨2, 47999, 7, 8, 5, 48000, true, true, 100⟩, 1, 0, 300, 0, false⟩, ⟨none, 6, 0, 0, 0, true⟩]],
   true, 70000, true, 77⟩

example : MuxValid muxSample := by
  constructor <;> simp [muxSample, ProgramsValid, LayersValid, LayerValid]
  refine ⟨⟨by constructor <;> simp, by constructor <;> simp⟩, ⟨by constructor <;> simp, by constructor <;> simp⟩, ?_⟩
  constructor <;> simp
example : (muxSample.marshal >>= StreamMuxConfig.unmarshal) = .ok muxSample := by decide +kernel
example : StreamMuxConfig.unmarshal [0x40, 0x00, 0x26, 0x20, 0x3F, 0xC0] =
    .ok ⟨0, [[⟨some ⟨2, 24000, 2, 2, 0, 0, false, false, 0⟩, 0, 255, 0, 0, false⟩]], false, 0, false, 0⟩ := by decide +kernel
/-- Cut before the frame length type. -/
example : StreamMuxConfig.unmarshal [0x40, 0x00, 0x26, 0x20] =
    .ok ⟨0, [[⟨some ⟨2, 24000, 2, 2, 0, 0, false, false, 0⟩, 0, 255, 0, 0, false⟩]], false, 0, false, 0⟩ := by decide +kernel

end Verif.Props
