import Verif.Lemmas.AV1
import Verif.Lemmas.Avcc
import Verif.Model.Int32
import Verif.Props.FMP4PartsAgain
import Verif.Props.H264
import Verif.Props.PMP4FileHostile

/-!
# C104 Decoders where `int` has 32 bits

`Model/Int32.lean` has the decoders that convert a `uint32` of the input to `int`, with an `int` of a given size. Where `int` has
64 bits, they do what the models of the other modules do, for every input. Where it has 32 bits they do so whenever the latter
succeed, or when no field of the input is next to `2 ^ 31` or above it. Otherwise they may panic.
-/

namespace Verif.Props
open Narrow

/-- The values of `int` for which `h` is `2 ^ 31` or more. -/
theorem narrow_id {h : Nat} {x : Int} (h1 : -(h : Int) ≤ x) (h2 : x < h) : toInt h x = x := by
  rw [toInt, Int.emod_eq_of_lt (by omega) (by omega)]
  omega

theorem narrow_nat {h x : Nat} (h2 : x < h) : toInt h (x : Int) = x := narrow_id (by omega) (by omega)

theorem narrow_idxI {α} (buf : List α) (i : Nat) : idxI buf (i : Int) = idx buf i := by
  rw [idxI, if_neg (by omega), Int.toNat_natCast]

theorem narrow_sliceI {α} (buf : List α) (i j : Nat) : sliceI buf (i : Int) (j : Int) = slice buf i j := by
  rw [sliceI, if_neg (by omega), Int.toNat_natCast, Int.toNat_natCast]

theorem narrow_sliceFromI {α} (buf : List α) (i : Nat) : sliceFromI buf (i : Int) = sliceFrom buf i := by
  rw [sliceFromI, if_neg (by omega), Int.toNat_natCast]

theorem narrow_makeI (n : Nat) : makeI (n : Int) = .ok (makeBytes n) := by
  rw [makeI, if_neg (by omega), Int.toNat_natCast]

/-! ### AVCC -/

theorem narrow_readU32 {h : Nat} {buf : Bytes} {pos l : Nat} (hp : pos + 4 ≤ buf.length) (hb : buf.length < h)
    (e : H264.readU32 buf pos = .ok l) : readU32I h buf (pos : Int) = .ok (toInt h l) := by
  have i0 : idx buf pos = .ok buf[pos] := idx_of_lt (by omega)
  have i1 : idx buf (pos + 1) = .ok buf[pos + 1] := idx_of_lt (by omega)
  have i2 : idx buf (pos + 2) = .ok buf[pos + 2] := idx_of_lt (by omega)
  have i3 : idx buf (pos + 3) = .ok buf[pos + 3] := idx_of_lt (by omega)
  rw [H264.readU32, i0, i1, i2, i3] at e
  simp only [Res.bind_ok, Res.ok.injEq] at e
  rw [readU32I, show (pos : Int) + 1 = ((pos + 1 : Nat) : Int) by omega, show (pos : Int) + 2 = ((pos + 2 : Nat) : Int) by omega,
    show (pos : Int) + 3 = ((pos + 3 : Nat) : Int) by omega, narrow_nat (by omega), narrow_nat (by omega),
    narrow_nat (by omega), narrow_idxI, narrow_idxI, narrow_idxI, narrow_idxI, i0, i1, i2, i3]
  simp only [Res.bind_ok, e]

/-- Either no field is as large as this, or the outcome is a success. -/
def NarrowField (h : Nat) (buf : Bytes) (ok : Bool) : Prop :=
  (∀ pos l, H264.readU32 buf pos = .ok l → l + 2 ^ 24 < h) ∨ ok = true

theorem narrow_count {h : Nat} (h31 : 2 ^ 31 ≤ h) (buf : Bytes) (hb : buf.length < h) (fuel : Nat) (pos n auSize : Nat)
    (hf : buf.length - pos < fuel) (hp : pos ≤ buf.length) (hn : n ≤ pos) (ha : auSize ≤ H264.maxAccessUnitSize)
    (hl : NarrowField h buf (H264.avccCount buf pos n auSize).isOk) :
    avccRounds h buf fuel ⟨pos, n, auSize⟩ = some ((fun k : Nat => (k : Int)) <$> H264.avccCount buf pos n auSize) := by
  have hM : H264.maxAccessUnitSize = 2 ^ 23 := rfl
  induction fuel generalizing pos n auSize with
  | zero => omega
  | succ fuel ih =>
    rw [avccRounds, avccRound]
    dsimp only
    rw [show (buf.length : Int) - (pos : Int) = ((buf.length - pos : Nat) : Int) by omega, narrow_nat (by omega)]
    by_cases h4 : buf.length - pos < 4
    · rw [if_pos (by omega)]
      unfold H264.avccCount
      rw [dif_pos h4]
      rfl
    · rw [if_neg (by omega)]
      obtain ⟨l, hl32, e1, -⟩ := H264.readU32_spec buf pos (by omega)
      have hok : l ≠ 0 → NarrowField h buf (H264.avccCount buf pos n auSize).isOk → l + 2 ^ 23 < h := by
        intro hl0 hx
        rcases hx with hx | hx
        · have := hx pos l e1
          omega
        · unfold H264.avccCount at hx
          rw [dif_neg h4, e1] at hx
          dsimp only at hx
          rw [if_pos hl0] at hx
          by_cases hs : auSize + l > H264.maxAccessUnitSize
          · rw [if_pos hs] at hx
            cases hx
          · omega
      rw [narrow_readU32 (by omega) hb e1, Res.bind_ok, avccTake]
      dsimp only
      rw [show (pos : Int) + 4 = ((pos + 4 : Nat) : Int) by omega, narrow_nat (by omega : pos + 4 < h)]
      by_cases hl0 : l = 0
      · subst hl0
        have hz : toInt h ((0 : Nat) : Int) = 0 := narrow_nat (by omega)
        rw [hz, if_neg (by simp), Res.bind_ok]
        dsimp only
        rw [show (buf.length : Int) - ((pos + 4 : Nat) : Int) = ((buf.length - (pos + 4) : Nat) : Int) by omega,
          narrow_nat (by omega)]
        unfold H264.avccCount at hl ⊢
        rw [dif_neg h4, e1] at hl ⊢
        dsimp only at hl ⊢
        rw [if_neg (by omega)] at hl ⊢
        by_cases h0 : buf.length - (pos + 4) = 0
        · rw [if_pos h0, decide_eq_true (by omega)]
          rfl
        · rw [if_neg h0] at hl ⊢
          rw [decide_eq_false (by omega)]
          exact ih _ _ _ (by omega) (by omega) (by omega) ha hl
      · have hlt := hok hl0 hl
        rw [narrow_nat (by omega : l < h), if_pos (by omega),
          show (auSize : Int) + (l : Int) = ((auSize + l : Nat) : Int) by omega, narrow_nat (by omega),
          show (buf.length : Int) - ((pos + 4 : Nat) : Int) = ((buf.length - (pos + 4) : Nat) : Int) by omega,
          narrow_nat (by omega)]
        unfold H264.avccCount at hl ⊢
        rw [dif_neg h4, e1] at hl ⊢
        dsimp only at hl ⊢
        rw [if_pos hl0] at hl ⊢
        by_cases hs : auSize + l > H264.maxAccessUnitSize
        · rw [if_pos hs, if_pos (by omega)]
          rfl
        rw [if_neg hs] at hl ⊢
        rw [if_neg (by omega)]
        by_cases hs2 : buf.length - (pos + 4) < l
        · rw [if_pos hs2, if_pos (by omega)]
          rfl
        rw [if_neg hs2] at hl ⊢
        rw [if_neg (by omega), Res.bind_ok]
        dsimp only
        rw [show ((pos + 4 : Nat) : Int) + (l : Int) = ((pos + 4 + l : Nat) : Int) by omega,
          narrow_nat (by omega : pos + 4 + l < h), show (n : Int) + 1 = ((n + 1 : Nat) : Int) by omega,
          narrow_nat (by omega : n + 1 < h),
          show (buf.length : Int) - ((pos + 4 + l : Nat) : Int) = ((buf.length - (pos + 4 + l) : Nat) : Int) by omega,
          narrow_nat (by omega)]
        by_cases h0 : buf.length - (pos + 4 + l) = 0
        · rw [if_pos h0, decide_eq_true (by omega)]
          rfl
        · rw [if_neg h0] at hl ⊢
          rw [decide_eq_false (by omega)]
          exact ih _ _ _ (by omega) (by omega) (by omega) (by omega) hl

theorem narrow_collect {h : Nat} (buf : Bytes) (hb : buf.length < h) (fuel : Nat) (pos k : Nat) (au : List Bytes)
    (hf : buf.length - pos < fuel) (e : H264.avccCollect buf pos k = .ok au) :
    avccCollectI h buf fuel pos k = some (.ok au) := by
  induction fuel generalizing pos k au with
  | zero => omega
  | succ fuel ih =>
    cases k with
    | zero =>
      unfold H264.avccCollect at e
      rw [if_pos rfl] at e
      cases e
      rw [avccCollectI]
    | succ k =>
      unfold H264.avccCollect at e
      rw [if_neg (by omega)] at e
      by_cases h4 : pos + 4 ≤ buf.length
      · rw [dif_pos h4] at e
        obtain ⟨l, hl32, e1, -⟩ := H264.readU32_spec buf pos h4
        rw [e1] at e
        dsimp only at e
        rw [avccCollectI]
        by_cases hl0 : l = 0
        · subst hl0
          rw [if_neg (by omega)] at e
          rw [narrow_readU32 h4 hb e1, show (pos : Int) + 4 = ((pos + 4 : Nat) : Int) by omega,
            narrow_nat (by omega : pos + 4 < h), narrow_nat (by omega : 0 < h)]
          dsimp only
          rw [if_neg (by simp)]
          exact ih _ _ _ (by omega) e
        · rw [if_pos hl0] at e
          obtain ⟨nalu, e2, e⟩ := Res.bind_eq_ok.mp e
          obtain ⟨rest, e3, e⟩ := Res.bind_eq_ok.mp e
          cases e
          have hs : pos + 4 + l ≤ buf.length := by
            rw [slice] at e2
            by_cases hc : pos + 4 ≤ pos + 4 + l ∧ pos + 4 + l ≤ buf.length
            · exact hc.2
            · rw [if_neg hc] at e2
              cases e2
          rw [narrow_readU32 h4 hb e1, show (pos : Int) + 4 = ((pos + 4 : Nat) : Int) by omega,
            narrow_nat (by omega : pos + 4 < h), narrow_nat (by omega : l < h)]
          dsimp only
          rw [if_pos (by omega), show ((pos + 4 : Nat) : Int) + (l : Int) = ((pos + 4 + l : Nat) : Int) by omega,
            narrow_nat (by omega : pos + 4 + l < h), narrow_sliceI, e2]
          dsimp only
          rw [ih _ _ _ (by omega) (by simpa using e3)]
      · rw [dif_neg h4] at e
        cases e

/-- What follows the first pass. -/
theorem narrow_avcc {h : Nat} (h31 : 2 ^ 31 ≤ h) (buf : Bytes) (hb : buf.length < h) (fuel : Nat) (hf : buf.length < fuel)
    (hl : NarrowField h buf (H264.avccCount buf 0 0 0).isOk) :
    avccUnmarshalI h buf fuel = some (H264.avccUnmarshal buf) := by
  have e := narrow_count h31 buf hb fuel 0 0 0 (by omega) (by omega) (by omega) (by omega) hl
  rw [avccUnmarshalI, show ({} : AvccState) = ⟨((0 : Nat) : Int), ((0 : Nat) : Int), ((0 : Nat) : Int)⟩ from rfl, e]
  rw [H264.avccUnmarshal]
  rcases H264.avccCount_sound buf 0 0 0 (by omega) (by omega) with ⟨recs, h1, h2, h3, h4, hc⟩ | ⟨x, hc⟩
  · rw [hc, Res.map_ok, Res.bind_ok, Nat.zero_add]
    dsimp only
    by_cases h0 : (H264.ne recs).length = 0
    · rw [if_pos h0, if_pos (by omega)]
    rw [if_neg h0, if_neg (by omega)]
    by_cases hm : (H264.ne recs).length > H264.maxNALUsPerAccessUnit
    · rw [if_pos hm, if_pos (by omega)]
    rw [if_neg hm, if_neg (by omega), if_neg (by omega), Int.toNat_natCast]
    have hr := H264.avccCollect_spec buf recs 0 h2 h3
    rw [hr]
    exact narrow_collect buf hb fuel 0 _ _ (by omega) hr
  · rw [hc]
    rfl

/-- Where `int` has 64 bits, `AVCC.Unmarshal` does what the model with integers without bounds does. -/
theorem C104_avcc (buf : Bytes) (hb : buf.length < 2 ^ 63) (fuel : Nat) (hf : buf.length < fuel) :
    avccUnmarshalI (2 ^ 63) buf fuel = some (H264.avccUnmarshal buf) := by
  refine narrow_avcc (by omega) buf hb fuel hf (.inl fun pos l e => ?_)
  by_cases hp : pos + 4 ≤ buf.length
  · obtain ⟨m, hm, e1, -⟩ := H264.readU32_spec buf pos hp
    rw [e1] at e
    cases e
    omega
  · exfalso
    rw [H264.readU32] at e
    obtain ⟨b0, -, e⟩ := Res.bind_eq_ok.mp e
    obtain ⟨b1, -, e⟩ := Res.bind_eq_ok.mp e
    obtain ⟨b2, -, e⟩ := Res.bind_eq_ok.mp e
    rw [idx_of_ge (by omega)] at e
    cases e

-- A unit of one byte and a unit of two, and a unit that is too short.
example : avccUnmarshalI (2 ^ 63) [0, 0, 0, 1, 5, 0, 0, 0, 2, 6, 7] 12 = some (.ok [[5], [6, 7]]) := by decide +kernel
example : avccUnmarshalI (2 ^ 63) [0xFF, 0xFF, 0xFF, 0xFB] 5 = some (.err "access unit size is too big") := by decide +kernel

/-- The statement of `C104_avcc` for an `int` of 32 bits, which is false (`C104_avcc_false`), holds for the buffers that are
decoded, and for those without four bytes that are a number next to `2 ^ 31` or above it. -/
theorem C104_avcc_partial (buf : Bytes) (hb : buf.length < 2 ^ 31) (fuel : Nat) (hf : buf.length < fuel)
    (h : (∀ pos l, H264.readU32 buf pos = .ok l → l < 2 ^ 31 - 2 ^ 24) ∨ ∃ au, H264.avccUnmarshal buf = .ok au) :
    avccUnmarshalI (2 ^ 31) buf fuel = some (H264.avccUnmarshal buf) := by
  refine narrow_avcc (by omega) buf hb fuel hf ?_
  rcases h with h | ⟨au, h⟩
  · exact .inl fun pos l e => by have := h pos l e; omega
  · rw [H264.avccUnmarshal] at h
    obtain ⟨n, e, -⟩ := Res.bind_eq_ok.mp h
    rw [e]
    exact .inr rfl

example : (∃ au, H264.avccUnmarshal [0, 0, 0, 1, 5, 0, 0, 0, 2, 6, 7] = .ok au) ∧
    avccUnmarshalI (2 ^ 31) [0, 0, 0, 1, 5, 0, 0, 0, 2, 6, 7] 12 = some (.ok [[5], [6, 7]]) := by
  refine ⟨⟨[[5], [6, 7]], ?_⟩, ?_⟩
  · simp [H264.avccUnmarshal, H264.avccCount, H264.avccCollect, H264.readU32, idx, slice, H264.maxAccessUnitSize,
      H264.maxNALUsPerAccessUnit]
  · decide +kernel

/-- Where `int` has 32 bits, four bytes make `AVCC.Unmarshal` panic. -/
theorem C104_avcc_false : ¬ ∀ (buf : Bytes), buf.length < 2 ^ 31 → ∀ fuel, buf.length < fuel →
    avccUnmarshalI (2 ^ 31) buf fuel = some (H264.avccUnmarshal buf) := by
  intro h
  have h1 := h [0xFF, 0xFF, 0xFF, 0xFB] (by decide) 5 (by decide)
  rw [show avccUnmarshalI (2 ^ 31) [0xFF, 0xFF, 0xFF, 0xFB] 5 = some .panic by decide +kernel] at h1
  exact C07_avcc_no_panic _ (Option.some.inj h1).symm

/-- A length that brings back to the beginning of the buffer. -/
def narrowBack : Bytes := [0xFF, 0xFF, 0xFF, 0xFC]

theorem narrow_back_length : readU32I (2 ^ 31) narrowBack 0 = .ok (-4) := by decide +kernel

theorem narrow_back_round (k : Nat) (hk : k < 2 ^ 29) :
    avccRound (2 ^ 31) narrowBack ⟨0, k, -4 * k⟩ = .ok (false, ⟨0, ((k + 1 : Nat) : Int), -4 * ((k + 1 : Nat) : Int)⟩) := by
  have hM : H264.maxAccessUnitSize = 2 ^ 23 := rfl
  have hl : (narrowBack.length : Int) = 4 := rfl
  rw [avccRound]
  dsimp only
  rw [narrow_back_length, hl, narrow_id (x := 4 - 0) (by omega) (by omega), if_neg (by omega), Res.bind_ok, avccTake]
  dsimp only
  rw [if_pos (by omega), narrow_id (x := (0 : Int) + 4) (by omega) (by omega), narrow_id (x := -4 * (k : Int) + -4) (by omega) (by omega),
    hl, narrow_id (x := (4 : Int) - (0 + 4)) (by omega) (by omega), if_neg (by omega), if_neg (by omega),
    narrow_id (x := (k : Int) + 1) (by omega) (by omega), Res.bind_ok]
  dsimp only
  rw [narrow_id (x := (0 : Int) + 4 + -4) (by omega) (by omega), narrow_id (by omega) (by omega)]
  rw [decide_eq_false (by omega), show (0 : Int) + 4 + -4 = 0 by omega, show -4 * (k : Int) + -4 = -4 * ((k + 1 : Nat) : Int) by omega]
  rfl

theorem narrow_back_last :
    avccRound (2 ^ 31) narrowBack ⟨0, ((2 ^ 29 : Nat) : Int), -4 * ((2 ^ 29 : Nat) : Int)⟩ =
      .err "access unit size is too big" := by
  decide +kernel

theorem narrow_back_rounds (fuel k : Nat) (hk : k + fuel ≤ 2 ^ 29) :
    avccRounds (2 ^ 31) narrowBack fuel ⟨0, k, -4 * k⟩ = none := by
  induction fuel generalizing k with
  | zero => rfl
  | succ fuel ih =>
    rw [avccRounds, narrow_back_round k (by omega)]
    exact ih (k + 1) (by omega)

theorem narrow_back_end (fuel k : Nat) (hk : k + fuel = 2 ^ 29 + 1) (h : k ≤ 2 ^ 29) :
    avccRounds (2 ^ 31) narrowBack fuel ⟨0, k, -4 * k⟩ = some (.err "access unit size is too big") := by
  induction fuel generalizing k with
  | zero => omega
  | succ fuel ih =>
    by_cases hl : k = 2 ^ 29
    · subst hl
      rw [avccRounds, narrow_back_last]
    · rw [avccRounds, narrow_back_round k (by omega)]
      exact ih (k + 1) (by omega) (by omega)

/-- Where `int` has 32 bits, four bytes make the first loop of `AVCC.Unmarshal` run for more than 500 million rounds, after
which it returns an error. Where it has 64 bits, there is one round. -/
theorem C104_avcc_rounds :
    (∀ fuel, avccUnmarshalI (2 ^ 31) narrowBack fuel = none ↔ fuel ≤ 2 ^ 29) ∧
    avccUnmarshalI (2 ^ 31) narrowBack (2 ^ 29 + 1) = some (.err "access unit size is too big") ∧
    avccUnmarshalI (2 ^ 63) narrowBack 1 = some (.err "access unit size is too big") := by
  have hs : ({} : AvccState) = ⟨0, ((0 : Nat) : Int), -4 * ((0 : Nat) : Int)⟩ := rfl
  have hmono : ∀ fuel s x, avccRounds (2 ^ 31) narrowBack fuel s = some x → ∀ d, avccRounds (2 ^ 31) narrowBack (fuel + d) s = some x := by
    intro fuel
    induction fuel with
    | zero => intro s x e; cases e
    | succ fuel ih =>
      intro s x e d
      rw [show fuel + 1 + d = fuel + d + 1 by omega, avccRounds]
      rw [avccRounds] at e
      rcases hr : avccRound (2 ^ 31) narrowBack s with ⟨_ | _, s'⟩ | _ | _
      · rw [hr] at e
        exact ih _ _ e d
      · rw [hr] at e
        exact e
      · rw [hr] at e
        exact e
      · rw [hr] at e
        exact e
  have hend : ∀ d, avccUnmarshalI (2 ^ 31) narrowBack (2 ^ 29 + 1 + d) = some (.err "access unit size is too big") := by
    intro d
    rw [avccUnmarshalI, hs, hmono _ _ _ (narrow_back_end (2 ^ 29 + 1) 0 (by omega) (by omega)) d]
  refine ⟨fun fuel => ⟨fun e => ?_, fun hf => ?_⟩, hend 0, ?_⟩
  · by_cases hf : fuel ≤ 2 ^ 29
    · exact hf
    · rw [show fuel = 2 ^ 29 + 1 + (fuel - (2 ^ 29 + 1)) by omega, hend] at e
      cases e
  · rw [avccUnmarshalI, hs, narrow_back_rounds fuel 0 (by omega)]
  · decide +kernel

/-! ### Bitstream of AV1 -/

theorem narrow_leb {buf : Bytes} {size n : Nat} (e : AV1.leb128Unmarshal buf = .ok (size, n)) :
    size < 2 ^ 32 ∧ n ≤ 8 := by
  rcases AV1.leb128Unmarshal_cases buf with ⟨pre, last, rest, -, hi, e1⟩ | ⟨-, -, e1⟩
  · rw [e1] at e
    cases e
    have := hi.1
    omega
  · rw [e1] at e
    cases e

theorem narrow_step {h : Nat} (buf : Bytes) (hb : buf.length < h)
    (hl : (2 ^ 33 ≤ h ∨ ∀ size n, AV1.leb128Unmarshal (buf.drop 1) = .ok (size, n) → size + 16 < h) ∨
      (AV1.bitstreamStep buf).isOk = true) :
    bitstreamStepI h buf = AV1.bitstreamStep buf := by
  rw [bitstreamStepI]
  rw [AV1.bitstreamStep] at hl ⊢
  rcases hh : AV1.obuHeaderUnmarshal buf with hd | x | _
  · rw [hh, Res.bind_ok] at hl
    rw [Res.bind_ok, Res.bind_ok]
    by_cases hz : (!hd.hasSize) = true
    · rw [if_pos hz, if_pos hz]
    rw [if_neg hz] at hl ⊢
    rw [if_neg hz]
    have hs : ∀ t, sliceFrom buf 1 = .ok t → t = buf.drop 1 := by
      intro t e
      rw [sliceFrom] at e
      by_cases hc : 1 ≤ buf.length
      · rw [if_pos hc] at e
        exact (Res.ok.inj e).symm
      · rw [if_neg hc] at e
        cases e
    rcases ht : sliceFrom buf 1 with t | x | _
    · have := hs t ht
      subst this
      rw [ht, Res.bind_ok] at hl
      rw [Res.bind_ok, Res.bind_ok]
      rcases hu : AV1.leb128Unmarshal (buf.drop 1) with ⟨size, n⟩ | x | _
      · rw [hu, Res.bind_ok] at hl
        rw [Res.bind_ok, Res.bind_ok]
        dsimp only at hl ⊢
        obtain ⟨hsz, hn⟩ := narrow_leb hu
        by_cases hc : buf.length < 1 + size + n
        · rw [if_pos hc] at hl ⊢
          have hlt : size + 16 < h := by
            rcases hl with (hl | hl) | hl
            · omega
            · exact hl _ _ rfl
            · cases hl
          rw [narrow_nat (by omega : size < h), show 1 + (size : Int) = ((1 + size : Nat) : Int) by omega,
            narrow_nat (by omega : 1 + size < h), show ((1 + size : Nat) : Int) + n = ((1 + size + n : Nat) : Int) by omega,
            narrow_nat (by omega : 1 + size + n < h), if_pos (by omega)]
        · rw [if_neg hc]
          rw [narrow_nat (by omega : size < h), show 1 + (size : Int) = ((1 + size : Nat) : Int) by omega,
            narrow_nat (by omega : 1 + size < h), show ((1 + size : Nat) : Int) + n = ((1 + size + n : Nat) : Int) by omega,
            narrow_nat (by omega : 1 + size + n < h), if_neg (by omega), narrow_makeI, Res.bind_ok]
          simp only [narrow_sliceFromI]
      · rfl
      · rfl
    · rfl
    · rfl
  · rfl
  · rfl

/-- The sizes that are found at any position are small, or the outcome is a success. -/
def NarrowSizes (h : Nat) (buf : Bytes) (ok : Bool) : Prop :=
  (2 ^ 33 ≤ h ∨ ∀ k size n, AV1.leb128Unmarshal (buf.drop k) = .ok (size, n) → size + 16 < h) ∨ ok = true

theorem narrow_loop {h : Nat} (fuel : Nat) (buf : Bytes) (hb : buf.length < h)
    (hl : NarrowSizes h buf (AV1.bitstreamLoop fuel buf).isOk) :
    bitstreamLoopI h fuel buf = AV1.bitstreamLoop fuel buf := by
  induction fuel generalizing buf with
  | zero => rfl
  | succ fuel ih =>
    rw [AV1.bitstreamLoop] at hl ⊢
    rw [bitstreamLoopI, narrow_step buf hb]
    · rcases hs : AV1.bitstreamStep buf with ⟨obu, rest⟩ | x | _
      · rw [hs, Res.bind_ok] at hl
        rw [Res.bind_ok, Res.bind_ok]
        dsimp only at hl ⊢
        by_cases h0 : rest.length = 0
        · rw [if_pos h0, if_pos h0]
        rw [if_neg h0] at hl ⊢
        rw [if_neg h0]
        obtain ⟨k, hk⟩ : ∃ k, rest = buf.drop k := by
          rw [AV1.bitstreamStep] at hs
          obtain ⟨hd, -, hs⟩ := Res.bind_eq_ok.mp hs
          by_cases hz : (!hd.hasSize) = true
          · rw [if_pos hz] at hs
            cases hs
          rw [if_neg hz] at hs
          obtain ⟨t, -, hs⟩ := Res.bind_eq_ok.mp hs
          obtain ⟨⟨size, n⟩, -, hs⟩ := Res.bind_eq_ok.mp hs
          dsimp only at hs
          by_cases hc : buf.length < 1 + size + n
          · rw [if_pos hc] at hs
            cases hs
          rw [if_neg hc] at hs
          obtain ⟨b0, -, hs⟩ := Res.bind_eq_ok.mp hs
          obtain ⟨o, -, hs⟩ := Res.bind_eq_ok.mp hs
          obtain ⟨src, -, hs⟩ := Res.bind_eq_ok.mp hs
          obtain ⟨⟨o2, m⟩, -, hs⟩ := Res.bind_eq_ok.mp hs
          obtain ⟨r, hr, hs⟩ := Res.bind_eq_ok.mp hs
          cases hs
          rw [sliceFrom, if_pos (by omega)] at hr
          exact ⟨_, (Res.ok.inj hr).symm⟩
        subst hk
        rw [ih _ (by rw [List.length_drop]; omega)]
        rcases hl with (hl | hl) | hl
        · exact .inl (.inl hl)
        · exact .inl (.inr fun j size n e => hl (k + j) size n (by rw [← List.drop_drop]; exact e))
        · refine .inr ?_
          cases hr : AV1.bitstreamLoop fuel (buf.drop k) with
          | ok a => rfl
          | err x => rw [hr] at hl; cases hl
          | panic => rw [hr] at hl; cases hl
      · rfl
      · rfl
    · rcases hl with (hl | hl) | hl
      · exact .inl (.inl hl)
      · exact .inl (.inr fun size n e => hl 1 size n e)
      · refine .inr ?_
        cases hs : AV1.bitstreamStep buf with
        | ok a => rfl
        | err x => rw [hs] at hl; cases hl
        | panic => rw [hs] at hl; cases hl

/-- Where `int` has 64 bits, `Bitstream.Unmarshal` does what the model with integers without bounds does. -/
theorem C104_bitstream (buf : Bytes) (hb : buf.length < 2 ^ 63) :
    bitstreamLoopI (2 ^ 63) (buf.length + 1) buf = AV1.bitstreamUnmarshal buf :=
  narrow_loop _ buf hb (.inl (.inl (by omega)))

example : bitstreamLoopI (2 ^ 63) 7 [0x12, 0, 0x0A, 2, 5, 6] = .ok [[0x10], [0x08, 5, 6]] := by decide +kernel

/-- The statement of `C104_bitstream` for an `int` of 32 bits, which is false (`C104_bitstream_false`), holds for the bitstreams
that are decoded, and for those without a size next to `2 ^ 31` or above it. -/
theorem C104_bitstream_partial (buf : Bytes) (hb : buf.length < 2 ^ 31)
    (h : (∀ k size n, AV1.leb128Unmarshal (buf.drop k) = .ok (size, n) → size < 2 ^ 31 - 16) ∨
      ∃ obus, AV1.bitstreamUnmarshal buf = .ok obus) :
    bitstreamLoopI (2 ^ 31) (buf.length + 1) buf = AV1.bitstreamUnmarshal buf := by
  refine narrow_loop _ buf hb ?_
  rcases h with h | ⟨obus, h⟩
  · exact .inl (.inr fun k size n e => by have := h k size n e; omega)
  · rw [AV1.bitstreamUnmarshal] at h
    rw [h]
    exact .inr rfl

example : bitstreamLoopI (2 ^ 31) 7 [0x12, 0, 0x0A, 2, 5, 6] = .ok [[0x10], [0x08, 5, 6]] := by decide +kernel

/-- Where `int` has 32 bits, six bytes make `Bitstream.Unmarshal` panic; where it has 64 bits they are refused. -/
theorem C104_bitstream_false :
    bitstreamLoopI (2 ^ 31) 7 [0x12, 0xFF, 0xFF, 0xFF, 0xFF, 0x0F] = .panic ∧
    bitstreamLoopI (2 ^ 63) 7 [0x12, 0xFF, 0xFF, 0xFF, 0xFF, 0x0F] = .err "not enough bytes" ∧
    bitstreamLoopI (2 ^ 31) 7 [0x12, 0x80, 0x80, 0x80, 0x80, 0x08] = .panic ∧
    bitstreamLoopI (2 ^ 63) 7 [0x12, 0x80, 0x80, 0x80, 0x80, 0x08] = .err "not enough bytes" := by
  refine ⟨?_, ?_, ?_, ?_⟩ <;> decide +kernel

/-! ### Samples of fragments -/

/-- The size of a sample (parts.go:166-171). -/
def narrowSize (t : FMP4.Trun) (tfhd : FMP4.Tfhd) (e : FMP4.TrunEntry) : Nat :=
  if FMP4.hasFlag t.flags 0x200 then e.size else tfhd.defaultSize

theorem narrow_entries {h : Nat} (t : FMP4.Trun) (tfhd : FMP4.Tfhd) (l : List FMP4.TrunEntry) (ptr : Bytes)
    (hp : ptr.length < h)
    (hl : (∀ e ∈ l, narrowSize t tfhd e < h) ∨ (FMP4.readEntries t tfhd l ptr).isOk = true) :
    readEntriesI h t tfhd l ptr = FMP4.readEntries t tfhd l ptr := by
  induction l generalizing ptr with
  | nil => rfl
  | cons e l ih =>
    rw [FMP4.readEntries] at hl ⊢
    rw [readEntriesI]
    have hsize : (if FMP4.hasFlag t.flags 0x200 then e.size else tfhd.defaultSize) = narrowSize t tfhd e := rfl
    rw [hsize] at hl ⊢
    by_cases hc : ptr.length < narrowSize t tfhd e
    · rw [if_pos hc] at hl ⊢
      rcases hl with hl | hl
      · rw [narrow_nat (hl e (by simp)), if_pos (by omega)]
      · cases hl
    · rw [if_neg hc] at hl ⊢
      rw [narrow_nat (by omega), if_neg (by omega)]
      have e1 : slice ptr 0 (narrowSize t tfhd e) = .ok ((ptr.drop 0).take (narrowSize t tfhd e - 0)) := by
        rw [slice, if_pos (by omega)]
      have e2 : sliceFrom ptr (narrowSize t tfhd e) = .ok (ptr.drop (narrowSize t tfhd e)) := by
        rw [sliceFrom, if_pos (by omega)]
      rw [e1, e2] at hl ⊢
      simp only [Res.bind_ok] at hl ⊢
      rw [ih _ (by rw [List.length_drop]; omega)]
      rcases hl with hl | hl
      · exact .inl fun e' he' => hl e' (by simp [he'])
      · refine .inr ?_
        cases hr : FMP4.readEntries t tfhd l (ptr.drop (narrowSize t tfhd e)) with
        | ok a => rfl
        | err x => rw [hr] at hl; cases hl
        | panic => rw [hr] at hl; cases hl

theorem narrow_trun {h : Nat} (b : Bytes) (bi : FMP4.BoxInfo) (r : FMP4.Reader) (hb : b.length < h)
    (hl : (∀ t tfhd, FMP4.decodeTrun (bi.payload b) = .ok t → r.tfhd = some tfhd → ∀ e ∈ t.entries, narrowSize t tfhd e < h) ∨
      (FMP4.readTrun b bi r).isOk = true) :
    readTrunI h b bi r = FMP4.readTrun b bi r := by
  rw [FMP4.readTrun] at hl ⊢
  rw [readTrunI]
  cases hf : r.tfhd with
  | none => rfl
  | some tfhd =>
    rw [hf] at hl
    dsimp only at hl ⊢
    by_cases hw : r.state ≠ .waitingBoxes
    · rw [if_pos hw, if_pos hw]
    rw [if_neg hw] at hl ⊢
    rw [if_neg hw]
    cases h1 : sliceFrom b bi.offset with
    | err x => rfl
    | panic => rfl
    | ok raw =>
    rw [h1, Res.bind_ok] at hl
    rw [Res.bind_ok, Res.bind_ok]
    cases h2 : FMP4.rawCount raw with
    | err x => rfl
    | panic => rfl
    | ok count =>
    rw [h2, Res.bind_ok] at hl
    rw [Res.bind_ok, Res.bind_ok]
    by_cases hm : count > FMP4.maxSamplesPerTrun
    · rw [if_pos hm, if_pos hm]
    rw [if_neg hm] at hl ⊢
    rw [if_neg hm]
    cases h3 : FMP4.decodeTrun (bi.payload b) with
    | err x => rfl
    | panic => rfl
    | ok t =>
    rw [h3, Res.bind_ok] at hl
    rw [Res.bind_ok, Res.bind_ok]
    by_cases h0 : t.entries.length ≠ 0
    · rw [if_pos h0] at hl ⊢
      rw [if_pos h0]
      by_cases hg : FMP4.hasFlag t.flags 1 = false
      · rw [if_pos hg, if_pos hg]
      rw [if_neg hg] at hl ⊢
      rw [if_neg hg]
      by_cases hp : b.length < ((t.dataOffset % 2 ^ 64).toNat + r.moofOffset) % 2 ^ 64
      · rw [if_pos hp, if_pos hp]
      rw [if_neg hp] at hl ⊢
      rw [if_neg hp]
      have e1 : sliceFrom b (((t.dataOffset % 2 ^ 64).toNat + r.moofOffset) % 2 ^ 64) =
          .ok (b.drop (((t.dataOffset % 2 ^ 64).toNat + r.moofOffset) % 2 ^ 64)) := by
        rw [sliceFrom, if_pos (by omega)]
      rw [e1, Res.bind_ok] at hl ⊢
      rw [Res.bind_ok, narrow_entries t tfhd t.entries _ (by rw [List.length_drop]; omega)]
      rcases hl with hl | hl
      · exact .inl (hl t tfhd rfl rfl)
      · refine .inr ?_
        cases hr : FMP4.readEntries t tfhd t.entries (b.drop (((t.dataOffset % 2 ^ 64).toNat + r.moofOffset) % 2 ^ 64)) with
        | ok a => rfl
        | err x => rw [hr] at hl; cases hl
        | panic => rw [hr] at hl; cases hl
    · rw [if_neg h0, if_neg h0]

/-- Where `int` has 64 bits, a `trun` box of a file is read as by the model with integers without bounds. -/
theorem C104_trun (b : Bytes) (bi : FMP4.BoxInfo) (r : FMP4.Reader) (hb : b.length < 2 ^ 63)
    (hr : ∀ tfhd, r.tfhd = some tfhd → tfhd.defaultSize < 2 ^ 32) :
    readTrunI (2 ^ 63) b bi r = FMP4.readTrun b bi r := by
  refine narrow_trun b bi r hb (.inl fun t tfhd e hf x hx => ?_)
  have h1 := range_trun (bi.payload b)
  rw [e] at h1
  have h2 := (h1 x hx).2.1
  have h3 := hr tfhd hf
  rw [narrowSize]
  split <;> omega

/-- A `trun` box with a sample of the given size, whose bytes are those of the box. -/
def narrowTrun (size : Bytes) : Bytes :=
  [0, 0, 0, 24, 0x74, 0x72, 0x75, 0x6E, 0, 0, 2, 1, 0, 0, 0, 1, 0, 0, 0, 0] ++ size

/-- A reader after `tfhd`. -/
def narrowReader : FMP4.Reader :=
  { state := .waitingBoxes, parts := [⟨1, [⟨1, 0, []⟩]⟩], hasTrack := true, tfdt := some 0, tfhd := some ⟨1, 0, 0, 0⟩ }

example : readTrunI (2 ^ 63) (narrowTrun [0, 0, 0, 2]) ⟨0, 24, 8, [0x74, 0x72, 0x75, 0x6E]⟩ narrowReader =
    .ok { narrowReader with parts := [⟨1, [⟨1, 0, [⟨0, 0, false, [0, 0]⟩]⟩]⟩] } := by decide +kernel

/-- The statement of `C104_trun` for an `int` of 32 bits, which is false (`C104_trun_false`), holds for the boxes that are
read, and for those whose samples have a size that is less than `2 ^ 31`. -/
theorem C104_trun_partial (b : Bytes) (bi : FMP4.BoxInfo) (r : FMP4.Reader) (hb : b.length < 2 ^ 31)
    (hl : (∀ t tfhd, FMP4.decodeTrun (bi.payload b) = .ok t → r.tfhd = some tfhd →
        ∀ e ∈ t.entries, (if FMP4.hasFlag t.flags 0x200 then e.size else tfhd.defaultSize) < 2 ^ 31) ∨
      ∃ r', FMP4.readTrun b bi r = .ok r') :
    readTrunI (2 ^ 31) b bi r = FMP4.readTrun b bi r := by
  refine narrow_trun b bi r hb ?_
  rcases hl with hl | ⟨r', hl⟩
  · exact .inl hl
  · rw [hl]
    exact .inr rfl

example : ∃ r', FMP4.readTrun (narrowTrun [0, 0, 0, 2]) ⟨0, 24, 8, [0x74, 0x72, 0x75, 0x6E]⟩ narrowReader = .ok r' :=
  ⟨{ narrowReader with parts := [⟨1, [⟨1, 0, [⟨0, 0, false, [0, 0]⟩]⟩]⟩] }, by decide +kernel⟩

/-- Where `int` has 32 bits, a sample with a size of `2 ^ 31` makes `Parts.Unmarshal` panic; where it has 64 bits it is
refused. -/
theorem C104_trun_false :
    readTrunI (2 ^ 31) (narrowTrun [0x80, 0, 0, 0]) ⟨0, 24, 8, [0x74, 0x72, 0x75, 0x6E]⟩ narrowReader = .panic ∧
    readTrunI (2 ^ 63) (narrowTrun [0x80, 0, 0, 0]) ⟨0, 24, 8, [0x74, 0x72, 0x75, 0x6E]⟩ narrowReader =
      .err "invalid sample size" := by
  constructor <;> decide +kernel

/-! ### Sample tables -/

theorem narrow_stts {h : Nat} (h31 : 2 ^ 31 ≤ h) (l : List (PMP4.Run Nat)) (samples : List PMP4.RSample)
    (hs : samples.length ≤ PMP4.maxSamples)
    (hl : (∀ e ∈ l, e.count + 2 ^ 24 < h) ∨ (PMP4.readSTTS l samples).isOk = true) :
    readSTTSI h l samples = PMP4.readSTTS l samples := by
  have hM : PMP4.maxSamples = 5184000 := rfl
  induction l generalizing samples with
  | nil => rfl
  | cons e l ih =>
    rw [PMP4.readSTTS] at hl ⊢
    rw [readSTTSI]
    have hc : e.count + 2 ^ 24 < h := by
      rcases hl with hl | hl
      · exact hl e (by simp)
      · by_cases hc : samples.length + e.count > PMP4.maxSamples
        · rw [if_pos hc] at hl
          cases hl
        · omega
    rw [narrow_nat (by omega : e.count < h), show (samples.length : Int) + e.count = ((samples.length + e.count : Nat) : Int) by omega,
      narrow_nat (by omega)]
    by_cases hg : samples.length + e.count > PMP4.maxSamples
    · rw [if_pos hg, if_pos (by omega)]
    rw [if_neg hg] at hl ⊢
    rw [if_neg (by omega)]
    refine ih _ ?_ ?_
    · rw [List.length_append, List.length_replicate]
      omega
    · rcases hl with hl | hl
      · exact .inl fun e' he' => hl e' (by simp [he'])
      · exact .inr hl

theorem narrow_stss {h : Nat} (l : List Nat) (samples : List PMP4.RSample) (hs : samples.length < h)
    (hl : (∀ n ∈ l, (n + 2 ^ 32 - 1) % 2 ^ 32 < h) ∨ (PMP4.readSTSS l samples).isOk = true) :
    readSTSSI h l samples = PMP4.readSTSS l samples := by
  induction l generalizing samples with
  | nil => rfl
  | cons n l ih =>
    rw [PMP4.readSTSS] at hl ⊢
    rw [readSTSSI]
    have hc : (n + 2 ^ 32 - 1) % 2 ^ 32 < h := by
      rcases hl with hl | hl
      · exact hl n (by simp)
      · by_cases hc : (n + 2 ^ 32 - 1) % 2 ^ 32 ≥ samples.length
        · rw [if_pos hc] at hl
          cases hl
        · omega
    rw [narrow_nat hc]
    by_cases hg : (n + 2 ^ 32 - 1) % 2 ^ 32 ≥ samples.length
    · rw [if_pos hg, if_pos (by omega)]
    rw [if_neg hg] at hl ⊢
    rw [if_neg (by omega)]
    rw [idx_of_lt (by omega), Res.bind_ok] at hl ⊢
    rw [Res.bind_ok]
    refine ih _ (by rw [List.length_set]; exact hs) ?_
    rcases hl with hl | hl
    · exact .inl fun e' he' => hl e' (by simp [he'])
    · exact .inr hl

theorem narrow_setOffsets (v : Int) (k n : Nat) (samples : List PMP4.RSample) (l : List PMP4.RSample)
    (e : PMP4.setOffsets v k n samples = .ok l) : l.length = samples.length := by
  induction k generalizing n samples with
  | zero => cases e; rfl
  | succ k ih =>
    rw [PMP4.setOffsets] at e
    obtain ⟨sa, -, e⟩ := Res.bind_eq_ok.mp e
    rw [ih _ _ e, List.length_set]

theorem narrow_ctts {h : Nat} (l : List (PMP4.Run Int)) (n : Nat) (samples : List PMP4.RSample)
    (hn : n ≤ samples.length) (hs : 2 * samples.length < h)
    (hl : (∀ e ∈ l, e.count + samples.length < h) ∨ (PMP4.readCTTS l n samples).isOk = true) :
    readCTTSI h l n samples = PMP4.readCTTS l n samples := by
  induction l generalizing n samples with
  | nil => rfl
  | cons e l ih =>
    rw [PMP4.readCTTS] at hl ⊢
    rw [readCTTSI]
    have hc : e.count + samples.length < h := by
      rcases hl with hl | hl
      · exact hl e (by simp)
      · by_cases hc : n + e.count > samples.length
        · rw [if_pos hc] at hl
          cases hl
        · omega
    rw [narrow_nat (by omega : e.count < h), show (n : Int) + e.count = ((n + e.count : Nat) : Int) by omega,
      narrow_nat (by omega)]
    by_cases hg : n + e.count > samples.length
    · rw [if_pos hg, if_pos (by omega)]
    rw [if_neg hg] at hl ⊢
    rw [if_neg (by omega)]
    cases he : PMP4.setOffsets (Bits.wrapInt32 e.value) e.count n samples with
    | err x => rfl
    | panic => rfl
    | ok s2 =>
      rw [he, Res.bind_ok] at hl
      rw [Res.bind_ok, Res.bind_ok]
      have hlen := narrow_setOffsets _ _ _ _ _ he
      refine ih _ _ (by omega) (by omega) ?_
      rcases hl with hl | hl
      · exact .inl fun e' he' => by have := hl e' (by simp [he']); omega
      · exact .inr hl

/-- Natural numbers as integers. -/
def narrowInts (l : List Nat) : List Int := l.map fun c : Nat => (c : Int)

theorem narrow_ints_length (l : List Nat) : (narrowInts l).length = l.length := List.length_map _

theorem narrow_addChunks {h total spc : Nat} (ht : total < h) (k sc : Nat) (chunks : List Nat) (hsc : sc ≤ total)
    (hl : (k = 0 ∨ spc + total < h) ∨ (PMP4.addChunks total spc k sc chunks).isOk = true) :
    addChunksI h total (toInt h spc) k sc (narrowInts chunks) =
      (fun x : Nat × List Nat => ((x.1 : Int), narrowInts x.2)) <$> PMP4.addChunks total spc k sc chunks := by
  induction k generalizing sc chunks with
  | zero => rfl
  | succ k ih =>
    rw [PMP4.addChunks] at hl ⊢
    rw [addChunksI]
    have hc : sc + spc ≤ total ∨ spc + total < h := by
      rcases hl with (hl | hl) | hl
      · omega
      · exact .inr hl
      · by_cases hc : sc + spc > total
        · rw [if_pos hc] at hl
          cases hl
        · omega
    rw [narrow_nat (by omega : spc < h), show (sc : Int) + spc = ((sc + spc : Nat) : Int) by omega,
      narrow_nat (by omega)]
    by_cases hg : sc + spc > total
    · rw [if_pos hg, if_pos (by omega)]
      rfl
    rw [if_neg hg] at hl ⊢
    rw [if_neg (by omega)]
    have := ih (sc + spc) (chunks ++ [spc]) (by omega) (by
      rcases hl with (hl | hl) | hl
      · omega
      · exact .inl (.inr hl)
      · exact .inr hl)
    rw [narrow_nat (by omega : spc < h), narrowInts, List.map_append] at this
    exact this

theorem narrow_added (total spc k sc : Nat) (chunks : List Nat) (sc' : Nat) (chunks' : List Nat) (hsc : sc ≤ total)
    (e : PMP4.addChunks total spc k sc chunks = .ok (sc', chunks')) : sc' ≤ total ∧ chunks'.length = chunks.length + k := by
  induction k generalizing sc chunks with
  | zero => cases e; exact ⟨hsc, rfl⟩
  | succ k ih =>
    rw [PMP4.addChunks] at e
    by_cases hg : sc + spc > total
    · rw [if_pos hg] at e
      cases e
    · rw [if_neg hg] at e
      have := ih _ _ (by omega) e
      rw [List.length_append, List.length_singleton] at this
      omega

theorem narrow_chunkCount {h total : Nat} (ht : total < h) (sc : Nat) (hsc : sc ≤ total) (e : PMP4.StscEntry)
    (l : List PMP4.StscEntry) (h32 : e.samplesPerChunk < 2 * h)
    (hl : e.samplesPerChunk + total < h ∨ (PMP4.chunkCount total sc e l).isOk = true) :
    chunkCountI h total sc e l = PMP4.chunkCount total sc e l := by
  cases l with
  | cons next l => rfl
  | nil =>
    rw [PMP4.chunkCount] at hl ⊢
    rw [chunkCountI]
    rw [show (total : Int) - sc = ((total - sc : Nat) : Int) by omega, narrow_nat (by omega : total - sc < h)]
    by_cases h0 : e.samplesPerChunk = 0
    · rw [if_pos h0, h0, narrow_nat (by omega : 0 < h), if_pos (by omega)]
    rw [if_neg h0] at hl ⊢
    by_cases hbig : e.samplesPerChunk < h
    · rw [narrow_nat hbig, if_neg (by omega), ← Int.ofNat_tmod, ← Int.ofNat_tdiv]
      by_cases hm : (total - sc) % e.samplesPerChunk ≠ 0
      · rw [if_pos hm, if_pos (by omega)]
      · rw [if_neg hm, if_neg (by omega)]
        congr 1
    · have hz : total - sc = 0 := by
        rcases hl with hl | hl
        · omega
        · by_cases hm : (total - sc) % e.samplesPerChunk ≠ 0
          · rw [if_pos hm] at hl
            cases hl
          · rw [Nat.mod_eq_of_lt (by omega)] at hm
            omega
      have hne : toInt h (e.samplesPerChunk : Int) ≠ 0 := by
        rw [toInt, show ((e.samplesPerChunk : Int) + h) = (e.samplesPerChunk - h) + 2 * h by omega, Int.add_emod_right,
          Int.emod_eq_of_lt (by omega) (by omega)]
        omega
      rw [hz, if_neg hne, show ((0 : Nat) : Int) = 0 from rfl, Int.zero_tmod, Int.zero_tdiv, Nat.zero_mod, Nat.zero_div,
        if_neg (by omega), if_neg (by omega)]
      rfl

theorem narrow_stsc {h total : Nat} (h31 : 2 ^ 31 ≤ h) (ht : total ≤ PMP4.maxSamples) (l : List PMP4.StscEntry) (sc : Nat)
    (chunks : List Nat) (hsc : sc ≤ total) (hch : chunks.length ≤ PMP4.maxSamples) (h32 : ∀ e ∈ l, e.samplesPerChunk < 2 * h)
    (hl : ((∀ e ∈ l, e.samplesPerChunk + 2 ^ 24 < h) ∧
        ∀ a b, [a, b] <:+: l → (b.firstChunk + 2 ^ 32 - a.firstChunk) % 2 ^ 32 + 2 ^ 24 < h) ∨
      (PMP4.readSTSC total l sc chunks).isOk = true) :
    readSTSCI h total l sc (narrowInts chunks) = narrowInts <$> PMP4.readSTSC total l sc chunks := by
  have hM : PMP4.maxSamples = 5184000 := rfl
  induction l generalizing sc chunks with
  | nil => rfl
  | cons e l ih =>
    rw [PMP4.readSTSC] at hl ⊢
    rw [readSTSCI, narrow_chunkCount (by omega) sc hsc e l (h32 e (by simp))]
    · cases hcc : PMP4.chunkCount total sc e l with
      | err x => rfl
      | panic => rfl
      | ok n =>
        rw [hcc, Res.bind_ok] at hl
        rw [Res.bind_ok, Res.bind_ok, narrow_ints_length]
        have hn : n + 2 ^ 23 < h := by
          rcases hl with ⟨hl1, hl2⟩ | hl
          · cases l with
            | cons b l =>
              rw [PMP4.chunkCount] at hcc
              have := hl2 e b ⟨[], l, rfl⟩
              have := Res.ok.inj hcc
              omega
            | nil =>
              rw [PMP4.chunkCount] at hcc
              by_cases h0 : e.samplesPerChunk = 0
              · rw [if_pos h0] at hcc
                cases hcc
              rw [if_neg h0] at hcc
              by_cases hm : (total - sc) % e.samplesPerChunk ≠ 0
              · rw [if_pos hm] at hcc
                cases hcc
              rw [if_neg hm] at hcc
              have h1 := Res.ok.inj hcc
              have h2 := Nat.div_le_self (total - sc) e.samplesPerChunk
              have h3 := Nat.mod_le ((total - sc) / e.samplesPerChunk) (2 ^ 32)
              omega
          · by_cases hg : chunks.length + n > PMP4.maxSamples
            · rw [if_pos hg] at hl
              cases hl
            · omega
        rw [narrow_nat (by omega : n < h), show (chunks.length : Int) + n = ((chunks.length + n : Nat) : Int) by omega,
          narrow_nat (by omega)]
        by_cases hg : chunks.length + n > PMP4.maxSamples
        · rw [if_pos hg, if_pos (by omega)]
          rfl
        rw [if_neg hg] at hl ⊢
        rw [if_neg (by omega)]
        by_cases h0 : e.samplesPerChunk = 0
        · rw [if_pos h0, if_pos h0]
          rfl
        rw [if_neg h0] at hl ⊢
        rw [if_neg h0, narrow_addChunks (by omega) n sc chunks hsc]
        · cases hac : PMP4.addChunks total e.samplesPerChunk n sc chunks with
          | err x => rfl
          | panic => rfl
          | ok x =>
            obtain ⟨sc', chunks'⟩ := x
            rw [hac, Res.bind_ok] at hl
            rw [Res.map_ok, Res.bind_ok, Res.bind_ok]
            dsimp only at hl ⊢
            have := narrow_added total e.samplesPerChunk n sc chunks sc' chunks' hsc hac
            refine ih sc' chunks' this.1 (by omega) (fun e' he' => h32 e' (by simp [he'])) ?_
            rcases hl with ⟨hl1, hl2⟩ | hl
            · exact .inl ⟨fun e' he' => hl1 e' (by simp [he']), fun a b hab => hl2 a b (hab.trans (List.suffix_cons e l).isInfix)⟩
            · exact .inr hl
        · rcases hl with ⟨hl1, hl2⟩ | hl
          · have := hl1 e (by simp)
            exact .inl (.inr (by omega))
          · refine .inr ?_
            cases hac : PMP4.addChunks total e.samplesPerChunk n sc chunks with
            | ok x => rfl
            | err x => rw [hac] at hl; cases hl
            | panic => rw [hac] at hl; cases hl
    · rcases hl with ⟨hl1, hl2⟩ | hl
      · have := hl1 e (by simp)
        exact .inl (by omega)
      · refine .inr ?_
        cases hcc : PMP4.chunkCount total sc e l with
        | ok x => rfl
        | err x => rw [hcc] at hl; cases hl
        | panic => rw [hcc] at hl; cases hl

/-- A reader with an `int` of any size. -/
def narrowOf (r : PMP4.Reader) : ReaderI :=
  { props := r.props, trackDuration := r.trackDuration, timeOffset := r.timeOffset, samples := r.samples,
    chunks := narrowInts r.chunks, sizes := r.sizes }

theorem narrow_chunkOffsets (l offsets : List Nat) (i : Nat) :
    chunkOffsetsI (narrowInts l) offsets i = (fun x => x.map fun y : Nat × Nat => ((y.1 : Int), y.2)) <$> PMP4.chunkOffsets l offsets i := by
  induction l generalizing i with
  | nil => rfl
  | cons c l ih =>
    rw [PMP4.chunkOffsets, narrowInts, List.map_cons, chunkOffsetsI]
    cases idx offsets i with
    | err x => rfl
    | panic => rfl
    | ok o =>
      rw [Res.bind_ok, Res.bind_ok]
      have := ih (i + 1)
      rw [narrowInts] at this
      rw [this]
      cases PMP4.chunkOffsets l offsets (i + 1) <;> rfl

theorem narrow_locate (sizes : List Nat) (l : List (Nat × Nat)) (i : Nat) (samples : List PMP4.RSample) :
    locateI sizes (l.map fun y : Nat × Nat => ((y.1 : Int), y.2)) i samples = PMP4.locate sizes l i samples := by
  induction l generalizing i samples with
  | nil => rfl
  | cons c l ih =>
    obtain ⟨count, off⟩ := c
    rw [PMP4.locate, List.map_cons, locateI, Int.toNat_natCast]
    cases PMP4.locateChunk sizes count off i samples with
    | err x => rfl
    | panic => rfl
    | ok x => exact ih _ _

/-- The fields of a box are not next to `h` or above it. -/
def NarrowBox (h : Nat) : PMP4.Box → Prop
  | .stts entries => ∀ e ∈ entries, e.count + 2 ^ 24 < h
  | .stss numbers => ∀ n ∈ numbers, (n + 2 ^ 32 - 1) % 2 ^ 32 < h
  | .ctts entries => ∀ e ∈ entries, e.count + 2 ^ 24 < h
  | .stsc entries => (∀ e ∈ entries, e.samplesPerChunk + 2 ^ 24 < h) ∧
      ∀ a b, [a, b] <:+: entries → (b.firstChunk + 2 ^ 32 - a.firstChunk) % 2 ^ 32 + 2 ^ 24 < h
  | .stsz _ => True
  | .stco _ => True

/-- The fields of a box have 32 bits. -/
def NarrowWire : PMP4.Box → Prop
  | .stts entries => ∀ e ∈ entries, e.count < 2 ^ 32
  | .stss _ => True
  | .ctts entries => ∀ e ∈ entries, e.count < 2 ^ 32
  | .stsc entries => ∀ e ∈ entries, e.samplesPerChunk < 2 ^ 32
  | .stsz _ => True
  | .stco _ => True

theorem narrow_box {h : Nat} (h31 : 2 ^ 31 ≤ h) (r : PMP4.Reader) (b : PMP4.Box) (hw : NarrowWire b)
    (hs : r.samples.length ≤ PMP4.maxSamples) (hc : r.chunks.length ≤ PMP4.maxSamples)
    (hl : NarrowBox h b ∨ (PMP4.readBox r b).isOk = true) :
    readBoxI h (narrowOf r) b = narrowOf <$> PMP4.readBox r b := by
  have hM : PMP4.maxSamples = 5184000 := rfl
  cases b with
  | stts entries =>
    rw [PMP4.readBox] at hl ⊢
    rw [readBoxI]
    rw [show (narrowOf r).props = r.props from rfl, show (narrowOf r).samples = r.samples from rfl]
    by_cases hp : r.props = true
    · rw [if_pos hp, if_pos hp]
      rfl
    rw [if_neg hp] at hl ⊢
    rw [if_neg hp, narrow_stts h31 entries r.samples hs]
    · cases PMP4.readSTTS entries r.samples <;> rfl
    · rcases hl with hl | hl
      · exact .inl hl
      · refine .inr ?_
        cases hr : PMP4.readSTTS entries r.samples with
        | ok x => rfl
        | err x => rw [hr] at hl; cases hl
        | panic => rw [hr] at hl; cases hl
  | stss numbers =>
    rw [PMP4.readBox] at hl ⊢
    rw [readBoxI]
    rw [show (narrowOf r).props = r.props from rfl, show (narrowOf r).samples = r.samples from rfl]
    by_cases hp : r.props = true
    · rw [if_pos hp] at hl ⊢
      rw [if_pos hp, narrow_stss numbers _ (by rw [List.length_map]; omega)]
      · cases PMP4.readSTSS numbers _ <;> rfl
      · rcases hl with hl | hl
        · exact .inl hl
        · refine .inr ?_
          cases hr : PMP4.readSTSS numbers (r.samples.map fun sa => { sa with isNonSync := true }) with
          | ok x => rfl
          | err x => rw [hr] at hl; cases hl
          | panic => rw [hr] at hl; cases hl
    · rw [if_neg hp, if_neg hp]
      rfl
  | ctts entries =>
    rw [PMP4.readBox] at hl ⊢
    rw [readBoxI]
    rw [show (narrowOf r).props = r.props from rfl, show (narrowOf r).samples = r.samples from rfl]
    by_cases hp : r.props = true
    · rw [if_pos hp] at hl ⊢
      rw [if_pos hp, narrow_ctts entries 0 _ (by omega) (by omega)]
      · cases PMP4.readCTTS entries 0 _ <;> rfl
      · rcases hl with hl | hl
        · exact .inl fun e he => by have := hl e he; omega
        · refine .inr ?_
          cases hr : PMP4.readCTTS entries 0 r.samples with
          | ok x => rfl
          | err x => rw [hr] at hl; cases hl
          | panic => rw [hr] at hl; cases hl
    · rw [if_neg hp, if_neg hp]
      rfl
  | stsc entries =>
    rw [PMP4.readBox] at hl ⊢
    rw [readBoxI]
    rw [show (narrowOf r).props = r.props from rfl, show (narrowOf r).samples = r.samples from rfl,
      show (narrowOf r).chunks = narrowInts r.chunks from rfl]
    by_cases hp : r.props = true
    · rw [if_pos hp] at hl ⊢
      rw [if_pos hp]
      have := narrow_stsc h31 hs entries 0 r.chunks (by omega) hc (fun e he => by have := hw e he; omega) (by
        rcases hl with hl | hl
        · exact .inl hl
        · refine .inr ?_
          cases hr : PMP4.readSTSC r.samples.length entries 0 r.chunks with
          | ok x => rfl
          | err x => rw [hr] at hl; cases hl
          | panic => rw [hr] at hl; cases hl)
      rw [show ((0 : Nat) : Int) = 0 from rfl] at this
      rw [this]
      cases PMP4.readSTSC r.samples.length entries 0 r.chunks <;> rfl
    · rw [if_neg hp, if_neg hp]
      rfl
  | stsz sizes =>
    rw [PMP4.readBox, readBoxI]
    rw [show (narrowOf r).props = r.props from rfl]
    by_cases hp : r.props = true
    · rw [if_pos hp, if_pos hp]
      rfl
    · rw [if_neg hp, if_neg hp]
      rfl
  | stco offsets =>
    rw [PMP4.readBox, readBoxI]
    rw [show (narrowOf r).props = r.props from rfl, show (narrowOf r).samples = r.samples from rfl,
      show (narrowOf r).chunks = narrowInts r.chunks from rfl, show (narrowOf r).sizes = r.sizes from rfl, narrow_ints_length]
    by_cases hp : r.props = true
    · rw [if_pos hp, if_pos hp]
      by_cases ho : offsets.length ≠ r.chunks.length
      · rw [if_pos ho, if_pos ho]
        rfl
      rw [if_neg ho, if_neg ho, narrow_chunkOffsets]
      cases PMP4.chunkOffsets r.chunks offsets 0 with
      | err x => rfl
      | panic => rfl
      | ok x =>
        rw [Res.map_ok, Res.bind_ok, Res.bind_ok]
        by_cases hz : r.sizes.length ≠ r.samples.length
        · rw [if_pos hz, if_pos hz]
          rfl
        rw [if_neg hz, if_neg hz, narrow_locate]
        cases PMP4.locate r.sizes x 0 r.samples <;> rfl
    · rw [if_neg hp, if_neg hp]
      rfl

theorem narrow_stsc_kept (total : Nat) (l : List PMP4.StscEntry) (sc : Nat) (chunks l' : List Nat)
    (hc : chunks.length ≤ PMP4.maxSamples) (e : PMP4.readSTSC total l sc chunks = .ok l') : l'.length ≤ PMP4.maxSamples := by
  induction l generalizing sc chunks with
  | nil => cases e; exact hc
  | cons x l ih =>
    rw [PMP4.readSTSC] at e
    obtain ⟨n, -, e⟩ := Res.bind_eq_ok.mp e
    by_cases hg : chunks.length + n > PMP4.maxSamples
    · rw [if_pos hg] at e
      cases e
    rw [if_neg hg] at e
    by_cases h0 : x.samplesPerChunk = 0
    · rw [if_pos h0] at e
      cases e
    rw [if_neg h0] at e
    obtain ⟨⟨sc', chunks'⟩, h1, e⟩ := Res.bind_eq_ok.mp e
    refine ih _ _ ?_ e
    have : ∀ k sc chunks, PMP4.addChunks total x.samplesPerChunk k sc chunks = .ok (sc', chunks') → chunks'.length = chunks.length + k := by
      intro k
      induction k with
      | zero => intro sc chunks e; cases e; rfl
      | succ k ih =>
        intro sc chunks e
        rw [PMP4.addChunks] at e
        by_cases hg : sc + x.samplesPerChunk > total
        · rw [if_pos hg] at e
          cases e
        · rw [if_neg hg] at e
          have := ih _ _ e
          rw [List.length_append, List.length_singleton] at this
          omega
    have := this _ _ _ h1
    omega

/-- The number of chunks stays within the limit. -/
theorem narrow_box_kept (r r' : PMP4.Reader) (b : PMP4.Box)
    (hc : r.chunks.length ≤ PMP4.maxSamples) (e : PMP4.readBox r b = .ok r') : r'.chunks.length ≤ PMP4.maxSamples := by
  cases b with
  | stsc entries =>
    rw [PMP4.readBox] at e
    by_cases hp : r.props = true
    · rw [if_pos hp] at e
      obtain ⟨l, h1, e⟩ := Res.bind_eq_ok.mp e
      cases e
      exact narrow_stsc_kept _ _ _ _ _ hc h1
    · rw [if_neg hp] at e
      cases e
  | stts entries =>
    rw [PMP4.readBox] at e
    by_cases hp : r.props = true
    · rw [if_pos hp] at e
      cases e
    · rw [if_neg hp] at e
      obtain ⟨l, h1, e⟩ := Res.bind_eq_ok.mp e
      cases e
      exact hc
  | stss numbers =>
    rw [PMP4.readBox] at e
    by_cases hp : r.props = true
    · rw [if_pos hp] at e
      obtain ⟨l, h1, e⟩ := Res.bind_eq_ok.mp e
      cases e
      exact hc
    · rw [if_neg hp] at e
      cases e
  | ctts entries =>
    rw [PMP4.readBox] at e
    by_cases hp : r.props = true
    · rw [if_pos hp] at e
      obtain ⟨l, h1, e⟩ := Res.bind_eq_ok.mp e
      cases e
      exact hc
    · rw [if_neg hp] at e
      cases e
  | stsz sizes =>
    rw [PMP4.readBox] at e
    by_cases hp : r.props = true
    · rw [if_pos hp] at e
      cases e
      exact hc
    · rw [if_neg hp] at e
      cases e
  | stco offsets =>
    rw [PMP4.readBox] at e
    by_cases hp : r.props = true
    · rw [if_pos hp] at e
      by_cases ho : offsets.length ≠ r.chunks.length
      · rw [if_pos ho] at e
        cases e
      rw [if_neg ho] at e
      obtain ⟨l, -, e⟩ := Res.bind_eq_ok.mp e
      by_cases hz : r.sizes.length ≠ r.samples.length
      · rw [if_pos hz] at e
        cases e
      rw [if_neg hz] at e
      obtain ⟨l, -, e⟩ := Res.bind_eq_ok.mp e
      cases e
      exact hc
    · rw [if_neg hp] at e
      cases e

theorem narrow_boxes {h : Nat} (h31 : 2 ^ 31 ≤ h) (l : List PMP4.Box) (r : PMP4.Reader) (hw : ∀ b ∈ l, NarrowWire b)
    (hs : r.samples.length ≤ PMP4.maxSamples) (hc : r.chunks.length ≤ PMP4.maxSamples)
    (hl : (∀ b ∈ l, NarrowBox h b) ∨ (PMP4.readBoxes l r).isOk = true) :
    readBoxesI h l (narrowOf r) = narrowOf <$> PMP4.readBoxes l r := by
  induction l generalizing r with
  | nil => rfl
  | cons b l ih =>
    rw [PMP4.readBoxes] at hl ⊢
    rw [readBoxesI, narrow_box h31 r b (hw b (by simp)) hs hc]
    · cases hr : PMP4.readBox r b with
      | err x => rfl
      | panic => rfl
      | ok r' =>
        rw [hr, Res.bind_ok] at hl
        rw [Res.map_ok, Res.bind_ok, Res.bind_ok]
        refine ih r' (fun b' hb' => hw b' (by simp [hb'])) (file_len_box r r' b hs hr) (narrow_box_kept r r' b hc hr) ?_
        rcases hl with hl | hl
        · exact .inl fun b' hb' => hl b' (by simp [hb'])
        · exact .inr hl
    · rcases hl with hl | hl
      · exact .inl (hl b (by simp))
      · refine .inr ?_
        cases hr : PMP4.readBox r b with
        | ok x => rfl
        | err x => rw [hr] at hl; cases hl
        | panic => rw [hr] at hl; cases hl

/-- Where `int` has 64 bits, the sample tables of a track are read as by the model with integers without bounds. -/
theorem C104_tables (l : List PMP4.Box) (d : Nat) (hw : ∀ b ∈ l, NarrowWire b) :
    readBoxesI (2 ^ 63) l { trackDuration := d } = narrowOf <$> PMP4.readBoxes l { trackDuration := d } := by
  refine narrow_boxes (h := 2 ^ 63) (by omega) l { trackDuration := d } hw (Nat.zero_le _) (Nat.zero_le _) (.inl fun b hb => ?_)
  have := hw b hb
  cases b with
  | stts entries => exact fun e he => by have := this e he; omega
  | stss numbers => exact fun n hn => by omega
  | ctts entries => exact fun e he => by have := this e he; omega
  | stsc entries => exact ⟨fun e he => by have := this e he; omega, fun a b hab => by omega⟩
  | stsz sizes => trivial
  | stco offsets => trivial

/-- Tables of a track of three samples, in two chunks. -/
def narrowTables : List PMP4.Box :=
  [.stts [⟨3, 10⟩], .stss [1], .ctts [⟨3, 5⟩], .stsc [⟨1, 2⟩, ⟨2, 1⟩], .stsz [4, 5, 6], .stco [100, 200]]

theorem narrow_tables_wire : ∀ b ∈ narrowTables, NarrowWire b := by
  simp [narrowTables, NarrowWire]

theorem narrow_tables_read : (PMP4.readBoxes narrowTables { trackDuration := 30 }).isOk = true := by decide +kernel

example : (readBoxesI (2 ^ 63) narrowTables { trackDuration := 30 }).isOk = true := by decide +kernel

/-- The statement of `C104_tables` for an `int` of 32 bits, which is false (`C104_tables_false`), holds for the tables that are
read, and for those without a count next to `2 ^ 31` or above it. -/
theorem C104_tables_partial (l : List PMP4.Box) (d : Nat) (hw : ∀ b ∈ l, NarrowWire b)
    (hl : (∀ b ∈ l, NarrowBox (2 ^ 31) b) ∨ ∃ r, PMP4.readBoxes l { trackDuration := d } = .ok r) :
    readBoxesI (2 ^ 31) l { trackDuration := d } = narrowOf <$> PMP4.readBoxes l { trackDuration := d } := by
  refine narrow_boxes (h := 2 ^ 31) (by omega) l { trackDuration := d } hw (Nat.zero_le _) (Nat.zero_le _) ?_
  rcases hl with hl | ⟨r, hl⟩
  · exact .inl hl
  · rw [hl]
    exact .inr rfl

example : readBoxesI (2 ^ 31) narrowTables { trackDuration := 30 } = readBoxesI (2 ^ 63) narrowTables { trackDuration := 30 } ∧
    (readBoxesI (2 ^ 31) narrowTables { trackDuration := 30 }).isOk = true := by decide +kernel

/-- Where `int` has 32 bits, `Presentation.Unmarshal` panics with a `stss` that has zero as number of a sample, with a `ctts`
that has a count of `2 ^ 31` or more, and with a `stsc` that has such a number of samples. Where it has 64 bits, they are
refused. -/
theorem C104_tables_false :
    (readBoxesI (2 ^ 31) [.stts [⟨1, 10⟩], .stss [0]] {} = .panic ∧
      readBoxesI (2 ^ 63) [.stts [⟨1, 10⟩], .stss [0]] {} = .err "invalid stss") ∧
    (readBoxesI (2 ^ 31) [.stts [⟨1, 10⟩], .ctts [⟨2 ^ 31, 0⟩]] {} = .panic ∧
      readBoxesI (2 ^ 63) [.stts [⟨1, 10⟩], .ctts [⟨2 ^ 31, 0⟩]] {} = .err "invalid ctts") ∧
    (readBoxesI (2 ^ 31) [.stts [⟨1, 10⟩], .stsc [⟨1, 2 ^ 32 - 1⟩, ⟨2, 2⟩], .stsz [4], .stco [100, 200]] {} = .panic ∧
      readBoxesI (2 ^ 63) [.stts [⟨1, 10⟩], .stsc [⟨1, 2 ^ 32 - 1⟩, ⟨2, 2⟩], .stsz [4], .stco [100, 200]] {} =
        .err "invalid stsc") := by
  refine ⟨⟨?_, ?_⟩, ⟨?_, ?_⟩, ⟨?_, ?_⟩⟩ <;> decide +kernel

/-- Where `int` has 32 bits, the limit on the number of samples does not hold: a `stts` of one entry makes as many samples as its
count tells. -/
theorem C104_limit_false (n : Nat) (h1 : 2 ^ 31 ≤ n) (h2 : n < 2 ^ 32) (v : Nat) :
    (∃ l, readSTTSI (2 ^ 31) [⟨n, v⟩] [] = .ok l ∧ l.length = n) ∧
    readSTTSI (2 ^ 63) [⟨n, v⟩] [] = .err "max samples reached" := by
  have hM : PMP4.maxSamples = 5184000 := rfl
  constructor
  · refine ⟨_, ?_, List.length_replicate (n := n) (a := { duration := v })⟩
    have e : toInt (2 ^ 31) (n : Int) = n - 2 ^ 32 := by rw [toInt]; omega
    rw [readSTTSI]
    dsimp only
    rw [e, List.length_nil, narrow_id (by omega) (by omega), if_neg (by omega)]
    rfl
  · rw [readSTTSI]
    dsimp only
    rw [narrow_nat (by omega : n < 2 ^ 63), List.length_nil, narrow_id (by omega) (by omega), if_pos (by omega)]

example : 2 ^ 31 ≤ 3000000000 ∧ 3000000000 < 2 ^ 32 := by decide

/-! ### Slice headers -/

theorem narrow_readBits {h v : Nat} (hv : v < h) : readBitsI h v = BitM.readBits v := by
  funext buf pos
  rw [readBitsI, BitM.readBits, Bits.readBits, Bits.hasSpace, narrow_nat hv, Int.toNat_natCast]
  by_cases hc : (v : Int) > (buf.length * 8 : Int) - (pos : Int)
  · rw [if_pos hc, if_pos hc]
    rfl
  · rw [if_neg hc, if_neg hc, if_neg (by omega)]
    rfl

/-- Where `int` has 64 bits, the order of a picture is read as by the model with integers without bounds. -/
theorem C104_poc (buf : Bytes) (sps : H264.SPS) (idr : Bool) :
    getPictureOrderCountI (2 ^ 63) buf sps idr = H264.getPictureOrderCount buf sps idr := by
  have h1 : readPOCI (2 ^ 63) sps idr = H264.readPOC sps idr := by
    rw [readPOCI, H264.readPOC, narrow_readBits (by rw [H264.plus4]; omega), narrow_readBits (by rw [H264.plus4]; omega)]
  rw [getPictureOrderCountI, H264.getPictureOrderCount, h1]

/-- The statement of `C104_poc` for an `int` of 32 bits, which is false (`C104_poc_false`), holds when the sizes of the fields
are those that the standard allows. -/
theorem C104_poc_partial (buf : Bytes) (sps : H264.SPS) (idr : Bool) (h1 : sps.log2MaxFrameNumMinus4 ≤ 12)
    (h2 : sps.log2MaxPicOrderCntLsbMinus4 ≤ 12) :
    getPictureOrderCountI (2 ^ 31) buf sps idr = H264.getPictureOrderCount buf sps idr := by
  have h1 : readPOCI (2 ^ 31) sps idr = H264.readPOC sps idr := by
    rw [readPOCI, H264.readPOC, narrow_readBits (by rw [H264.plus4]; omega), narrow_readBits (by rw [H264.plus4]; omega)]
  rw [getPictureOrderCountI, H264.getPictureOrderCount, h1]

/-- The same with the headers of H265 slices. -/
theorem C104_slice265 (sps : H265.SPS) (pps : H265.PPS) :
    readSliceTailI (2 ^ 63) sps pps = H265.readSliceTail sps pps := by
  rw [readSliceTailI, H265.readSliceTail, narrow_readBits (by rw [H264.plus4]; omega)]

/-- The same with the headers of H265 slices, for an `int` of 32 bits; false without the hypothesis (`C104_slice265_false`). -/
theorem C104_slice265_partial (sps : H265.SPS) (pps : H265.PPS) (h : sps.log2MaxPicOrderCntLsbMinus4 ≤ 12) :
    readSliceTailI (2 ^ 31) sps pps = H265.readSliceTail sps pps := by
  rw [readSliceTailI, H265.readSliceTail, narrow_readBits (by rw [H264.plus4]; omega)]

-- A slice whose order is 5, with fields of 8 bits.
example : getPictureOrderCountI (2 ^ 31) [0x41, 0xE0, 0x20, 0xA0, 0x80] { log2MaxFrameNumMinus4 := 4, log2MaxPicOrderCntLsbMinus4 := 4 } false =
    .ok 5 := by decide +kernel

example : readSliceTailI (2 ^ 31) { log2MaxPicOrderCntLsbMinus4 := 4, shortTermRefPicSets := [{}, {}] } {} [0xE0, 0xA4, 0xA0, 0x80] 0 =
    .ok (some (0, {}), 12) := by decide +kernel

/-- A SPS whose frame numbers have `2 ^ 31` bits. -/
def narrowSPS : Bytes := [0x67, 0x42, 0x00, 0x1E, 0x80, 0x00, 0x00, 0x01, 0xFF, 0xFF, 0xFF, 0xF7, 0x40, 0xA0, 0xFC, 0x80]

/-- What is decoded from it. -/
def narrowRead : H264.SPS :=
  { profileIdc := 66, levelIdc := 30, chromaFormatIdc := 1, log2MaxFrameNumMinus4 := 2 ^ 31 - 4, maxNumRefFrames := 1,
    picWidthInMbsMinus1 := 19, picHeightInMapUnitsMinus1 := 14, frameMbsOnlyFlag := true, direct8x8InferenceFlag := true }

/-- Where `int` has 32 bits, a SPS that is accepted makes the extraction of the DTS panic with a slice; where it has 64 bits, the
slice is refused. -/
theorem C104_poc_false :
    H264.SPS.unmarshal {} narrowSPS = .ok narrowRead ∧
    getPictureOrderCountI (2 ^ 31) [0x65, 0xE0, 0x20, 0xA0, 0x80] narrowRead true = .panic ∧
    getPictureOrderCountI (2 ^ 63) [0x65, 0xE0, 0x20, 0xA0, 0x80] narrowRead true = .err "not enough bits" := by
  refine ⟨?_, ?_, ?_⟩ <;> decide +kernel

/-- The same with H265. -/
theorem C104_slice265_false :
    readSliceTailI (2 ^ 31) { log2MaxPicOrderCntLsbMinus4 := 2 ^ 31 - 4 } {} [0xE0, 0x20, 0xA0, 0x80] 0 = .panic ∧
    readSliceTailI (2 ^ 63) { log2MaxPicOrderCntLsbMinus4 := 2 ^ 31 - 4 } {} [0xE0, 0x20, 0xA0, 0x80] 0 =
      .err "not enough bits" := by
  constructor <;> decide +kernel

end Verif.Props
