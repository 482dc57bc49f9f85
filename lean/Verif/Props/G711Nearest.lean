import Verif.Spec.G711
import Verif.Props.G711

/-!
# Property C56: G711 encoding picks the nearest code
-/

namespace Verif.Props
open Verif.G711 Verif.Spec.G711

/-- Magnitude of the `i`th code. -/
def g711Mag (tbl : UInt8 → UInt16) (mask : UInt8) (i : Nat) : Nat := (tbl (UInt8.ofNat i ^^^ mask)).toNat

/-- The sample of a code. -/
def g711Dec (tbl : UInt8 → UInt16) (c : UInt8) : Int := value (tbl c).toNat

/-- What is needed of a decode table. -/
structure G711Table (tbl : UInt8 → UInt16) (mask : UInt8) : Prop where
  small : ∀ i < 128, g711Mag tbl mask i < 32768
  mono : ∀ i < 127, g711Mag tbl mask i < g711Mag tbl mask (i + 1)
  thr : ∀ i < 127, threshold tbl mask (UInt8.ofNat i) = (g711Mag tbl mask i + g711Mag tbl mask (i + 1) + 4) / 8
  mod : ∀ i < 127, (g711Mag tbl mask i + g711Mag tbl mask (i + 1)) % 4 = 0
  neg : ∀ i < 128, g711Dec tbl (UInt8.ofNat i ^^^ (mask ^^^ 0x80)) = - (g711Mag tbl mask i : Int)
  all : ∀ c, ∃ i < 128, c = UInt8.ofNat i ^^^ mask ∨ c = UInt8.ofNat i ^^^ (mask ^^^ 0x80)
  first : 8 ≤ g711Mag tbl mask 0 + g711Mag tbl mask 1
  top : ∀ i < 127, threshold tbl mask (UInt8.ofNat i) ≤ 8191

theorem g711_pos {tbl : UInt8 → UInt16} {mask : UInt8} (h : G711Table tbl mask) {i : Nat} (hi : i < 128) :
    g711Dec tbl (UInt8.ofNat i ^^^ mask) = g711Mag tbl mask i := by
  have := h.small i hi
  unfold g711Dec value
  exact if_pos this

theorem g711_le {tbl : UInt8 → UInt16} {mask : UInt8} (h : G711Table tbl mask) (i : Nat) :
    ∀ d, i + d < 128 → g711Mag tbl mask i ≤ g711Mag tbl mask (i + d) := by
  intro d
  induction d with
  | zero => intro _; exact Nat.le_refl _
  | succ d ih => intro hd; have := ih (by omega); have := h.mono (i + d) (by omega); rw [← Nat.add_assoc]; omega

theorem g711_closest {tbl : UInt8 → UInt16} {mask : UInt8} (h : G711Table tbl mask) {i y : Nat} (hi : i < 128)
    (ha : ∀ j < i, g711Mag tbl mask j + g711Mag tbl mask (j + 1) ≤ 2 * y)
    (hb : i < 127 → 2 * y ≤ g711Mag tbl mask i + g711Mag tbl mask (i + 1)) (c : Nat) (hc : c < 128) :
    ((g711Mag tbl mask i : Int) - y).natAbs ≤ ((g711Mag tbl mask c : Int) - y).natAbs := by
  rcases Nat.lt_trichotomy c i with hlt | rfl | hgt
  · have h1 := g711_le h c (i - 1 - c) (by omega)
    rw [show c + (i - 1 - c) = i - 1 by omega] at h1
    have h2 := ha (i - 1) (by omega)
    rw [show i - 1 + 1 = i by omega] at h2
    have h3 := h.mono (i - 1) (by omega)
    rw [show i - 1 + 1 = i by omega] at h3
    omega
  · exact Nat.le_refl _
  · have h1 := g711_le h (i + 1) (c - (i + 1)) (by omega)
    rw [show i + 1 + (c - (i + 1)) = c by omega] at h1
    have h2 := hb (by omega)
    have h3 := h.mono i (by omega)
    omega

theorem g711_nearest_pos {tbl : UInt8 → UInt16} {mask : UInt8} (h : G711Table tbl mask) {i y : Nat} (hi : i < 128)
    (ha : ∀ j < i, g711Mag tbl mask j + g711Mag tbl mask (j + 1) ≤ 2 * y)
    (hb : i < 127 → 2 * y ≤ g711Mag tbl mask i + g711Mag tbl mask (i + 1)) :
    Nearest (g711Dec tbl) y (UInt8.ofNat i ^^^ mask) 0 := by
  intro c'
  obtain ⟨c, hc, rfl | rfl⟩ := h.all c'
  · rw [g711_pos h hi, g711_pos h hc]
    exact g711_closest h hi ha hb c hc
  · rw [g711_pos h hi, h.neg c hc]
    have := g711_closest h hi ha hb c hc
    omega

theorem g711_nearest_neg {tbl : UInt8 → UInt16} {mask : UInt8} (h : G711Table tbl mask) {i y : Nat} (hi : i < 128)
    (ha : ∀ j < i, g711Mag tbl mask j + g711Mag tbl mask (j + 1) ≤ 2 * y)
    (hb : i < 127 → 2 * y ≤ g711Mag tbl mask i + g711Mag tbl mask (i + 1)) :
    Nearest (g711Dec tbl) (- (y : Int)) (UInt8.ofNat i ^^^ (mask ^^^ 0x80)) 0 := by
  intro c'
  obtain ⟨c, hc, rfl | rfl⟩ := h.all c'
  · rw [h.neg i hi, g711_pos h hc]
    have := g711_closest h hi ha hb c hc
    omega
  · rw [h.neg i hi, h.neg c hc]
    have := g711_closest h hi ha hb c hc
    omega

/-- What the search returns. -/
theorem g711_search (tbl : UInt8 → UInt16) (mask : UInt8) (x : Nat) (n : Nat) : ∀ a, a + n = 127 →
    (∀ j < a, ¬ x < threshold tbl mask (UInt8.ofNat j)) →
    ∃ i < 128, (firstAbove tbl mask x ((List.range' a n).map UInt8.ofNat)).getD 127 = UInt8.ofNat i ∧
      (∀ j < i, ¬ x < threshold tbl mask (UInt8.ofNat j)) ∧ (i < 127 → x < threshold tbl mask (UInt8.ofNat i)) := by
  induction n with
  | zero => intro a ha h; exact ⟨127, by omega, rfl, fun j hj => h j (by omega), by omega⟩
  | succ n ih =>
    intro a ha h
    rw [List.range'_succ, List.map_cons, firstAbove_cons]
    by_cases hx : x < threshold tbl mask (UInt8.ofNat a)
    · rw [if_pos hx]
      exact ⟨a, by omega, rfl, h, fun _ => hx⟩
    · rw [if_neg hx]
      exact ih (a + 1) (by omega) (fun j hj => by
        by_cases e : j = a
        · rw [e]; exact hx
        · exact h j (by omega))

/-- The thresholds are between the magnitudes. -/
theorem g711_bounds {tbl : UInt8 → UInt16} {mask : UInt8} (h : G711Table tbl mask) (x : Nat) :
    ∃ i < 128, (firstAbove tbl mask x codes).getD 127 = UInt8.ofNat i ∧
      (∀ j < i, g711Mag tbl mask j + g711Mag tbl mask (j + 1) ≤ 8 * x) ∧
      (i < 127 → 8 * x + 4 ≤ g711Mag tbl mask i + g711Mag tbl mask (i + 1)) ∧ (8191 ≤ x → i = 127) := by
  have hc : codes = (List.range' 0 127).map UInt8.ofNat := by rw [codes, List.range_eq_range']
  obtain ⟨i, h1, h2, h3, h4⟩ := g711_search tbl mask x 127 0 rfl (by omega)
  refine ⟨i, h1, by rw [hc]; exact h2, fun j hj => ?_, fun hi => ?_, fun hx => ?_⟩
  · have a1 := h3 j hj
    rw [h.thr j (by omega)] at a1
    have a2 := h.mod j (by omega)
    omega
  · have a1 := h4 hi
    rw [h.thr i hi] at a1
    omega
  · apply Classical.byContradiction
    intro hn
    have a1 := h4 (by omega)
    have a2 := h.top i (by omega)
    omega

/-- The code of an entry of the table, which stands for four samples. -/
theorem g711_entry {tbl : UInt8 → UInt16} {mask : UInt8} (h : G711Table tbl mask) (k : Nat) (hk : k < 16384) :
    Nearest (g711Dec tbl) (4 * ((k : Int) - 8192)) (entry tbl mask k) 0 ∧
    (8192 ≤ k → ∀ r < 4, (∀ i < 127, (g711Mag tbl mask i + g711Mag tbl mask (i + 1)) % 8 = 4 →
        g711Mag tbl mask i + g711Mag tbl mask (i + 1) = 252 ∧ 4 * (k - 8192) + r ≠ 127) →
      Nearest (g711Dec tbl) (4 * (k - 8192) + r : Nat) (entry tbl mask k) 0) := by
  have hm : mask = UInt8.ofNat 0 ^^^ mask := by simp
  by_cases h1 : k = 8192
  · subst h1
    have e : entry tbl mask 8192 = UInt8.ofNat 0 ^^^ mask := by rw [← hm]; rfl
    refine ⟨?_, fun _ r hr _ => ?_⟩
    · rw [e]
      exact g711_nearest_pos h (y := 0) (by omega) (by omega) (by omega)
    · rw [e]
      refine g711_nearest_pos h (by omega) (by omega) (fun _ => ?_)
      have := h.first
      show 2 * (4 * (8192 - 8192) + r) ≤ g711Mag tbl mask 0 + g711Mag tbl mask 1
      omega
  · by_cases h2 : 8192 < k
    · obtain ⟨i, i1, i2, i3, i4, -⟩ := g711_bounds h (k - 8192)
      have e : entry tbl mask k = UInt8.ofNat i ^^^ mask := by
        unfold entry
        rw [if_neg h1, if_pos h2, i2]
      rw [e]
      refine ⟨?_, fun _ r hr hs => ?_⟩
      · rw [show 4 * ((k : Int) - 8192) = ((4 * (k - 8192) : Nat) : Int) by omega]
        exact g711_nearest_pos h i1 (fun j hj => by have := i3 j hj; omega) (fun hi => by have := i4 hi; omega)
      · refine g711_nearest_pos h i1 (fun j hj => by have := i3 j hj; omega) (fun hi => ?_)
        have a1 := i4 hi
        have a2 := h.mod i hi
        have a3 := hs i hi
        omega
    · obtain ⟨i, i1, i2, i3, i4, i5⟩ := g711_bounds h (if k = 0 then 8191 else 8192 - k)
      have e : entry tbl mask k = UInt8.ofNat i ^^^ (mask ^^^ 0x80) := by
        unfold entry
        rw [if_neg h1, if_neg h2, i2]
      refine ⟨?_, fun _ => by omega⟩
      rw [e, show 4 * ((k : Int) - 8192) = - ((4 * (8192 - k) : Nat) : Int) by omega]
      by_cases h3 : k = 0
      · rw [if_pos h3] at i3 i4 i5
        exact g711_nearest_neg h i1 (fun j hj => by have := i3 j hj; omega) (fun hi => by have := i5 (by omega); omega)
      · rw [if_neg h3] at i3 i4 i5
        exact g711_nearest_neg h i1 (fun j hj => by have := i3 j hj; omega) (fun hi => by have := i4 hi; omega)

theorem g711_alaw : G711Table alawDecode 0xD5 :=
  ⟨by decide +kernel, by decide +kernel, by decide +kernel, by decide +kernel, by decide +kernel,
    forall_u8 (by decide +kernel), by decide +kernel, by decide +kernel⟩

theorem g711_mulaw : G711Table mulawDecode 0xFF :=
  ⟨by decide +kernel, by decide +kernel, by decide +kernel, by decide +kernel, by decide +kernel,
    forall_u8 (by decide +kernel), by decide +kernel, by decide +kernel⟩

/-- The index of a sample. -/
theorem g711_index (h l : UInt8) : ∃ k < 16384,
    (((h.toUInt16 <<< 8 ||| l.toUInt16) + 32768) >>> 2 : UInt16).toNat = k ∧
    ∃ r < 4, sample h l = 4 * ((k : Int) - 8192) + (r : Nat) ∧ down (sample h l) = 4 * ((k : Int) - 8192) := by
  have h1 := h.toNat_lt
  have h2 := l.toNat_lt
  have hor : (h.toUInt16 <<< 8 ||| l.toUInt16).toNat = h.toNat * 256 + l.toNat := by
    rw [UInt16.toNat_or, UInt16.toNat_shiftLeft, UInt8.toNat_toUInt16, UInt8.toNat_toUInt16]
    show h.toNat <<< 8 % 2 ^ 16 ||| l.toNat = _
    rw [Nat.mod_eq_of_lt (by rw [Nat.shiftLeft_eq]; omega), ← Nat.shiftLeft_add_eq_or_of_lt h2, Nat.shiftLeft_eq]
  have hv : (((h.toUInt16 <<< 8 ||| l.toUInt16) + 32768) >>> 2 : UInt16).toNat = (h.toNat * 256 + l.toNat + 32768) % 65536 / 4 := by
    rw [UInt16.toNat_shiftRight, UInt16.toNat_add, hor]
    simp [Nat.shiftRight_eq_div_pow]
  refine ⟨_, ?_, hv, (h.toNat * 256 + l.toNat) % 4, by omega, ?_, ?_⟩
  · omega
  · unfold sample value
    split <;> omega
  · unfold down sample value
    split <;> omega

theorem g711_marshal (enc : Nat → UInt8) (pcm out : Bytes) (hm : marshal enc pcm = .ok out) (i : Nat) (h l : UInt8)
    (h1 : pcm[2 * i]? = some h) (h2 : pcm[2 * i + 1]? = some l) :
    out[i]? = some (enc (((h.toUInt16 <<< 8 ||| l.toUInt16) + 32768) >>> 2 : UInt16).toNat) := by
  unfold marshal at hm
  split at hm
  · cases hm
  · cases hm
    rename_i hodd
    clear hodd
    induction pcm using marshalLoop.induct generalizing i with
    | case1 a b rest ih =>
      unfold marshalLoop
      cases i with
      | zero =>
        simp only [Nat.mul_zero, Nat.zero_add, List.getElem?_cons_zero, List.getElem?_cons_succ, Option.some.injEq] at h1 h2
        subst h1 h2
        rfl
      | succ i =>
        rw [List.getElem?_cons_succ]
        exact ih i (by simpa [Nat.mul_add] using h1) (by simpa [Nat.mul_add] using h2)
    | case2 t ht =>
      match t, ht with
      | [], _ => simp at h1
      | [a], _ => simp at h2
      | a :: b :: c, ht => exact absurd rfl (ht a b c)

theorem g711_sum8 : ∀ i < 127, (g711Mag alawDecode 0xD5 i + g711Mag alawDecode 0xD5 (i + 1)) % 8 = 0 := by decide +kernel

theorem g711_sum252 : ∀ i < 127, (g711Mag mulawDecode 0xFF i + g711Mag mulawDecode 0xFF (i + 1)) % 8 = 4 →
    g711Mag mulawDecode 0xFF i + g711Mag mulawDecode 0xFF (i + 1) = 252 := by decide +kernel

/-- C56 (A-law): every sample is encoded with a code that is nearest to the multiple of four at or below the sample. For positive
samples it is nearest to the sample too; for negative ones, it is at most 6 farther than the nearest. -/
theorem C56_alaw (pcm out : Bytes) (hm : marshal alawEncode pcm = .ok out) (i : Nat) (h l : UInt8)
    (h1 : pcm[2 * i]? = some h) (h2 : pcm[2 * i + 1]? = some l) :
    ∃ c, out[i]? = some c ∧ Nearest (g711Dec alawDecode) (down (sample h l)) c 0 ∧
      (0 ≤ sample h l → Nearest (g711Dec alawDecode) (sample h l) c 0) ∧
      Nearest (g711Dec alawDecode) (sample h l) c 6 := by
  have ho := g711_marshal _ pcm out hm i h l h1 h2
  obtain ⟨k, hk, hi, r, hr, hs, hd⟩ := g711_index h l
  rw [hi] at ho
  obtain ⟨e1, e2⟩ := g711_entry g711_alaw k hk
  refine ⟨_, ho, ?_⟩
  unfold alawEncode
  rw [invertTable_eq _ _ _ hk, hd]
  refine ⟨e1, fun h0 => ?_, fun c' => ?_⟩
  · have e3 := e2 (by omega) r hr (fun j hj h4 => by have := g711_sum8 j hj; omega)
    rw [show ((4 * (k - 8192) + r : Nat) : Int) = sample h l by omega] at e3
    exact e3
  · have := e1 c'
    omega

/-- C56 (mu-law): every sample is encoded with a code that is nearest to the multiple of four at or below the sample. For positive
samples, apart from 127, it is nearest to the sample too; for all of them, it is at most 6 farther than the nearest. -/
theorem C56_mulaw (pcm out : Bytes) (hm : marshal mulawEncode pcm = .ok out) (i : Nat) (h l : UInt8)
    (h1 : pcm[2 * i]? = some h) (h2 : pcm[2 * i + 1]? = some l) :
    ∃ c, out[i]? = some c ∧ Nearest (g711Dec mulawDecode) (down (sample h l)) c 0 ∧
      (0 ≤ sample h l → sample h l ≠ 127 → Nearest (g711Dec mulawDecode) (sample h l) c 0) ∧
      Nearest (g711Dec mulawDecode) (sample h l) c 6 := by
  have ho := g711_marshal _ pcm out hm i h l h1 h2
  obtain ⟨k, hk, hi, r, hr, hs, hd⟩ := g711_index h l
  rw [hi] at ho
  obtain ⟨e1, e2⟩ := g711_entry g711_mulaw k hk
  refine ⟨_, ho, ?_⟩
  unfold mulawEncode
  rw [invertTable_eq _ _ _ hk, hd]
  refine ⟨e1, fun h0 h127 => ?_, fun c' => ?_⟩
  · have e3 := e2 (by omega) r hr (fun j hj h4 => ⟨g711_sum252 j hj h4, by omega⟩)
    rw [show ((4 * (k - 8192) + r : Nat) : Int) = sample h l by omega] at e3
    exact e3
  · have := e1 c'
    omega

theorem g711_monotonic (dec : UInt8 → Int) (x y : Int) (c d : UInt8) (hxy : x < y) (h1 : Nearest dec x c 0)
    (h2 : Nearest dec y d 0) : dec c ≤ dec d := by
  have a1 := h1 d
  have a2 := h2 c
  omega

/-- C56: encoding preserves the order of samples. -/
theorem C56_monotonic (enc : Nat → UInt8) (dec : UInt8 → UInt16)
    (he : (enc = alawEncode ∧ dec = alawDecode) ∨ (enc = mulawEncode ∧ dec = mulawDecode)) (pcm out : Bytes)
    (hm : marshal enc pcm = .ok out) (i j : Nat) (h l h' l' : UInt8)
    (h1 : pcm[2 * i]? = some h) (h2 : pcm[2 * i + 1]? = some l) (h3 : pcm[2 * j]? = some h') (h4 : pcm[2 * j + 1]? = some l')
    (hs : sample h l ≤ sample h' l') :
    ∃ c d, out[i]? = some c ∧ out[j]? = some d ∧ g711Dec dec c ≤ g711Dec dec d := by
  have ho := g711_marshal _ pcm out hm i h l h1 h2
  have ho' := g711_marshal _ pcm out hm j h' l' h3 h4
  obtain ⟨k, hk, hi, r, hr, hv, -⟩ := g711_index h l
  obtain ⟨k', hk', hi', r', hr', hv', -⟩ := g711_index h' l'
  rw [hi] at ho
  rw [hi'] at ho'
  refine ⟨_, _, ho, ho', ?_⟩
  by_cases hkk : k = k'
  · rw [hkk]; exact Int.le_refl _
  · rcases he with ⟨rfl, rfl⟩ | ⟨rfl, rfl⟩
    · have e1 := (g711_entry g711_alaw k hk).1
      have e2 := (g711_entry g711_alaw k' hk').1
      unfold alawEncode
      rw [invertTable_eq _ _ _ hk, invertTable_eq _ _ _ hk']
      exact g711_monotonic _ _ _ _ _ (by omega) e1 e2
    · have e1 := (g711_entry g711_mulaw k hk).1
      have e2 := (g711_entry g711_mulaw k' hk').1
      unfold mulawEncode
      rw [invertTable_eq _ _ _ hk, invertTable_eq _ _ _ hk']
      exact g711_monotonic _ _ _ _ _ (by omega) e1 e2

/-- C56: the tolerance is needed for negative samples. -1 is encoded as -8 by the mu-law, while zero is a code. -/
theorem C56_negative : entry mulawDecode 0xFF 8191 = 0x7E ∧ g711Dec mulawDecode 0x7E = -8 ∧ g711Dec mulawDecode 0xFF = 0 ∧
    sample 0xFF 0xFF = -1 ∧ ((0xFF00 ||| 0xFF : UInt16) + 32768) >>> 2 = 8191 := by
  decide +kernel

example : marshal (entry mulawDecode 0xFF) [0x00, 0x7F, 0xFF, 0xFF, 0x12, 0x34] = .ok [0xF0, 0x7E, 0xAD] ∧
    sample 0x12 0x34 = 4660 ∧ g711Dec mulawDecode 0xAD = 4604 ∧ g711Dec mulawDecode 0xAC = 4860 := by
  decide +kernel

end Verif.Props
