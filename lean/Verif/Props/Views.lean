import Verif.Model.Views
import Verif.Props.ADTS
import Verif.Props.TSMetadataMem

/-!
# C106: decoded units are parts of the input
-/

namespace Verif.Props
open Views ByteR
open TSMetadata (overwrite appendTo)

/-! ## Specification -/

/-- The parts are inside of an array of `n` bytes, in order, with `g` bytes between each and the next ones. -/
def Apart (g n : Nat) (vs : List View) : Prop := (∀ v ∈ vs, v.1 + v.2 ≤ n) ∧ vs.Pairwise fun a b => a.1 + a.2 + g ≤ b.1

/-- The units of `buf` are these parts of it. -/
def PartsOf (g : Nat) (buf : Bytes) (vs : List View) (units : List Bytes) : Prop := vs.map (bytes buf) = units ∧ Apart g buf.length vs

/-! ## Parts that are found from left to right -/

/-- The first part starts at `p + g` at least. -/
def Onward (g n p : Nat) (vs : List View) : Prop := Apart g n vs ∧ ∀ v ∈ vs, p + g ≤ v.1

theorem view_nil (g n p : Nat) : Onward g n p [] := ⟨⟨fun _ h => (by cases h), List.Pairwise.nil⟩, fun _ h => by cases h⟩

theorem view_cons {g n p s l : Nat} {vs : List View} (h1 : p + g ≤ s) (h2 : s + l ≤ n) (h : Onward g n (s + l) vs) : Onward g n p ((s, l) :: vs) := by
  refine ⟨⟨fun v hv => ?_, List.pairwise_cons.mpr ⟨fun v hv => h.2 v hv, h.1.2⟩⟩, fun v hv => ?_⟩
  · rcases List.mem_cons.mp hv with rfl | hv
    · exact h2
    · exact h.1.1 v hv
  · rcases List.mem_cons.mp hv with rfl | hv
    · exact h1
    · have := h.2 v hv
      omega

theorem view_mono {g n p q : Nat} {vs : List View} (h : Onward g n q vs) (hp : p ≤ q) : Onward g n p vs :=
  ⟨h.1, fun v hv => by have := h.2 v hv; omega⟩

theorem view_slice {buf x : Bytes} {i j : Nat} (h : slice buf i j = .ok x) : i ≤ j ∧ j ≤ buf.length ∧ x = bytes buf (i, j - i) := by
  unfold slice at h
  split at h
  · rename_i hc
    simp only [Res.ok.injEq] at h
    refine ⟨hc.1, hc.2, ?_⟩
    rw [← h]
    unfold bytes TSMetadata.Out.bytes
    dsimp only
    try rw [List.drop_take]
  · cases h

/-! ## AVCC -/

theorem view_avccCollect (buf : Bytes) : ∀ (n pos : Nat) (l : List Bytes), H264.avccCollect buf pos n = .ok l →
    ∃ vs, avccCollectV buf pos n = .ok vs ∧ vs.map (bytes buf) = l ∧ Onward 4 buf.length pos vs := by
  suffices ∀ (k n pos : Nat) (l : List Bytes), buf.length - pos ≤ k → H264.avccCollect buf pos n = .ok l →
      ∃ vs, avccCollectV buf pos n = .ok vs ∧ vs.map (bytes buf) = l ∧ Onward 4 buf.length pos vs from
    fun n pos l h => this _ n pos l (Nat.le_refl _) h
  intro k
  induction k with
  | zero =>
    intro n pos l hk h
    rw [H264.avccCollect] at h
    rw [avccCollectV]
    split at h
    · rename_i h0
      cases h
      exact ⟨[], by rw [if_pos h0], rfl, view_nil _ _ _⟩
    · rw [dif_neg (by omega)] at h
      cases h
  | succ k ih =>
    intro n pos l hk h
    rw [H264.avccCollect] at h
    rw [avccCollectV]
    split at h
    · rename_i h0
      cases h
      exact ⟨[], by rw [if_pos h0], rfl, view_nil _ _ _⟩
    · rename_i h0
      rw [if_neg h0]
      split at h
      · rename_i h4
        rw [dif_pos h4]
        cases hr : H264.readU32 buf pos with
        | panic => rw [hr] at h; cases h
        | err e => rw [hr] at h; cases h
        | ok x =>
          rw [hr] at h
          dsimp only at h ⊢
          by_cases hx : x ≠ 0
          · rw [if_pos hx] at h ⊢
            obtain ⟨nalu, hs, h⟩ := Res.bind_eq_ok.mp h
            obtain ⟨rest, hc, h⟩ := Res.bind_eq_ok.mp h
            cases h
            obtain ⟨vs, e1, e2, e3⟩ := ih _ _ _ (by omega) hc
            obtain ⟨g1, g2, g3⟩ := view_slice hs
            refine ⟨(pos + 4, x) :: vs, ?_, ?_, view_cons (Nat.le_refl _) g2 e3⟩
            · rw [hs, Res.bind_ok, e1, Res.bind_ok]
            · rw [List.map_cons, e2, g3, Nat.add_sub_cancel_left]
          · rw [if_neg hx] at h ⊢
            obtain ⟨vs, e1, e2, e3⟩ := ih _ _ _ (by omega) h
            exact ⟨vs, e1, e2, view_mono e3 (by omega)⟩
      · cases h

/-- C106: the units of an AVCC access unit are parts of the buffer, in order and at least four bytes apart. -/
theorem C106_avcc (buf : Bytes) (au : List Bytes) (h : H264.avccUnmarshal buf = .ok au) :
    ∃ vs, avccUnmarshalV buf = .ok vs ∧ PartsOf 4 buf vs au := by
  unfold H264.avccUnmarshal at h
  obtain ⟨n, hn, h⟩ := Res.bind_eq_ok.mp h
  unfold avccUnmarshalV
  rw [hn, Res.bind_ok]
  split at h
  · cases h
  · rename_i h0
    rw [if_neg h0]
    split at h
    · cases h
    · rename_i h1
      rw [if_neg h1]
      obtain ⟨vs, e1, e2, e3⟩ := view_avccCollect buf n 0 au h
      exact ⟨vs, e1, e2, e3.1⟩

example : H264.avccUnmarshal [0, 0, 0, 2, 5, 6, 0, 0, 0, 0, 0, 0, 0, 1, 7] = .ok [[5, 6], [7]] ∧
    avccUnmarshalV [0, 0, 0, 2, 5, 6, 0, 0, 0, 0, 0, 0, 0, 1, 7] = .ok [(4, 2), (14, 1)] := by decide +kernel

/-! ## Annex-B -/

theorem view_annexbLoop (buf : Bytes) : ∀ (k pos size p : Nat) (l : List (Nat × Nat)), buf.length - pos ≤ k → p + 3 ≤ pos →
    H264.annexbLoop buf pos size = .ok l → (∀ x ∈ l, x.1 ≤ x.2) ∧ Onward 3 buf.length p (l.map fun x => (x.1, x.2 - x.1)) := by
  intro k
  induction k with
  | zero =>
    intro pos size p l hk hp h
    rw [H264.annexbLoop, dif_neg (by omega)] at h
    cases h
    exact ⟨fun _ h => (by cases h), view_nil _ _ _⟩
  | succ k ih =>
    intro pos size p l hk hp h
    rw [H264.annexbLoop] at h
    split at h
    · rename_i hlt
      cases hi : H264.indexStartCode (buf.drop pos) with
      | none =>
        rw [hi] at h
        dsimp only at h
        split at h
        · cases h
        · cases h
          refine ⟨fun x hx => ?_, ?_⟩
          · rcases List.mem_cons.mp hx with rfl | hx
            · exact Nat.le_of_lt hlt
            · cases hx
          · exact view_cons hp (by omega) (view_nil _ _ _)
      | some i =>
        rw [hi] at h
        dsimp only at h
        split at h
        · cases h
        · cases h
        · rename_i prev hprev
          generalize he : (if 0 < i ∧ prev = 0 then pos + i - 1 else pos + i) = e at h
          have he1 : e ≤ pos + i := by rw [← he]; split <;> omega
          by_cases hsz : e - pos > 0
          · rw [if_pos hsz] at h
            split at h
            · cases h
            · obtain ⟨rest, hr, h⟩ := Res.bind_eq_ok.mp h
              cases h
              have hin : e ≤ buf.length := by
                by_cases hio : pos + i ≤ buf.length
                · omega
                · exfalso
                  split at hprev
                  · unfold idx at hprev
                    rw [List.getElem?_eq_none (by omega)] at hprev
                    cases hprev
                  · omega
              obtain ⟨g1, g2⟩ := ih (pos + i + 3) _ e _ (by omega) (by omega) hr
              refine ⟨fun x hx => ?_, ?_⟩
              · rcases List.mem_cons.mp hx with rfl | hx
                · dsimp only; omega
                · exact g1 x hx
              · rw [List.map_cons]
                dsimp only
                refine view_cons hp (by omega) ?_
                rw [show pos + (e - pos) = e by omega]
                exact g2
          · rw [if_neg hsz] at h
            exact ih _ _ p _ (by omega) (by omega) h
    · cases h
      exact ⟨fun _ h => (by cases h), view_nil _ _ _⟩

theorem view_slices (buf : Bytes) : ∀ (l : List (Nat × Nat)) (au : List Bytes), H264.slices buf l = .ok au →
    slicesV buf l = .ok (l.map fun x => (x.1, x.2 - x.1)) ∧ (l.map fun x => (x.1, x.2 - x.1)).map (bytes buf) = au := by
  intro l
  induction l with
  | nil => intro au h; cases h; exact ⟨rfl, rfl⟩
  | cons x l ih =>
    intro au h
    unfold H264.slices at h
    obtain ⟨y, hs, h⟩ := Res.bind_eq_ok.mp h
    obtain ⟨r, hr, h⟩ := Res.bind_eq_ok.mp h
    cases h
    obtain ⟨e1, e2⟩ := ih _ hr
    refine ⟨?_, ?_⟩
    · unfold slicesV
      rw [hs, Res.bind_ok, e1, Res.bind_ok]
      rfl
    · rw [List.map_cons, List.map_cons, e2, (view_slice hs).2.2]

/-- C106: the units of an Annex-B access unit are parts of the buffer, in order and at least three bytes apart. -/
theorem C106_annexb (buf : Bytes) (au : List Bytes) (h : H264.annexbUnmarshal buf = .ok au) :
    ∃ vs, annexbUnmarshalV buf = .ok vs ∧ PartsOf 3 buf vs au := by
  unfold H264.annexbUnmarshal at h
  obtain ⟨pos, hp, h⟩ := Res.bind_eq_ok.mp h
  unfold annexbUnmarshalV
  rw [hp, Res.bind_ok]
  have hp3 : 0 + 3 ≤ pos := by
    unfold H264.initialDelimiter at hp
    split at hp
    · cases hp; omega
    · split at hp
      · cases hp; omega
      · cases hp
  split at h
  · cases h
  · rename_i h0
    rw [if_neg h0]
    obtain ⟨l, hl, h⟩ := Res.bind_eq_ok.mp h
    rw [hl, Res.bind_ok]
    split at h
    · cases h
    · rename_i h1
      rw [if_neg h1]
      split at h
      · cases h
      · rename_i h2
        rw [if_neg h2]
        obtain ⟨e1, e2⟩ := view_slices buf l au h
        exact ⟨_, e1, e2, (view_annexbLoop buf _ pos 0 0 l (Nat.le_refl _) hp3 hl).2.1⟩

example : H264.annexbUnmarshal [0, 0, 0, 1, 5, 6, 0, 0, 1, 7] = .ok [[5, 6], [7]] ∧
    annexbUnmarshalV [0, 0, 0, 1, 5, 6, 0, 0, 1, 7] = .ok [(4, 2), (9, 1)] := by decide +kernel

/-! ## ADTS and AudioSyncStream -/

theorem view_untilEnd {α : Type} (p : BitM α) (payload : α → Bytes) (P : α → Bytes → Prop) (g : Nat) (hp : Tot 0 p P)
    (hP : ∀ a bs, P a bs → ∃ hdr : Bytes, hdr.length = g ∧ bs = hdr ++ payload a) :
    ∀ (fuel : Nat) (pre post : Bytes) (l : List α) (q : Nat), untilEnd p fuel (pre ++ post) pre.length = .ok (l, q) →
      ∃ vs, untilEnd (endingWith p payload) fuel (pre ++ post) pre.length = .ok (vs, q) ∧ vs.map (bytes (pre ++ post)) = l.map payload ∧
        Onward g (pre ++ post).length pre.length vs := by
  intro fuel
  induction fuel with
  | zero => intro pre post l q h; cases h
  | succ fuel ih =>
    intro pre post l q h
    cases hr : p (pre ++ post) pre.length with
    | err e => rw [ByteR.untilEnd, BitM.bind_run, hr] at h; cases h
    | panic => rw [ByteR.untilEnd, BitM.bind_run, hr] at h; cases h
    | ok x =>
      obtain ⟨a, m⟩ := x
      obtain ⟨bs, post', hpost, hm, ha⟩ := (hp pre post (Nat.zero_le _)).2 a m hr
      obtain ⟨hdr, hg, hbs⟩ := hP a bs ha
      have hv : endingWith p payload (pre ++ post) pre.length = .ok ((pre.length + g, (payload a).length), m) := by
        unfold endingWith
        rw [BitM.bind_run, hr, Res.bind_ok]
        dsimp only
        show Res.ok ((m - (payload a).length, (payload a).length), m) = _
        rw [hm, hbs, List.length_append, hg]
        congr 3
        omega
      have hb : bytes (pre ++ post) (pre.length + g, (payload a).length) = payload a := by
        unfold bytes TSMetadata.Out.bytes
        dsimp only
        rw [hpost, hbs, ← hg, ← List.drop_drop, List.drop_left, List.append_assoc, List.drop_left, List.take_left]
      have hlen : m ≤ (pre ++ post).length := by
        rw [hm, hpost, List.length_append, List.length_append]; omega
      have hml : m = pre.length + g + (payload a).length := by rw [hm, hbs, List.length_append, hg]; omega
      rw [untilEnd_step p fuel _ _ _ a hr] at h
      rw [untilEnd_step _ fuel _ _ _ _ hv]
      split at h
      · rename_i hend
        cases h
        rw [if_pos hend]
        refine ⟨[(pre.length + g, (payload a).length)], rfl, ?_, view_cons (Nat.le_refl _) (by omega) (view_nil _ _ _)⟩
        rw [List.map_cons, hb]
        rfl
      · rename_i hend
        rw [if_neg hend]
        obtain ⟨⟨l', q'⟩, h1, h2⟩ := Res.bind_eq_ok.mp h
        cases h2
        have e : pre ++ post = (pre ++ bs) ++ post' := by rw [hpost, List.append_assoc]
        have em : m = (pre ++ bs).length := by rw [hm, List.length_append]
        rw [e, em] at h1
        obtain ⟨vs, e1, e2, e3⟩ := ih (pre ++ bs) post' l' q' h1
        rw [← e, ← em] at e1
        rw [← e] at e2
        rw [← e, ← em] at e3
        refine ⟨(pre.length + g, (payload a).length) :: vs, ?_, ?_, view_cons (Nat.le_refl _) (by omega) (by rw [← hml]; exact e3)⟩
        · rw [e1]
          rfl
        · rw [List.map_cons, List.map_cons, hb, e2]

/-- C106: the access units of ADTS packets are parts of the buffer, in order and seven bytes apart. -/
theorem C106_adts (buf : Bytes) (ps : List MPEG4Audio.ADTSPacket) (h : MPEG4Audio.ADTSPackets.unmarshal buf = .ok ps) :
    ∃ vs, adtsUnmarshalV buf = .ok vs ∧ PartsOf 7 buf vs (ps.map fun p => p.au) := by
  unfold MPEG4Audio.ADTSPackets.unmarshal at h
  obtain ⟨⟨l, q⟩, h1, h2⟩ := Res.bind_eq_ok.mp h
  cases h2
  obtain ⟨vs, e1, e2, e3⟩ := view_untilEnd MPEG4Audio.ADTSPacket.unmarshal MPEG4Audio.ADTSPacket.au Spec.IsAdtsFrame 7 C20_frame_sound
    (fun a bs hf => by
      obtain ⟨_, _, _, _, _, hdr, _, _, _, _, e, hl, _⟩ := hf
      exact ⟨hdr, hl, e⟩) (buf.length + 1) [] buf l q h1
  refine ⟨vs, ?_, e2, e3.1⟩
  unfold adtsUnmarshalV
  rw [show untilEnd _ (buf.length + 1) buf 0 = .ok (vs, q) from e1]
  rfl

/-- C106: the elements of an AudioSyncStream are parts of the buffer, in order and three bytes apart. -/
theorem C106_sync (buf : Bytes) (els : List Bytes) (h : MPEG4Audio.AudioSyncStream.unmarshal buf = .ok els) :
    ∃ vs, syncUnmarshalV buf = .ok vs ∧ PartsOf 3 buf vs els := by
  unfold MPEG4Audio.AudioSyncStream.unmarshal at h
  obtain ⟨⟨l, q⟩, h1, h2⟩ := Res.bind_eq_ok.mp h
  cases h2
  obtain ⟨vs, e1, e2, e3⟩ := view_untilEnd MPEG4Audio.audioMuxElementRaw id Spec.IsSyncFrame 3 sync_tot
    (fun a bs hf => by
      obtain ⟨_, hdr, hl, e, _⟩ := hf
      exact ⟨hdr, hl, e⟩) (buf.length + 1) [] buf l q h1
  refine ⟨vs, ?_, by rw [← List.map_id l]; exact e2, e3.1⟩
  unfold syncUnmarshalV
  rw [show untilEnd _ (buf.length + 1) buf 0 = .ok (vs, q) from e1]
  rfl

example : MPEG4Audio.AudioSyncStream.unmarshal [0x56, 0xE0, 2, 5, 6, 0x56, 0xE0, 1, 7] = .ok [[5, 6], [7]] ∧
    syncUnmarshalV [0x56, 0xE0, 2, 5, 6, 0x56, 0xE0, 1, 7] = .ok [(3, 2), (8, 1)] := by decide +kernel

example : adtsUnmarshalV [0xFF, 0xF1, 0x4C, 0x80, 0x01, 0x1F, 0xFC, 0xAA, 0xFF, 0xF1, 0x4C, 0x80, 0x01, 0x3F, 0xFC, 0xBB, 0xCC] =
    .ok [(7, 1), (15, 2)] := by decide +kernel

/-! ## Writing into a unit -/

/-- A write of `src` at `at'` does not reach the part. -/
theorem view_untouched (mem src : Bytes) (at' : Nat) (h : at' + src.length ≤ mem.length) (v : View)
    (hv : v.1 + v.2 ≤ at' ∨ at' + src.length ≤ v.1) : bytes (overwrite mem at' src) v = bytes mem v := by
  unfold bytes TSMetadata.Out.bytes
  dsimp only
  rcases hv with hv | hv
  · have : ∀ m : Bytes, (m.drop v.1).take v.2 = (m.take (v.1 + v.2)).drop v.1 := by
      intro m; rw [List.drop_take, Nat.add_sub_cancel_left]
    rw [this, this, overwrite_take _ _ _ _ h hv]
  · rw [overwrite_drop _ _ _ _ h hv]

/-- C106: a write inside of a unit, or up to `g` bytes after it, does not change the other ones. -/
theorem C106_write (g : Nat) (mem : Bytes) (vs : List View) (ha : Apart g mem.length vs) (i j : Nat) (hi : i < vs.length) (hj : j < vs.length)
    (hij : i ≠ j) (at' : Nat) (src : Bytes) (h1 : vs[i].1 ≤ at') (h2 : at' + src.length ≤ vs[i].1 + vs[i].2 + g)
    (h3 : at' + src.length ≤ mem.length) : bytes (overwrite mem at' src) vs[j] = bytes mem vs[j] := by
  refine view_untouched mem src at' h3 _ ?_
  have hp := List.pairwise_iff_getElem.mp ha.2
  rcases Nat.lt_or_gt_of_ne hij with h | h
  · have := hp i j hi hj h
    exact Or.inr (by omega)
  · have := hp j i hj hi h
    exact Or.inl (by omega)

/-- C106: `append` of as many bytes as there are between units, or fewer, does not change the other ones. What is missing is longer
ones. -/
theorem C106_append_partial (g : Nat) (mem : Bytes) (vs : List View) (ha : Apart g mem.length vs) (i j : Nat) (hi : i < vs.length)
    (hj : j < vs.length) (hij : i ≠ j) (src : Bytes) (hs : src.length ≤ g) :
    bytes (appendTo mem (.part vs[i].1 vs[i].2) src).1 vs[j] = bytes mem vs[j] := by
  unfold appendTo
  dsimp only
  split
  · rename_i hc
    exact C106_write g mem vs ha i j hi hj hij _ src (by omega) (by omega) hc
  · rfl

/-- C106: a unit, extended in place or not, is what `append` returns. -/
theorem C106_append_value (mem : Bytes) (v : View) (src : Bytes) :
    (appendTo mem (.part v.1 v.2) src).2.bytes (appendTo mem (.part v.1 v.2) src).1 = bytes mem v ++ src := by
  unfold appendTo
  dsimp only
  split
  · rename_i hc
    exact overwrite_out mem src v.1 v.2 hc
  · rfl

/-- C106: the last unit has no capacity left: `append` never writes to the buffer. -/
theorem C106_append_last (mem : Bytes) (s l : Nat) (h : s + l = mem.length) (src : Bytes) (hs : src ≠ []) :
    (appendTo mem (.part s l) src).1 = mem := by
  have : 0 < src.length := List.length_pos_iff.mpr hs
  unfold appendTo
  dsimp only
  rw [if_neg (by omega)]

/-- C106 is false for longer ones, with each of the decoders: the capacity of a unit goes up to the end of the buffer, so that `append`
writes into the units that follow. -/
theorem C106_append_false :
    (∃ (buf : Bytes) (v w : View), avccUnmarshalV buf = .ok [v, w] ∧ ∃ src, bytes (appendTo buf (.part v.1 v.2) src).1 w ≠ bytes buf w) ∧
    (∃ (buf : Bytes) (v w : View), annexbUnmarshalV buf = .ok [v, w] ∧ ∃ src, bytes (appendTo buf (.part v.1 v.2) src).1 w ≠ bytes buf w) ∧
    (∃ (buf : Bytes) (v w : View), adtsUnmarshalV buf = .ok [v, w] ∧ ∃ src, bytes (appendTo buf (.part v.1 v.2) src).1 w ≠ bytes buf w) ∧
    (∃ (buf : Bytes) (v w : View), syncUnmarshalV buf = .ok [v, w] ∧ ∃ src, bytes (appendTo buf (.part v.1 v.2) src).1 w ≠ bytes buf w) :=
  ⟨⟨[0, 0, 0, 2, 5, 6, 0, 0, 0, 1, 7], (4, 2), (10, 1), by decide +kernel, [1, 2, 3, 4, 5], by decide +kernel⟩,
   ⟨[0, 0, 0, 1, 5, 6, 0, 0, 1, 7], (4, 2), (9, 1), by decide +kernel, [1, 2, 3, 4], by decide +kernel⟩,
   ⟨[0xFF, 0xF1, 0x4C, 0x80, 0x01, 0x1F, 0xFC, 0xAA, 0xFF, 0xF1, 0x4C, 0x80, 0x01, 0x3F, 0xFC, 0xBB, 0xCC], (7, 1), (15, 2), by decide +kernel,
    [1, 2, 3, 4, 5, 6, 7, 8], by decide +kernel⟩,
   ⟨[0x56, 0xE0, 2, 5, 6, 0x56, 0xE0, 1, 7], (3, 2), (8, 1), by decide +kernel, [1, 2, 3, 4], by decide +kernel⟩⟩

end Verif.Props
