import Verif.Model.Seeker
import Verif.Props.PMP4FileRoundTrip

/-!
# C111: payloads are read from where they are
-/

namespace Verif.Props
open Seeker (Seeker readFull getPayload getPayloads)
open FMP4Init (isoFields)
open PMP4 (RSample RTrack)

/-! ## Statement -/

/-- The next call of `Seek` succeeds. -/
def SeekOk (s : Seeker) : Prop := ∀ x, s.seeks.head? ≠ some (some x)

/-- No call fails. -/
structure NoFailure (s : Seeker) : Prop where
  seeks : ∀ x ∈ s.seeks, x = none
  reads : ∀ x ∈ s.reads, x.2 = none

/-- **C111.** Whatever the reader does, when `GetPayload` returns without an error the payload is the part of the file that the tables point to. -/
def C111_statement : Prop :=
  ∀ (s : Seeker) (off size : Nat) (buf : Bytes) (s' : Seeker), getPayload s off size = some (buf, none, s') →
    buf.length = size ∧ buf = (s.data.drop off).take size

/-! ## Lemmas -/

theorem seek_data (s : Seeker) (off : Nat) : (s.seek off).2.data = s.data ∧ (s.seek off).2.reads = s.reads := by
  unfold Seeker.seek
  split <;> exact ⟨rfl, rfl⟩

theorem seek_ok {s : Seeker} (h : SeekOk s) (off : Nat) : (s.seek off).2.pos = off := by
  unfold Seeker.seek
  split
  · rfl
  · rfl
  · rename_i e p l hs
    exact absurd (by rw [hs]; rfl) (h (e, p))

/-- A call of `Read` returns bytes from the position on. -/
theorem seek_read (s : Seeker) (cap : Nat) (out : Bytes) (e : Option String) (s' : Seeker) (h : s.read cap = (out, e, s')) :
    s'.data = s.data ∧ s'.pos = s.pos + out.length ∧ out = (s.data.drop s.pos).take out.length ∧ out.length ≤ cap ∧ s'.seeks = s.seeks ∧
      ((s.reads = [] ∧ s'.reads = [] ∧ (e = none → out ≠ [])) ∨ ∃ x, s.reads = x :: s'.reads ∧ e = x.2) := by
  unfold Seeker.read at h
  split at h
  · rename_i hr
    cases h
    refine ⟨rfl, rfl, ?_, ?_, rfl, .inl ⟨hr, hr, fun he ho => ?_⟩⟩
    · rw [List.length_take]
      have : min cap (s.data.drop s.pos).length = min cap (s.data.drop s.pos).length := rfl
      rw [List.take_eq_take_min]
    · rw [List.length_take]; omega
    · rw [if_pos ho] at he; cases he
  · rename_i k e' l hr
    cases h
    refine ⟨rfl, rfl, ?_, ?_, rfl, .inr ⟨_, hr, rfl⟩⟩
    · rw [List.length_take, List.take_eq_take_min]
    · rw [List.length_take]; omega

/-- What `io.ReadFull` has read is the part of the file where it has started. -/
theorem seek_readFull : ∀ (fuel : Nat) (s : Seeker) (want : Nat) (acc : Bytes) (off : Nat) (out : Bytes) (e : Option String) (s' : Seeker),
    s.pos = off + acc.length → acc = (s.data.drop off).take acc.length → acc.length ≤ want → readFull fuel s want acc = some (out, e, s') →
    out = (s.data.drop off).take out.length ∧ out.length ≤ want ∧ (e = none → out.length = want) ∧ s'.data = s.data ∧ s'.seeks = s.seeks ∧
      s'.pos = off + out.length ∧ ∀ x ∈ s'.reads, x ∈ s.reads := by
  intro fuel
  induction fuel with
  | zero => intro s want acc off out e s' _ _ _ h; cases h
  | succ fuel ih =>
    intro s want acc off out e s' h1 h2 h3 h
    unfold readFull at h
    by_cases hw : want ≤ acc.length
    · rw [if_pos hw] at h
      cases h
      exact ⟨h2, h3, fun _ => by omega, rfl, rfl, h1, fun x hx => hx⟩
    · rw [if_neg hw] at h
      cases hr : s.read (want - acc.length) with
      | mk o p =>
        obtain ⟨e1, s1⟩ := p
        rw [hr] at h
        obtain ⟨d1, d2, d3, d4, d5, d6⟩ := seek_read _ _ _ _ _ hr
        have hsub : ∀ x ∈ s1.reads, x ∈ s.reads := by
          rcases d6 with ⟨_, r2, _⟩ | ⟨x, r, _⟩
          · intro x hx; rw [r2] at hx; cases hx
          · intro y hy; rw [r]; exact List.mem_cons_of_mem _ hy
        have hpos : s1.pos = off + (acc ++ o).length := by rw [d2, h1, List.length_append]; omega
        have hacc : acc ++ o = (s.data.drop off).take (acc ++ o).length := by
          rw [List.length_append, List.take_add, ← h2, List.drop_drop, show off + acc.length = s.pos from h1.symm, ← d3]
        have hle : (acc ++ o).length ≤ want := by rw [List.length_append]; omega
        cases e1 with
        | none =>
          simp only at h
          obtain ⟨a1, a2, a3, a4, a5, a6, a7⟩ := ih s1 want (acc ++ o) off out e s' hpos (by rw [d1]; exact hacc) hle h
          rw [d1] at a1 a4
          exact ⟨a1, a2, a3, a4, a5.trans d5, a6, fun x hx => hsub x (a7 x hx)⟩
        | some e1 =>
          simp only at h
          by_cases hw2 : want ≤ (acc ++ o).length
          · rw [if_pos hw2] at h
            cases h
            exact ⟨hacc, hle, fun _ => by omega, d1, d5, hpos, hsub⟩
          · rw [if_neg hw2] at h
            split at h
            · cases h
              exact ⟨hacc, hle, fun he => (by cases he), d1, d5, hpos, hsub⟩
            · cases h
              exact ⟨hacc, hle, fun he => (by cases he), d1, d5, hpos, hsub⟩

/-- The number of calls of `Read` is bounded. -/
theorem seek_fuel : ∀ (fuel : Nat) (s : Seeker) (want : Nat) (acc : Bytes), s.reads.length + (want - acc.length) < fuel →
    readFull fuel s want acc ≠ none := by
  intro fuel
  induction fuel with
  | zero => intro s want acc h; omega
  | succ fuel ih =>
    intro s want acc h
    unfold readFull
    by_cases hw : want ≤ acc.length
    · rw [if_pos hw]; exact Option.some_ne_none _
    · rw [if_neg hw]
      cases hr : s.read (want - acc.length) with
      | mk o p =>
        obtain ⟨e1, s1⟩ := p
        obtain ⟨d1, d2, d3, d4, d5, d6⟩ := seek_read _ _ _ _ _ hr
        cases e1 with
        | none =>
          simp only
          refine ih s1 want (acc ++ o) ?_
          rw [List.length_append]
          rcases d6 with ⟨r1, r2, r3⟩ | ⟨x, r, _⟩
          · have := List.length_pos_iff.mpr (r3 rfl)
            rw [r1] at h
            rw [r2]
            omega
          · rw [r, List.length_cons] at h
            omega
        | some e1 =>
          simp only
          split
          · exact Option.some_ne_none _
          · split <;> exact Option.some_ne_none _

/-- Without failures, `io.ReadFull` gets all the bytes when they are there. -/
theorem seek_full : ∀ (fuel : Nat) (s : Seeker) (want : Nat) (acc : Bytes) (off : Nat) (out : Bytes) (e : Option String) (s' : Seeker),
    (∀ x ∈ s.reads, x.2 = none) → s.pos = off + acc.length → off + want ≤ s.data.length → readFull fuel s want acc = some (out, e, s') → e = none := by
  intro fuel
  induction fuel with
  | zero => intro s want acc off out e s' _ _ _ h; cases h
  | succ fuel ih =>
    intro s want acc off out e s' h0 h1 h2 h
    unfold readFull at h
    by_cases hw : want ≤ acc.length
    · rw [if_pos hw] at h
      cases h
      rfl
    · rw [if_neg hw] at h
      cases hr : s.read (want - acc.length) with
      | mk o p =>
        obtain ⟨e1, s1⟩ := p
        rw [hr] at h
        obtain ⟨d1, d2, d3, d4, d5, d6⟩ := seek_read _ _ _ _ _ hr
        cases e1 with
        | none =>
          simp only at h
          refine ih s1 want (acc ++ o) off out e s' ?_ (by rw [d2, h1, List.length_append]; omega) (by rw [d1]; exact h2) h
          rcases d6 with ⟨_, r2, _⟩ | ⟨x, r, _⟩
          · intro x hx; rw [r2] at hx; cases hx
          · intro y hy; exact h0 y (by rw [r]; exact List.mem_cons_of_mem _ hy)
        | some e1 =>
          exfalso
          rcases d6 with ⟨r1, r2, r3⟩ | ⟨x, r, hx⟩
          · unfold Seeker.read at hr
            rw [r1] at hr
            simp only [Prod.mk.injEq] at hr
            obtain ⟨ho, he, _⟩ := hr
            by_cases hn : List.take (want - acc.length) (List.drop s.pos s.data) = []
            · have := congrArg List.length hn
              simp only [List.length_take, List.length_drop, List.length_nil] at this
              omega
            · rw [if_neg hn] at he; cases he
          · have := h0 x (by rw [r]; exact List.mem_cons_self)
            rw [this] at hx; cases hx

/-! ## Theorems -/

/-- **C111.** `GetPayload` returns, after at most one call of `Read` for each byte and each of the calls that return nothing. -/
theorem C111_returns (s : Seeker) (off size : Nat) : ∃ buf e s', getPayload s off size = some (buf, e, s') ∧ buf.length = size ∧ s'.data = s.data := by
  unfold getPayload
  obtain ⟨q1, q2⟩ := seek_data s off
  generalize (s.seek off) = u at q1 q2
  obtain ⟨e0, t⟩ := u
  simp only at q1 q2 ⊢
  cases hr : readFull (t.reads.length + size + 1) t size [] with
  | none => exact absurd hr (seek_fuel _ _ _ _ (by rw [List.length_nil]; omega))
  | some x =>
    obtain ⟨out, e, s'⟩ := x
    obtain ⟨_, a2, _, a4, _⟩ := seek_readFull _ _ _ _ t.pos _ _ _ (by simp) (by simp) (by simp) hr
    refine ⟨_, e, s', rfl, ?_, a4.trans q1⟩
    rw [List.length_append, List.length_replicate]
    omega

/-- **C111, partial.** When `Seek` succeeds, and however `Read` behaves: a payload that is returned without an error is the part of the file that the
tables point to. What is missing: `Seek` may fail. -/
theorem C111_partial (s : Seeker) (off size : Nat) (buf : Bytes) (s' : Seeker) (hs : SeekOk s) (h : getPayload s off size = some (buf, none, s')) :
    buf.length = size ∧ buf = (s.data.drop off).take size := by
  unfold getPayload at h
  obtain ⟨q1, q2⟩ := seek_data s off
  have q3 := seek_ok hs off
  generalize (s.seek off) = u at q1 q2 q3 h
  obtain ⟨e0, t⟩ := u
  simp only at q1 q2 q3 h
  cases hr : readFull (t.reads.length + size + 1) t size [] with
  | none => rw [hr] at h; cases h
  | some x =>
    obtain ⟨out, e, s1⟩ := x
    rw [hr] at h
    cases h
    obtain ⟨a1, a2, a3, _⟩ := seek_readFull _ _ _ _ off _ _ _ (by rw [q3]; simp) (by simp) (by simp) hr
    have ho := a3 rfl
    rw [ho, Nat.sub_self, List.replicate_zero, List.append_nil]
    refine ⟨ho, ?_⟩
    rw [q1, ho] at a1
    exact a1

theorem seek_rest (s : Seeker) (off size : Nat) (buf : Bytes) (e : Option String) (s' : Seeker) (hn : NoFailure s)
    (h : getPayload s off size = some (buf, e, s')) : NoFailure s' ∧ s'.data = s.data := by
  unfold getPayload at h
  obtain ⟨q1, q2⟩ := seek_data s off
  have q3 : ∀ x ∈ (s.seek off).2.seeks, x = none := by
    have := hn.seeks
    unfold Seeker.seek
    split
    · exact this
    · rename_i l hl
      intro x hx
      exact this x (by rw [hl]; exact List.mem_cons_of_mem _ hx)
    · rename_i l hl
      intro x hx
      exact this x (by rw [hl]; exact List.mem_cons_of_mem _ hx)
  generalize (s.seek off) = u at q1 q2 q3 h
  obtain ⟨e0, t⟩ := u
  simp only at q1 q2 q3 h
  cases hr : readFull (t.reads.length + size + 1) t size [] with
  | none => rw [hr] at h; cases h
  | some x =>
    obtain ⟨out, e, s1⟩ := x
    rw [hr] at h
    cases h
    obtain ⟨_, _, _, a4, a5, _, a7⟩ := seek_readFull _ _ _ _ t.pos _ _ _ (by simp) (by simp) (by simp) hr
    exact ⟨⟨by rw [a5]; exact q3, fun x hx => hn.reads x (by rw [← q2]; exact a7 x hx)⟩, a4.trans q1⟩

/-- **C111.** Without failures of the reader, and however it splits what it returns: all payloads that are in the file are returned. -/
theorem C111_payload (s : Seeker) (off size : Nat) (hn : NoFailure s) (hl : off + size ≤ s.data.length) :
    ∃ s', getPayload s off size = some ((s.data.drop off).take size, none, s') ∧ NoFailure s' ∧ s'.data = s.data := by
  obtain ⟨buf, e, s', h, _, _⟩ := C111_returns s off size
  have hs : SeekOk s := by
    intro x hx
    cases hk : s.seeks with
    | nil => rw [hk] at hx; cases hx
    | cons y l =>
      rw [hk] at hx
      have := hn.seeks y (by rw [hk]; exact List.mem_cons_self)
      rw [this] at hx
      cases hx
  have he : e = none := by
    have h' := h
    unfold getPayload at h'
    obtain ⟨q1, q2⟩ := seek_data s off
    have q3 := seek_ok hs off
    generalize (s.seek off) = u at q1 q2 q3 h'
    obtain ⟨e0, t⟩ := u
    simp only at q1 q2 q3 h'
    cases hr : readFull (t.reads.length + size + 1) t size [] with
    | none => rw [hr] at h'; cases h'
    | some x =>
      obtain ⟨out, e1, s1⟩ := x
      rw [hr] at h'
      cases h'
      exact seek_full _ _ _ _ off _ _ _ (by rw [q2]; exact hn.reads) (by rw [q3]; simp) (by rw [q1]; exact hl) hr
  subst he
  obtain ⟨_, hb⟩ := C111_partial s off size buf s' hs h
  obtain ⟨r1, r2⟩ := seek_rest s off size buf none s' hn h
  exact ⟨s', by rw [h, hb], r1, r2⟩

/-- **C111.** The same for calls in any order and any number: payloads do not depend on what was read before. -/
theorem C111_payloads (l : List (Nat × Nat)) : ∀ (s : Seeker), NoFailure s → (∀ x ∈ l, x.1 + x.2 ≤ s.data.length) →
    ∃ s', getPayloads s l = some (l.map (fun x => ((s.data.drop x.1).take x.2, none)), s') ∧ s'.data = s.data := by
  induction l with
  | nil => intro s _ _; exact ⟨s, rfl, rfl⟩
  | cons x l ih =>
    intro s hn hl
    obtain ⟨off, size⟩ := x
    obtain ⟨s1, h1, h2, h3⟩ := C111_payload s off size hn (hl _ List.mem_cons_self)
    obtain ⟨s2, h4, h5⟩ := ih s1 h2 (fun y hy => by rw [h3]; exact hl y (List.mem_cons_of_mem _ hy))
    refine ⟨s2, ?_, h5.trans h3⟩
    unfold getPayloads
    rw [h1]
    simp only
    rw [h4, h3]
    rfl

/-- **C111.** The function on bytes that other properties use (C66, C81) is what `GetPayload` does on a reader that does not fail. -/
theorem C111_bytes (s : Seeker) (sa : RSample) (p : Bytes) (hn : NoFailure s) (h : PMP4.getPayload s.data sa = .ok p) :
    ∃ off s', sa.location = some (off, p.length) ∧ getPayload s off p.length = some (p, none, s') := by
  unfold PMP4.getPayload at h
  cases hl : sa.location with
  | none => rw [hl] at h; cases h
  | some x =>
    obtain ⟨off, size⟩ := x
    rw [hl] at h
    simp only at h
    by_cases hc : ((s.data.drop off).take size).length = size
    · rw [if_pos hc] at h
      cases h
      by_cases hz : size = 0
      · subst hz
        obtain ⟨buf, e, s', h1, h2, _⟩ := C111_returns s off 0
        refine ⟨off, s', by rw [hc], ?_⟩
        have hb : buf = [] := List.eq_nil_of_length_eq_zero h2
        subst hb
        have he : e = none := by
          unfold getPayload at h1
          generalize (s.seek off) = u at h1
          obtain ⟨e0, t⟩ := u
          simp only at h1
          unfold readFull at h1
          rw [if_pos (by simp)] at h1
          cases h1
          rfl
        rw [he] at h1
        simpa using h1
      · have hle : off + size ≤ s.data.length := by
          rw [List.length_take, List.length_drop] at hc
          omega
        obtain ⟨s', h1, _⟩ := C111_payload s off size hn hle
        exact ⟨off, s', by rw [hc], by rw [hc]; exact h1⟩
    · rw [if_neg hc] at h; cases h

/-- **C111 is false.** `Seek` fails, the position is still at the beginning, and the beginning of the file is returned as payload, without an error. -/
theorem C111_false : ¬C111_statement := by
  intro h
  have := h { data := [1, 2, 3, 4], seeks := [some ("I/O error", 0)] } 2 2 [1, 2] { data := [1, 2, 3, 4], pos := 2 } (by decide +kernel)
  exact absurd this.2 (by decide)

/-- **C111.** From a file that is too short there is always an error: `EOF` when there is nothing, `unexpected EOF` when there is a part. -/
theorem C111_truncated (s : Seeker) (off size : Nat) (hs : SeekOk s) (hr : s.reads = []) (hz : size ≠ 0) (hl : s.data.length < off + size) :
    ∃ buf s', getPayload s off size = some (buf, some (if s.data.length ≤ off then "EOF" else "unexpected EOF"), s') := by
  unfold getPayload
  obtain ⟨q1, q2⟩ := seek_data s off
  have q3 := seek_ok hs off
  generalize (s.seek off) = u at q1 q2 q3
  obtain ⟨e0, t⟩ := u
  simp only at q1 q2 q3 ⊢
  rw [hr] at q2
  have hread : ∀ t : Seeker, t.reads = [] → ∀ cap, t.read cap =
      ((t.data.drop t.pos).take cap, if (t.data.drop t.pos).take cap = [] then some "EOF" else none,
        { t with pos := t.pos + ((t.data.drop t.pos).take cap).length }) := by
    intro t ht cap
    unfold Seeker.read
    rw [ht]
  rw [q2, List.length_nil, Nat.zero_add]
  unfold readFull
  rw [if_neg (by rw [List.length_nil]; omega), hread t q2, q1, q3, List.length_nil, Nat.sub_zero]
  by_cases hc : s.data.length ≤ off
  · have he : (s.data.drop off).take size = [] := by rw [List.drop_eq_nil_of_le hc, List.take_nil]
    rw [if_pos he, if_pos hc, he]
    simp only [List.append_nil, List.length_nil]
    rw [if_neg (by omega), if_neg (by simp)]
    exact ⟨_, _, rfl⟩
  · have hlen : ((s.data.drop off).take size).length = s.data.length - off := by
      rw [List.length_take, List.length_drop]; omega
    have hne : (s.data.drop off).take size ≠ [] := by
      intro h
      rw [h, List.length_nil] at hlen
      omega
    rw [if_neg hne, if_neg hc]
    simp only [List.nil_append]
    obtain ⟨n, hn⟩ : ∃ n, size = n + 1 := ⟨size - 1, by omega⟩
    conv => enter [1, buf, 1, s', 1]; rw [hn]
    unfold readFull
    rw [← hn, if_neg (by omega), hread _ (by exact q2)]
    have he : (s.data.drop (off + ((s.data.drop off).take size).length)).take (size - ((s.data.drop off).take size).length) = [] := by
      have hd : s.data.drop (off + ((s.data.drop off).take size).length) = [] := List.drop_eq_nil_of_le (by omega)
      rw [hd, List.take_nil]
    simp only
    rw [he]
    simp only [if_true, List.append_nil, List.length_nil]
    rw [if_neg (by omega), if_pos ⟨hne, trivial⟩]
    exact ⟨_, _, rfl⟩

/-- What a sample returns on a reader. -/
def seekRead (s : Seeker) (sa : RSample) : Option (Bytes × Option String) :=
  sa.location.bind fun l => (getPayload s l.1 l.2).map fun r => (r.1, r.2.1)

theorem seek_map {α β : Type} (f : α → Res Bytes) (F : α → Option (Bytes × Option String)) (g : β → Bytes)
    (h : ∀ a p, f a = .ok p → F a = some (p, none)) : ∀ (l : List α) (m : List β), l.map f = m.map (fun x => .ok (g x)) →
    l.map F = m.map fun x => some (g x, none) := by
  intro l
  induction l with
  | nil =>
    intro m e
    cases m with
    | nil => rfl
    | cons y m => cases e
  | cons x l ih =>
    intro m e
    cases m with
    | nil => cases e
    | cons y m =>
      rw [List.map_cons, List.map_cons, List.cons.injEq] at e
      rw [List.map_cons, List.map_cons, ih m e.2, h x _ e.1]

/-- **C111.** A file that `Presentation.Marshal` has written is read with `Presentation.Unmarshal`; then the samples return their payloads on any reader
of the file that does not fail. -/
theorem C111_file (ts : List PMP4File.Track) (file : Bytes) (hne : ts ≠ []) (hg : ∀ t ∈ ts, FileGood t)
    (h : PMP4File.marshal ts = .ok file) (hl : file.length < 2 ^ 32) :
    ∃ rts, PMP4File.unmarshal isoFields file = .ok rts ∧ ∀ s : Seeker, NoFailure s → s.data = file →
      rts.map (fun x => x.1.reader.samples.map (seekRead s)) = ts.map fun t => t.samples.map fun sa => some (sa.payload, none) := by
  obtain ⟨rts, h1, h2⟩ := C81_round_trip ts file hne hg h hl
  refine ⟨rts, h1, fun s hn hd => ?_⟩
  have h3 := congrArg (List.map fun v : (Nat × Nat × Int × List (Nat × Int × Bool × Nat × Res Bytes)) × Option MP4Codec.Codec =>
    v.1.2.2.2.map fun w => w.2.2.2.2) h2
  simp only [List.map_map] at h3
  have hkey : ∀ (rts : List (RTrack × Option MP4Codec.Codec)) (ts : List PMP4File.Track),
      rts.map (fun x => x.1.reader.samples.map (PMP4.getPayload file)) = ts.map (fun t => t.samples.map fun sa => Res.ok sa.payload) →
      rts.map (fun x => x.1.reader.samples.map (seekRead s)) = ts.map fun t => t.samples.map fun sa => some (sa.payload, none) := by
    intro rts
    induction rts with
    | nil =>
      intro ts e
      cases ts with
      | nil => rfl
      | cons t ts => cases e
    | cons x rts ih =>
      intro ts e
      cases ts with
      | nil => cases e
      | cons t ts =>
        rw [List.map_cons, List.map_cons, List.cons.injEq] at e
        rw [List.map_cons, List.map_cons, ih ts e.2]
        congr 1
        refine seek_map (PMP4.getPayload file) (seekRead s) (fun sa : PMP4.Sample => sa.payload) (fun sa p hp => ?_) _ _ e.1
        rw [← hd] at hp
        obtain ⟨off, s', e1, e2⟩ := C111_bytes s sa p hn hp
        unfold seekRead
        rw [e1, Option.bind_some, e2]
        rfl
  refine hkey rts ts ?_
  refine Eq.trans ?_ (Eq.trans h3 ?_)
  · refine List.map_congr_left fun x _ => ?_
    simp only [seen, Function.comp, List.map_map]
    rfl
  · refine List.map_congr_left fun t _ => ?_
    simp only [given, Function.comp, List.map_map]
    rfl

/-- **C111, buffers.** The buffer that `GetPayload` allocates is not larger than the file. -/
def C111_buffer_statement : Prop :=
  ∀ (file : Bytes) (rts : List (RTrack × Option MP4Codec.Codec)), PMP4File.unmarshal isoFields file = .ok rts →
    ∀ x ∈ rts, ∀ sa ∈ x.1.reader.samples, ∀ (s : Seeker) (off size : Nat) (buf : Bytes) (e : Option String) (s' : Seeker),
      s.data = file → sa.location = some (off, size) → getPayload s off size = some (buf, e, s') → buf.length ≤ file.length

/-- **C111, buffers, partial.** It is not when the file was written by `Presentation.Marshal`. -/
theorem C111_buffer_partial (ts : List PMP4File.Track) (file : Bytes) (hne : ts ≠ []) (hg : ∀ t ∈ ts, FileGood t)
    (h : PMP4File.marshal ts = .ok file) (hl : file.length < 2 ^ 32) (rts : List (RTrack × Option MP4Codec.Codec))
    (hr : PMP4File.unmarshal isoFields file = .ok rts) :
    ∀ x ∈ rts, ∀ sa ∈ x.1.reader.samples, ∀ (s : Seeker) (off size : Nat) (buf : Bytes) (e : Option String) (s' : Seeker),
      s.data = file → sa.location = some (off, size) → getPayload s off size = some (buf, e, s') → buf.length ≤ file.length := by
  intro x hx sa hsa s off size buf e s' hd hloc hp
  obtain ⟨rts', h1, h2⟩ := C81_round_trip ts file hne hg h hl
  rw [hr] at h1
  cases h1
  have hm := List.mem_map_of_mem (f := fun x : RTrack × Option MP4Codec.Codec => (seen file x.1, x.2)) hx
  rw [h2] at hm
  obtain ⟨t, ht, he⟩ := List.mem_map.mp hm
  have hs : (given t.toTrack).2.2.2 = (seen file x.1).2.2.2 := by rw [(Prod.mk.inj he).1]
  have hm2 := List.mem_map_of_mem (f := fun sa : RSample => (sa.duration, sa.ptsOffset, sa.isNonSync, sa.payloadSize, PMP4.getPayload file sa)) hsa
  have hm3 : (sa.duration, sa.ptsOffset, sa.isNonSync, sa.payloadSize, PMP4.getPayload file sa) ∈ (given t.toTrack).2.2.2 := by rw [hs]; exact hm2
  unfold given at hm3
  obtain ⟨sb, _, hb⟩ := List.mem_map.mp hm3
  simp only [Prod.mk.injEq] at hb
  have hok := hb.2.2.2.2.symm
  unfold PMP4.getPayload at hok
  rw [hloc] at hok
  simp only at hok
  by_cases hc : ((file.drop off).take size).length = size
  · obtain ⟨buf', e', s'', g1, g2, _⟩ := C111_returns s off size
    rw [hp] at g1
    cases g1
    rw [g2, ← hc, List.length_take, List.length_drop]
    omega
  · rw [if_neg hc] at hok; cases hok

/-- A file with a sample of 4 GiB that is not in the file. The sum of the sizes is 2^32, so that `mdat` is empty. -/
def seekFile : Res Bytes := PMP4File.marshal [⟨⟨1, 48000, 0, [⟨960, 0, false, 4294967295, [], 0⟩, ⟨960, 0, false, 1, [], 0⟩]⟩, some (.opus 2)⟩]

/-- **C111, buffers, is false.** A file of less than 1 kB makes `GetPayload` allocate 4 GiB; nothing compares the sizes in `stsz` to the file. -/
theorem C111_buffer_false : ¬C111_buffer_statement := by
  intro hst
  have h : seekFile.bind (fun file => (PMP4File.unmarshal isoFields file).bind fun rts =>
      if file.length < 1000 ∧ rts.map (fun x => x.1.reader.samples.map fun sa => sa.location.map (·.2)) = [[some 4294967295, some 1]] then .ok () else .err "") =
      .ok () := by decide +kernel
  obtain ⟨file, _, h⟩ := Res.bind_eq_ok.1 h
  obtain ⟨rts, hr, h⟩ := Res.bind_eq_ok.1 h
  by_cases hc : file.length < 1000 ∧ rts.map (fun x => x.1.reader.samples.map fun sa => sa.location.map (·.2)) = [[some 4294967295, some 1]]
  · obtain ⟨h1, h2⟩ := hc
    cases rts with
    | nil => cases h2
    | cons x l =>
      rw [List.map_cons, List.cons.injEq] at h2
      have h3 := h2.1
      cases hsam : x.1.reader.samples with
      | nil => rw [hsam] at h3; cases h3
      | cons sa k =>
        rw [hsam, List.map_cons, List.cons.injEq] at h3
        obtain ⟨⟨off, size⟩, hloc, hz⟩ := Option.map_eq_some_iff.mp h3.1
        simp only at hz
        obtain ⟨buf, e, s', g1, g2, _⟩ := C111_returns { data := file } off size
        have := hst file (x :: l) hr x List.mem_cons_self sa (by rw [hsam]; exact List.mem_cons_self) { data := file } off size buf e s' rfl hloc g1
        omega
  · rw [if_neg hc] at h; cases h

/-! ## Examples -/

/-- A reader that returns one byte, nothing, then three bytes, then the rest. -/
def seekSlow : Seeker := { data := [10, 11, 12, 13, 14, 15, 16, 17], pos := 5, seeks := [none], reads := [(1, none), (0, none), (3, none)] }

example : NoFailure seekSlow ∧ SeekOk seekSlow ∧ 2 + 6 ≤ seekSlow.data.length := by
  refine ⟨⟨by decide, by decide⟩, ?_, by decide⟩
  intro x h
  cases h

example : (getPayload seekSlow 2 6).map (fun r => (r.1, r.2.1)) = some ([12, 13, 14, 15, 16, 17], none) := by decide +kernel

/-- Samples are read from the last to the first, one of them twice. -/
example : (getPayloads seekSlow [(6, 2), (2, 3), (0, 0), (6, 2)]).map (·.1) =
    some [([16, 17], none), ([12, 13, 14], none), ([], none), ([16, 17], none)] := by decide +kernel

/-- An error of `Read`, and a file that is too short. -/
example : (getPayload { seekSlow with reads := [(1, none), (1, some "I/O error")] } 2 6).map (fun r => (r.1, r.2.1)) =
    some ([12, 13, 0, 0, 0, 0], some "I/O error") := by decide +kernel

example : (getPayload { data := seekSlow.data } 6 4).map (fun r => (r.1, r.2.1)) = some ([16, 17, 0, 0], some "unexpected EOF") := by decide +kernel

end Verif.Props
