import Verif.Model.TSChain
import Verif.Props.Readers
import Verif.Props.MPEGTSClock

/-!
# C94: an initialized MPEG-TS reader reads the stream from its beginning
-/

namespace Verif.Props
open Verif.Readers Verif.TSChain Verif.Spec

/-! ## The pre-demuxer on a source is the one of `Model/Readers` -/

theorem tchain_refill (r : Src) (b : Bytes) : TSChain.refill r b = Readers.refill r b := by
  unfold TSChain.refill Readers.refill
  rw [show Source.read r 1316 = r.read 1316 from rfl]
  split
  · rcases r.read 1316 with ⟨out, e | e, r'⟩ <;> rfl
  · rfl

theorem tchain_fill (fuel : Nat) : ∀ (r : Src) (b p : Bytes), TSChain.fillLoop fuel r b p = Readers.fillLoop fuel r b p := by
  induction fuel with
  | zero => intros; rfl
  | succ n ih =>
    intro r b p
    simp only [TSChain.fillLoop, Readers.fillLoop, tchain_refill, ih]
    rcases Readers.refill r b with e | ⟨r', b'⟩ <;> rfl

/-- C94: the two models of the pre-demuxer agree. -/
theorem C94_predemuxer (d : PreDemuxer) (n : Nat) :
    (PreDem.read (σ := Src) ⟨d.r, d.buf1, d.buf2⟩ n).map (fun x => (x.1, x.2.1, (⟨x.2.2.r, x.2.2.buf1, x.2.2.buf2⟩ : PreDemuxer))) =
      d.read n := by
  unfold PreDem.read PreDemuxer.read
  dsimp only
  split
  · rw [tchain_fill, show Source.left d.r = d.r.sched.length + d.r.data.length from rfl]
    rcases Readers.fillLoop (d.r.sched.length + d.r.data.length + d.buf1.length + 1) d.r d.buf1 [] with _ | ⟨e, r⟩ | ⟨r, b, p⟩ <;> rfl
  · rfl

/-! ## What was recorded, and the reads that it was recorded from -/

/-- `E` was obtained by reads of up to 1316 bytes according to `l`; `d` is what follows. No read failed without delivering bytes. -/
def ChainRecorded : List Bytes → List (Nat × Option String) → Bytes → Prop
  | [], [], _ => True
  | e :: E, (k, x) :: l, d => e = (e ++ (E.flatten ++ d)).take (min k 1316) ∧ (e ≠ [] ∨ x = none) ∧ ChainRecorded E l d
  | _, _, _ => False

theorem tchain_recorded_snoc (e : Bytes) (k : Nat) (x : Option String) (d : Bytes) (he : e = (e ++ d).take (min k 1316))
    (hx : e ≠ [] ∨ x = none) : ∀ (E : List Bytes) (l : List (Nat × Option String)), ChainRecorded E l (e ++ d) →
    ChainRecorded (E ++ [e]) (l ++ [(k, x)]) d
  | [], [], _ => ⟨by simpa using he, hx, trivial⟩
  | [], _ :: _, h => absurd h (by simp [ChainRecorded])
  | _ :: _, [], h => absurd h (by simp [ChainRecorded])
  | e' :: E, (k', x') :: l, h => by
    obtain ⟨h1, h2, h3⟩ := h
    exact ⟨by simpa using h1, h2, tchain_recorded_snoc e k x d he hx E l h3⟩

theorem tchain_recorded_length : ∀ (E : List Bytes) (l : List (Nat × Option String)) (d : Bytes), ChainRecorded E l d → E.length = l.length
  | [], [], _, _ => rfl
  | [], _ :: _, _, h => absurd h (by simp [ChainRecorded])
  | _ :: _, [], _, h => absurd h (by simp [ChainRecorded])
  | _ :: E, _ :: l, d, h => by rw [List.length_cons, List.length_cons, tchain_recorded_length E l d h.2.2]

/-- The recording of `b` was made from the source `src`. -/
def ChainFrom (src : Src) (b : Rewindable) : Prop :=
  ∃ l, src.sched = l ++ b.r.sched ∧ src.data = b.entries.flatten ++ b.r.data ∧ ChainRecorded b.entries l b.r.data

/-! ## Recording -/

theorem tchain_record_refill (src : Src) (b b' : Rewindable) (buf out : Bytes) (h : ChainFrom src b) (hb : b.rewinded = false)
    (e : TSChain.refill b buf = .ok (b', out)) : ChainFrom src b' ∧ b'.rewinded = false := by
  unfold TSChain.refill at e
  split at e
  · obtain ⟨l, h1, h2, h3⟩ := h
    have hr : Source.read b 1316 = b.read 1316 := rfl
    rw [hr] at e
    unfold Rewindable.read at e
    rw [if_pos hb] at e
    dsimp only at e
    by_cases hm : b.size + (b.r.read 1316).1.length > maxRecordedSize
    · rw [if_pos hm] at e
      simp at e
    · rw [if_neg hm] at e
      have key : b' = { b with r := (b.r.read 1316).2.2, entries := b.entries ++ [(b.r.read 1316).1],
                               size := b.size + (b.r.read 1316).1.length } ∧
          ((b.r.read 1316).1 ≠ [] ∨ (b.r.read 1316).2.1 = none) := by
        cases hx : (b.r.read 1316).2.1 with
        | none => rw [hx] at e; dsimp only at e; cases e; exact ⟨rfl, .inr rfl⟩
        | some x =>
          rw [hx] at e
          dsimp only at e
          by_cases h0 : (b.r.read 1316).1.length = 0
          · rw [if_pos h0] at e; simp at e
          · rw [if_neg h0] at e
            cases e
            exact ⟨rfl, .inl (by intro hn; rw [hn] at h0; exact h0 rfl)⟩
      obtain ⟨rfl, hne⟩ := key
      cases hs : b.r.sched with
      | nil =>
        unfold Src.read at hne
        rw [hs] at hne
        simp at hne
      | cons p t =>
        obtain ⟨k, x⟩ := p
        have hread : b.r.read 1316 = (b.r.data.take (min k 1316), x, { data := b.r.data.drop (min k 1316), sched := t }) := by
          unfold Src.read
          rw [hs]
        rw [hread] at hne
        refine ⟨⟨l ++ [(k, x)], ?_, ?_, ?_⟩, hb⟩
        · dsimp only
          rw [hread, h1, hs]
          simp
        · dsimp only
          rw [hread, h2]
          simp
        · dsimp only
          rw [hread]
          refine tchain_recorded_snoc _ _ _ _ (by simp) hne _ _ ?_
          rw [List.take_append_drop]
          exact h3
  · cases e
    exact ⟨h, hb⟩

theorem tchain_record_fill (src : Src) (fuel : Nat) : ∀ (b b' : Rewindable) (buf pkt buf' pkt' : Bytes), ChainFrom src b →
    b.rewinded = false → TSChain.fillLoop fuel b buf pkt = some (.ok (b', buf', pkt')) → ChainFrom src b' ∧ b'.rewinded = false := by
  induction fuel with
  | zero => intro b b' buf pkt buf' pkt' _ _ e; simp [TSChain.fillLoop] at e
  | succ n ih =>
    intro b b' buf pkt buf' pkt' h hb e
    unfold TSChain.fillLoop at e
    cases hr : TSChain.refill b buf with
    | error x => rw [hr] at e; simp at e
    | ok p =>
      obtain ⟨b1, out⟩ := p
      obtain ⟨h1, hb1⟩ := tchain_record_refill src b b1 buf out h hb hr
      rw [hr] at e
      dsimp only at e
      split at e
      · exact ih _ _ _ _ _ _ h1 hb1 e
      · split at e
        · exact ih _ _ _ _ _ _ h1 hb1 e
        · simp only [Option.some.injEq, Except.ok.injEq, Prod.mk.injEq] at e
          obtain ⟨rfl, -, -⟩ := e
          exact ⟨h1, hb1⟩

theorem tchain_record_pre (src : Src) (d d' : PreDem Rewindable) (n : Nat) (out : Bytes) (h : ChainFrom src d.r)
    (hb : d.r.rewinded = false) (e : d.read n = some (out, none, d')) : ChainFrom src d'.r ∧ d'.r.rewinded = false := by
  unfold PreDem.read at e
  split at e
  · cases hf : TSChain.fillLoop (Source.left d.r + d.buf1.length + 1) d.r d.buf1 [] with
    | none => rw [hf] at e; simp at e
    | some x =>
      rw [hf] at e
      cases x with
      | error y => simp at e
      | ok y =>
        obtain ⟨r, b, p⟩ := y
        simp only [Option.some.injEq, Prod.mk.injEq, true_and] at e
        obtain ⟨-, rfl⟩ := e
        exact tchain_record_fill src _ _ _ _ _ _ _ h hb hf
  · simp only [Option.some.injEq, Prod.mk.injEq, true_and] at e
    obtain ⟨-, rfl⟩ := e
    exact ⟨h, hb⟩

/-! ## One read of 188 bytes -/

/-- What a read into a packet gives: `io.ReadFull` reads once. -/
theorem tchain_full {σ : Type} [Source σ] (d : PreDem σ) (hd : d.buf2 = []) :
    readFull (packetSize + 1) d packetSize [] =
      match TSChain.fillLoop (Source.left d.r + d.buf1.length + 1) d.r d.buf1 [] with
      | none => none
      | some (.error (e, _)) => some (.error (wrapError e))
      | some (.ok (r, buf1, pkt)) => some (.ok (pkt, { r, buf1, buf2 := [] })) := by
  have hlen : ∀ (fuel : Nat) (r r' : σ) (b p b' p' : Bytes), TSChain.fillLoop fuel r b p = some (.ok (r', b', p')) →
      p'.length = packetSize := by
    intro fuel
    induction fuel with
    | zero => intro r r' b p b' p' e; simp [TSChain.fillLoop] at e
    | succ n ih =>
      intro r r' b p b' p' e
      unfold TSChain.fillLoop at e
      cases hr : TSChain.refill r b with
      | error x => rw [hr] at e; simp at e
      | ok x =>
        rw [hr] at e
        dsimp only at e
        split at e
        · exact ih _ _ _ _ _ _ e
        · split at e
          · exact ih _ _ _ _ _ _ e
          · rename_i h1 h2
            simp only [Option.some.injEq, Except.ok.injEq, Prod.mk.injEq] at e
            obtain ⟨-, -, rfl⟩ := e
            exact Decidable.not_not.1 h1
  have hread : d.read packetSize = match TSChain.fillLoop (Source.left d.r + d.buf1.length + 1) d.r d.buf1 [] with
      | none => none
      | some (.error (e, r)) => some ([], some e, { r, buf1 := [], buf2 := [] })
      | some (.ok (r, buf1, pkt)) => some (pkt.take packetSize, none, { r, buf1, buf2 := pkt.drop packetSize }) := by
    unfold PreDem.read
    rw [if_pos (by rw [hd]; rfl)]
    rcases TSChain.fillLoop (Source.left d.r + d.buf1.length + 1) d.r d.buf1 [] with _ | ⟨e, r⟩ | ⟨r, b, p⟩ <;> rfl
  unfold readFull
  rw [if_neg (by decide), show packetSize - ([] : Bytes).length = packetSize from rfl, hread]
  cases hf : TSChain.fillLoop (Source.left d.r + d.buf1.length + 1) d.r d.buf1 [] with
  | none => rfl
  | some x =>
    cases x with
    | error y =>
      dsimp only
      rw [if_neg (by decide), if_neg (by simp)]
    | ok y =>
      obtain ⟨r, b, p⟩ := y
      have hp := hlen _ _ _ _ _ _ _ hf
      dsimp only
      rw [List.nil_append, show packetSize = 187 + 1 from rfl]
      unfold readFull
      rw [show (187 + 1 : Nat) = packetSize from rfl, List.take_of_length_le (by omega), List.drop_of_length_le (by omega),
        if_pos (by omega)]

theorem tchain_record_reads (src : Src) (n : Nat) : ∀ (c c' : Chain Rewindable) (l : List Bytes), ChainFrom src c.dem.r →
    c.dem.r.rewinded = false → c.dem.buf2 = [] → Chain.reads n c = some (.ok (l, none, c')) → ChainFrom src c'.dem.r := by
  induction n with
  | zero =>
    intro c c' l h _ _ e
    simp only [Chain.reads, Option.some.injEq, Res.ok.injEq, Prod.mk.injEq, true_and] at e
    obtain ⟨-, rfl⟩ := e
    exact h
  | succ n ih =>
    intro c c' l h hb h2 e
    unfold Chain.reads Chain.read at e
    rw [tchain_full c.dem h2] at e
    cases hf : TSChain.fillLoop (Source.left c.dem.r + c.dem.buf1.length + 1) c.dem.r c.dem.buf1 [] with
    | none => rw [hf] at e; simp at e
    | some x =>
      rw [hf] at e
      cases x with
      | error y => simp at e
      | ok y =>
        obtain ⟨r, b, p⟩ := y
        obtain ⟨k1, k2⟩ := tchain_record_fill src _ _ _ _ _ _ _ h hb hf
        dsimp only at e
        cases hi : MPEGTS.intercept p c.last with
        | err x => rw [hi] at e; simp at e
        | panic => rw [hi] at e; simp at e
        | ok last =>
          rw [hi] at e
          dsimp only at e
          cases hrs : Chain.reads n { dem := { r, buf1 := b, buf2 := [] }, last } with
          | none => rw [hrs] at e; simp at e
          | some y =>
            rw [hrs] at e
            cases y with
            | err x => simp at e
            | panic => simp at e
            | ok y =>
              obtain ⟨l', e', c''⟩ := y
              simp only [Option.some.injEq, Res.ok.injEq, Prod.mk.injEq] at e
              obtain ⟨-, rfl, rfl⟩ := e
              exact ih _ _ _ k1 k2 rfl hrs

/-! ## Replaying -/

theorem tchain_left (src : Src) (b : Rewindable) (h : ChainFrom src b) (hb : b.rewinded = true) :
    Source.left b = Source.left src := by
  obtain ⟨l, h1, h2, h3⟩ := h
  have := tchain_recorded_length _ _ _ h3
  show (if b.rewinded then b.entries.length + b.r.sched.length + (b.entries.flatten.length + b.r.data.length)
    else b.r.sched.length + b.r.data.length) = src.sched.length + src.data.length
  rw [if_pos hb, h1, h2, List.length_append, List.length_append, this]

theorem tchain_replay_refill (src : Src) (b : Rewindable) (buf : Bytes) (h : ChainFrom src b) (hb : b.rewinded = true) :
    (∃ e s s', TSChain.refill b buf = .error (e, s) ∧ TSChain.refill src buf = .error (e, s')) ∨
    ∃ src' b' out, TSChain.refill b buf = .ok (b', out) ∧ TSChain.refill src buf = .ok (src', out) ∧ ChainFrom src' b' ∧
      b'.rewinded = true := by
  unfold TSChain.refill
  by_cases hl : buf.length = 0
  · rw [if_pos hl, if_pos hl]
    have hr : Source.read b 1316 = b.read 1316 := rfl
    have hs : Source.read src 1316 = src.read 1316 := rfl
    rw [hr, hs]
    obtain ⟨l, h1, h2, h3⟩ := h
    unfold Rewindable.read
    rw [if_neg (by simp [hb])]
    cases hE : b.entries with
    | nil =>
      rw [hE] at h2 h3
      cases l with
      | cons _ _ => exact absurd h3 (by simp [ChainRecorded])
      | nil =>
        have : src = b.r := by
          obtain ⟨sd, ss⟩ := src
          simp only [List.nil_append, List.flatten_nil] at h1 h2
          subst h1 h2
          rfl
        rw [this]
        dsimp only
        cases he : (b.r.read 1316).2.1 with
        | none =>
          refine .inr ⟨(b.r.read 1316).2.2, { b with r := (b.r.read 1316).2.2 }, (b.r.read 1316).1, by simp [hE], ?_, ?_, hb⟩
          · have : b.r.read 1316 = ((b.r.read 1316).1, none, (b.r.read 1316).2.2) := by rw [← he]
            rw [this]
          · exact ⟨[], rfl, by rw [hE]; rfl, by rw [hE]; trivial⟩
        | some x =>
          have hw : b.r.read 1316 = ((b.r.read 1316).1, some x, (b.r.read 1316).2.2) := by rw [← he]
          by_cases h0 : (b.r.read 1316).1.length = 0
          · refine .inl ⟨x, { b with r := (b.r.read 1316).2.2 }, (b.r.read 1316).2.2, by simp [h0, hE], ?_⟩
            rw [hw]
            dsimp only
            rw [if_pos h0]
          · refine .inr ⟨(b.r.read 1316).2.2, { b with r := (b.r.read 1316).2.2 }, (b.r.read 1316).1, by simp [h0, hE], ?_, ?_, hb⟩
            · rw [hw]
              dsimp only
              rw [if_neg h0]
            · exact ⟨[], rfl, by rw [hE]; rfl, by rw [hE]; trivial⟩
    | cons e E =>
      rw [hE] at h2 h3
      cases l with
      | nil => exact absurd h3 (by simp [ChainRecorded])
      | cons p l =>
        obtain ⟨k, x⟩ := p
        obtain ⟨g1, g2, g3⟩ := h3
        have hle : e.length ≤ 1316 := by
          rw [g1, List.length_take]
          omega
        dsimp only
        rw [List.take_of_length_le hle, if_neg (by simp)]
        dsimp only
        have hd : src.data.take (min k 1316) = e ∧ src.data.drop (min k 1316) = E.flatten ++ b.r.data := by
          have hcat : src.data = e ++ (E.flatten ++ b.r.data) := by rw [h2]; simp
          have t1 : src.data.take (min k 1316) = e := by rw [hcat, ← g1]
          refine ⟨t1, List.append_cancel_left (as := e) ?_⟩
          rw [← hcat]
          conv => lhs; rw [← t1]
          exact List.take_append_drop _ _
        have hsr : src.read 1316 = (e, x, ⟨E.flatten ++ b.r.data, l ++ b.r.sched⟩) := by
          unfold Src.read
          rw [h1, List.cons_append]
          dsimp only
          rw [hd.1, hd.2]
        rw [hsr]
        refine .inr ⟨⟨E.flatten ++ b.r.data, l ++ b.r.sched⟩, { b with entries := E }, e, rfl, ?_, ⟨l, rfl, rfl, g3⟩, hb⟩
        cases x with
        | none => rfl
        | some x =>
          dsimp only
          rw [if_neg]
          rcases g2 with g2 | g2
          · intro h0; exact g2 (List.length_eq_zero_iff.1 h0)
          · simp at g2
  · rw [if_neg hl, if_neg hl]
    exact .inr ⟨src, b, buf, rfl, rfl, h, hb⟩

theorem tchain_replay_fill (fuel : Nat) : ∀ (src : Src) (b : Rewindable) (buf pkt : Bytes), ChainFrom src b → b.rewinded = true →
    (TSChain.fillLoop fuel b buf pkt = none ∧ TSChain.fillLoop fuel src buf pkt = none) ∨
    (∃ e s s', TSChain.fillLoop fuel b buf pkt = some (.error (e, s)) ∧ TSChain.fillLoop fuel src buf pkt = some (.error (e, s'))) ∨
    ∃ src' b' x y, TSChain.fillLoop fuel b buf pkt = some (.ok (b', x, y)) ∧ TSChain.fillLoop fuel src buf pkt = some (.ok (src', x, y)) ∧
      ChainFrom src' b' ∧ b'.rewinded = true := by
  induction fuel with
  | zero => intros; exact .inl ⟨rfl, rfl⟩
  | succ n ih =>
    intro src b buf pkt h hb
    unfold TSChain.fillLoop
    rcases tchain_replay_refill src b buf h hb with ⟨e, s, s', k1, k2⟩ | ⟨src', b', out, k1, k2, k3, k4⟩
    · rw [k1, k2]
      exact .inr (.inl ⟨e, s, s', rfl, rfl⟩)
    · rw [k1, k2]
      dsimp only
      split
      · exact ih src' b' _ _ k3 k4
      · split
        · exact ih src' b' _ _ k3 k4
        · exact .inr (.inr ⟨src', b', _, _, rfl, rfl, k3, k4⟩)

/-- What the reads give, without the state. -/
def chainOutcome {σ : Type} (x : Option (Res (List Bytes × Option RErr × Chain σ))) :
    Option (Res (List Bytes × Option RErr × Option Nat)) :=
  x.map fun r => match r with
    | .ok (l, e, c) => .ok (l, e, c.last)
    | .err e => .err e
    | .panic => .panic

theorem tchain_replay_reads (n : Nat) : ∀ (src : Src) (b : Rewindable) (buf : Bytes) (last : Option Nat), ChainFrom src b →
    b.rewinded = true →
    chainOutcome (Chain.reads n { dem := { r := b, buf1 := buf, buf2 := [] }, last }) =
      chainOutcome (Chain.reads n { dem := { r := src, buf1 := buf, buf2 := [] }, last }) := by
  induction n with
  | zero => intros; rfl
  | succ n ih =>
    intro src b buf last h hb
    unfold Chain.reads Chain.read
    rw [tchain_full _ rfl, tchain_full _ rfl]
    dsimp only
    rw [tchain_left src b h hb]
    rcases tchain_replay_fill (Source.left src + buf.length + 1) src b buf [] h hb with ⟨k1, k2⟩ | ⟨e, s, s', k1, k2⟩ |
      ⟨src', b', x, y, k1, k2, k3, k4⟩
    · rw [k1, k2]
      rfl
    · rw [k1, k2]
      rfl
    · rw [k1, k2]
      dsimp only
      cases hi : MPEGTS.intercept y last with
      | err x => rfl
      | panic => rfl
      | ok last' =>
        dsimp only
        have := ih src' b' x last' k3 k4
        generalize Chain.reads n { dem := { r := b', buf1 := x, buf2 := [] }, last := last' } = u at this
        generalize Chain.reads n { dem := { r := src', buf1 := x, buf2 := [] }, last := last' } = v at this
        cases u with
        | none =>
          cases v with
          | none => rfl
          | some v => simp [chainOutcome] at this
        | some u =>
          cases v with
          | none => simp [chainOutcome] at this
          | some v =>
            cases u <;> cases v <;> simp_all [chainOutcome]

/-- C94: whatever `Reader.Initialize` has read in order to find the tracks, the demultiplexer that it leaves behind gets the same packets,
the same timestamps and the same failure as one that is put on the source itself. -/
theorem C94_restart (src : Src) (k : Nat) (pkts : List Bytes) (c : Chain Rewindable)
    (h : Chain.reads k (first src) = some (.ok (pkts, none, c))) (n : Nat) :
    chainOutcome (Chain.reads n (second c)) = chainOutcome (Chain.reads n ({ dem := { r := src } } : Chain Src)) := by
  have hf : ChainFrom src c.dem.r := tchain_record_reads src k (first src) c pkts ⟨[], rfl, rfl, trivial⟩ rfl rfl h
  exact tchain_replay_reads n src c.dem.r.rewind [] none hf rfl

/-! ## What is read from a source -/

/-- What holds of a source and is not changed by reading holds when reading fails. -/
theorem tchain_keeps (Q : Src → Prop) (hQ : ∀ r, Q r → Q (r.read 1316).2.2) (fuel : Nat) : ∀ (r : Src) (buf pkt : Bytes), Q r →
    (∀ r' b p, Readers.fillLoop fuel r buf pkt = some (.ok (r', b, p)) → Q r') ∧
    (∀ e r', Readers.fillLoop fuel r buf pkt = some (.error (e, r')) → ∃ r1, Q r1 ∧ r1.read 1316 = ([], some e, r')) := by
  induction fuel with
  | zero => intro r buf pkt _; exact ⟨fun _ _ _ e => by simp [Readers.fillLoop] at e, fun _ _ e => by simp [Readers.fillLoop] at e⟩
  | succ n ih =>
    intro r buf pkt h
    have hr : (∀ e r', Readers.refill r buf = .error (e, r') → r.read 1316 = ([], some e, r')) ∧
        (∀ r' b, Readers.refill r buf = .ok (r', b) → Q r') := by
      have := hQ r h
      unfold Readers.refill
      split
      · rcases hx : r.read 1316 with ⟨out, e | e, r'⟩
        · refine ⟨fun _ _ e => by simp at e, fun _ _ e => ?_⟩
          simp only [Except.ok.injEq, Prod.mk.injEq] at e
          rw [← e.1]
          rw [hx] at this
          exact this
        · dsimp only
          split
          · rename_i h0
            refine ⟨fun _ _ e => ?_, fun _ _ e => by simp at e⟩
            simp only [Except.error.injEq, Prod.mk.injEq] at e
            rw [← e.1, ← e.2, List.length_eq_zero_iff.1 h0]
          · refine ⟨fun _ _ e => by simp at e, fun _ _ e => ?_⟩
            simp only [Except.ok.injEq, Prod.mk.injEq] at e
            rw [← e.1]
            rw [hx] at this
            exact this
      · refine ⟨fun _ _ e => by simp at e, fun _ _ e => ?_⟩
        simp only [Except.ok.injEq, Prod.mk.injEq] at e
        rw [← e.1]
        exact h
    unfold Readers.fillLoop
    cases hf : Readers.refill r buf with
    | error x =>
      obtain ⟨e, r'⟩ := x
      dsimp only
      refine ⟨fun _ _ _ e => by simp at e, fun e1 r1 h1 => ?_⟩
      simp only [Option.some.injEq, Except.error.injEq, Prod.mk.injEq] at h1
      exact ⟨r, h, by rw [← h1.1, ← h1.2]; exact hr.1 e r' hf⟩
    | ok x =>
      obtain ⟨r', b⟩ := x
      have hq := hr.2 r' b hf
      dsimp only
      split
      · exact ih r' _ _ hq
      · split
        · exact ih r' _ _ hq
        · refine ⟨fun _ _ _ e => ?_, fun _ _ e => by simp at e⟩
          simp only [Option.some.injEq, Except.ok.injEq, Prod.mk.injEq] at e
          rw [← e.1]
          exact hq

theorem tchain_run (Q : Src → Prop) (hQ : ∀ r, Q r → Q (r.read 1316).2.2) (n : Nat) : ∀ (src : Src) (buf : Bytes) (last : Option Nat), Q src →
    ∃ pkts e c, Chain.reads n ({ dem := { r := src, buf1 := buf, buf2 := [] }, last } : Chain Src) = some (.ok (pkts, e, c)) ∧
      c.last = lastSome (pkts.map packetTimestamp) last ∧
      ((e = none ∧ pkts.length = n ∧ ∃ rest, resync (buf ++ src.data) = pkts ++ rest) ∨
        ∃ s r1 r' lost, e = some (wrapError s) ∧ Q r1 ∧ r1.read 1316 = ([], some s, r') ∧ lost.length < 188 ∧ pkts.length < n ∧
          resync (buf ++ src.data) = pkts ++ resync (lost ++ r'.data)) := by
  induction n with
  | zero => intro src buf last _; exact ⟨[], none, _, rfl, rfl, .inl ⟨rfl, rfl, _, rfl⟩⟩
  | succ n ih =>
    intro src buf last hq
    unfold Chain.reads Chain.read
    rw [tchain_full _ rfl]
    dsimp only
    rw [tchain_fill]
    obtain ⟨k1, k2⟩ := tchain_keeps Q hQ (Source.left src + buf.length + 1) src buf [] hq
    rcases fillLoop_spec (Source.left src + buf.length + 1) src buf [] (by simp) (Nat.lt_succ_self _) with
      ⟨r', b', p, h1, h2, h3⟩ | ⟨e, r', lost, h1, h2, h3⟩
    · rw [h1]
      dsimp only
      rw [C80_packet p last h2.1]
      dsimp only
      obtain ⟨pkts, e, c, g1, g2, g3⟩ := ih r' b' ((packetTimestamp p).or last) (k1 _ _ _ h1)
      rw [g1]
      rw [List.nil_append] at h3
      refine ⟨p :: pkts, e, c, rfl, g2, ?_⟩
      rcases g3 with ⟨x1, x2, rest, x3⟩ | ⟨s, r1, r2, lost, x1, x2, x3, x4, x5, x6⟩
      · exact .inl ⟨x1, by rw [List.length_cons, x2], rest, by rw [h3, x3]; rfl⟩
      · exact .inr ⟨s, r1, r2, lost, x1, x2, x3, x4, by rw [List.length_cons]; omega, by rw [h3, x6]; rfl⟩
    · rw [h1]
      obtain ⟨r1, y1, y2⟩ := k2 e r' h1
      rw [List.nil_append] at h3
      exact ⟨[], some (wrapError e), _, rfl, rfl, .inr ⟨e, r1, r', lost, rfl, y1, y2, h2, by simp, h3⟩⟩

/-- C94: reading packets never fails to terminate and never panics. The packets are the first ones of the resynchronised stream, and the
last timestamp is the one of the last of them that has one. A failure is that of the source: the two ends of a stream unchanged, any
other error wrapped. -/
theorem C94_packets (src : Src) (n : Nat) :
    ∃ pkts e c, Chain.reads n ({ dem := { r := src } } : Chain Src) = some (.ok (pkts, e, c)) ∧ pkts <+: resync src.data ∧
      c.last = lastSome (pkts.map packetTimestamp) none ∧ (e = none → pkts.length = n) ∧
      (∀ x, e = some x → ∃ s, (s = "EOF" ∧ x = .eof ∨ s = "unexpected EOF" ∧ x = .unexpectedEOF ∨
        s ≠ "EOF" ∧ s ≠ "unexpected EOF" ∧ x = .wrapped s) ∧ (s = "EOF" ∨ ∃ k, (k, some s) ∈ src.sched)) := by
  obtain ⟨pkts, e, c, h1, h2, h3⟩ := tchain_run (fun r => ∀ y ∈ r.sched, y ∈ src.sched) (by
    intro r hr y hy
    unfold Src.read at hy
    cases hs : r.sched with
    | nil => rw [hs] at hy; exact hr y hy
    | cons a l => rw [hs] at hy; exact hr y (by rw [hs]; exact List.mem_cons_of_mem _ hy)) n src [] none (fun _ h => h)
  refine ⟨pkts, e, c, h1, ?_, h2, ?_, ?_⟩
  · rcases h3 with ⟨_, _, rest, k⟩ | ⟨_, _, _, _, _, _, _, _, _, k⟩
    · exact ⟨rest, k.symm⟩
    · exact ⟨_, k.symm⟩
  · intro he
    rcases h3 with ⟨_, k, _⟩ | ⟨_, _, _, _, k, _⟩
    · exact k
    · rw [he] at k; cases k
  · intro x hx
    rcases h3 with ⟨k, _⟩ | ⟨s, r1, r', lost, k1, k2, k3, _⟩
    · rw [hx] at k; cases k
    · rw [hx] at k1
      cases k1
      refine ⟨s, ?_, ?_⟩
      · unfold wrapError
        by_cases h1 : s = "EOF"
        · exact .inl ⟨h1, if_pos h1⟩
        · by_cases h2 : s = "unexpected EOF"
          · exact .inr (.inl ⟨h2, by rw [if_neg h1, if_pos h2]⟩)
          · exact .inr (.inr ⟨h1, h2, by rw [if_neg h1, if_neg h2]⟩)
      unfold Src.read at k3
      cases hs : r1.sched with
      | nil =>
        rw [hs] at k3
        simp only [Prod.mk.injEq, Option.some.injEq, true_and] at k3
        exact .inl k3.1.symm
      | cons a l =>
        obtain ⟨k, e⟩ := a
        rw [hs] at k3
        simp only [Prod.mk.injEq] at k3
        exact .inr ⟨k, k2 _ (by rw [hs, ← k3.2.1]; exact List.mem_cons_self)⟩

/-- The reads deliver everything, and none of them fails before the end. -/
def ChainComplete (src : Src) : Prop :=
  (∀ y ∈ src.sched, y.2 = none) ∧ src.data.length ≤ (src.sched.map fun y => min y.1 1316).sum

/-- C94: from a source that does not fail, all packets are read and then the end of the stream is reported. -/
theorem C94_complete (src : Src) (h : ChainComplete src) (n : Nat) (hn : (resync src.data).length < n) :
    ∃ c, Chain.reads n ({ dem := { r := src } } : Chain Src) = some (.ok (resync src.data, some .eof, c)) ∧
      c.last = lastSome ((resync src.data).map packetTimestamp) none := by
  obtain ⟨pkts, e, c, h1, h2, h3⟩ := tchain_run ChainComplete (by
    intro r ⟨a, b⟩
    unfold Src.read
    cases hs : r.sched with
    | nil => exact ⟨by rw [hs]; simp, by rw [hs] at b ⊢; exact b⟩
    | cons y l =>
      rw [hs] at a b
      simp only [List.map_cons, List.sum_cons] at b
      refine ⟨fun z hz => a z (List.mem_cons_of_mem _ hz), ?_⟩
      show (r.data.drop (min y.1 1316)).length ≤ _
      rw [List.length_drop]
      dsimp only
      omega) n src [] none h
  have hpk : pkts = resync src.data ∧ e = some .eof := by
    rcases h3 with ⟨_, k2, rest, k3⟩ | ⟨s, r1, r', lost, k1, ⟨q1, q2⟩, k3, k4, k5, k6⟩
    · have := congrArg List.length k3
      simp only [List.nil_append, List.length_append] at this
      omega
    · unfold Src.read at k3
      cases hs : r1.sched with
      | nil =>
        rw [hs] at k3 q2
        simp only [Prod.mk.injEq, Option.some.injEq, true_and] at k3
        obtain ⟨rfl, rfl⟩ := k3
        have hd : r1.data = [] := List.length_eq_zero_iff.1 (by simp at q2; simpa using q2)
        rw [hd, List.append_nil, resync_short _ k4, List.append_nil, List.nil_append] at k6
        exact ⟨k6.symm, k1⟩
      | cons a l =>
        rw [hs] at k3 q1
        simp only [Prod.mk.injEq] at k3
        have := q1 a List.mem_cons_self
        rw [k3.2.1] at this
        cases this
  obtain ⟨rfl, rfl⟩ := hpk
  exact ⟨c, h1, h2⟩

/-- C94: hence a reader that found its tracks gets all packets of a source that does not fail, the ones that were read to find the tracks
included. -/
theorem C94_initialized (src : Src) (h : ChainComplete src) (k : Nat) (pkts : List Bytes) (c : Chain Rewindable)
    (hk : Chain.reads k (first src) = some (.ok (pkts, none, c))) (n : Nat) (hn : (resync src.data).length < n) :
    ∃ c', Chain.reads n (second c) = some (.ok (resync src.data, some .eof, c')) := by
  obtain ⟨c1, h1, -⟩ := C94_complete src h n hn
  have := C94_restart src k pkts c hk n
  rw [h1] at this
  generalize Chain.reads n (second c) = u at this
  cases u with
  | none => simp [chainOutcome] at this
  | some u =>
    cases u with
    | err _ => simp [chainOutcome] at this
    | panic => simp [chainOutcome] at this
    | ok u =>
      obtain ⟨l, e, c'⟩ := u
      simp only [chainOutcome, Option.map_some, Option.some.injEq, Res.ok.injEq, Prod.mk.injEq] at this
      exact ⟨c', by rw [this.1, this.2.1]⟩

/-- C94: errors of the demultiplexer are passed on and do not end the stream; its end is `io.EOF` and an error of the source is returned as
the source gave it. -/
theorem C94_errors {α : Type} (errs : List String) (x : Next α) (l : List (Next α)) (h : ∀ e, x ≠ .other e) :
    nextData (errs.map Next.other ++ x :: l) =
      (errs, some (match x with | .data d => .ok d | .noMore => .error "EOF" | .carries e => .error e | .other e => .error e, l)) := by
  induction errs with
  | nil =>
    cases x with
    | other e => exact absurd rfl (h e)
    | _ => rfl
  | cons e errs ih =>
    simp only [List.map_cons, List.cons_append, nextData, ih]

/-- Two packets with garbage between them, delivered in three reads of which the second one fails after some bytes. -/
def chainSample : Src :=
  ⟨[0x47, 0x41, 0x00, 0x10, 0, 0, 1, 0xE0, 0, 0, 0x80, 0x80, 5, 0x21, 0, 1, 0, 11] ++ List.replicate 170 0 ++ [1, 2] ++ 0x47 :: List.replicate 187 1,
    [(100, none), (100, some "reset"), (0, none), (900, none)]⟩

/-- The first reader stops after a packet, the second one reads both. -/
example : ∃ c, Chain.reads 1 (first chainSample) = some (.ok ([chainSample.data.take 188], none, c)) ∧ c.last = some 5 ∧
    chainOutcome (Chain.reads 9 (second c)) =
      some (.ok ([chainSample.data.take 188, 0x47 :: List.replicate 187 1], some .eof, some 5)) := by
  refine ⟨?c, ?_⟩
  case c => exact ⟨⟨⟨⟨chainSample.data.drop 200, [(0, none), (900, none)]⟩, [chainSample.data.take 100, (chainSample.data.drop 100).take 100], 200, false⟩,
    (chainSample.data.drop 188).take 12, []⟩, some 5⟩
  exact ⟨by decide +kernel, rfl, by decide +kernel⟩

/-- A timeout reaches the caller as it is. -/
example : chainOutcome (Chain.reads 9 ({ dem := { r := ⟨0x47 :: List.replicate 250 1, [(200, none), (0, some "timeout")]⟩ } } : Chain Src)) =
    some (.ok ([0x47 :: List.replicate 187 1], some (.wrapped "timeout"), none)) := by decide +kernel
example : nextData [.other "bad table", .carries "timeout", .data 3] = (["bad table"], some (.error "timeout", [.data 3])) := by rfl

/-- A source that delivers its packet in three reads. -/
example : ChainComplete ⟨0x47 :: List.replicate 187 1, [(100, none), (0, none), (100, none)]⟩ := by
  refine ⟨?_, by decide +kernel⟩
  simp

end Verif.Props
