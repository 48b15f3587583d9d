import Verif.Input
/-! # Properties C06–C09 (`input`) -/
namespace Gpeg

/-! ## Specification: a cursor over a byte list -/

/-- A call on an `Input`. -/
inductive InCall
  | peek | peekBefore | pos | furthest | reset
  | seekTo (p : Nat)
  | advance (n : Nat)
  | slice (low high : Nat)
deriving DecidableEq, Repr

/-- What a caller observes. -/
inductive InObs
  | byte (b : Option UInt8)
  | bool (b : Bool)
  | num (n : Nat)
  | bytes (l : List UInt8)
  | unit
deriving DecidableEq, Repr

/-- Specification state: current position and furthest peeked position. -/
structure Cur where
  pos : Nat
  far : Nat

/-- Specification of each call on data `d` (position, bytes, `Furthest`); the Boolean result of
`Advance` is specified separately (C07), here it is reported as `unit`. -/
def Cur.step (d : List UInt8) (c : Cur) : InCall → InObs × Cur
  | .peek => (.byte d[c.pos]?, { c with far := max c.far c.pos })
  | .peekBefore => (.byte (if c.pos = 0 then none else d[c.pos - 1]?), c)
  | .pos => (.num c.pos, c)
  | .furthest => (.num c.far, c)
  | .reset => (.unit, { c with far := 0 })
  | .seekTo p => (.bool (decide (p < d.length)), { c with pos := p })
  | .advance n => (.unit, if c.pos < d.length then { c with pos := c.pos + n } else c)
  | .slice low high => (.bytes ((d.drop low).take (high - low)), c)

/-- Observations of a sequence of calls according to the specification. -/
def Cur.run (d : List UInt8) (c : Cur) : List InCall → List InObs
  | [] => []
  | x :: xs => (c.step d x).1 :: Cur.run d (c.step d x).2 xs

/-- The same calls on the model of the code (the Boolean of `Advance` is not observed). -/
def Input.call (i : Input) : InCall → InObs × Input
  | .peek => (.byte i.peek.1, i.peek.2)
  | .peekBefore => (.byte i.peekBefore, i)
  | .pos => (.num i.pos, i)
  | .furthest => (.num i.furthest, i)
  | .reset => (.unit, i.resetFurthest)
  | .seekTo p => (.bool (i.seekTo p).1, (i.seekTo p).2)
  | .advance n => (.unit, (i.advance n).2)
  | .slice low high => (.bytes (i.slice low high), i)

/-- Observations of a sequence of calls on the code. -/
def Input.runCalls (i : Input) : List InCall → List InObs
  | [] => []
  | x :: xs => (i.call x).1 :: Input.runCalls (i.call x).2 xs

/-- The state after a sequence of calls. -/
def Input.after (i : Input) : List InCall → Input
  | [] => i
  | x :: xs => Input.after (i.call x).2 xs

structure CurRel (d : List UInt8) (i : Input) (c : Cur) : Prop where
  inv : i.Inv
  data : i.r = d
  pos : i.pos = c.pos
  far : i.furthest = c.far

theorem call_rel {d : List UInt8} {i : Input} {c : Cur} (h : CurRel d i c) (x : InCall) :
    (i.call x).1 = (c.step d x).1 ∧ CurRel d (i.call x).2 (c.step d x).2 := by
  obtain ⟨hi, hd, hp, hf⟩ := h
  cases x with
  | peek =>
    refine ⟨?_, ?_⟩
    · show InObs.byte _ = InObs.byte _
      rw [Input.peek_fst hi, hd, hp]
    · show CurRel d i.peek.2 _
      rw [Input.peek_snd]
      exact ⟨Input.inv_furthest hi _, hd, hp, by show max _ _ = max _ _; rw [hf, hp]⟩
  | peekBefore =>
    refine ⟨?_, ⟨hi, hd, hp, hf⟩⟩
    show InObs.byte _ = InObs.byte _
    rw [Input.peekBefore_eq hi, hd, hp]
  | pos => exact ⟨congrArg InObs.num hp, ⟨hi, hd, hp, hf⟩⟩
  | furthest => exact ⟨congrArg InObs.num hf, ⟨hi, hd, hp, hf⟩⟩
  | reset => exact ⟨rfl, ⟨Input.inv_furthest hi 0, hd, hp, rfl⟩⟩
  | seekTo p =>
    obtain ⟨h1, h2, h3, h4, h5⟩ := Input.seekTo_spec hi p
    refine ⟨?_, ⟨h1, h3.trans hd, h2, h4.trans hf⟩⟩
    show InObs.bool _ = InObs.bool _
    rw [h5, hd]
  | advance n =>
    obtain ⟨h1, h2, h3, h4⟩ := Input.advance_spec hi n
    refine ⟨rfl, ?_⟩
    show CurRel d (i.advance n).2 (if c.pos < d.length then { c with pos := c.pos + n } else c)
    rw [hd, hp] at h2
    split
    · rename_i hc; rw [if_pos hc] at h2
      exact ⟨h1, h3.trans hd, h2, h4.trans hf⟩
    · rename_i hc; rw [if_neg hc] at h2
      exact ⟨h1, h3.trans hd, h2, h4.trans hf⟩
  | slice low high =>
    refine ⟨?_, ⟨hi, hd, hp, hf⟩⟩
    show InObs.bytes _ = InObs.bytes _
    unfold Input.slice readAt; rw [hd]

theorem new_rel {bufsz : Nat} (h : 0 < bufsz) (d : List UInt8) :
    CurRel d (Input.new bufsz d) ⟨0, 0⟩ :=
  ⟨Input.new_inv h d, rfl, rfl, rfl⟩

theorem after_rel {d : List UInt8} : ∀ (cs : List InCall) {i : Input} {c : Cur},
    CurRel d i c → ∃ c', CurRel d (i.after cs) c' := by
  intro cs
  induction cs with
  | nil => intro i c h; exact ⟨c, h⟩
  | cons x xs ih => intro i c h; exact ih (call_rel h x).2

/-- **C06, C08**. Every sequence of calls on an `Input` is observationally the same as on a flat
cursor over the data, for every buffer size: bytes peeked, positions, `SeekTo` results, slices
and `Furthest` never depend on the buffering. -/
theorem C06_input_is_flat_cursor (bufsz : Nat) (hb : 0 < bufsz) (d : List UInt8)
    (calls : List InCall) :
    (Input.new bufsz d).runCalls calls = Cur.run d ⟨0, 0⟩ calls := by
  have gen : ∀ (cs : List InCall) (i : Input) (c : Cur), CurRel d i c →
      i.runCalls cs = Cur.run d c cs := by
    intro cs
    induction cs with
    | nil => intro i c _; rfl
    | cons x xs ih =>
      intro i c h
      have := call_rel h x
      show (i.call x).1 :: _ = (c.step d x).1 :: _
      rw [this.1, ih _ _ this.2]
  exact gen calls _ _ (new_rel hb d)

example : (Input.new 3 [1, 2, 3, 4, 5]).runCalls
    [.peek, .advance 4, .peek, .peekBefore, .seekTo 2, .advance 1, .peekBefore, .furthest,
      .slice 1 4, .advance 7, .peek, .pos]
    = [.byte (some 1), .unit, .byte (some 5), .byte (some 4), .bool true, .unit, .byte (some 3),
       .num 4, .bytes [2, 3, 4], .unit, .byte none, .num 10] := by decide

/-- The furthest position peeked at since the last reset, as a function of the history of
(positions at) calls: this is the specification of C08 stated on histories. -/
def farSpec (d : List UInt8) : List InCall → Nat → Nat → Nat
  | [], _, far => far
  | .peek :: cs, p, far => farSpec d cs p (max far p)
  | .reset :: cs, p, _ => farSpec d cs p 0
  | .seekTo q :: cs, _, far => farSpec d cs q far
  | .advance n :: cs, p, far => farSpec d cs (if p < d.length then p + n else p) far
  | _ :: cs, p, far => farSpec d cs p far

/-- **C08**. `Furthest()` after any calls is the maximum of the positions at which `Peek` was
called since the last `ResetFurthest`. -/
theorem C08_furthest (bufsz : Nat) (hb : 0 < bufsz) (d : List UInt8) (calls : List InCall) :
    ((Input.new bufsz d).after calls).furthest = farSpec d calls 0 0 := by
  have gen : ∀ (cs : List InCall) (i : Input) (c : Cur), CurRel d i c →
      (i.after cs).furthest = farSpec d cs c.pos c.far := by
    intro cs
    induction cs with
    | nil => intro i c h; exact h.far
    | cons x xs ih =>
      intro i c h
      have h2 := (call_rel h x).2
      show (Input.after (i.call x).2 xs).furthest = _
      rw [ih _ _ h2]
      cases x <;> try rfl
      rename_i n
      show farSpec d xs (if c.pos < d.length then { c with pos := c.pos + n } else c).pos
        (if c.pos < d.length then { c with pos := c.pos + n } else c).far
        = farSpec d xs (if c.pos < d.length then c.pos + n else c.pos) c.far
      split <;> rfl
  exact gen calls _ _ (new_rel hb d)

example : ((Input.new 4 [9, 9, 9, 9, 9, 9]).after
    [.peek, .advance 5, .peek, .seekTo 1, .peek, .advance 9]).furthest = 5 := by decide

/-- **C07**, the claim as documented ("Returns true if the advance was successful (n chars were
successfully skipped) and false otherwise"). -/
def AdvanceReports (bufsz : Nat) : Prop :=
  ∀ (d : List UInt8) (calls : List InCall) (n : Nat),
    (((Input.new bufsz d).after calls).advance n).1
      = decide (((Input.new bufsz d).after calls).pos + n ≤ d.length)

/-- **C07 is false of the code**, with the real buffer size 4096: on 5000 bytes of data, after
seeking to 4095 (with the first chunk loaded), `Advance(2)` returns `false` although 905 bytes
remain. -/
theorem C07_false : ¬ AdvanceReports 4096 := by
  intro h
  have := h (List.replicate 5000 0) [.seekTo 4095] 2
  revert this
  decide +kernel

/-- **C07 is false of the code** also for `n = 0` at the end of the data. -/
theorem C07_false_zero : ¬ AdvanceReports 4096 := by
  intro h
  have := h [] [] 0
  revert this
  decide +kernel

/-- **C07 (partial)**: `Advance(1)` is right in every reachable state, and for every `n` a `true`
answer is right. Missing: `true` whenever `n` bytes are available (false of the code). -/
theorem C07_advance_partial (bufsz : Nat) (hb : 0 < bufsz) (d : List UInt8)
    (calls : List InCall) :
    (((Input.new bufsz d).after calls).advance 1).1
        = decide (((Input.new bufsz d).after calls).pos + 1 ≤ d.length) ∧
    ∀ n, (((Input.new bufsz d).after calls).advance n).1 = true →
      ((Input.new bufsz d).after calls).pos + n ≤ d.length := by
  obtain ⟨c, hc⟩ := after_rel calls (new_rel hb d)
  constructor
  · rw [Input.advance_one_fst hc.inv, hc.data]; apply decide_eq_decide.mpr; omega
  · intro n hn
    have := Input.advance_true hc.inv n hn
    rwa [hc.data] at this

example : (((Input.new 2 [1, 2, 3]).after [.seekTo 1]).advance 1).1 = true
    ∧ (((Input.new 2 [1, 2, 3]).after [.seekTo 3]).advance 1).1 = false := by decide

/-! ## C09: `FromReader` -/

/-- The complete stream a reader script delivers. -/
def streamOf (script : List ReadResp) : List UInt8 := (script.map ReadResp.bytes).flatten

/-- A well-behaved reader: an error (io.EOF) is returned only with the last data. -/
def GoodScript : List ReadResp → Prop
  | [] => True
  | [_] => True
  | x :: xs => x.err = false ∧ GoodScript xs

theorem GoodScript.tail {x : ReadResp} {xs : List ReadResp} (h : GoodScript (x :: xs)) :
    GoodScript xs := by
  cases xs with
  | nil => trivial
  | cons y ys => exact h.2

theorem GoodScript.err {x : ReadResp} {xs : List ReadResp} (h : GoodScript (x :: xs))
    (he : x.err = true) : xs = [] := by
  cases xs with
  | nil => rfl
  | cons y ys => rw [h.1] at he; cases he

/-- The invariant: what has been buffered plus what is still to come is the stream. -/
def RWrap.Ok (stream : List UInt8) (w : RWrap) : Prop :=
  GoodScript w.script ∧ w.buf ++ streamOf w.script = stream

theorem fill_ok {stream : List UInt8} (off blen : Nat) : ∀ (k : Nat) (err : Bool) (w : RWrap),
    w.Ok stream → w.script.length < k →
    (RWrap.fill off blen k err w).2.Ok stream ∧
      (((RWrap.fill off blen k err w).2.buf.length : Int) - off ≥ blen
        ∨ (RWrap.fill off blen k err w).2.buf = stream) := by
  intro k
  induction k with
  | zero => intro err w _ h; omega
  | succ k ih =>
    intro err w hok hlen
    unfold RWrap.fill
    split
    · rename_i hlt
      cases hs : w.script with
      | nil =>
        have hr : w.read = (⟨[], true⟩, w) := by unfold RWrap.read; rw [hs]
        rw [hr]
        simp only [List.append_nil, if_true]
        refine ⟨hok, Or.inr ?_⟩
        have := hok.2
        rw [hs] at this
        simpa [streamOf] using this
      | cons x xs =>
        have hr : w.read = (x, { w with script := xs }) := by unfold RWrap.read; rw [hs]
        rw [hr]
        simp only
        have hg : GoodScript (x :: xs) := hs ▸ hok.1
        have h2 : (w.buf ++ x.bytes) ++ streamOf xs = stream := by
          have := hok.2
          rw [hs] at this
          simpa [streamOf, List.append_assoc] using this
        split
        · rename_i he
          refine ⟨⟨hg.tail, h2⟩, Or.inr ?_⟩
          have := hg.err he
          rw [this] at h2
          simpa [streamOf] using h2
        · apply ih
          · exact ⟨hg.tail, h2⟩
          · rw [hs] at hlen; simp only [List.length_cons] at hlen; show xs.length < k; omega
    · rename_i hge
      exact ⟨hok, Or.inl (by show (w.buf.length : Int) - off ≥ blen; omega)⟩

theorem take_drop_prefix {a b : List UInt8} (off n : Nat) (h : off + n ≤ a.length) :
    (a.drop off).take n = ((a ++ b).drop off).take n := by
  rw [List.drop_append_of_le_length (by omega), List.take_append_of_le_length]
  rw [List.length_drop]; omega

theorem readAt_ok {stream : List UInt8} {w : RWrap} (h : w.Ok stream) (blen off : Nat) :
    (w.readAt blen off).1 = (stream.drop off).take blen ∧ (w.readAt blen off).2.2.Ok stream := by
  unfold RWrap.readAt
  split
  · rename_i hge
    refine ⟨?_, h⟩
    show (w.buf.drop off).take blen = _
    rw [← h.2]
    exact take_drop_prefix off blen (by omega)
  · have hf := fill_ok off blen (w.script.length + 1) false w h (by omega)
    generalize RWrap.fill off blen (w.script.length + 1) false w = q at hf
    obtain ⟨err, w'⟩ := q
    simp only at hf
    simp only
    split
    · rename_i hoff
      refine ⟨?_, hf.1⟩
      rcases hf.2 with hc | hc
      · show [] = _
        have : blen = 0 := by omega
        rw [this, List.take_zero]
      · show [] = _
        rw [hc] at hoff
        rw [List.drop_eq_nil_of_le hoff, List.take_nil]
    · refine ⟨?_, hf.1⟩
      show (w'.buf.drop off).take blen = _
      rcases hf.2 with hc | hc
      · rw [← hf.1.2]; exact take_drop_prefix off blen (by omega)
      · rw [hc]

/-- Results of a sequence of `ReadAt(len, off)` calls. -/
def RWrap.runReads (w : RWrap) : List (Nat × Nat) → List (List UInt8)
  | [] => []
  | (blen, off) :: cs => (w.readAt blen off).1 :: RWrap.runReads (w.readAt blen off).2.2 cs

/-- **C09**. Whatever the way the wrapped reader splits its stream, every sequence of `ReadAt`
calls on `FromReader(r)` returns the requested windows of the whole stream. -/
theorem C09_fromReader (script : List ReadResp) (hg : GoodScript script)
    (calls : List (Nat × Nat)) :
    (RWrap.mk script []).runReads calls
      = calls.map (fun (blen, off) => ((streamOf script).drop off).take blen) := by
  have gen : ∀ (cs : List (Nat × Nat)) (w : RWrap), w.Ok (streamOf script) →
      w.runReads cs = cs.map (fun (blen, off) => ((streamOf script).drop off).take blen) := by
    intro cs
    induction cs with
    | nil => intro w _; rfl
    | cons x xs ih =>
      intro w hw
      obtain ⟨blen, off⟩ := x
      have := readAt_ok hw blen off
      show (w.readAt blen off).1 :: _ = _ :: _
      rw [this.1, ih _ this.2]
  exact gen calls _ ⟨hg, rfl⟩

example : GoodScript [⟨[1, 2], false⟩, ⟨[], false⟩, ⟨[3, 4, 5], false⟩, ⟨[6], true⟩] ∧
    (RWrap.mk [⟨[1, 2], false⟩, ⟨[], false⟩, ⟨[3, 4, 5], false⟩, ⟨[6], true⟩] []).runReads
      [(2, 3), (1, 0), (9, 4), (2, 7)] = [[4, 5], [1], [5, 6], []] := by
  refine ⟨⟨rfl, rfl, rfl, trivial⟩, by decide⟩

end Gpeg
