/-!
# Model of `input/input.go` and `input/reader.go`

`io.ReaderAt` is modelled by the immutable list of bytes it serves: `ReadAt(buf, off)` returns
`len(buf)` bytes unless the data ends earlier (the documented contract of `io.ReaderAt`).
-/
namespace Gpeg

/-- `ReadAt` of a contract-abiding `io.ReaderAt` with contents `r`: the bytes read into a buffer
of length `n` at offset `off`. -/
def readAt (r : List UInt8) (n off : Nat) : List UInt8 := (r.drop off).take n

/-- `input/input.go:14-29` `Input`. `chunk` holds the first `nchunk` bytes of the Go array (so
`nchunk = chunk.length`); the stale bytes behind them and the scratch byte `b` are dropped: they
are only ever returned together with `ok = false`. `bufsz` (`:8`, 4096) is a parameter. -/
structure Input where
  bufsz : Nat
  r : List UInt8
  chunk : List UInt8
  base : Nat
  coff : Nat
  furthest : Nat
deriving DecidableEq, Repr

namespace Input

/-- `input/input.go:40-44` `refill`. -/
def refill (i : Input) (pos : Nat) : Input :=
  { i with base := pos, coff := 0, chunk := readAt i.r i.bufsz pos }

/-- `input/input.go:32-38` `NewInput`. -/
def new (bufsz : Nat) (r : List UInt8) : Input :=
  refill ⟨bufsz, r, [], 0, 0, 0⟩ 0

/-- `input/input.go:116-118` `Pos`. -/
def pos (i : Input) : Nat := i.base + i.coff

/-- `input/input.go:49-56` `Peek`; `(byte, false)` becomes `none`. The array access
`i.chunk[i.coff]` is in range by the invariant proved below. -/
def peek (i : Input) : Option UInt8 × Input :=
  let pos := i.base + i.coff
  (if i.chunk.length ≠ 0 then some (i.chunk.getD i.coff 0) else none,
   if pos > i.furthest then { i with furthest := pos } else i)

/-- `input/input.go:58-67` `PeekBefore`. -/
def peekBefore (i : Input) : Option UInt8 :=
  if i.base + i.coff = 0 then none
  else if i.coff ≥ 1 then
    (if i.chunk.length ≠ 0 then some (i.chunk.getD (i.coff - 1) 0) else none)
  else (readAt i.r 1 (i.base + i.coff - 1)).head?

/-- `input/input.go:73-85` `SeekTo`. -/
def seekTo (i : Input) (pos : Nat) : Bool × Input :=
  let chunkEnd := i.base + i.chunk.length
  if pos < chunkEnd ∧ pos ≥ i.base then (true, { i with coff := pos - i.base })
  else
    let i := i.refill pos
    (i.chunk.length != 0, i)

/-- `input/input.go:91-104` `Advance`. -/
def advance (i : Input) (n : Nat) : Bool × Input :=
  if i.chunk.length = 0 then (false, i)
  else
    let i := { i with coff := i.coff + n }
    if i.coff > i.chunk.length then (false, i.refill (i.base + i.coff))
    else if i.coff = i.chunk.length then (true, i.refill (i.base + i.coff))
    else (true, i)

/-- `input/input.go:111-113`, `input/reader.go:55-59` `Slice` (for `low ≤ high`). -/
def slice (i : Input) (low high : Nat) : List UInt8 := readAt i.r (high - low) low

/-- `input/input.go:126-128` `ResetFurthest`. -/
def resetFurthest (i : Input) : Input := { i with furthest := 0 }

/-! ## Invariant and refinement lemmas -/

/-- The chunk is the `bufsz`-byte window of the data at `base`, and the offset is inside it
(or zero if the window is empty). -/
structure Inv (i : Input) : Prop where
  bpos : 0 < i.bufsz
  win : i.chunk = readAt i.r i.bufsz i.base
  off : i.coff < i.chunk.length ∨ (i.chunk = [] ∧ i.coff = 0)

theorem readAt_length (r : List UInt8) (n off : Nat) :
    (readAt r n off).length = min n (r.length - off) := by
  simp [readAt, List.length_take, List.length_drop]

theorem refill_inv {i : Input} (h : 0 < i.bufsz) (p : Nat) : (i.refill p).Inv := by
  refine ⟨h, rfl, ?_⟩
  show 0 < (readAt i.r i.bufsz p).length ∨ (readAt i.r i.bufsz p = [] ∧ 0 = 0)
  cases hr : readAt i.r i.bufsz p with
  | nil => exact Or.inr ⟨rfl, rfl⟩
  | cons a l => exact Or.inl (by simp)

theorem new_inv {bufsz : Nat} (h : 0 < bufsz) (r : List UInt8) : (Input.new bufsz r).Inv :=
  refill_inv (i := ⟨bufsz, r, [], 0, 0, 0⟩) h 0

theorem pos_lt_of_nonempty {i : Input} (h : i.Inv) (hne : i.chunk.length ≠ 0) :
    i.pos < i.r.length := by
  have hl := congrArg List.length h.win
  rw [readAt_length] at hl
  rcases h.off with ho | ho
  · unfold pos; omega
  · rw [ho.1] at hne; simp at hne

theorem pos_ge_of_empty {i : Input} (h : i.Inv) (he : i.chunk.length = 0) :
    i.r.length ≤ i.pos := by
  have hl := congrArg List.length h.win
  have := h.bpos
  rw [readAt_length] at hl
  unfold pos; omega

theorem nonempty_iff {i : Input} (h : i.Inv) : i.chunk.length ≠ 0 ↔ i.pos < i.r.length := by
  constructor
  · exact pos_lt_of_nonempty h
  · intro hp he
    have := pos_ge_of_empty h he; omega

theorem getD_window {i : Input} (h : i.Inv) {k : Nat} (hk : k < i.chunk.length) :
    some (i.chunk.getD k 0) = i.r[i.base + k]? := by
  have hl := congrArg List.length h.win
  rw [readAt_length] at hl
  have e : i.chunk[k]? = i.r[i.base + k]? := by
    rw [h.win, readAt, List.getElem?_take, List.getElem?_drop]
    rw [if_pos (by omega)]
  rw [List.getD_eq_getElem?_getD, ← e, List.getElem?_eq_getElem hk]; rfl

theorem peek_fst {i : Input} (h : i.Inv) : i.peek.1 = i.r[i.pos]? := by
  unfold peek
  by_cases hne : i.chunk.length ≠ 0
  · simp only [if_pos hne]
    rcases h.off with ho | ho
    · exact getD_window h ho
    · rw [ho.1] at hne; simp at hne
  · simp only [if_neg hne]
    have := pos_ge_of_empty h (by omega)
    exact (List.getElem?_eq_none this).symm

theorem peek_snd (i : Input) :
    i.peek.2 = { i with furthest := max i.furthest i.pos } := by
  unfold peek pos
  simp only
  split
  · rw [Nat.max_eq_right (by omega)]
  · rw [Nat.max_eq_left (by omega)]

theorem inv_furthest {i : Input} (h : i.Inv) (f : Nat) : ({ i with furthest := f } : Input).Inv :=
  ⟨h.bpos, h.win, h.off⟩

theorem peekBefore_eq {i : Input} (h : i.Inv) :
    i.peekBefore = if i.pos = 0 then none else i.r[i.pos - 1]? := by
  unfold peekBefore
  by_cases h0 : i.base + i.coff = 0
  · rw [if_pos h0, if_pos (show i.pos = 0 from h0)]
  · rw [if_neg h0, if_neg (show ¬ i.pos = 0 from h0)]
    by_cases hc : i.coff ≥ 1
    · rw [if_pos hc]
      rcases h.off with ho | ho
      · rw [if_pos (by omega), getD_window h (by omega)]
        congr 1; unfold pos; omega
      · omega
    · rw [if_neg hc]
      unfold readAt
      have e : ∀ (l : List UInt8), (l.take 1).head? = l.head? := by
        intro l; cases l <;> rfl
      rw [e, List.head?_drop]; rfl

theorem seekTo_spec {i : Input} (h : i.Inv) (p : Nat) :
    (i.seekTo p).2.Inv ∧ (i.seekTo p).2.pos = p ∧ (i.seekTo p).2.r = i.r
      ∧ (i.seekTo p).2.furthest = i.furthest ∧ (i.seekTo p).1 = decide (p < i.r.length) := by
  have hl := congrArg List.length h.win
  rw [readAt_length] at hl
  unfold seekTo
  simp only
  split
  · rename_i hc
    refine ⟨⟨h.bpos, h.win, Or.inl ?_⟩, ?_, rfl, rfl, ?_⟩
    · show p - i.base < i.chunk.length; omega
    · show i.base + (p - i.base) = p; omega
    · exact (decide_eq_true (by omega)).symm
  · refine ⟨refill_inv h.bpos p, rfl, rfl, rfl, ?_⟩
    show ((readAt i.r i.bufsz p).length != 0) = _
    rw [readAt_length]
    have := h.bpos
    by_cases hp : p < i.r.length
    · rw [decide_eq_true hp]; simp; omega
    · rw [decide_eq_false hp]; simp; omega

theorem advance_spec {i : Input} (h : i.Inv) (n : Nat) :
    (i.advance n).2.Inv
      ∧ (i.advance n).2.pos = (if i.pos < i.r.length then i.pos + n else i.pos)
      ∧ (i.advance n).2.r = i.r ∧ (i.advance n).2.furthest = i.furthest := by
  unfold advance
  by_cases he : i.chunk.length = 0
  · rw [if_pos he]
    have := pos_ge_of_empty h he
    rw [if_neg (by omega)]
    exact ⟨h, rfl, rfl, rfl⟩
  · rw [if_neg he, if_pos (pos_lt_of_nonempty h he)]
    simp only
    split
    · refine ⟨refill_inv (i := { i with coff := i.coff + n }) h.bpos _, ?_, rfl, rfl⟩
      show i.base + (i.coff + n) + 0 = i.base + i.coff + n; omega
    · split
      · refine ⟨refill_inv (i := { i with coff := i.coff + n }) h.bpos _, ?_, rfl, rfl⟩
        show i.base + (i.coff + n) + 0 = i.base + i.coff + n; omega
      · refine ⟨⟨h.bpos, h.win, Or.inl ?_⟩, ?_, rfl, rfl⟩
        · show i.coff + n < i.chunk.length; omega
        · show i.base + (i.coff + n) = i.base + i.coff + n; omega

/-- `Advance(1)` reports correctly whether a byte was available. -/
theorem advance_one_fst {i : Input} (h : i.Inv) :
    (i.advance 1).1 = decide (i.pos < i.r.length) := by
  unfold advance
  by_cases he : i.chunk.length = 0
  · rw [if_pos he]
    have := pos_ge_of_empty h he
    rw [decide_eq_false (by omega)]
  · rw [if_neg he, decide_eq_true (pos_lt_of_nonempty h he)]
    simp only
    split
    · rename_i hc
      rcases h.off with ho | ho
      · omega
      · rw [ho.1] at he; simp at he
    · split <;> rfl

/-- If `Advance(n)` reports success then `n` bytes were available. -/
theorem advance_true {i : Input} (h : i.Inv) (n : Nat) (ht : (i.advance n).1 = true) :
    i.pos + n ≤ i.r.length := by
  have hl := congrArg List.length h.win
  rw [readAt_length] at hl
  unfold advance at ht
  by_cases he : i.chunk.length = 0
  · rw [if_pos he] at ht; simp at ht
  · rw [if_neg he] at ht
    simp only at ht
    split at ht
    · simp at ht
    · rename_i hc
      unfold pos; omega

end Input

/-! ## The operations of an input source used by the VM -/

/-- The operations `vm.exec` performs on `src *input.Input`. The VM model is generic in them so
that it can be run both on the chunked `Input` and on a flat cursor. -/
structure InputOps (ι : Type) where
  pos : ι → Nat
  furthest : ι → Nat
  peek : ι → Option UInt8 × ι
  peekBefore : ι → Option UInt8
  seekTo : ι → Nat → ι
  advance : ι → Nat → Bool × ι
  slice : ι → Nat → Nat → List UInt8
  data : ι → List UInt8

/-- The chunked input. -/
def chunkedOps : InputOps Input where
  pos := Input.pos
  furthest := Input.furthest
  peek := Input.peek
  peekBefore := Input.peekBefore
  seekTo i p := (i.seekTo p).2
  advance := Input.advance
  slice := Input.slice
  data i := i.r

/-- A flat cursor over a byte list, the reference input source. -/
structure Flat where
  data : List UInt8
  pos : Nat
  furthest : Nat
deriving DecidableEq, Repr

namespace Flat
/-- `Peek` of the flat cursor. -/
def peek (f : Flat) : Option UInt8 × Flat :=
  (f.data[f.pos]?, { f with furthest := max f.furthest f.pos })
/-- `Advance` of the flat cursor: no movement at (or past) the end of data. -/
def advance (f : Flat) (n : Nat) : Bool × Flat :=
  if f.pos < f.data.length then (decide (f.pos + n ≤ f.data.length), { f with pos := f.pos + n })
  else (false, f)
/-- `PeekBefore` of the flat cursor. -/
def peekBefore (f : Flat) : Option UInt8 :=
  if f.pos = 0 then none else f.data[f.pos - 1]?
end Flat

/-- The flat input. -/
def flatOps : InputOps Flat where
  pos := Flat.pos
  furthest := Flat.furthest
  peek := Flat.peek
  peekBefore := Flat.peekBefore
  seekTo f p := { f with pos := p }
  advance := Flat.advance
  slice f low high := readAt f.data (high - low) low
  data f := f.data

/-- The chunked input `i` and the flat cursor `f` are at the same place in the same data. -/
structure InputRel (i : Input) (f : Flat) : Prop where
  inv : i.Inv
  data : i.r = f.data
  pos : i.pos = f.pos
  far : i.furthest = f.furthest

/-! ## `input/reader.go`: random access on top of a stream -/

/-- One answer of the wrapped `io.Reader.Read(tmp)`: the bytes delivered and whether a non-nil
error (io.EOF) was returned with them. -/
structure ReadResp where
  bytes : List UInt8
  err : Bool
deriving DecidableEq, Repr

/-- `input/reader.go:11-15` `readerWrapper`: the bytes read so far and the reader, given by the
(finite) script of its future answers; a script that is exhausted answers `(0, io.EOF)`. -/
structure RWrap where
  script : List ReadResp
  buf : List UInt8
deriving DecidableEq, Repr

namespace RWrap

/-- One `r.reader.Read(tmp)` call. -/
def read (w : RWrap) : ReadResp × RWrap :=
  match w.script with
  | [] => (⟨[], true⟩, w)
  | x :: xs => (x, { w with script := xs })

/-- The loop at `input/reader.go:40-46`; `fuel` bounds the number of iterations. Returns the
error flag (`err != nil`) of the last `Read`. -/
def fill (off blen : Nat) : Nat → Bool → RWrap → Bool × RWrap
  | 0, err, w => (err, w)
  | k + 1, err, w =>
    if (w.buf.length : Int) - off < blen then
      let (resp, w') := w.read
      let w'' := { w' with buf := w'.buf ++ resp.bytes }
      if resp.err then (true, w'') else fill off blen k false w''
    else (err, w)

/-- `input/reader.go:27-52` `ReadAt(b, off)` with `len(b) = blen`: the bytes copied, the error
flag and the new state. The loop consumes one script answer per iteration, so
`script.length + 1` iterations reach its end. -/
def readAt (w : RWrap) (blen off : Nat) : List UInt8 × Bool × RWrap :=
  if (w.buf.length : Int) - off ≥ blen then ((w.buf.drop off).take blen, false, w)
  else
    let (err, w') := fill off blen (w.script.length + 1) false w
    if off ≥ w'.buf.length then ([], err, w')
    else ((w'.buf.drop off).take blen, err, w')

end RWrap
end Gpeg
