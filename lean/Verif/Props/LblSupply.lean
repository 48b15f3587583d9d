import Verif.LblSupply
import Verif.Props.Compile
/-!
# C72: the numbers of the labels, and `Compile` in several goroutines

Every program of the process takes its labels from one counter. The bytecode does not depend on
the value of the counter, nor on other goroutines taking numbers in between, as long as the
numbers one compilation gets are different. `NewLabel` is three accesses to the counter
(`uniqId++` reads and writes it, then it is read again) without a lock, so two goroutines that
compile at the same time can get a number twice.
-/
namespace Gpeg

/-- What `Compile` and `Encode` give, when the labels are numbered by `sup`. -/
def codeS (sup : Nat → Nat) (k : Nat) (p : Pat) (memo : Int) (tco : Bool) : Except CErr (Option Code) :=
  (compileS sup k p ⟨0, memo, tco⟩).map fun r => encode (optimize r.1)

/-- What `Compile` and `Encode` give, when the counter is at `lbl`. -/
def codeAt (lbl k : Nat) (p : Pat) (memo : Int) (tco : Bool) : Except CErr (Option Code) :=
  (compile k p ⟨lbl, memo, tco⟩).map fun r => encode r.1

/-- The number of calls of `NewLabel` in the compilation of `p`. -/
def labelCalls (k : Nat) (p : Pat) (memo : Int) (tco : Bool) : Nat :=
  match compileF k p ⟨0, memo, tco⟩ with
  | .ok (_, s) => s.lbl
  | .error _ => 0

theorem codeAt_eq (lbl k : Nat) (p : Pat) (memo : Int) (tco : Bool) :
    codeAt lbl k p memo tco = (compileF k p ⟨lbl, memo, tco⟩).map fun r => encode (optimize r.1) := by
  unfold codeAt
  show ((compileF k p ⟨lbl, memo, tco⟩).bind _).map _ = _
  cases compileF k p ⟨lbl, memo, tco⟩ <;> rfl

/-- **C72** (the counter): what the program did before, and so the value of `uniqId`, has no influence on the bytecode. -/
theorem C72_counter (lbl lbl' k : Nat) (p : Pat) (memo : Int) (tco : Bool) :
    codeAt lbl k p memo tco = codeAt lbl' k p memo tco := by
  have key : ∀ l, codeAt l k p memo tco = codeAt 0 k p memo tco := by
    intro l
    have h := compileS_follows (sup := id) (sup' := id) (g := fun i => l + i) (d := l) (fun i => rfl) k p ⟨0, memo, tco⟩
    rw [compileS_id] at h
    rw [codeAt_eq, codeAt_eq]
    have e : (CState.up l ⟨0, memo, tco⟩) = ⟨l, memo, tco⟩ := rfl
    rw [e] at h
    rw [h]
    have hg : ∀ a b : Nat, l + a = l + b → a = b := fun a b h => Nat.add_left_cancel h
    cases compileF k p ⟨0, memo, tco⟩ with
    | error e => rfl
    | ok r =>
      show Except.ok (encode (optimize (relab (fun i => l + i) r.1))) = Except.ok (encode (optimize r.1))
      rw [relab_optimize (g := fun i => l + i) hg, relab_encode (g := fun i => l + i) hg]
  rw [key lbl, key lbl']

/-- An injective function that agrees with `g` on the numbers up to `n`, where `g` is injective. -/
def extend (g : Nat → Nat) (n : Nat) (i : Nat) : Nat :=
  if 1 ≤ i ∧ i ≤ n then g i else i + ((List.range (n + 1)).map g).sum + 1

theorem le_sum_range (g : Nat → Nat) {i n : Nat} (h : i < n) : g i ≤ ((List.range n).map g).sum := by
  induction n with
  | zero => omega
  | succ n ih =>
    rw [List.range_succ, List.map_append, List.sum_append]
    simp only [List.map_cons, List.map_nil, List.sum_cons, List.sum_nil]
    rcases Nat.lt_succ_iff_lt_or_eq.1 h with h | rfl
    · have := ih h
      omega
    · omega

theorem extend_inj {g : Nat → Nat} {n : Nat} (h : ∀ i j, 1 ≤ i → i < j → j ≤ n → g i ≠ g j) (a b : Nat)
    (hab : extend g n a = extend g n b) : a = b := by
  unfold extend at hab
  split at hab <;> split at hab
  · next h1 h2 =>
    rcases Nat.lt_trichotomy a b with hl | he | hl
    · exact absurd hab (h a b h1.1 hl h2.2)
    · exact he
    · exact absurd hab.symm (h b a h2.1 hl h1.2)
  · next h1 h2 =>
    have := le_sum_range g (i := a) (n := n + 1) (by omega)
    omega
  · next h1 h2 =>
    have := le_sum_range g (i := b) (n := n + 1) (by omega)
    omega
  · omega

theorem relab_congr {g g' : Nat → Nat} {p : Program} (h1 : ∀ l, .label l ∈ p → g l = g' l)
    (h2 : ∀ i ∈ p, ∀ l, i.target? = some l → g l = g' l) : relab g p = relab g' p := by
  apply List.map_congr_left
  intro i hi
  have := h2 i hi
  cases i <;> simp_all [Insn.relabel, Insn.target?]

/-- **C72** (the supply): if the numbers that one compilation gets from `NewLabel` are different, the bytecode
is that of the same compilation alone in the process, at any value of the counter. -/
theorem C72_supply (sup : Nat → Nat) (lbl k : Nat) (p : Pat) (memo : Int) (tco : Bool)
    (hd : ∀ i j, 1 ≤ i → i < j → j ≤ labelCalls k p memo tco → sup i ≠ sup j) :
    codeS sup k p memo tco = codeAt lbl k p memo tco := by
  rw [C72_counter lbl 0, codeAt_eq]
  have h := compileS_follows (sup := id) (sup' := sup) (g := sup) (d := 0) (fun i => by simp) k p ⟨0, memo, tco⟩
  rw [compileS_id] at h
  unfold codeS
  have e : (CState.up 0 ⟨0, memo, tco⟩) = ⟨0, memo, tco⟩ := rfl
  rw [e] at h
  rw [h]
  unfold labelCalls at hd
  cases hc : compileF k p ⟨0, memo, tco⟩ with
  | error e => rfl
  | ok r =>
    obtain ⟨raw, s⟩ := r
    rw [hc] at hd
    have hl := compile_lab k (show CM.Ok (compileF k p) ⟨0, memo, tco⟩ raw s from hc)
    have hr : relab sup raw = relab (extend sup s.lbl) raw := by
      have aux : ∀ l, 0 < lcnt l raw → sup l = extend sup s.lbl l := by
        intro l h
        have := hl.rng l h
        unfold extend
        rw [if_pos ⟨this.1, this.2⟩]
      exact relab_congr (fun l h => aux l (lcnt_pos h)) (fun i hi l h => aux l (hl.tgt i hi l h))
    show Except.ok (encode (optimize (relab sup raw))) = Except.ok (encode (optimize raw))
    rw [hr, relab_optimize (extend_inj hd), relab_encode (extend_inj hd)]

/-! ## Goroutines -/

/-- Where a goroutine is in `NewLabel` (`isa/isa.go:50-55`): before it, after the read of `uniqId++`, after its write. -/
inductive LPc
  | out
  | read (v : Nat)
  | wrote
deriving DecidableEq, Repr

/-- A goroutine that calls `NewLabel` again and again, and the numbers it has got, the last one first. -/
structure LThread where
  pc : LPc
  got : List Nat
deriving DecidableEq, Repr

/-- The counter `isa.uniqId` (`isa/isa.go:40`) and the goroutines. -/
structure LState where
  uniq : Nat
  th : Nat → LThread

/-- All goroutines are outside `NewLabel` and have no labels. -/
def LState.start (n : Nat) : LState := ⟨n, fun _ => ⟨.out, []⟩⟩

/-- One access to the counter by goroutine `t` (`isa/isa.go:50-55`): the read and the write of `uniqId++`, the read for `Id: uniqId`.
The accesses are sequentially consistent; Go promises less for such a program. -/
def LState.step (s : LState) (t : Nat) : LState :=
  let set (x : LThread) : Nat → LThread := fun t' => if t' = t then x else s.th t'
  match s.th t with
  | ⟨.out, g⟩ => ⟨s.uniq, set ⟨.read s.uniq, g⟩⟩
  | ⟨.read v, g⟩ => ⟨v + 1, set ⟨.wrote, g⟩⟩
  | ⟨.wrote, g⟩ => ⟨s.uniq, set ⟨.out, s.uniq :: g⟩⟩

/-- The goroutines make their accesses in the order of the schedule. -/
def LState.run (s : LState) (sched : List Nat) : LState := sched.foldl LState.step s

/-- The labels of goroutine `t`: its `n`-th call returned `s.sup t n`. -/
def LState.sup (s : LState) (t n : Nat) : Nat := ((s.th t).got.reverse[n - 1]?).getD 0

/-- The schedule in which whole calls of `NewLabel` follow each other, by the goroutines `ts`: one goroutine compiles,
or `NewLabel` takes a lock. -/
def serial (ts : List Nat) : List Nat := ts.flatMap fun t => [t, t, t]

/-- All goroutines are outside, and the numbers of each decrease and are at most the counter. -/
structure LState.Ok (s : LState) : Prop where
  out : ∀ t, (s.th t).pc = .out
  le : ∀ t, ∀ l ∈ (s.th t).got, l ≤ s.uniq
  dec : ∀ t, (s.th t).got.Pairwise (· > ·)

theorem LState.Ok.call {s : LState} (h : s.Ok) (t : Nat) :
    (((s.step t).step t).step t).Ok ∧ (((s.step t).step t).step t).uniq = s.uniq + 1 := by
  have e : ((s.step t).step t).step t =
      ⟨s.uniq + 1, fun t' => if t' = t then ⟨.out, (s.uniq + 1) :: (s.th t).got⟩ else s.th t'⟩ := by
    have ho := h.out t
    rcases hs : s.th t with ⟨pc, g⟩
    rw [hs] at ho
    cases ho
    simp only [LState.step, hs, if_true]
    congr 1
    funext t'
    by_cases ht : t' = t <;> simp [ht]
  rw [e]
  refine ⟨⟨fun t' => ?_, fun t' l hl => ?_, fun t' => ?_⟩, rfl⟩
  · by_cases ht : t' = t
    · simp [ht]
    · simpa [ht] using h.out t'
  · by_cases ht : t' = t
    · simp only [ht, if_true, List.mem_cons] at hl
      rcases hl with rfl | hl
      · exact Nat.le_refl _
      · exact Nat.le_succ_of_le (h.le t l hl)
    · simp only [ht, if_false] at hl
      exact Nat.le_succ_of_le (h.le t' l hl)
  · by_cases ht : t' = t
    · simp only [ht, if_true, List.pairwise_cons]
      exact ⟨fun l hl => Nat.lt_succ_of_le (h.le t l hl), h.dec t⟩
    · simpa [ht] using h.dec t'

theorem LState.Ok.serial {s : LState} (h : s.Ok) (ts : List Nat) : (s.run (serial ts)).Ok := by
  induction ts generalizing s with
  | nil => exact h
  | cons t ts ih => exact ih (h.call t).1

theorem LState.start_ok (n : Nat) : (LState.start n).Ok :=
  ⟨fun _ => rfl, fun _ l hl => by simp [LState.start] at hl, fun _ => List.Pairwise.nil⟩

/-- **C72** (goroutines): when calls of `NewLabel` do not overlap, in whatever order the goroutines make them, each of them compiles its
pattern to the bytecode it has alone in the process. Missing: calls that overlap, see `C72_false`. -/
theorem C72_serial_partial (n : Nat) (ts : List Nat) (t lbl k : Nat) (p : Pat) (memo : Int) (tco : Bool)
    (hn : labelCalls k p memo tco ≤ (((LState.start n).run (serial ts)).th t).got.length) :
    codeS (((LState.start n).run (serial ts)).sup t) k p memo tco = codeAt lbl k p memo tco := by
  apply C72_supply
  intro i j h1 hij hj
  have hp := ((LState.start_ok n).serial ts).dec t
  unfold LState.sup
  generalize (((LState.start n).run (serial ts)).th t).got = got at hn hp
  have hp' : got.reverse.Pairwise (· < ·) := by
    rw [List.pairwise_reverse]
    exact hp
  have hi' : i - 1 < got.reverse.length := by rw [List.length_reverse]; omega
  have hj' : j - 1 < got.reverse.length := by rw [List.length_reverse]; omega
  rw [List.getElem?_eq_getElem hi', List.getElem?_eq_getElem hj']
  exact Nat.ne_of_lt (List.pairwise_iff_getElem.1 hp' (i - 1) (j - 1) hi' hj' (by omega))

/-- `'ab' / 'cd'`. -/
def altAbCd : Pat := .alt (.lit [97, 98]) (.lit [99, 100])

/-- Three goroutines, of which number 1 compiles `altAbCd` between calls of the others. -/
example : codeS (((LState.start 7).run (serial [0, 1, 2, 0, 1, 1, 0])).sup 1) 5 altAbCd 0 true = codeAt 0 5 altAbCd 0 true :=
  C72_serial_partial 7 [0, 1, 2, 0, 1, 1, 0] 1 0 5 altAbCd 0 true (by decide +kernel)

/-- Goroutine 0 reads the counter; goroutine 1 makes a call and gets 1, and has just written 2 in its next call when goroutine 0 writes 1, so it
gets 1 again. -/
def race : List Nat := [0, 1, 1, 1, 1, 1, 0, 1, 0]

/-- **C72** is false for calls of `NewLabel` that overlap: goroutine 1 compiles `'ab' / 'cd'` to a program that matches the empty prefix of
`cd`. -/
theorem C72_false : ∃ (n : Nat) (sched : List Nat) (t : Nat) (code : Code),
    labelCalls 5 altAbCd 0 true ≤ (((LState.start n).run sched).th t).got.length ∧
    codeS (((LState.start n).run sched).sup t) 5 altAbCd 0 true = .ok (some code) ∧
    Ford [99, 100] [] altAbCd 0 (some (2, [])) ∧
    ∃ cap src, src.pos = 0 ∧
      RunsTo (fun _ s _ _ _ _ _ => (none, s)) none code 4096 [99, 100] () (.done true cap src [] () ()) := by
  refine ⟨0, race, 1, _, by decide +kernel, rfl, ?_, ⟨_, _, ?_, 10, _, rfl, rfl⟩⟩
  · exact .altR (.litFail (by decide)) (.litOk (s := [99, 100]) (i := 0) (by decide))
  · rfl

end Gpeg
