import Verif.RopeLines
import Verif.Input
/-! # C36–C41, C48, C49: the line rope -/
namespace Gpeg.Linerope

/-! ## Histories

A client owns a pool of texts and works on the first of them. The same script is run on ropes and on
plain byte lists. -/

/-- One call of a client. -/
inductive Op where
  /-- `NewWithOpts(b, o)`, put in front of the pool. -/
  | new (b : Bytes) (o : Opts)
  /-- Go on with member `i` of the pool. -/
  | pick (i : Nat)
  /-- `Insert(p, v)`. -/
  | insert (p : Nat) (v : Bytes)
  /-- `Remove(s, e)`. -/
  | remove (s e : Nat)
  /-- `SplitAt(k)`: both halves replace the rope. -/
  | split (k : Nat)
  /-- `Join` of the first `n + 2` members. -/
  | join (n : Nat)

/-- What a script needs of its texts. -/
structure Alg (α : Type) where
  new : Bytes → Opts → Option α
  insert : α → Nat → Bytes → Option α
  remove : α → Nat → Nat → Option α
  split : α → Nat → Option (α × α)
  join : α → α → List α → Option α

def Alg.step {α : Type} (A : Alg α) : List α → Op → Option (List α)
  | xs, .new b o => (A.new b o).map (· :: xs)
  | xs, .pick i => xs[i]?.map (· :: xs.eraseIdx i)
  | x :: xs, .insert p v => (A.insert x p v).map (· :: xs)
  | x :: xs, .remove s e => (A.remove x s e).map (· :: xs)
  | x :: xs, .split k => (A.split x k).map (fun p => p.1 :: p.2 :: xs)
  | x :: y :: xs, .join n =>
    if n ≤ xs.length then (A.join x y (xs.take n)).map (· :: xs.drop n) else none
  | _, _ => none

def Alg.run {α : Type} (A : Alg α) : List α → List Op → Option (List α)
  | xs, [] => some xs
  | xs, op :: ops => do A.run (← A.step xs op) ops

/-- The specification: the operations on byte lists. Undefined outside of the text. -/
def textAlg : Alg Bytes where
  new b o := if o.split = 0 then none else some b
  insert t p v := if p ≤ t.length then some (t.take p ++ v ++ t.drop p) else none
  remove t s e := if s ≤ e ∧ e ≤ t.length then some (t.take s ++ t.drop e) else none
  split t k := if k ≤ t.length then some (t.take k, t.drop k) else none
  join a b more := some (a ++ b ++ more.flatten)

/-- The code. -/
def ropeAlg : Alg Rope where
  new b o := Rope.newWithOpts b o
  insert r p v := r.insert p v
  remove r s e := r.remove s e
  split r k := r.splitAt k
  join a b more := Rope.joinAll a b more

/-! ## The refinement -/

/-- Ropes and texts of a pool, one by one. -/
inductive Pool (P : Opts → Prop) : List Rope → List Bytes → Prop
  | nil : Pool P [] []
  | cons {r t rs ts} : Rope.WF P r t → Pool P rs ts → Pool P (r :: rs) (t :: ts)

namespace Pool
variable {P : Opts → Prop}

theorem length : ∀ {rs : List Rope} {ts : List Bytes}, Pool P rs ts → rs.length = ts.length
  | _, _, nil => rfl
  | _, _, cons _ h => by simp [h.length]

theorem get : ∀ {rs : List Rope} {ts : List Bytes}, Pool P rs ts → ∀ {i : Nat} {t : Bytes},
    ts[i]? = some t → ∃ r, rs[i]? = some r ∧ Rope.WF P r t
  | _, _, nil, i, t, h => by simp at h
  | _, _, cons h1 h2, 0, t, h => by
    simp only [List.getElem?_cons_zero, Option.some.injEq] at h
    subst h
    exact ⟨_, rfl, h1⟩
  | _, _, cons h1 h2, i + 1, t, h => h2.get (i := i) h

theorem eraseIdx : ∀ {rs : List Rope} {ts : List Bytes}, Pool P rs ts → ∀ i : Nat,
    Pool P (rs.eraseIdx i) (ts.eraseIdx i)
  | _, _, nil, _ => nil
  | _, _, cons h1 h2, 0 => h2
  | _, _, cons h1 h2, i + 1 => cons h1 (h2.eraseIdx i)

theorem take : ∀ {rs : List Rope} {ts : List Bytes}, Pool P rs ts → ∀ i : Nat,
    Rope.WFL P (rs.take i) (ts.take i).flatten
  | _, _, h, 0 => by rw [List.take_zero, List.take_zero]; rfl
  | _, _, nil, _ + 1 => rfl
  | _, _, cons h1 h2, i + 1 => ⟨_, _, rfl, h1, h2.take i⟩

theorem drop : ∀ {rs : List Rope} {ts : List Bytes}, Pool P rs ts → ∀ i : Nat,
    Pool P (rs.drop i) (ts.drop i)
  | _, _, h, 0 => h
  | _, _, nil, _ + 1 => nil
  | _, _, cons h1 h2, i + 1 => h2.drop i

end Pool

theorem step_pool {P : Opts → Prop} (hP : ∀ o, P o → 0 < o.split) {rs : List Rope}
    {ts ts' : List Bytes} {op : Op} (hop : ∀ b o, op = .new b o → o.split ≠ 0 → P o)
    (h : Pool P rs ts) (hs : textAlg.step ts op = some ts') :
    ∃ rs', ropeAlg.step rs op = some rs' ∧ Pool P rs' ts' := by
  cases op with
  | new b o =>
    have hs : (if o.split = 0 then none else some b).map (· :: ts) = some ts' := hs
    by_cases h0 : o.split = 0
    · rw [if_pos h0] at hs; cases hs
    · rw [if_neg h0] at hs
      cases hs
      obtain ⟨r, e1, e2⟩ := Rope.newWithOpts_wf (hop b o rfl h0) (hP _ (hop b o rfl h0)) b
      refine ⟨r :: rs, ?_, .cons e2 h⟩
      show (Rope.newWithOpts b o).map (· :: rs) = _
      rw [e1]; rfl
  | pick i =>
    have hs : ts[i]?.map (· :: ts.eraseIdx i) = some ts' := hs
    cases hi : ts[i]? with
    | none => rw [hi] at hs; cases hs
    | some t =>
      rw [hi] at hs
      cases hs
      obtain ⟨r, e1, e2⟩ := h.get hi
      refine ⟨r :: rs.eraseIdx i, ?_, .cons e2 (h.eraseIdx i)⟩
      show rs[i]?.map (· :: rs.eraseIdx i) = _
      rw [e1]; rfl
  | insert p v =>
    cases h with
    | nil => cases hs
    | @cons r t rs ts h1 h2 =>
      have hs : (if p ≤ t.length then some (t.take p ++ v ++ t.drop p) else none).map (· :: ts)
        = some ts' := hs
      by_cases hp : p ≤ t.length
      · rw [if_pos hp] at hs
        cases hs
        obtain ⟨r', e1, e2⟩ := Rope.insert_wf hP v p h1 hp
        refine ⟨r' :: rs, ?_, .cons e2 h2⟩
        show (r.insert p v).map (· :: rs) = _
        rw [e1]; rfl
      · rw [if_neg hp] at hs; cases hs
  | remove s e =>
    cases h with
    | nil => cases hs
    | @cons r t rs ts h1 h2 =>
      have hs : (if s ≤ e ∧ e ≤ t.length then some (t.take s ++ t.drop e) else none).map
        (· :: ts) = some ts' := hs
      by_cases hp : s ≤ e ∧ e ≤ t.length
      · rw [if_pos hp] at hs
        cases hs
        obtain ⟨r', e1, e2⟩ := Rope.remove_wf hP s e h1 hp.1 hp.2
        refine ⟨r' :: rs, ?_, .cons e2 h2⟩
        show (r.remove s e).map (· :: rs) = _
        rw [e1]; rfl
      · rw [if_neg hp] at hs; cases hs
  | split k =>
    cases h with
    | nil => cases hs
    | @cons r t rs ts h1 h2 =>
      have hs : (if k ≤ t.length then some (t.take k, t.drop k) else none).map
        (fun p => p.1 :: p.2 :: ts) = some ts' := hs
      by_cases hp : k ≤ t.length
      · rw [if_pos hp] at hs
        cases hs
        obtain ⟨x, y, e1, e2, e3⟩ := Rope.splitAt_wf hP k h1 hp
        refine ⟨x :: y :: rs, ?_, .cons e2 (.cons e3 h2)⟩
        show (r.splitAt k).map (fun p => p.1 :: p.2 :: rs) = _
        rw [e1]; rfl
      · rw [if_neg hp] at hs; cases hs
  | join n =>
    cases h with
    | nil => cases hs
    | @cons r t rs ts h1 h2 =>
      cases h2 with
      | nil => cases hs
      | @cons r₂ t₂ rs ts h2 h3 =>
        have hs : (if n ≤ ts.length then
          some ((t ++ t₂ ++ (ts.take n).flatten) :: ts.drop n) else none) = some ts' := hs
        by_cases hp : n ≤ ts.length
        · rw [if_pos hp] at hs
          cases hs
          obtain ⟨x, e1, e2⟩ := Rope.joinAll_wf h1 h2 (h3.take n)
          refine ⟨x :: rs.drop n, ?_, .cons e2 (h3.drop n)⟩
          show (if n ≤ rs.length then (Rope.joinAll r r₂ (rs.take n)).map (· :: rs.drop n) else none) = _
          rw [if_pos (by rw [h3.length]; exact hp), e1]; rfl
        · rw [if_neg hp] at hs; cases hs

theorem run_pool {P : Opts → Prop} (hP : ∀ o, P o → 0 < o.split) : ∀ (ops : List Op)
    {rs : List Rope} {ts ts' : List Bytes},
    (∀ b o, Op.new b o ∈ ops → o.split ≠ 0 → P o) → Pool P rs ts →
    textAlg.run ts ops = some ts' → ∃ rs', ropeAlg.run rs ops = some rs' ∧ Pool P rs' ts'
  | [], rs, ts, ts', _, h, hs => by cases hs; exact ⟨rs, rfl, h⟩
  | op :: ops, rs, ts, ts', hop, h, hs => by
    simp only [Alg.run] at hs ⊢
    cases h1 : textAlg.step ts op with
    | none => rw [h1] at hs; cases hs
    | some ts₁ =>
      rw [h1] at hs
      obtain ⟨rs₁, e1, e2⟩ := step_pool hP
        (fun b o he => hop b o (he ▸ List.mem_cons_self)) h h1
      rw [e1]
      exact run_pool hP ops (fun b o he => hop b o (List.mem_cons_of_mem _ he)) e2 hs

/-- Every member of the pools agrees. -/
theorem history {P : Opts → Prop} (hP : ∀ o, P o → 0 < o.split) {ops : List Op} {ts : List Bytes}
    (hop : ∀ b o, Op.new b o ∈ ops → o.split ≠ 0 → P o) (h : textAlg.run [] ops = some ts) :
    ∃ rs, ropeAlg.run [] ops = some rs ∧ Pool P rs ts := run_pool hP ops hop .nil h

theorem Pool.map {P : Opts → Prop} {β : Type} {f : Rope → β} {g : Bytes → β}
    (hfg : ∀ r t, Rope.WF P r t → f r = g t) : ∀ {rs : List Rope} {ts : List Bytes}, Pool P rs ts →
    rs.map f = ts.map g
  | _, _, .nil => rfl
  | _, _, .cons h1 h2 => by simp [hfg _ _ h1, h2.map hfg]

theorem Pool.get' {P : Opts → Prop} {rs : List Rope} {ts : List Bytes} (h : Pool P rs ts) {i : Nat}
    {r : Rope} {t : Bytes} (hr : rs[i]? = some r) (ht : ts[i]? = some t) : Rope.WF P r t := by
  obtain ⟨r', e1, e2⟩ := h.get ht
  rw [hr] at e1
  cases e1
  exact e2

/-- **C36.** Any script of `NewWithOpts`, `Insert`, `Remove`, `SplitAt` and `Join` calls that is in
range when run on byte lists runs on ropes without panic, whatever the split and join lengths (which
may differ from rope to rope), and leaves ropes with exactly those contents and lengths. -/
theorem C36_edits (ops : List Op) (ts : List Bytes) (h : textAlg.run [] ops = some ts) :
    ∃ rs, ropeAlg.run [] ops = some rs ∧ rs.map Rope.value = ts.map some ∧
      rs.map Rope.len = ts.map List.length := by
  obtain ⟨rs, e1, e2⟩ := history (P := fun o => 0 < o.split) (fun _ h => h)
    (fun b o _ h0 => Nat.pos_of_ne_zero h0) h
  exact ⟨rs, e1, e2.map (fun _ _ hw => hw.value), e2.map (fun _ _ hw => hw.len)⟩

/-- Lengths small enough to see splits and joins at work. -/
def o₁ : Opts := ⟨3, 2, [10]⟩
def o₂ : Opts := ⟨2, 4, [10]⟩

/-- Two ropes, edits across leaves, a split and a join of three. -/
def script₁ : List Op :=
  [.new [1, 2, 10, 3, 4, 5, 10, 6] o₁, .insert 3 [7, 8, 10, 9], .remove 1 9, .new [20, 10, 21] o₂,
   .split 1, .pick 2, .insert 4 [10, 11], .join 1]

example : textAlg.run [] script₁ = some [[1, 5, 10, 6, 10, 11, 20, 10, 21]] := by decide
example : ∃ r, ropeAlg.run [] script₁ = some [r] ∧
    r.value = some [1, 5, 10, 6, 10, 11, 20, 10, 21] ∧ r.len = 9 := ⟨_, rfl, by decide, by decide⟩

/-- **C37.** `ReadAt` on a rope with any history is `ReadAt` on its text: the bytes, and `io.EOF`
exactly when the read reaches the end of the text. `At` returns the byte. -/
theorem C37_reads (ops : List Op) (ts : List Bytes) (h : textAlg.run [] ops = some ts) :
    ∃ rs, ropeAlg.run [] ops = some rs ∧ rs.length = ts.length ∧
      ∀ (i : Nat) (r : Rope) (t : Bytes), rs[i]? = some r → ts[i]? = some t →
        (∀ n off : Nat, r.readAt n off = some ((t.drop off).take n, decide (t.length ≤ off + n))) ∧
        (∀ off : Nat, off < t.length → r.at' off = t[off]?) := by
  obtain ⟨rs, e1, e2⟩ := history (P := fun o => 0 < o.split) (fun _ h => h)
    (fun b o _ h0 => Nat.pos_of_ne_zero h0) h
  refine ⟨rs, e1, e2.length, fun i r t hr ht => ?_⟩
  have hw := e2.get' hr ht
  have hl := hw.len
  constructor
  · intro n off
    unfold Rope.readAt
    by_cases ho : (off : Int) > r.len
    · rw [if_pos ho, List.drop_of_length_le (by omega)]
      rw [decide_eq_true (by omega : t.length ≤ off + n)]
      simp
    · rw [if_neg ho]
      by_cases he : (off : Int) + n ≥ r.len
      · have hs := Rope.slice_wf (P := fun o => 0 < o.split) off t.length hw (Nat.le_refl _)
        simp only [if_pos he]
        rw [hl, hs, List.take_length]
        show some (_, _) = some (_, _)
        congr 2
        exact decide_eq_decide.2 (by omega)
      · have hs := Rope.slice_wf (P := fun o => 0 < o.split) off (off + n) hw (by omega)
        simp only [if_neg he]
        rw [Int.natCast_add] at hs
        rw [hs]
        show some (_, _) = some (_, _)
        congr 2
        · rw [← List.take_drop, List.take_take, Nat.min_self]
        · exact decide_eq_decide.2 (by omega)
  · intro off ho
    unfold Rope.at'
    have hs := Rope.slice_wf (P := fun o => 0 < o.split) off (off + 1) hw (by omega)
    rw [Int.natCast_add] at hs
    have hs : r.slice off (off + 1) = _ := hs
    rw [hs]
    show ((t.take (off + 1)).drop off).head? = _
    rw [List.head?_drop, List.getElem?_take_of_lt (by omega)]

/-- A rope serves the buffered reader of `Verif/Input.lean` as its `io.ReaderAt`. -/
theorem C37_readerAt (ops : List Op) (ts : List Bytes) (h : textAlg.run [] ops = some ts) :
    ∃ rs, ropeAlg.run [] ops = some rs ∧ ∀ (i : Nat) (r : Rope) (t : Bytes), rs[i]? = some r →
      ts[i]? = some t → ∀ n off : Nat, (r.readAt n off).map (·.1) = some (Gpeg.readAt t n off) := by
  obtain ⟨rs, e1, -, e2⟩ := C37_reads ops ts h
  refine ⟨rs, e1, fun i r t hr ht n off => ?_⟩
  rw [(e2 i r t hr ht).1 n off]; rfl

/-- A read across leaves, one up to the end, and one behind it. -/
example : ∃ r, ropeAlg.run [] script₁ = some [r] ∧ r.readAt 4 1 = some ([5, 10, 6, 10], false) ∧
    r.readAt 4 5 = some ([11, 20, 10, 21], true) ∧ r.readAt 4 10 = some ([], true) ∧
    r.at' 6 = some 20 := ⟨_, rfl, by decide, by decide, by decide, by decide⟩

/-- All ropes of the script are made with the one-byte separator `c`. -/
def SepOK (c : UInt8) (ops : List Op) : Prop := ∀ b o, Op.new b o ∈ ops → o.sep = [c]

theorem history_sep {c : UInt8} {ops : List Op} {ts : List Bytes} (hc : SepOK c ops)
    (h : textAlg.run [] ops = some ts) :
    ∃ rs, ropeAlg.run [] ops = some rs ∧ Pool (fun o => 0 < o.split ∧ o.sep = [c]) rs ts :=
  history (fun _ h => h.1) (fun b o hm h0 => ⟨Nat.pos_of_ne_zero h0, hc b o hm⟩) h

/-- **C38.** After any script with a one-byte separator, `LLen` is the number of separators and the
length behind the last one. -/
theorem C38_lines (c : UInt8) (ops : List Op) (ts : List Bytes) (hc : SepOK c ops)
    (h : textAlg.run [] ops = some ts) :
    ∃ rs, ropeAlg.run [] ops = some rs ∧ rs.map Rope.ll = ts.map (Text.loc c) := by
  obtain ⟨rs, e1, e2⟩ := history_sep hc h
  exact ⟨rs, e1, e2.map (fun _ _ hw => hw.ll (fun _ h => h.2))⟩

example : SepOK 10 script₁ := by
  intro b o h
  simp only [script₁, List.mem_cons, Op.new.injEq, reduceCtorEq, false_or, List.not_mem_nil,
    or_false] at h
  rcases h with ⟨-, rfl⟩ | ⟨-, rfl⟩ <;> rfl

example : ∃ r, ropeAlg.run [] script₁ = some [r] ∧ r.ll = ⟨3, 1⟩ := ⟨_, rfl, by decide⟩

/-- C38 fails for longer separators: `\r\n` cut in two by a chunk boundary is not counted. -/
theorem C38_multibyte_false : ∃ r, Rope.newWithOpts [65, 13, 10, 66] ⟨2, 0, [13, 10]⟩ = some r ∧
    r.value = some [65, 13, 10, 66] ∧ r.ll.line = 0 ∧ count [13, 10] [65, 13, 10, 66] = 1 :=
  ⟨_, rfl, by decide, by decide, by decide⟩

/-- **C39.** After any script with a one-byte separator, `LineColAt` gives for every offset the
number of separators before it and the distance from the last of them, and `OffsetAt` is its
inverse. -/
theorem C39_line_col (c : UInt8) (ops : List Op) (ts : List Bytes) (hc : SepOK c ops)
    (h : textAlg.run [] ops = some ts) :
    ∃ rs, ropeAlg.run [] ops = some rs ∧ rs.length = ts.length ∧
      ∀ (i : Nat) (r : Rope) (t : Bytes), rs[i]? = some r → ts[i]? = some t →
        ∀ off : Nat, off ≤ t.length →
          r.lineColAt off = some (Text.loc c (t.take off)) ∧
          r.offsetAt (Text.loc c (t.take off)).line (Text.loc c (t.take off)).col = some (off : Int) := by
  obtain ⟨rs, e1, e2⟩ := history_sep hc h
  refine ⟨rs, e1, e2.length, fun i r t hr ht off ho => ?_⟩
  have hw := e2.get' hr ht
  exact ⟨Rope.lineColAt_wf (fun _ h => h.2) off hw ho, Rope.offsetAt_wf (fun _ h => h.2) off hw ho⟩

example : ∃ r, ropeAlg.run [] script₁ = some [r] ∧ r.lineColAt 4 = some ⟨1, 1⟩ ∧
    r.offsetAt 1 1 = some 4 ∧ r.lineColAt 8 = some ⟨3, 0⟩ ∧ r.offsetAt 3 0 = some 8 :=
  ⟨_, rfl, by decide, by decide, by decide, by decide⟩

/-- C39 fails for longer separators already in the first line of a rope of one leaf: the offset of
line 0, column 0 is 1, since `indexN` returns -1 and the length of the separator is added. -/
theorem C39_multibyte_false : ∃ r, Rope.newWithOpts [65, 66] ⟨4, 0, [13, 10]⟩ = some r ∧
    r.lineColAt 0 = some ⟨0, 0⟩ ∧ r.offsetAt 0 0 = some 1 := ⟨_, rfl, by decide, by decide⟩

/-- **C48.** `SliceLC` between the positions of two offsets is the text between the offsets. -/
theorem C48_sliceLC (c : UInt8) (ops : List Op) (ts : List Bytes) (hc : SepOK c ops)
    (h : textAlg.run [] ops = some ts) :
    ∃ rs, ropeAlg.run [] ops = some rs ∧ rs.length = ts.length ∧
      ∀ (i : Nat) (r : Rope) (t : Bytes), rs[i]? = some r → ts[i]? = some t →
        ∀ s e : Nat, s ≤ t.length → e ≤ t.length →
          r.sliceLC (Text.loc c (t.take s)) (Text.loc c (t.take e)) = some ((t.take e).drop s) := by
  obtain ⟨rs, e1, e2⟩ := history_sep hc h
  exact ⟨rs, e1, e2.length, fun i r t hr ht s e hs he =>
    Rope.sliceLC_wf (fun _ h => h.2) s e (e2.get' hr ht) hs he⟩

example : ∃ r, ropeAlg.run [] script₁ = some [r] ∧ r.sliceLC ⟨0, 1⟩ ⟨2, 1⟩ = some [5, 10, 6, 10, 11] :=
  ⟨_, rfl, by decide⟩

/-! ## C40 -/

/-- Whatever the rope, `Rebuild` of a node panics or leaves a node whose `Value` panics. -/
theorem C40_rebuild_destroys (o : Opts) (n : Nat) (ll : Loc) (l r : Rope) :
    (Rope.node o n ll l r).rebuild = none ∨
      ∃ r', (Rope.node o n ll l r).rebuild = some r' ∧ r'.value = none := by
  simp only [Rope.rebuild]
  cases l.value with
  | none => exact .inl rfl
  | some a =>
    cases r.value with
    | none => exact .inl rfl
    | some b =>
      show Rope.adjust (.broken o (a ++ b) n ll) = none ∨ _
      by_cases h : n < o.join
      · left
        show Rope.collapse (.broken o (a ++ b) n ll) = none
        exact (if_pos h).trans rfl
      · right
        refine ⟨.broken o (a ++ b) n ll, ?_, rfl⟩
        show Rope.collapse (.broken o (a ++ b) n ll) = _
        exact if_neg h

/-- **C40 is false**: a rope made from eight bytes has its value, and has none after `Rebuild`, nor
after `Rebalance` when the root counts as unbalanced. -/
theorem C40_false : ∃ r r', ropeAlg.run [] [.new [1, 2, 10, 3, 4, 5, 10, 6] o₁] = some [r] ∧
    r.value = some [1, 2, 10, 3, 4, 5, 10, 6] ∧ r.rebuild = some r' ∧ r'.value = none ∧
    r.rebalance (fun a b => decide (5 * b < 4 * a ∨ 5 * a < 4 * b)) = some r' :=
  ⟨_, _, rfl, by decide, rfl, by decide, by decide⟩

/-- No node of the rope counts as unbalanced. -/
def Balanced (unb : Nat → Nat → Bool) : Rope → Prop
  | .leaf _ _ _ _ => True
  | .node _ _ _ l r => unb l.len r.len = false ∧ Balanced unb l ∧ Balanced unb r
  | .broken _ _ _ _ => True

/-- What remains of C40: `Rebuild` of a leaf and `Rebalance` of a rope without unbalanced nodes
change nothing. Missing: every case in which the functions do something. -/
theorem C40_partial (unb : Nat → Nat → Bool) (ops : List Op) (ts : List Bytes)
    (h : textAlg.run [] ops = some ts) :
    ∃ rs, ropeAlg.run [] ops = some rs ∧ ∀ r ∈ rs, Balanced unb r →
      r.rebalance unb = some r ∧ ((∀ o n ll a b, r ≠ .node o n ll a b) → r.rebuild = some r) := by
  obtain ⟨rs, e1, e2⟩ := history (P := fun o => 0 < o.split) (fun _ h => h)
    (fun b o _ h0 => Nat.pos_of_ne_zero h0) h
  refine ⟨rs, e1, fun r hr hb => ?_⟩
  obtain ⟨i, hi⟩ := List.getElem?_of_mem hr
  have hlt := (List.getElem?_eq_some_iff.1 hi).1
  have ht : ts[i]? = some (ts[i]'(by rw [← e2.length]; exact hlt)) := List.getElem?_eq_getElem _
  have hw := e2.get' hi ht
  constructor
  · clear hi ht
    generalize ts[i]'(by rw [← e2.length]; exact hlt) = t at hw
    clear hr hlt e2
    induction r generalizing t with
    | leaf o v n ll => rfl
    | node o n ll l r ihl ihr =>
      obtain ⟨-, -, -, a, b, -, h5, h6⟩ := hw
      simp only [Rope.rebalance]
      rw [if_neg (by rw [hb.1]; simp), ihl hb.2.1 a h5, ihr hb.2.2 b h6]
      rfl
    | broken o v n ll => exact absurd hw (by simp [Rope.WF])
  · intro hn
    cases r with
    | leaf o v n ll => rfl
    | node o n ll l r => exact absurd rfl (hn o n ll l r)
    | broken o v n ll => exact absurd hw (by simp [Rope.WF])

example : ∃ r, ropeAlg.run [] [.new [1, 2, 10, 3, 4, 5, 10, 6] o₁] = some [r] ∧
    Balanced (fun a b => decide (a + b < 3)) r := by
  exact ⟨_, rfl, rfl, trivial, rfl, trivial, trivial⟩

/-! ## C41 -/

/-- A schedule: which goroutine makes the next step. `none` if that one is done already. -/
def ParSt.run (o : Opts) (b : Bytes) : ParSt → List Nat → Option ParSt
  | s, [] => some s
  | s, t :: ts => do ParSt.run o b (← s.step o b t) ts

/-- Goroutine by goroutine: it has written the chunks from its lower bound up to its counter. -/
structure ParInv (o : Opts) (b : Bytes) (nchunks nth : Nat) (s : ParSt) : Prop where
  nlen : s.nodes.length = nchunks
  plen : s.pcs.length = nth
  pcs : ∀ t i e, s.pcs[t]? = some (i, e) → e = (bounds nchunks nth t).2 ∧
    (bounds nchunks nth t).1 ≤ i ∧ i ≤ e ∧
    ∀ j, (bounds nchunks nth t).1 ≤ j → j < i → s.nodes[j]? = some (some (Rope.chunk o b j))

theorem bounds_le {nchunks nth t : Nat} (ht : t < nth) :
    (bounds nchunks nth t).1 ≤ (bounds nchunks nth t).2 ∧ (bounds nchunks nth t).2 ≤ nchunks := by
  have h1 : nth * (nchunks / nth) ≤ nchunks := Nat.mul_div_le nchunks nth
  have h2 : (t + 1) * (nchunks / nth) ≤ nth * (nchunks / nth) := Nat.mul_le_mul_right _ ht
  rw [Nat.succ_mul] at h2
  unfold bounds
  generalize nchunks / nth = q at *
  simp only []
  split <;> omega

theorem parInv_init {o : Opts} {b : Bytes} {nchunks nth : Nat} :
    ParInv o b nchunks nth (ParSt.init nchunks nth) := by
  refine ⟨by simp [ParSt.init], by simp [ParSt.init], fun t i e h => ?_⟩
  simp only [ParSt.init, List.getElem?_map, Option.map_eq_some_iff] at h
  obtain ⟨t', h1, h2⟩ := h
  obtain ⟨h3, rfl⟩ := List.getElem?_eq_some_iff.1 h1
  simp only [List.getElem_range, List.length_range] at h2 h3
  have hb := bounds_le (nchunks := nchunks) h3
  rw [h2] at hb ⊢
  exact ⟨rfl, Nat.le_refl _, hb.1, fun j h h' => by omega⟩

theorem parInv_step {o : Opts} {b : Bytes} {nchunks nth : Nat} {s s' : ParSt} {t : Nat}
    (h : ParInv o b nchunks nth s) (hs : s.step o b t = some s') : ParInv o b nchunks nth s' := by
  unfold ParSt.step at hs
  cases ht : s.pcs[t]? with
  | none => rw [ht] at hs; cases hs
  | some p =>
    obtain ⟨i, e⟩ := p
    rw [ht] at hs
    simp only [] at hs
    split at hs
    · rename_i hlt
      cases hs
      have htl := (List.getElem?_eq_some_iff.1 ht).1
      obtain ⟨h1, h2, h3, h4⟩ := h.pcs t i e ht
      refine ⟨by simp [h.nlen], by simp [h.plen], fun t' i' e' ht' => ?_⟩
      have hile : i < nchunks := by
        have := (bounds_le (nchunks := nchunks) (t := t) (nth := nth) (h.plen ▸ htl)).2
        omega
      have hset : ∀ j, (j < i ∨ i < j → s.nodes[j]? = some (some (Rope.chunk o b j))) →
          (s.nodes.set i (some (Rope.chunk o b i)))[j]? = some (some (Rope.chunk o b j)) := by
        intro j hj
        rw [List.getElem?_set]
        split
        · rename_i he
          subst he
          rw [if_pos (by rw [h.nlen]; exact hile)]
        · exact hj (by omega)
      by_cases htt : t = t'
      · subst htt
        have ht' : (s.pcs.set t (i + 1, e))[t]? = some (i', e') := ht'
        rw [List.getElem?_set, if_pos rfl, if_pos htl] at ht'
        cases ht'
        exact ⟨h1, by omega, by omega, fun j hj hj' => hset j (fun hne => h4 j hj (by omega))⟩
      · have ht' : (s.pcs.set t (i + 1, e))[t']? = some (i', e') := ht'
        rw [List.getElem?_set, if_neg htt] at ht'
        obtain ⟨g1, g2, g3, g4⟩ := h.pcs t' i' e' ht'
        exact ⟨g1, g2, g3, fun j hj hj' => hset j (fun _ => g4 j hj hj')⟩
    · cases hs

theorem parInv_run {o : Opts} {b : Bytes} {nchunks nth : Nat} : ∀ (sch : List Nat) {s s' : ParSt},
    ParInv o b nchunks nth s → s.run o b sch = some s' → ParInv o b nchunks nth s'
  | [], s, s', h, hs => by cases hs; exact h
  | t :: sch, s, s', h, hs => by
    simp only [ParSt.run] at hs
    cases h1 : s.step o b t with
    | none => rw [h1] at hs; cases hs
    | some s₁ =>
      rw [h1] at hs
      exact parInv_run sch (parInv_step h h1) hs

/-- Every chunk belongs to a goroutine. -/
theorem bounds_cover {nchunks nth j : Nat} (hn : 0 < nth) (hj : j < nchunks) :
    ∃ t < nth, (bounds nchunks nth t).1 ≤ j ∧ j < (bounds nchunks nth t).2 := by
  by_cases h : (nth - 1) * (nchunks / nth) ≤ j
  · refine ⟨nth - 1, by omega, h, ?_⟩
    simp only [bounds, if_pos]; exact hj
  · have hq : 0 < nchunks / nth := by
      apply Nat.pos_of_ne_zero
      intro h0; rw [h0] at h; omega
    have h1 : j / (nchunks / nth) < nth - 1 := (Nat.div_lt_iff_lt_mul hq).2 (by omega)
    refine ⟨j / (nchunks / nth), by omega, Nat.div_mul_le_self _ _, ?_⟩
    unfold bounds
    rw [if_neg (by omega)]
    have := Nat.lt_div_mul_add hq (a := j)
    omega

/-- No chunk belongs to two goroutines: there are no write races on `nodes`. -/
theorem C41_no_race {nchunks nth t t' j : Nat} (ht : t < nth) (ht' : t' < nth)
    (h : (bounds nchunks nth t).1 ≤ j ∧ j < (bounds nchunks nth t).2)
    (h' : (bounds nchunks nth t').1 ≤ j ∧ j < (bounds nchunks nth t').2) : t = t' := by
  have key : ∀ {t t' : Nat}, t < t' → t' < nth → (bounds nchunks nth t').1 ≤ j →
      j < (bounds nchunks nth t).2 → False := by
    intro t t' hlt ht' h1 h2
    unfold bounds at h1 h2
    rw [if_neg (by omega)] at h2
    have : (t + 1) * (nchunks / nth) ≤ t' * (nchunks / nth) := Nat.mul_le_mul_right _ hlt
    rw [Nat.succ_mul] at this
    simp only [] at h1 h2
    omega
  rcases Nat.lt_trichotomy t t' with hlt | he | hlt
  · exact (key hlt ht' h'.1 h.2).elim
  · exact he
  · exact (key hlt ht h.1 h'.2).elim

/-- **C41.** Whatever the number of goroutines and the schedule, when all are done the slice `nodes`
holds the chunks in order: `NewWithOpts` builds the tree of `Rope.newWithOpts`. -/
theorem C41_schedules (o : Opts) (b : Bytes) (nth : Nat) (hn : 0 < nth) (sch : List Nat) (s : ParSt)
    (hs : (ParSt.init (b.length / o.split) nth).run o b sch = some s) (hd : s.Done) :
    s.nodes = (List.range (b.length / o.split)).map (fun i => some (Rope.chunk o b i)) := by
  have h := parInv_run sch parInv_init hs
  apply List.ext_getElem?
  intro j
  by_cases hj : j < b.length / o.split
  · obtain ⟨t, h1, h2, h3⟩ := bounds_cover hn hj
    have ht : t < s.pcs.length := by rw [h.plen]; exact h1
    have hg := List.getElem?_eq_getElem ht
    obtain ⟨g1, g2, g3, g4⟩ := h.pcs t _ _ hg
    have hde := hd _ (List.getElem_mem ht)
    rw [g4 j h2 (by rw [← g1] at h3; exact Nat.lt_of_lt_of_le h3 hde)]
    simp [hj]
  · rw [List.getElem?_eq_none (by rw [h.nlen]; omega), List.getElem?_eq_none (by simp; omega)]

/-- The number of rounds still to make. -/
def ParSt.todo (s : ParSt) : Nat := (s.pcs.map (fun p => p.2 - p.1)).sum

theorem sum_set : ∀ {l : List Nat} {t x y : Nat}, l[t]? = some x → (l.set t y).sum + x = l.sum + y
  | [], t, x, y, h => by simp at h
  | a :: l, 0, x, y, h => by
    simp only [List.getElem?_cons_zero, Option.some.injEq] at h
    subst h
    simp only [List.set_cons_zero, List.sum_cons]; omega
  | a :: l, t + 1, x, y, h => by
    have := sum_set (l := l) (y := y) (by simpa using h : l[t]? = some x)
    simp only [List.set_cons_succ, List.sum_cons]; omega

theorem le_sum : ∀ {l : List Nat} {x : Nat}, x ∈ l → x ≤ l.sum
  | a :: l, x, h => by
    rw [List.sum_cons]
    rcases List.mem_cons.1 h with rfl | h
    · omega
    · have := le_sum h; omega

theorem step_todo {o : Opts} {b : Bytes} {s s' : ParSt} {t : Nat} (hs : s.step o b t = some s') :
    s'.todo + 1 = s.todo := by
  unfold ParSt.step at hs
  cases ht : s.pcs[t]? with
  | none => rw [ht] at hs; cases hs
  | some p =>
    obtain ⟨i, e⟩ := p
    rw [ht] at hs
    simp only [] at hs
    split at hs
    · cases hs
      unfold ParSt.todo
      have h1 : (s.pcs.map (fun p => p.2 - p.1))[t]? = some (e - i) := by simp [ht]
      have := sum_set (y := e - (i + 1)) h1
      simp only [List.map_set]
      omega
    · cases hs

theorem run_todo {o : Opts} {b : Bytes} : ∀ (sch : List Nat) {s s' : ParSt},
    s.run o b sch = some s' → s'.todo + sch.length = s.todo
  | [], s, s', hs => by cases hs; rfl
  | t :: sch, s, s', hs => by
    simp only [ParSt.run] at hs
    cases h1 : s.step o b t with
    | none => rw [h1] at hs; cases hs
    | some s₁ =>
      rw [h1] at hs
      have := run_todo sch hs
      have := step_todo h1
      simp only [List.length_cons]; omega

theorem todo_init_aux (nchunks q n : Nat) : ∀ m, m < n →
    (((List.range m).map (fun t => (t * q,
      if t = n - 1 then nchunks else t * q + q))).map (fun p : Nat × Nat => p.2 - p.1)).sum = m * q
  | 0, _ => by simp
  | m + 1, h => by
    rw [List.range_succ, List.map_append, List.map_append, List.sum_append,
      todo_init_aux nchunks q n m (by omega), Nat.succ_mul]
    simp only [List.map_cons, List.map_nil, List.sum_cons, List.sum_nil]
    rw [if_neg (by omega)]
    omega

theorem todo_init {nchunks nth : Nat} (hn : 0 < nth) : (ParSt.init nchunks nth).todo = nchunks := by
  obtain ⟨n, rfl⟩ : ∃ n, nth = n + 1 := ⟨nth - 1, by omega⟩
  have h1 : (n + 1) * (nchunks / (n + 1)) ≤ nchunks := Nat.mul_div_le nchunks (n + 1)
  rw [Nat.succ_mul] at h1
  have := todo_init_aux nchunks (nchunks / (n + 1)) (n + 1) n (by omega)
  simp only [ParSt.todo, ParSt.init]
  show (((List.range (n + 1)).map (fun t => (t * (nchunks / (n + 1)),
      if t = n + 1 - 1 then nchunks else t * (nchunks / (n + 1)) + nchunks / (n + 1)))).map
      (fun p : Nat × Nat => p.2 - p.1)).sum = nchunks
  rw [List.range_succ, List.map_append, List.map_append, List.sum_append, this]
  simp only [List.map_cons, List.map_nil, List.sum_cons, List.sum_nil]
  rw [if_pos (by omega)]
  generalize nchunks / (n + 1) = q at *
  omega

/-- No schedule deadlocks or runs forever: one that has made fewer rounds than there are chunks can
be continued, and after as many rounds as chunks all goroutines are done. -/
theorem C41_terminates (o : Opts) (b : Bytes) (nth : Nat) (hn : 0 < nth) (sch : List Nat) (s : ParSt)
    (hs : (ParSt.init (b.length / o.split) nth).run o b sch = some s) :
    sch.length ≤ b.length / o.split ∧
    (sch.length = b.length / o.split → s.Done) ∧
    (sch.length < b.length / o.split → ∃ t s', s.step o b t = some s') := by
  have h := run_todo sch hs
  rw [todo_init hn] at h
  refine ⟨by omega, fun he p hp => ?_, fun hlt => ?_⟩
  · have h0 : s.todo = 0 := by omega
    have : p.2 - p.1 ≤ s.todo := by
      unfold ParSt.todo
      exact le_sum (List.mem_map_of_mem (f := fun p : Nat × Nat => p.2 - p.1) hp)
    omega
  · apply Classical.byContradiction
    intro hno
    have hz : ∀ p ∈ s.pcs, p.2 - p.1 = 0 := by
      intro p hp
      obtain ⟨t, ht⟩ := List.getElem?_of_mem hp
      apply Nat.sub_eq_zero_of_le
      apply Nat.le_of_not_lt
      intro hh
      apply hno
      refine ⟨t, ⟨s.nodes.set p.1 (some (Rope.chunk o b p.1)), s.pcs.set t (p.1 + 1, p.2)⟩, ?_⟩
      unfold ParSt.step
      rw [ht]
      exact if_pos hh
    have h0 : s.todo = 0 := by
      unfold ParSt.todo
      rw [List.sum_eq_zero_iff_forall_eq_nat]
      intro x hx
      obtain ⟨p, hp, rfl⟩ := List.mem_map.1 hx
      exact hz p hp
    omega

/-- Five chunks, three goroutines, interleaved. -/
example : ∃ s, (ParSt.init 5 3).run o₁ (List.replicate 16 7) [2, 0, 2, 1, 2] = some s ∧ s.Done :=
  ⟨_, rfl, by show ∀ p ∈ [(1, 1), (2, 2), (5, 5)], p.2 ≤ p.1; decide⟩

/-! ## C49 -/

/-- Specification of a sequence of `Write` calls that stops at the first error: the number of bytes
reported, whether the last call failed, the state of the writer. -/
def feed {σ : Type} (w : Rope.Writer σ) : List Bytes → Nat → σ → Nat × Bool × σ
  | [], n, s => (n, false, s)
  | v :: vs, n, s =>
    let r := w v s
    if r.2.1 then (n + r.1, true, r.2.2) else feed w vs (n + r.1) r.2.2

theorem feed_append {σ : Type} (w : Rope.Writer σ) : ∀ (vs us : List Bytes) (n : Nat) (s : σ),
    feed w (vs ++ us) n s =
      if (feed w vs n s).2.1 then feed w vs n s else feed w us (feed w vs n s).1 (feed w vs n s).2.2
  | [], us, n, s => rfl
  | v :: vs, us, n, s => by
    simp only [List.cons_append, feed]
    split
    · simp
    · exact feed_append w vs us _ _

/-- The texts of the leaves, from left to right. -/
def leaves : Rope → List Bytes
  | .leaf _ v _ _ => [v]
  | .node _ _ _ l r => leaves l ++ leaves r
  | .broken _ _ _ _ => []

theorem leaves_flatten {P : Opts → Prop} : ∀ {r : Rope} {t : Bytes}, Rope.WF P r t →
    (leaves r).flatten = t ∧ leaves r ≠ []
  | .leaf _ v _ _, t, ⟨_, h, _, _⟩ => by simp [leaves, h]
  | .node _ _ _ l r, t, ⟨_, _, _, a, b, h, h1, h2⟩ => by
    simp [leaves, (leaves_flatten h1).1, (leaves_flatten h2).1, h, (leaves_flatten h1).2]

theorem eachLeaf_feed {σ : Type} (w : Rope.Writer σ) {P : Opts → Prop} : ∀ {r : Rope} {t : Bytes},
    Rope.WF P r t → ∀ (n : Nat) (e : Bool) (s : σ),
    r.eachLeaf (σ := Nat × Bool × σ) (fun v (tot, _, s) =>
      let (n, err, s) := w v s
      (err, (tot + n, err, s))) (n, e, s) =
      some ((feed w (leaves r) n s).2.1, feed w (leaves r) n s)
  | .leaf _ v _ _, t, _, n, e, s => by
    simp only [Rope.eachLeaf, leaves, feed]
    split
    · rename_i h; simp [h]
    · rename_i h
      have h : (w v s).2.1 = false := by simpa using h
      simp [h]
  | .node _ _ _ l r, t, ⟨_, _, _, a, b, h, h1, h2⟩, n, e, s => by
    simp only [Rope.eachLeaf, leaves]
    rw [eachLeaf_feed w h1, feed_append]
    by_cases hc : (feed w (leaves l) n s).2.1 = true
    · rw [if_pos hc, hc]; rfl
    · rw [if_neg hc]
      have hc' : (feed w (leaves l) n s).2.1 = false := by simpa using hc
      have := eachLeaf_feed w h2 (feed w (leaves l) n s).1 (feed w (leaves l) n s).2.1
        (feed w (leaves l) n s).2.2
      show (if (feed w (leaves l) n s).2.1 = true then _ else _) = _
      rw [if_neg hc]
      exact this

/-- **C49.** `WriteTo` hands the text over piece by piece: for every writer, its effect, count and
error are those of a sequence of `Write` calls whose arguments concatenate to the text, up to the
first error. -/
theorem C49_writeTo (ops : List Op) (ts : List Bytes) (h : textAlg.run [] ops = some ts) :
    ∃ rs, ropeAlg.run [] ops = some rs ∧ rs.length = ts.length ∧
      ∀ (i : Nat) (r : Rope) (t : Bytes), rs[i]? = some r → ts[i]? = some t →
        ∃ vs, vs.flatten = t ∧ ∀ (σ : Type) (w : Rope.Writer σ) (s : σ),
          r.writeTo w s = some (feed w vs 0 s) := by
  obtain ⟨rs, e1, e2⟩ := history (P := fun o => 0 < o.split) (fun _ h => h)
    (fun b o _ h0 => Nat.pos_of_ne_zero h0) h
  refine ⟨rs, e1, e2.length, fun i r t hr ht => ?_⟩
  have hw := e2.get' hr ht
  refine ⟨leaves r, (leaves_flatten hw).1, fun σ w s => ?_⟩
  unfold Rope.writeTo
  rw [eachLeaf_feed w hw 0 false s]; rfl

/-- A writer that takes everything receives exactly the text and the count is its length. -/
theorem C49_copies (ops : List Op) (ts : List Bytes) (h : textAlg.run [] ops = some ts) :
    ∃ rs, ropeAlg.run [] ops = some rs ∧ ∀ (i : Nat) (r : Rope) (t : Bytes), rs[i]? = some r →
      ts[i]? = some t →
      r.writeTo (fun v (s : Bytes) => (v.length, false, s ++ v)) [] = some (t.length, false, t) := by
  obtain ⟨rs, e1, -, e2⟩ := C49_writeTo ops ts h
  refine ⟨rs, e1, fun i r t hr ht => ?_⟩
  obtain ⟨vs, rfl, e3⟩ := e2 i r t hr ht
  rw [e3]
  have : ∀ (vs : List Bytes) (n : Nat) (s : Bytes),
      feed (fun v (s : Bytes) => (v.length, false, s ++ v)) vs n s =
        (n + vs.flatten.length, false, s ++ vs.flatten) := by
    intro vs
    induction vs with
    | nil => intro n s; simp [feed]
    | cons v vs ih =>
      intro n s
      simp only [feed]
      rw [if_neg (by simp), ih]
      simp [Nat.add_assoc]
  rw [this]; simp

/-- A writer that fails on its second call. -/
example : ∃ r, ropeAlg.run [] script₁ = some [r] ∧
    r.writeTo (fun v (s : Nat) => (v.length, decide (s = 3), s + 1)) 0 = some (6, true, 4) :=
  ⟨_, rfl, by decide⟩

end Gpeg.Linerope
