import Verif.Local
import Verif.Props.Memo
/-!
# Property C28: incremental reparsing
-/
namespace Gpeg
variable {σ : Type}

/-! ## Memoized patterns are local -/

/-- The evaluation of a memoized pattern only depends on what was looked at. -/
def Occ.Local (chk : CheckFn σ) (o : Occ) : Prop :=
  ∀ {d d' : List UInt8} {a b L : Nat}, Agree d d' a b L → ∀ (n i : Nat) (w : World σ) (e : Ev σ),
    eval n ⟨d, chk, false⟩ o.env o.q (a + i) w = some e → e.2.1 ≤ a + L →
    LocalAt a b e (eval n ⟨d', chk, false⟩ o.env o.q (b + i) w)

/-- All bodies of memoized nodes pass the test, and there are no grammars within the pattern. -/
def Pat.memosB (f : Pat → Bool) : Pat → Bool
  | .alt l r | .seq l r => l.memosB f && r.memosB f
  | .star p | .plus p | .opt p | .not p | .and p | .cap p _ | .inl _ p
  | .check p _ _ _ | .errRec _ p | .search p => p.memosB f
  | .memo p _ => f p && p.memosB f
  | .dot _ | .err _ | .nonterm _ | .cls _ | .lit _ | .emptyOp _ | .empty => true
  | .grammar _ _ => false

/-- The same for definitions. -/
def Defs.memosB (f : Pat → Bool) : Defs → Bool
  | .nil => true
  | .cons _ p rest => p.memosB f && rest.memosB f

theorem Pat.memosB_sound {f : Pat → Bool} {env : Env} : ∀ p : Pat, p.memosB f = true →
    ∀ o ∈ p.memos env, o.env = env ∧ f o.q = true
  | .alt l r, hp, o, ho | .seq l r, hp, o, ho => by
    simp only [Pat.memosB, Bool.and_eq_true] at hp
    rcases List.mem_append.1 ho with ho | ho
    · exact Pat.memosB_sound l hp.1 o ho
    · exact Pat.memosB_sound r hp.2 o ho
  | .star p, hp, o, ho | .plus p, hp, o, ho | .opt p, hp, o, ho | .not p, hp, o, ho | .and p, hp, o, ho
  | .cap p _, hp, o, ho | .inl _ p, hp, o, ho | .check p _ _ _, hp, o, ho | .errRec _ p, hp, o, ho
  | .search p, hp, o, ho => Pat.memosB_sound p (by simpa only [Pat.memosB] using hp) o ho
  | .memo p id, hp, o, ho => by
    simp only [Pat.memosB, Bool.and_eq_true] at hp
    rcases List.mem_cons.1 ho with rfl | ho
    · exact ⟨rfl, hp.1⟩
    · exact Pat.memosB_sound p hp.2 o ho
  | .dot _, _, o, ho | .err _, _, o, ho | .nonterm _, _, o, ho | .cls _, _, o, ho | .lit _, _, o, ho
  | .emptyOp _, _, o, ho | .empty, _, o, ho => by cases ho

theorem Defs.memosB_sound {f : Pat → Bool} {env : Env} : ∀ ds : Defs, ds.memosB f = true →
    ∀ o ∈ ds.memos env, o.env = env ∧ f o.q = true
  | .nil, _, o, ho => by cases ho
  | .cons _ p rest, hp, o, ho => by
    simp only [Defs.memosB, Bool.and_eq_true] at hp
    rcases List.mem_append.1 ho with ho | ho
    · exact p.memosB_sound hp.1 o ho
    · exact rest.memosB_sound hp.2 o ho

theorem memos_covered_of_tests {chk : CheckFn σ} {S P : String → Bool} {K : Nat → Int → Int → Bool} {start : String} {ds : Defs}
    (hP : ds.allB P (Pat.peeks P) = true) (hK : ∀ k id flag, K k id flag = true → Textual chk k id flag)
    (hS : ds.allB S (Pat.covB S P K false) = true) (hm : ds.memosB (Pat.covB S P K false) = true) :
    ∀ o ∈ (Pat.grammar start ds).memos [], Covered chk o.env o.q := by
  intro o ho
  obtain ⟨h1, h2⟩ := ds.memosB_sound (env := [ds]) hm o ho
  rw [h1]
  exact covered_of_test hP hK hS h2

/-- The test without checkers, and without non-terminals that look at the byte they start from. -/
theorem memos_covered_of_test {chk : CheckFn σ} {S : String → Bool} {start : String} {ds : Defs}
    (hS : ds.allB S (Pat.covB S (fun _ => false) (fun _ _ _ => false) false) = true)
    (hm : ds.memosB (Pat.covB S (fun _ => false) (fun _ _ _ => false) false) = true) :
    ∀ o ∈ (Pat.grammar start ds).memos [], Covered chk o.env o.q := by
  refine memos_covered_of_tests ?_ (fun _ _ _ h => by cases h) hS hm
  clear hS hm
  induction ds using Defs.rec (motive_1 := fun _ => True) with
  | nil => rfl
  | cons n p rest _ ih => simpa [Defs.allB] using ih
  | _ => trivial

theorem memoOcc_local {chk : CheckFn σ} {k : Nat} {p : Pat} {s s' : CState} {raw : Program} (hc : CM.Ok (compileF k p) s raw s')
    (hs : p.Scoped) (hl : ∀ o ∈ p.memos [], Covered chk o.env o.q) : ∀ o ∈ memoOcc k [] p s, o.Local chk := by
  have hP : OccInv σ (fun o => o.Local chk) := by
    intro id q e q' e' heq hloc d d' a b L hag n i w ev hev hf
    have hev' : eval n ⟨d, chk, false⟩ e' q' (a + i) w = some ev := hev
    rw [heq] at hev'
    have := hloc hag n i w ev hev' hf
    show LocalAt a b ev (eval n ⟨d', chk, false⟩ e' q' (b + i) w)
    rw [heq]
    exact this
  have h := memoOcc_of hP k (env := []) hc hs fun o ho => by
    obtain ⟨X, hX, hq⟩ := hl o ho
    intro d d' a b L hag n i w e he hf
    exact eval_local hX hag n false o.env o.q i w e hq (fun h => by cases h) he hf
  intro o ho
  cases hst : o.star with
  | false => exact h.plain o ho hst
  | true =>
    obtain ⟨⟨id, h1⟩, _⟩ := h.star o ho hst
    exact h1

section
variable {d d' : List UInt8} {a b L : Nat} {chk : CheckFn σ} {o : Occ}

theorem Occ.Local.evals (h : o.Local chk) (hag : Agree d d' a b L) {i : Nat} {w : World σ} {e : Ev σ}
    (he : Evals ⟨d, chk, false⟩ o.env o.q (a + i) w e) (hf : e.2.1 ≤ a + L) :
    (∃ f, Evals ⟨d', chk, false⟩ o.env o.q (b + i) w (e.1.move a b, f, e.2.2)) ∧ ∀ x cs, e.1 = .ok x cs → a ≤ x := by
  obtain ⟨n, he⟩ := he
  obtain ⟨⟨f, h1⟩, h2⟩ := h hag n i w e he hf
  exact ⟨⟨f, n, h1⟩, h2⟩

theorem Occ.Local.iter (h : o.Local chk) (hag : Agree d d' a b L) {pos pos' far : Nat} {w w' : World σ}
    {cs : List CTree} (hi : Iter ⟨d, chk, false⟩ o.env o.q pos w pos' cs far w') (hf : far ≤ a + L) (hpos : a ≤ pos) :
    (∃ f, Iter ⟨d', chk, false⟩ o.env o.q (pos + b - a) w (pos' + b - a) (CTree.moveL a b cs) f w') ∧ a ≤ pos' := by
  induction hi with
  | one hev =>
    rename_i p1 _ _ _ _ _
    obtain ⟨i, rfl⟩ := Nat.exists_eq_add_of_le hpos
    obtain ⟨⟨f, h1⟩, h2⟩ := h.evals hag hev hf
    refine ⟨⟨f, .one ?_⟩, h2 _ _ rfl⟩
    rw [show a + i + b - a = b + i by omega]
    exact h1
  | trans _ _ ih1 ih2 =>
    obtain ⟨⟨f1, h1⟩, h2⟩ := ih1 (by omega) hpos
    obtain ⟨⟨f2, h3⟩, h4⟩ := ih2 (by omega) h2
    refine ⟨⟨max f1 f2, ?_⟩, h4⟩
    rw [CTree.moveL_append]
    exact .trans h1 h3

theorem EntOK.move (h : o.Local chk) (hq : o.Quiet chk) {ent : MEntry} {f : Nat} (hag : Agree d d' a b ent.examined)
    (he : EntOK ⟨d, chk, false⟩ True o a ent f) : EntOK ⟨d', chk, false⟩ False o b ((⟨a, ent⟩ : TEnt).at b) 0 := by
  obtain ⟨far, h1, h2⟩ := he
  have hfar := (h1 trivial).1
  split at h2
  · rename_i hst
    obtain ⟨n, h3, h4⟩ := h2
    have key : ∀ w, ∃ f, Iter ⟨d', chk, false⟩ o.env o.q b w (b + n) (CTree.moveL a b (Capture.treesL ent.captures)) f w := by
      intro w
      obtain ⟨⟨f, h5⟩, _⟩ := h.iter hag (h4 w) hfar (Nat.le_refl _)
      rw [show a + b - a = b by omega, show a + n + b - a = b + n by omega] at h5
      exact ⟨f, h5⟩
    by_cases hw : Nonempty (World σ)
    · obtain ⟨w0⟩ := hw
      obtain ⟨f0, hf0⟩ := key w0
      refine ⟨f0, False.elim, ?_⟩
      rw [if_pos hst]
      refine ⟨n, h3, fun w => ?_⟩
      simp only [TEnt.at, Capture.treesL_shift]
      exact hq.iter hf0 w
    · refine ⟨0, False.elim, ?_⟩
      rw [if_pos hst]
      exact ⟨n, h3, fun w => absurd ⟨w⟩ hw⟩
  · rename_i hst
    have key : ∀ w, ∃ f, Evals ⟨d', chk, false⟩ o.env o.q b w (match ent.length with
        | none => .fail
        | some n => .ok (b + n) (CTree.moveL a b (Capture.treesL ent.captures)), f, w) := by
      intro w
      obtain ⟨⟨f, h5⟩, _⟩ := h.evals hag (i := 0) (h2 w) hfar
      refine ⟨f, ?_⟩
      cases hl : ent.length with
      | none => rw [hl] at h5; exact h5
      | some n =>
        rw [hl] at h5
        simp only [Res.move] at h5
        rw [show a + n + b - a = b + n by omega] at h5
        exact h5
    by_cases hw : Nonempty (World σ)
    · obtain ⟨w0⟩ := hw
      obtain ⟨f0, hf0⟩ := key w0
      refine ⟨f0, False.elim, ?_⟩
      rw [if_neg hst]
      intro w
      simp only [TEnt.at, Capture.treesL_shift]
      exact hq.evals hf0 w
    · refine ⟨0, False.elim, ?_⟩
      rw [if_neg hst]
      exact fun w => absurd ⟨w⟩ hw

end

/-! ## Edits -/

/-- Replace the bytes from `start` to `stop` by `ins`. -/
structure TextEdit where
  start : Nat
  stop : Nat
  ins : List UInt8

/-- The text after the edit. -/
def TextEdit.text (e : TextEdit) (d : List UInt8) : List UInt8 := d.take e.start ++ e.ins ++ d.drop e.stop

/-- What `ApplyEdit` is told about it. -/
def TextEdit.edit (e : TextEdit) : Edit := ⟨e.start, e.stop, e.ins.length⟩

/-- A table and a text to which the same edits were applied, each within the text; all but the first (`b` tells
if there was one) do not make the text shorter. -/
inductive Edited (T₀ : TreeTable) (d₀ : List UInt8) : Bool → TreeTable → List UInt8 → Prop
  | none : Edited T₀ d₀ false T₀ d₀
  | edit {b : Bool} {T : TreeTable} {d : List UInt8} (e : TextEdit) : Edited T₀ d₀ b T d → e.start ≤ e.stop →
      e.stop ≤ d.length → (b = true → e.stop - e.start ≤ e.ins.length) →
      Edited T₀ d₀ true (T.applyEdit e.edit) (e.text d)

theorem TextEdit.get_before {e : TextEdit} {d : List UInt8} (h2 : e.start ≤ d.length) {i : Nat} (hi : i < e.start) :
    (e.text d)[i]? = d[i]? := by
  unfold TextEdit.text
  rw [List.append_assoc, List.getElem?_append_left (by simp; omega), List.getElem?_take_of_lt hi]

theorem TextEdit.get_after {e : TextEdit} {d : List UInt8} (h1 : e.start ≤ e.stop) (h2 : e.stop ≤ d.length) {i : Nat}
    (hi : e.stop ≤ i) : (e.text d)[i + e.ins.length - (e.stop - e.start)]? = d[i]? := by
  unfold TextEdit.text
  rw [List.getElem?_append_right (by simp; omega), List.getElem?_drop]
  congr 1
  simp only [List.length_append, List.length_take]
  omega

theorem TextEdit.agree_before {e : TextEdit} {d : List UInt8} (h2 : e.start ≤ d.length) {a L : Nat}
    (h : a + L < e.start) : Agree d (e.text d) a a L where
  at' i hi := (e.get_before h2 (by omega)).symm
  before := by
    rcases Nat.eq_zero_or_pos a with h0 | h0
    · exact Or.inl ⟨h0, h0⟩
    · exact Or.inr ⟨h0, h0, (e.get_before h2 (by omega)).symm⟩

theorem TextEdit.agree_after {e : TextEdit} {d : List UInt8} (h1 : e.start ≤ e.stop) (h2 : e.stop ≤ d.length) {a L : Nat}
    (h : e.stop < a) : Agree d (e.text d) a (a + e.ins.length - (e.stop - e.start)) L where
  at' i _ := by
    rw [show a + e.ins.length - (e.stop - e.start) + i = a + i + e.ins.length - (e.stop - e.start) by omega]
    exact (e.get_after h1 h2 (by omega)).symm
  before := by
    refine Or.inr ⟨by omega, by omega, ?_⟩
    rw [show a + e.ins.length - (e.stop - e.start) - 1 = a - 1 + e.ins.length - (e.stop - e.start) by omega]
    exact (e.get_after h1 h2 (by omega)).symm

/-- An entry stored when the text was `d₀`, now that it is `d`. -/
def MovedOK (c : Ctx σ) (occs : List Occ) (f : Nat) (d : List UInt8) (s : Slot TEnt) : Prop :=
  ∃ pos : Nat, s.low = pos ∧ s.high - s.low = s.val.ent.examined ∧
    Agree c.data d s.val.start pos s.val.ent.examined ∧ ∀ o ∈ occs, o.id = s.id → EntOK c True o s.val.start s.val.ent f

theorem SlotOK.moved {c : Ctx σ} {occs : List Occ} {f : Nat} {s : Slot TEnt} (h : SlotOK c True occs f s) :
    MovedOK c occs f c.data s := by
  obtain ⟨pos, h1, h2, h3, h4⟩ := h
  have h3 := h3 trivial
  subst h3
  refine ⟨_, h1, h2, Agree.refl _ _ _, fun o ho hid => ?_⟩
  have := h4 o ho hid
  simp only [TEnt.at, Capture.shiftL_self] at this
  exact this

theorem Edited.inv {c : Ctx σ} {occs : List Occ} {f : Nat} {T T' : TreeTable} {d : List UInt8} {b : Bool}
    (hT : TabInv false T (SlotOK c True occs f)) (h : Edited T c.data b T' d) :
    TabInv b T' (MovedOK c occs f d) := by
  induction h with
  | none => exact hT.weaken fun s hs => hs.moved
  | @edit b T1 d1 e _ h1 h2 h3 ih =>
    refine (TabInv.edit ih e.edit h1 h3).weaken ?_
    rintro s' ⟨s, ⟨pos, g1, g2, g3, g4⟩, hfol⟩
    have hhi : e.start ≤ e.edit.high ∧ e.stop ≤ e.edit.high := by
      unfold Edit.high TextEdit.edit
      simp only []
      split <;> omega
    unfold LazyLog.follow at hfol
    split at hfol
    · cases hfol
    · rename_i hno
      split at hfol
      · rename_i hlt
        cases hfol
        have hlt' : e.edit.high < pos := by rw [g1] at hlt; omega
        refine ⟨pos + e.ins.length - (e.stop - e.start), ?_, ?_, g3.trans (e.agree_after h1 h2 (by omega)), g4⟩
        · simp only [TextEdit.edit, g1]; omega
        · simp only []; omega
      · rename_i hlt
        have hfol : s = s' := Option.some.inj hfol
        subst hfol
        have hb : pos + s.val.ent.examined < e.start := by
          simp only [TextEdit.edit] at hno hlt hhi ⊢
          omega
        exact ⟨pos, g1, g2, g3.trans (e.agree_before (by omega) hb), g4⟩

/-! ## The theorem -/

section
variable {p : Pat} {code : Code} {chk : CheckFn σ} {d₀ d : List UInt8} {bufsz bufsz₀ : Nat} {st st₀ st₁ : σ} {top : Int}

/-- **C28**, the part that holds: a text is parsed with an empty table, then it is edited (any number of edits, of
which only the first may make the text shorter, with `ApplyEdit` called for each), and then parsed again with the
same table. The second parse gives what a parse of the edited text without a table gives. In memoized parts a `.` must
only stand behind a lookahead that has looked at the byte, and there must be no `Search` (`Covered`). (Missing: other `.`
and `Search` in memoized parts, more than one reparse - the statement is false for them, see below - and several
deletions, for which the table itself is not right, see `C29_false`.) -/
theorem C28_reparse_partial (hc : CompiledAt top p code) (hd : p.Dots1) (hs : p.Scoped) (hchk : CheckOK chk)
    (hm : p.MemosOK chk top) (hl : ∀ o ∈ p.memos [], Covered chk o.env o.q) (hb₀ : 0 < bufsz₀) (hb : 0 < bufsz) {th : Int}
    {T T' : TreeTable} {ok : Bool} {cap : Option Capture} {src : Input} {errs : List PErr} {edited : Bool}
    (h₀ : RunsTree chk code bufsz₀ d₀ (TreeTable.new th) st₀ (.done ok cap src errs T st₁))
    (hed : Edited T d₀ edited T' d) :
    (∀ r, RunsTree chk code bufsz d T' st r → ∃ r', RunsTo chk none code bufsz d st r' ∧ r.view = r'.view) ∧
    (∀ r', RunsTo chk none code bufsz d st r' → ∃ r, RunsTree chk code bufsz d T' st r ∧ r.view = r'.view) := by
  obtain ⟨k, cst, raw, cst', rfl, hc, he⟩ := hc.raw
  have hocc := occsOK_of (chk := chk) hc hs hm
  have hloc := memoOcc_local (chk := chk) hc hs hl
  obtain ⟨_, _, _, hT⟩ := (exec_tree (b := false) hchk hd hs hc he hb₀ (progOK_raw hd hc) hocc _
    (tabInv_new th _) st₀).2 _ h₀
  have hT' := Edited.inv (c := ⟨d₀, chk, false⟩) hT hed
  have hT'' : TabInv edited T' (SlotOK ⟨d, chk, false⟩ False (memoOcc k [] p cst) 0) := by
    refine hT'.weaken ?_
    rintro s ⟨pos, g1, g2, g3, g4⟩
    exact ⟨pos, g1, g2, False.elim, fun o ho hid => (g4 o ho hid).move (hloc o ho) (hocc.quiet o ho) g3⟩
  have h1 := exec_tree hchk hd hs hc he hb (progOK_raw hd hc) hocc T' hT'' st
  have h2 := exec_none (data := d) (iv := none) hchk hd hs hc he hb st
  refine ⟨fun r hr => ?_, fun r' hr => ?_⟩
  · obtain ⟨e, hev, hx, _⟩ := h1.2 r hr
    obtain ⟨r', hr', hx'⟩ := h2.1 e hev
    exact ⟨r', hr', hx.view_eq hx'⟩
  · obtain ⟨e, hev, hx'⟩ := h2.2 r' hr
    obtain ⟨r, hr, hx, _⟩ := h1.1 e hev
    exact ⟨r, hr, hx.view_eq hx'⟩

end

/-- Tokens that end at a blank (`S <- Memo(< (![ ] .)+ > ' '?)* !.`) meet the hypotheses. -/
example : let p : Pat := .grammar "S" (.cons "S" (.seq (.star (.memo (.seq (.cap (.nonterm "T") 1) (.opt (.lit [32]))) 0)) (.not (.dot 1)))
      (.cons "T" (.plus (.seq (.not (.cls (CSet.new [32]))) (.dot 1))) .nil))
    (∃ code, CompiledAt 0 p code) ∧ p.Dots1 ∧ p.Scoped ∧ p.MemosOK noChk 0 ∧ (∀ o ∈ p.memos [], Covered noChk o.env o.q) ∧
    ∀ T, Edited T [97, 98, 32, 97] true (T.applyEdit ⟨3, 4, 2⟩) [97, 98, 32, 98, 98] := by
  intro p
  refine ⟨⟨_, 20, ⟨0, 0, true⟩, _, _, rfl, rfl, rfl⟩, ?_, ?_, Pat.memosOK_of_pure ?_ ?_ ?_,
    memos_covered_of_test (S := (· == "T")) (by decide) (by decide), fun T => ?_⟩
  · simp [p, Pat.leaves, Defs.leaves, Pat.Dots1]
  · simp [p, Pat.Scoped, Defs.Scoped, Defs.noCap, Pat.noCap]
  · simp [p, Pat.Pure, Pat.leaves, Defs.leaves]
  · simp [p, Pat.memos, Defs.memos]
  · simp [p, Pat.memos, Defs.memos]
  · exact .edit ⟨3, 4, [98, 98]⟩ .none (by decide) (by decide) (fun h => by cases h)

/-- **C28** is false of the code with `Any`: `Memo(. !(. . .))` matches `abc` having looked, as far as the
table knows, at two bytes. When `d` is appended it does not match any more, but the entry is still used. -/
theorem C28_false_any : ∃ p code T T', CompiledAt 0 p code ∧ p.Dots1 ∧
    (∃ cap src, RunsTree noChk code 4096 [97, 98, 99] (TreeTable.new 0) () (.done true cap src [] T ())) ∧
    Edited T [97, 98, 99] true T' [97, 98, 99, 100] ∧
    (∃ src, RunsTo noChk none code 4096 [97, 98, 99, 100] () (.done false none src [] () ())) ∧
    ∃ cap src T'', RunsTree noChk code 4096 [97, 98, 99, 100] T' () (.done true cap src [] T'' ()) :=
  ⟨.memo (.seq (.dot 1) (.not (.seq (.dot 1) (.seq (.dot 1) (.dot 1))))) 0, _, _, _,
    ⟨20, ⟨0, 0, true⟩, _, _, rfl, rfl, rfl⟩, (fun n hn => by simpa [Pat.leaves] using hn),
    ⟨_, _, ⟨30, _, rfl, rfl⟩⟩, .edit ⟨3, 3, [100]⟩ .none (by decide) (by decide) (fun h => by cases h),
    ⟨_, ⟨30, _, rfl, rfl⟩⟩, _, _, _, ⟨30, _, rfl, rfl⟩⟩

/-- The grammar of the next theorem: `O <- Memo([pq] 'r' I)`, `I <- Memo('a' &"bcd")`. -/
def twoReparses : Pat :=
  .memo (.seq (.cls (CSet.new [112, 113])) (.seq (.lit [114]) (.memo (.seq (.lit [97]) (.and (.lit [98, 99, 100]))) 1))) 0

/-- **C28** is false of the code for the second reparse: `prabcd` is parsed, the first byte replaced by `q`, the
text parsed again, the last byte replaced by `x`. The text does not match any more, but the reparse says so. (The
entry of `O` made by the second parse does not know how far the entry of `I`, that it used, had looked.) -/
theorem C28_false_twice : ∃ code T T₁ T₂ T₃, CompiledAt 1 twoReparses code ∧ twoReparses.leaves = [] ∧
    (∃ cap src, RunsTree noChk code 4096 [112, 114, 97, 98, 99, 100] (TreeTable.new 0) () (.done true cap src [] T ())) ∧
    Edited T [112, 114, 97, 98, 99, 100] true T₁ [113, 114, 97, 98, 99, 100] ∧
    (∃ cap src, RunsTree noChk code 4096 [113, 114, 97, 98, 99, 100] T₁ () (.done true cap src [] T₂ ())) ∧
    Edited T₂ [113, 114, 97, 98, 99, 100] true T₃ [113, 114, 97, 98, 99, 120] ∧
    (∃ src, RunsTo noChk none code 4096 [113, 114, 97, 98, 99, 120] () (.done false none src [] () ())) ∧
    ∃ cap src T₄, RunsTree noChk code 4096 [113, 114, 97, 98, 99, 120] T₃ () (.done true cap src [] T₄ ()) :=
  ⟨_, _, _, _, _, ⟨20, ⟨0, 1, true⟩, _, _, rfl, rfl, rfl⟩, (by simp [twoReparses, Pat.leaves]),
    ⟨_, _, ⟨30, _, rfl, rfl⟩⟩, .edit ⟨0, 1, [113]⟩ .none (by decide) (by decide) (fun h => by cases h),
    ⟨_, _, ⟨30, _, rfl, rfl⟩⟩, .edit ⟨5, 6, [120]⟩ .none (by decide) (by decide) (fun h => by cases h),
    ⟨_, ⟨30, _, rfl, rfl⟩⟩, _, _, _, ⟨30, _, rfl, rfl⟩⟩

end Gpeg
