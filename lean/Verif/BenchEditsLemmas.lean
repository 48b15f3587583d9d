import Verif.BenchEdits
/-! # Edits made from the tokens of a text -/
namespace Gpeg
variable {ι τ σ : Type}

/-! ## The result of a run has a dummy at the root -/

theorem Cfg.doFail_root {c : Cfg ι τ σ} : ∀ (l : List Entry) {s s' : VM ι τ σ} {cap : Option Capture},
    Cfg.doFail c s l = .halt true cap s' → False
  | [], s, s', cap, h => by simp [Cfg.doFail] at h
  | e :: l, s, s', cap, h => by
    rw [Cfg.doFail] at h
    split at h
    · cases h
    · exact Cfg.doFail_root l h
    · exact Cfg.doFail_root l h
    · exact Cfg.doFail_root l h
    · exact Cfg.doFail_root l h
    · cases h

theorem Cfg.exec1_root {c : Cfg ι τ σ} {tgt : Nat → Nat} {i : Insn} {nxt : Nat} {s s' : VM ι τ σ} {cap : Option Capture}
    (h : c.exec1 tgt i nxt s = .halt true cap s') : ∃ a n ch, cap = some (.dummy a n ch) := by
  cases i
  case endI fl =>
    simp only [Cfg.exec1, Out.halt.injEq] at h
    obtain ⟨_, rfl, _⟩ := h
    split <;> exact ⟨_, _, _, rfl⟩
  all_goals
    simp only [Cfg.exec1, Cfg.fail] at h
    repeat' split at h
    all_goals first | cases h | exact (Cfg.doFail_root _ h).elim

theorem runsTree_root {chk : CheckFn σ} {code : Code} {bufsz : Nat} {data : List UInt8} {T T' : TreeTable} {st st' : σ}
    {cap : Option Capture} {src : Input} {errs : List PErr} (h : RunsTree chk code bufsz data T st (.done true cap src errs T' st')) :
    ∃ a n ch, cap = some (.dummy a n ch) := by
  obtain ⟨k, o, h, hr⟩ := h
  generalize initVM _ _ _ _ = s at h
  induction k generalizing s with
  | zero => cases h
  | succ k ih =>
    rw [runOut] at h
    split at h
    · exact ih _ h
    · rename_i o' _
      cases h
      cases ho : stepB (⟨chunkedOps, treeTable, chk, none⟩ : Cfg Input TreeTable σ) code s with
      | next _ => rw [ho] at hr; cases hr
      | panic => rw [ho] at hr; cases hr
      | halt b c t =>
        rw [ho] at hr
        simp only [Out.res, Option.some.injEq, XRes.done.injEq] at hr
        obtain ⟨rfl, rfl, _⟩ := hr
        unfold stepB at ho
        split at ho
        · cases ho
        · exact Cfg.exec1_root ho

namespace Bench
open Linerope Linerope.Text

/-! ## Tokens -/

theorem lexF_mem : ∀ {k pos : Nat} {t : Bytes} {id : Int} {s n : Nat} {ch : List CTree}, CTree.node id s n ch ∈ lexF k pos t →
    ch = [] ∧ ∃ a b m, t = a ++ b ∧ s = pos + a.length ∧ tokenOf b = some (m, some (id, n))
  | 0, _, _, _, _, _, _, h => by cases h
  | k + 1, _, [], _, _, _, _, h => by cases h
  | k + 1, pos, x :: t, id, s, n, ch, h => by
    rw [lexF] at h
    split at h
    · rename_i m c ht
      rcases List.mem_append.1 h with h | h
      · cases c with
        | none => cases h
        | some c =>
          simp only [Option.toList_some, List.map_cons, List.map_nil, List.mem_singleton, CTree.node.injEq] at h
          obtain ⟨rfl, rfl, rfl, rfl⟩ := h
          exact ⟨rfl, [], _, m, rfl, rfl, ht⟩
      · obtain ⟨h1, a, b, m', h2, h3, h4⟩ := lexF_mem h
        have hb := tokenOf_bounds ht
        refine ⟨h1, (x :: t).take m ++ a, b, m', ?_, ?_, h4⟩
        · rw [List.append_assoc, ← h2, List.take_append_drop]
        · rw [h3, List.length_append, List.length_take]
          omega
    · obtain ⟨h1, a, b, m', h2, h3, h4⟩ := lexF_mem h
      refine ⟨h1, x :: a, b, m', by rw [h2]; rfl, ?_, h4⟩
      rw [h3, List.length_cons]
      omega

theorem upTo_newline : ∀ {l : Bytes} {n : Nat}, upTo [10] l = some n → ∃ c d, l = c ++ 10 :: d ∧ 10 ∉ c ∧ n = c.length + 1
  | [], n, h => by
    rw [upTo, if_neg (by simp)] at h
    cases h
  | x :: l, n, h => by
    rw [upTo] at h
    split at h
    · rename_i hp
      cases h
      obtain ⟨d, hd⟩ := hp
      cases hd
      exact ⟨[], _, rfl, by simp, rfl⟩
    · rename_i hp
      obtain ⟨m, hm, rfl⟩ := Option.map_eq_some_iff.1 h
      obtain ⟨c, d, rfl, h1, rfl⟩ := upTo_newline hm
      refine ⟨x :: c, d, rfl, fun hx => ?_, rfl⟩
      rcases List.mem_cons.1 hx with rfl | hx
      · exact hp ⟨_, rfl⟩
      · exact h1 hx

theorem takeWhile_self {α : Type} {p : α → Bool} : ∀ {l : List α}, (∀ b ∈ l, p b = true) → l.takeWhile p = l
  | [], _ => rfl
  | x :: l, h => by
    rw [List.takeWhile_cons, if_pos (h x List.mem_cons_self), takeWhile_self fun b hb => h b (List.mem_cons_of_mem _ hb)]

theorem takeWhile_sat {α : Type} {p : α → Bool} {b : α} : ∀ {l : List α}, b ∈ l.takeWhile p → p b = true
  | [], h => by cases h
  | x :: l, h => by
    rw [List.takeWhile_cons] at h
    split at h
    · rename_i hx
      rcases List.mem_cons.1 h with rfl | h
      · exact hx
      · exact takeWhile_sat h
    · cases h

theorem wordOf_letters {m : Bytes} (h : ∀ b ∈ m, isLetter b = true) : wordOf m = m := by
  unfold wordOf
  cases m with
  | nil => rfl
  | cons x m =>
    rw [if_pos (by simpa using h x List.mem_cons_self)]
    refine takeWhile_self fun b hb => ?_
    simp [isWordByte, h b hb]

theorem wordOf_wordOf (t : Bytes) : wordOf (wordOf t) = wordOf t := by
  unfold wordOf
  by_cases ht : t.head?.any isLetter = true
  · rw [if_pos ht]
    cases t with
    | nil => rfl
    | cons x t =>
      have hx : isLetter x = true := by simpa using ht
      have hw : isWordByte x = true := by simp [isWordByte, hx]
      rw [List.takeWhile_cons, if_pos hw, if_pos (by simpa using hx)]
      rw [List.takeWhile_cons, if_pos hw]
      congr 1
      refine takeWhile_self fun b hb => ?_
      exact takeWhile_sat hb
  · rw [if_neg ht]
    rfl

theorem tokenOf_cases {b : Bytes} {m : Nat} {id : Int} {n : Nat} (h : tokenOf b = some (m, some (id, n))) :
    (id = 0 ∧ ∃ c d, b = 47 :: 47 :: c ++ 10 :: d ∧ 10 ∉ c ∧ n = c.length + 3) ∨
    (id = 2 ∧ wordOf b ∈ qualWords ∧ n = (wordOf b).length) ∨
    (id = 1 ∧ wordOf b ≠ [] ∧ (b.drop (wordOf b).length).head? = some 40 ∧ n = (wordOf b).length) ∨ id = 3 ∨
    (id = 4 ∧ b.head? = some 10 ∧ n = 1) := by
  unfold tokenOf at h
  split at h
  · rename_i hp
    obtain ⟨d, rfl⟩ := hp
    obtain ⟨k, hk, h⟩ := Option.map_eq_some_iff.1 h
    cases h
    obtain ⟨c, d', h1, h2, rfl⟩ := upTo_newline hk
    refine .inl ⟨rfl, c, d', ?_, h2, rfl⟩
    have h1 : d = c ++ 10 :: d' := h1
    rw [h1]
    rfl
  split at h
  · obtain ⟨k, hk, h⟩ := Option.map_eq_some_iff.1 h
    cases h
  split at h
  · rename_i hq
    cases h
    exact .inr (.inl ⟨rfl, hq, rfl⟩)
  split at h
  · rename_i hq
    cases h
    exact .inr (.inr (.inl ⟨rfl, hq.1, hq.2, rfl⟩))
  split at h
  · obtain ⟨k, hk, h⟩ := Option.map_eq_some_iff.1 h
    cases h
    exact .inr (.inr (.inr (.inl rfl)))
  split at h
  · rename_i hq
    cases h
    exact .inr (.inr (.inr (.inr ⟨rfl, hq, rfl⟩)))
  · cases h

/-- The candidates are tokens. -/
theorem candidates_lex {t : Bytes} {a n : Nat} {ch : List Capture} {id : Int} {c : Capture} (hl : (Capture.dummy a n ch).trees = lex t)
    (hc : c ∈ candidates (.dummy a n ch) id) : CTree.node id c.start c.len [] ∈ lex t ∧
      ∃ x b m, t = x ++ b ∧ c.start = x.length ∧ tokenOf b = some (m, some (id, c.len)) := by
  obtain ⟨h1, h2⟩ := List.mem_filter.1 hc
  have h2 : c.id = id := by simpa using h2
  have h3 : CTree.node id c.start c.len (Capture.treesL c.children) ∈ lex t := by
    rw [← hl, Capture.trees, C35_trees]
    exact List.mem_map.2 ⟨c, h1, by rw [h2]⟩
  obtain ⟨h4, x, b, m, h5, h6, h7⟩ := lexF_mem h3
  rw [h4] at h3
  exact ⟨h3, x, b, m, h5, by simpa using h6, h7⟩

/-! ## Lines -/

theorem line_start (t : Bytes) : ∀ n : Nat, n ≤ t.count 10 → ∃ a b, t = a ++ b ∧ a.count 10 = n ∧ (a = [] ∨ ∃ a', a = a' ++ [10])
  | 0, _ => ⟨[], t, rfl, rfl, .inl rfl⟩
  | n + 1, h => by
    obtain ⟨a, b, rfl, h1, _⟩ := line_start t n (by omega)
    rw [List.count_append] at h
    obtain ⟨c, d, rfl, h2⟩ := List.eq_append_cons_of_mem (List.count_pos_iff.1 (show 0 < b.count 10 by omega))
    refine ⟨a ++ c ++ [10], d, by simp, ?_, .inr ⟨_, rfl⟩⟩
    rw [List.count_append, List.count_append, h1, List.count_eq_zero.2 h2]
    rfl

theorem loc_start {a : Bytes} (h : a = [] ∨ ∃ a', a = a' ++ [10]) : loc 10 a = ⟨a.count 10, 0⟩ := by
  rcases h with rfl | ⟨a', rfl⟩
  · rfl
  · rw [loc_sep, List.count_append]
    rfl

/-- Ropes made with the default options. -/
abbrev DefWF (r : Rope) (t : Bytes) : Prop := Rope.WF (· = ropeOpts) r t

theorem defSep : ∀ o : Opts, o = ropeOpts → o.sep = [10] := fun _ h => by rw [h]; rfl

theorem defSplit : ∀ o : Opts, o = ropeOpts → 0 < o.split := fun _ h => by rw [h]; decide

theorem offset_start {r : Rope} {a b : Bytes} (hr : DefWF r (a ++ b)) (h : a = [] ∨ ∃ a', a = a' ++ [10]) :
    r.offsetAt (a.count 10) 0 = some (a.length : Int) := by
  have := Rope.offsetAt_wf defSep a.length hr (by simp)
  rw [List.take_left' rfl, loc_start h] at this
  exact this

theorem letters : ∀ b ∈ rbytes, isLetter b = true := by decide +kernel

theorem mods : ∀ m ∈ modifiers, m ∈ qualWords := by
  rw [← quals_words]
  decide

/-- An iteration with the right captures. -/
theorem gen_meant {r : Rope} {t : Bytes} {x n : Nat} {ch : List Capture} (hr : DefWF r t) (hl : (Capture.dummy x n ch).trees = lex t)
    {o : Turn} (h : GenEdit r (.dummy x n ch) o) : (o = .panic → 10 ∉ t) ∧ ∀ e, o = .edit e → Meant t e := by
  have hll : r.ll.line = t.count 10 := by rw [hr.ll defSep]; rfl
  have hline : ∀ {line : Int}, 0 ≤ line → line < r.ll.line → ∃ a b, t = a ++ b ∧ (a = [] ∨ ∃ a', a = a' ++ [10]) ∧ 10 ∈ b ∧
      r.offsetAt line 0 = some (a.length : Int) := by
    intro line h1 h2
    obtain ⟨a, b, rfl, h3, h4⟩ := line_start t line.toNat (by omega)
    rw [List.count_append] at hll
    refine ⟨a, b, rfl, h4, List.count_pos_iff.1 (by omega), ?_⟩
    have := offset_start hr h4
    rwa [h3, Int.toNat_of_nonneg h1] at this
  have hcomment : ∀ {c : Capture}, c ∈ candidates (.dummy x n ch) 0 → ∃ a k b, t = a ++ (47 :: 47 :: k ++ [10]) ++ b ∧ 10 ∉ k ∧
      c.start = a.length ∧ CTree.node 0 a.length (k.length + 3) [] ∈ lex t ∧ r.lineColAt c.start = some (loc 10 a) ∧
      r.offsetAt ((loc 10 a).line + 1) 0 = some ((a.length + (k.length + 3) : Nat) : Int) := by
    intro c hc
    obtain ⟨h1, a, b, m, rfl, h2, h3⟩ := candidates_lex hl hc
    rcases tokenOf_cases h3 with ⟨_, k, d, rfl, h4, h5⟩ | ⟨h, _⟩ | ⟨h, _⟩ | h | ⟨h, _⟩
    · have e : a ++ (47 :: 47 :: k ++ 10 :: d) = a ++ (47 :: 47 :: k ++ [10]) ++ d := by simp
      refine ⟨a, k, d, e, h4, h2, by rw [← h2, ← h5]; exact h1, ?_, ?_⟩
      · have := Rope.lineColAt_wf defSep a.length hr (by simp)
        rw [List.take_left' rfl] at this
        rw [h2]
        exact this
      · rw [e] at hr
        have := offset_start hr (.inr ⟨a ++ (47 :: 47 :: k), by simp⟩)
        have hk : (47 :: 47 :: k).count 10 = 0 := by
          rw [List.count_cons_of_ne (by decide), List.count_cons_of_ne (by decide), List.count_eq_zero.2 h4]
        rw [List.count_append, List.count_append, hk] at this
        rw [show (loc 10 a).line + 1 = ((a.count 10 + (0 + List.count 10 [(10 : UInt8)]) : Nat) : Int) by
          show ((a.count 10 : Nat) : Int) + 1 = _
          simp]
        rw [this]
        simp [Nat.add_assoc]
    all_goals cases h
  cases h with
  | lineNone h =>
    refine ⟨fun _ hm => ?_, fun e he => by cases he⟩
    have := List.count_pos_iff.2 hm
    omega
  | lineBad h1 h2 h3 =>
    obtain ⟨a, b, _, _, _, h4⟩ := hline h1 h2
    have := h3 _ h4
    omega
  | line h1 h2 h3 h4 =>
    obtain ⟨a, b, h5, h6, h7, h8⟩ := hline h1 h2
    rw [h8] at h3
    cases h3
    refine ⟨fun h => (by cases h), fun e he => ?_⟩
    cases he
    exact .line h5 h6 h7
  | newline hc =>
    refine ⟨fun h => (by cases h), fun e he => ?_⟩
    cases he
    obtain ⟨h1, a, b, m, h2, h3, h4⟩ := candidates_lex hl hc
    rcases tokenOf_cases h4 with ⟨h, _⟩ | ⟨h, _⟩ | ⟨h, _⟩ | h | ⟨_, h5, h6⟩
    · cases h
    · cases h
    · cases h
    · cases h
    · rw [h6, h3] at h1 ⊢
      cases b with
      | nil => cases h5
      | cons y b =>
        cases h5
        exact .newline h2 h1
  | commentBad hc h =>
    obtain ⟨a, k, b, _, _, _, _, h1, h2⟩ := hcomment hc
    have := h _ _ h1 h2
    omega
  | comment hc h1 h2 h3 =>
    obtain ⟨a, k, b, h4, h5, h6, h7, h8, h9⟩ := hcomment hc
    rw [h8] at h1
    cases h1
    rw [h9] at h2
    cases h2
    refine ⟨fun h => (by cases h), fun e he => ?_⟩
    cases he
    rw [h6]
    exact .comment h4 h5 h7
  | @func c id hc h1 h2 h3 =>
    refine ⟨fun h => (by cases h), fun e he => ?_⟩
    cases he
    obtain ⟨k1, a, b, m, k2, k3, k4⟩ := candidates_lex hl hc
    rcases tokenOf_cases k4 with ⟨h, _⟩ | ⟨h, _⟩ | ⟨_, h5, h6, h7⟩ | h | ⟨h, _⟩
    · cases h
    · cases h
    · obtain ⟨b', hb⟩ := wordOf_prefix b
      rw [h7, k3] at k1 ⊢
      rw [← hb, List.drop_left' (by rw [hb])] at h6
      cases b' with
      | nil => cases h6
      | cons y b' =>
        cases h6
        refine .func (b := b') ?_ h5 (wordOf_wordOf b).symm k1 ?_ (wordOf_letters fun b hb => letters b (h3 b hb)).symm
        · rw [k2, List.append_assoc, hb]
        · intro h0
          rw [h0] at h1
          simp at h1
    · cases h
    · cases h
  | @qual c m' hc h1 =>
    refine ⟨fun h => (by cases h), fun e he => ?_⟩
    cases he
    obtain ⟨k1, a, b, m, k2, k3, k4⟩ := candidates_lex hl hc
    rcases tokenOf_cases k4 with ⟨h, _⟩ | ⟨_, h5, h6⟩ | ⟨h, _⟩ | h | ⟨h, _⟩
    · cases h
    · obtain ⟨b', hb⟩ := wordOf_prefix b
      rw [h6, k3] at k1 ⊢
      exact .qual (b := b') (by rw [k2, List.append_assoc, hb]) h5 k1 (mods _ h1)
    · cases h
    · cases h
    · cases h
  | newlineNone _ => exact ⟨fun h => (by cases h), fun e he => by cases he⟩
  | commentNone _ => exact ⟨fun h => (by cases h), fun e he => by cases he⟩
  | funcNone _ => exact ⟨fun h => (by cases h), fun e he => by cases he⟩
  | qualNone _ => exact ⟨fun h => (by cases h), fun e he => by cases he⟩
  | other => exact ⟨fun h => (by cases h), fun e he => by cases he⟩

/-- Edits that are meant lie within the text. -/
theorem Meant.range {t : Bytes} {e : Linerope.Edit} (h : Meant t e) : e.start ≤ e.stop ∧ e.stop ≤ t.length := by
  cases h with
  | line h _ _ => subst h; simp
  | newline h _ => subst h; simp
  | comment h _ _ => subst h; simp
  | func h _ _ _ _ _ => subst h; simp
  | qual h _ _ _ => subst h; simp

theorem edit_rope {r : Rope} {t : Bytes} {e : Linerope.Edit} (hr : DefWF r t) (h : e.start ≤ e.stop ∧ e.stop ≤ t.length) :
    ∃ r', ((r.remove e.start e.stop).bind fun r => r.insert e.start e.text) = some r' ∧
      DefWF r' (t.take e.start ++ e.text ++ t.drop e.stop) := by
  obtain ⟨r₁, h1, h2⟩ := Rope.remove_wf defSplit e.start e.stop hr h.1 h.2
  have hl : (t.take e.start).length = e.start := by rw [List.length_take]; omega
  obtain ⟨r₂, h3, h4⟩ := Rope.insert_wf defSplit e.text e.start h2 (by rw [List.length_append, hl]; omega)
  refine ⟨r₂, by rw [h1]; exact h3, ?_⟩
  rw [List.take_left' hl, List.drop_left' hl] at h4
  exact h4

end Bench
end Gpeg
