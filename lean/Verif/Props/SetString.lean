import Verif.SetString
import Verif.Props.Charset
/-! # Property C64 (`Set.String`) -/
namespace Gpeg

/-- A run of bytes, as text: one character, or the first and the last with two dots between. -/
def runText (r : Nat × Nat) : List Char :=
  if r.1 = r.2 then quoteRune r.1 else quoteRune r.1 ++ (['.', '.'] ++ quoteRune r.2)

/-- Runs one after the other, with at least one byte between any two. -/
def Separated (rs : List (Nat × Nat)) : Prop :=
  (∀ r ∈ rs, r.1 ≤ r.2 ∧ r.2 ≤ 255) ∧ rs.Pairwise fun r r' => r.2 + 1 < r'.1

/-- The texts with a comma between any two. -/
def commas : List (List Char) → List Char
  | [] => []
  | [t] => t
  | t :: ts => t ++ ',' :: commas ts

/-- The text describes the set: it is a list, in braces, of the longest runs of bytes in the set. -/
def Describes (t : List Char) (s : UInt8 → Prop) : Prop :=
  ∃ rs, Separated rs ∧ (∀ b, s b ↔ ∃ r ∈ rs, r.1 ≤ b.toNat ∧ b.toNat ≤ r.2) ∧
    t = '{' :: (commas (rs.map runText) ++ ['}'])

/-! ## The loop -/

/-- The runs, every one with a comma. -/
def closed (rs : List (Nat × Nat)) : List Char := rs.flatMap fun r => runText r ++ [',']

theorem closed_snoc (rs : List (Nat × Nat)) (r : Nat × Nat) : closed (rs ++ [r]) = closed rs ++ (runText r ++ [',']) := by
  simp [closed]

theorem closed_commas (rs : List (Nat × Nat)) (r : Nat × Nat) : closed rs ++ runText r = commas ((rs ++ [r]).map runText) := by
  induction rs with
  | nil => rfl
  | cons x rs ih =>
    have : (rs ++ [r]).map runText ≠ [] := by simp
    rw [List.cons_append, List.map_cons]
    cases h : (rs ++ [r]).map runText with
    | nil => exact absurd h this
    | cons y ys =>
      rw [commas, ← h, ← ih]
      · simp [closed, List.append_assoc]
      · simp

/-- In one of the runs. -/
def InRuns (rs : List (Nat × Nat)) (x : Nat) : Prop := ∃ r ∈ rs, r.1 ≤ x ∧ x ≤ r.2

/-- The state after the bytes below `n`. -/
inductive LoopAt (has : Nat → Bool) (n : Nat) : List Char × Bool → Prop
  | out (rs : List (Nat × Nat)) : Separated rs → (∀ r ∈ rs, r.2 + 1 < n) → (∀ x, x < n → (has x = true ↔ InRuns rs x)) →
      LoopAt has n (closed rs, false)
  | inn (rs : List (Nat × Nat)) (a : Nat) : Separated rs → a < n → (∀ x, a ≤ x → x < n → has x = true) →
      (∀ r ∈ rs, r.2 + 1 < a) → (∀ x, x < a → (has x = true ↔ InRuns rs x)) →
      LoopAt has n (closed rs ++ (if has (a + 1) then quoteRune a ++ ['.', '.'] else []), true)

theorem Separated.snoc {rs : List (Nat × Nat)} (h : Separated rs) {a b : Nat} (hab : a ≤ b) (hb : b ≤ 255)
    (hl : ∀ r ∈ rs, r.2 + 1 < a) : Separated (rs ++ [(a, b)]) := by
  refine ⟨fun r hr => ?_, ?_⟩
  · rcases List.mem_append.1 hr with hr | hr
    · exact h.1 r hr
    · rcases List.mem_singleton.1 hr with rfl; exact ⟨hab, hb⟩
  · rw [List.pairwise_append]
    refine ⟨h.2, List.pairwise_singleton _ _, fun r hr r' hr' => ?_⟩
    rcases List.mem_singleton.1 hr' with rfl
    exact hl r hr

theorem inRuns_snoc {rs : List (Nat × Nat)} {a b x : Nat} : InRuns (rs ++ [(a, b)]) x ↔ InRuns rs x ∨ (a ≤ x ∧ x ≤ b) := by
  constructor
  · rintro ⟨r, hr, h⟩
    rcases List.mem_append.1 hr with hr | hr
    · exact .inl ⟨r, hr, h⟩
    · rcases List.mem_singleton.1 hr with rfl; exact .inr h
  · rintro (⟨r, hr, h⟩ | h)
    · exact ⟨r, List.mem_append_left _ hr, h⟩
    · exact ⟨_, List.mem_append_right _ (List.mem_singleton.2 rfl), h⟩

/-- The runs do not reach `x`. -/
theorem not_inRuns {rs : List (Nat × Nat)} {n x : Nat} (h : ∀ r ∈ rs, r.2 + 1 < n) (hx : n ≤ x + 1) : ¬InRuns rs x := by
  rintro ⟨r, hr, h1, h2⟩
  have := h r hr
  omega

/-- The open run with its end. -/
theorem open_close {has : Nat → Bool} {a n : Nat} (ha : a < n) (h : ∀ x, a ≤ x → x < n → has x = true) (hn : has n = false ∨ a + 1 < n) :
    (if has (a + 1) then quoteRune a ++ ['.', '.'] else []) ++ quoteRune (n - 1) = runText (a, n - 1) := by
  unfold runText
  simp only []
  by_cases he : a + 1 = n
  · subst he
    rcases hn with hn | hn
    · rw [hn]; simp
    · omega
  · rw [h (a + 1) (by omega) (by omega), if_pos rfl, if_neg (by omega)]
    simp

theorem loopAt_step {has : Nat → Bool} {n : Nat} (hn : n < 255) {st : List Char × Bool} (h : LoopAt has n st) :
    LoopAt has (n + 1) (strStep has st n) := by
  have h255 : (n == 255) = false := by simp; omega
  unfold strStep
  rw [h255, Bool.and_false]
  simp only [Bool.false_eq_true, if_false]
  cases h with
  | out rs h1 h2 h3 =>
    cases hx : has n with
    | true =>
      simp only [Bool.not_false, Bool.and_true, if_true]
      have := LoopAt.inn (has := has) (n := n + 1) rs n h1 (by omega) (fun x hx1 hx2 => by rw [show x = n by omega, hx]) h2 h3
      split
      · rename_i h4; rw [if_pos h4] at this; exact this
      · rename_i h4; rw [if_neg h4, List.append_nil] at this; exact this
    | false =>
      simp only [Bool.false_and, Bool.not_false, Bool.and_false, Bool.false_eq_true, if_false]
      refine .out rs h1 (fun r hr => by have := h2 r hr; omega) fun x hx' => ?_
      by_cases hxn : x = n
      · subst hxn
        rw [hx]
        exact ⟨fun h => (by cases h), fun h => absurd h (not_inRuns h2 (by omega))⟩
      · exact h3 x (by omega)
  | inn rs a h1 h2 h3 h4 h5 =>
    cases hx : has n with
    | true =>
      simp only [Bool.not_true, Bool.and_false, Bool.false_and, Bool.false_eq_true, if_false]
      refine .inn rs a h1 (by omega) (fun x hx1 hx2 => ?_) h4 h5
      by_cases hxn : x = n
      · rw [hxn, hx]
      · exact h3 x hx1 (by omega)
    | false =>
      simp only [Bool.not_true, Bool.and_false, Bool.not_false, Bool.and_true, Bool.false_eq_true, if_false, if_true]
      have e : closed rs ++ (if has (a + 1) then quoteRune a ++ ['.', '.'] else []) ++ (quoteRune (n - 1) ++ [',']) =
          closed (rs ++ [(a, n - 1)]) := by
        rw [closed_snoc, ← open_close h2 h3 (.inl hx)]
        simp only [List.append_assoc]
      rw [e]
      refine .out _ (h1.snoc (by omega) (by omega) h4) (fun r hr => ?_) fun x hx' => ?_
      · rcases List.mem_append.1 hr with hr | hr
        · have := h4 r hr; omega
        · rcases List.mem_singleton.1 hr with rfl; simp only []; omega
      · rw [inRuns_snoc]
        by_cases hxa : x < a
        · rw [h5 x hxa]
          exact ⟨.inl, fun h => h.resolve_right (by omega)⟩
        · by_cases hxn : x = n
          · subst hxn
            rw [hx]
            exact ⟨fun h => (by cases h), fun h => h.elim (fun h => absurd h (not_inRuns h4 (by omega))) (by omega)⟩
          · exact ⟨fun _ => .inr (by omega), fun _ => h3 x (by omega) (by omega)⟩

theorem loopAt_range (has : Nat → Bool) : ∀ n, n ≤ 255 → LoopAt has n ((List.range n).foldl (strStep has) ([], false))
  | 0, _ => .out [] ⟨(fun _ h => by cases h), .nil⟩ (fun _ h => by cases h) (fun x h => by omega)
  | n + 1, h => by
    rw [List.range_succ, List.foldl_append]
    exact loopAt_step (by omega) (loopAt_range has n (by omega))

theorem quoteRune_last (b : Nat) : (quoteRune b).getLast? = some '\'' := by
  unfold quoteRune
  rw [← List.cons_append, List.getLast?_append]
  rfl

theorem runText_last (r : Nat × Nat) (s : List Char) : (s ++ runText r).getLast? = some '\'' := by
  unfold runText
  split
  · rw [List.getLast?_append, quoteRune_last]; rfl
  · rw [← List.append_assoc, ← List.append_assoc, List.getLast?_append, quoteRune_last]; rfl

/-- The text of all the runs. -/
theorem loop_end {has : Nat → Bool} : ∃ rs, Separated rs ∧ (∀ x, x < 256 → (has x = true ↔ InRuns rs x)) ∧
    dropComma ((List.range 256).foldl (strStep has) ([], false)).1 = commas (rs.map runText) := by
  have hr := loopAt_range has 255 (Nat.le_refl _)
  rw [List.range_succ (n := 255), List.foldl_append]
  simp only [List.foldl_cons, List.foldl_nil]
  have hclosed : ∀ rs : List (Nat × Nat), dropComma (closed rs) = commas (rs.map runText) := by
    intro rs
    rcases List.eq_nil_or_concat rs with rfl | ⟨rs, r, rfl⟩
    · rfl
    · rw [List.concat_eq_append, closed_snoc, ← List.append_assoc]
      unfold dropComma
      rw [List.getLast?_concat, if_pos rfl, List.dropLast_concat, closed_commas]
  have hopen : ∀ (rs : List (Nat × Nat)) (r : Nat × Nat), dropComma (closed rs ++ runText r) = commas ((rs ++ [r]).map runText) := by
    intro rs r
    unfold dropComma
    rw [runText_last, if_neg (by decide), closed_commas]
  generalize (List.range 255).foldl (strStep has) ([], false) = st at hr
  unfold strStep
  cases hr with
  | out rs h1 h2 h3 =>
    cases hx : has 255 with
    | true =>
      simp only [beq_self_eq_true, Bool.and_self, if_true]
      refine ⟨rs ++ [(255, 255)], h1.snoc (Nat.le_refl _) (Nat.le_refl _) h2, fun x hx' => ?_, ?_⟩
      · rw [inRuns_snoc]
        by_cases hxn : x = 255
        · subst hxn; rw [hx]; exact ⟨fun _ => .inr (by omega), fun _ => rfl⟩
        · rw [h3 x (by omega)]
          exact ⟨.inl, fun h => h.resolve_right (by omega)⟩
      · rw [show quoteRune 255 = runText (255, 255) from rfl, hopen]
    | false =>
      simp only [Bool.false_and, Bool.and_false, Bool.false_eq_true, if_false]
      refine ⟨rs, h1, fun x hx' => ?_, hclosed rs⟩
      by_cases hxn : x = 255
      · subst hxn; rw [hx]; exact ⟨fun h => (by cases h), fun h => absurd h (not_inRuns h2 (by omega))⟩
      · exact h3 x (by omega)
  | inn rs a h1 h2 h3 h4 h5 =>
    cases hx : has 255 with
    | true =>
      simp only [beq_self_eq_true, Bool.and_self, if_true]
      refine ⟨rs ++ [(a, 255)], h1.snoc (by omega) (Nat.le_refl _) h4, fun x hx' => ?_, ?_⟩
      · rw [inRuns_snoc]
        by_cases hxa : x < a
        · rw [h5 x hxa]
          exact ⟨.inl, fun h => h.resolve_right (by omega)⟩
        · refine ⟨fun _ => .inr (by omega), fun _ => ?_⟩
          by_cases hxn : x = 255
          · rw [hxn, hx]
          · exact h3 x (by omega) (by omega)
      · have := open_close (has := has) (a := a) (n := 256) (by omega) (fun x hx1 hx2 => by
          by_cases hxn : x = 255
          · rw [hxn, hx]
          · exact h3 x hx1 (by omega)) (.inr (by omega))
        rw [List.append_assoc, this, hopen]
    | false =>
      simp only [Bool.false_and, Bool.not_false, Bool.and_true, Bool.false_eq_true, if_false, if_true]
      refine ⟨rs ++ [(a, 254)], h1.snoc (by omega) (by omega) h4, fun x hx' => ?_, ?_⟩
      · rw [inRuns_snoc]
        by_cases hxa : x < a
        · rw [h5 x hxa]
          exact ⟨.inl, fun h => h.resolve_right (by omega)⟩
        · by_cases hxn : x = 255
          · subst hxn; rw [hx]
            exact ⟨fun h => (by cases h), fun h => h.elim (fun h => absurd h (not_inRuns h4 (by omega))) (by omega)⟩
          · exact ⟨fun _ => .inr (by omega), fun _ => h3 x (by omega) (by omega)⟩
      · rw [List.append_assoc, ← List.append_assoc _ _ [','], open_close h2 h3 (.inl hx)]
        rw [← hclosed, closed_snoc]

/-- **C64**: `Set.String` lists the longest runs of bytes of the set, and nothing else. -/
theorem C64_string (c : CSet) : Describes c.string fun b => c.has b = true := by
  obtain ⟨rs, h1, h2, h3⟩ := loop_end (has := c.hasN)
  refine ⟨rs, h1, fun b => ?_, ?_⟩
  · have := h2 b.toNat b.toNat_lt
    unfold CSet.hasN at this
    rw [UInt8.ofNat_toNat] at this
    exact this
  · rw [CSet.string, h3]

/-- The bytes up to `h`, `k`, and the last two. -/
example : ((CSet.range 0 104).add (CSet.new [95, 107, 254, 255])).string = "{'\\x00'..'h','k','\\u00fe'..'\\u00ff'}".toList := by
  decide +kernel

/-! ## The text tells the set -/

theorem quoteRune_free : ((List.range 256).all fun a => (List.range 256).all fun b =>
    a == b || !(quoteRune a).isPrefixOf (quoteRune b)) = true := by
  decide +kernel

theorem quoteRune_cancel {a b : Nat} (ha : a ≤ 255) (hb : b ≤ 255) {u v : List Char} (h : quoteRune a ++ u = quoteRune b ++ v) :
    a = b ∧ u = v := by
  have key : ∀ {a b : Nat}, a ≤ 255 → b ≤ 255 → quoteRune a <+: quoteRune b → a = b := by
    intro a b ha hb hp
    have := List.all_eq_true.1 (List.all_eq_true.1 quoteRune_free a (List.mem_range.2 (by omega))) b (List.mem_range.2 (by omega))
    rw [List.isPrefixOf_iff_prefix.2 hp] at this
    simpa using this
  have hab : a = b := by
    rcases List.append_eq_append_iff.1 h with ⟨w, h1, _⟩ | ⟨w, h1, _⟩
    · exact key ha hb ⟨w, h1.symm⟩
    · exact (key hb ha ⟨w, h1.symm⟩).symm
  subst hab
  exact ⟨rfl, List.append_cancel_left h⟩

theorem runText_cancel {r r' : Nat × Nat} (h1 : r.1 ≤ r.2 ∧ r.2 ≤ 255) (h2 : r'.1 ≤ r'.2 ∧ r'.2 ≤ 255) {u v : List Char}
    (hu : u.head? ≠ some '.') (hv : v.head? ≠ some '.') (h : runText r ++ u = runText r' ++ v) : r = r' ∧ u = v := by
  obtain ⟨a, b⟩ := r
  obtain ⟨a', b'⟩ := r'
  simp only [runText] at h h1 h2
  split at h <;> split at h
  · rename_i e1 e2
    subst e1 e2
    obtain ⟨rfl, rfl⟩ := quoteRune_cancel (by omega) (by omega) h
    exact ⟨rfl, rfl⟩
  · simp only [List.append_assoc] at h
    obtain ⟨rfl, rfl⟩ := quoteRune_cancel (by omega) (by omega) h
    exact absurd rfl hu
  · simp only [List.append_assoc] at h
    obtain ⟨rfl, rfl⟩ := quoteRune_cancel (by omega) (by omega) h
    exact absurd rfl hv
  · simp only [List.append_assoc] at h
    obtain ⟨rfl, h3⟩ := quoteRune_cancel (by omega) (by omega) h
    have h4 := List.append_cancel_left h3
    obtain ⟨rfl, rfl⟩ := quoteRune_cancel (a := b) (b := b') (by omega) (by omega) h4
    exact ⟨rfl, rfl⟩

theorem runText_head (r : Nat × Nat) (u : List Char) : (runText r ++ u).head? = some '\'' := by
  unfold runText
  split <;> rfl

theorem commas_runs_inj : ∀ {rs rs' : List (Nat × Nat)}, (∀ r ∈ rs, r.1 ≤ r.2 ∧ r.2 ≤ 255) → (∀ r ∈ rs', r.1 ≤ r.2 ∧ r.2 ≤ 255) →
    commas (rs.map runText) ++ ['}'] = commas (rs'.map runText) ++ ['}'] → rs = rs'
  | [], [], _, _, _ => rfl
  | [], r :: rs', _, _, h => by
    have h0 : (commas ((r :: rs').map runText) ++ ['}']).head? = some '\'' := by
      cases rs' with
      | nil => exact runText_head r _
      | cons r' rs' => simp only [List.map_cons, commas, List.append_assoc]; exact runText_head r _
    rw [← h] at h0
    cases h0
  | r :: rs, [], _, _, h => by
    have h0 : (commas ((r :: rs).map runText) ++ ['}']).head? = some '\'' := by
      cases rs with
      | nil => exact runText_head r _
      | cons r' rs' => simp only [List.map_cons, commas, List.append_assoc]; exact runText_head r _
    rw [h] at h0
    cases h0
  | [r], [r'], h1, h2, h => by
    obtain ⟨rfl, _⟩ := runText_cancel (h1 r (by simp)) (h2 r' (by simp)) (by decide) (by decide) h
    rfl
  | [r], r' :: x :: rs', h1, h2, h => by
    simp only [List.map_cons, List.map_nil, commas, List.append_assoc] at h
    obtain ⟨_, h⟩ := runText_cancel (h1 r (by simp)) (h2 r' (by simp)) (by simp) (by simp) h
    simp at h
  | r :: x :: rs, [r'], h1, h2, h => by
    simp only [List.map_cons, List.map_nil, commas, List.append_assoc] at h
    obtain ⟨_, h⟩ := runText_cancel (h1 r (by simp)) (h2 r' (by simp)) (by simp) (by simp) h
    simp at h
  | r :: x :: rs, r' :: x' :: rs', h1, h2, h => by
    simp only [List.map_cons, commas, List.append_assoc] at h
    obtain ⟨rfl, h3⟩ := runText_cancel (h1 r (by simp)) (h2 r' (by simp)) (by simp) (by simp) h
    have h := (List.cons.inj h3).2
    have := commas_runs_inj (rs := x :: rs) (rs' := x' :: rs') (fun r hr => h1 r (List.mem_cons_of_mem _ hr))
      (fun r hr => h2 r (List.mem_cons_of_mem _ hr)) h
    rw [this]

/-- **C64**: no text describes two sets, so sets with the same string are equal. -/
theorem C64_unique {t : List Char} {s s' : UInt8 → Prop} (h : Describes t s) (h' : Describes t s') : ∀ b, s b ↔ s' b := by
  obtain ⟨rs, h1, h2, rfl⟩ := h
  obtain ⟨rs', h1', h2', he⟩ := h'
  have := commas_runs_inj h1.1 h1'.1 (List.cons.inj he).2
  subst this
  exact fun b => (h2 b).trans (h2' b).symm

theorem C64_injective {c c' : CSet} (h : c.string = c'.string) : c = c' :=
  CSet.ext_has fun b => by
    have := C64_unique (C64_string c) (h ▸ C64_string c') b
    exact Bool.eq_iff_iff.2 this

end Gpeg
