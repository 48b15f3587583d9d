import Verif.Rx
/-!
# Backtracking semantics of regular expressions

The reference for `Verif/Props/Rx.lean`, independent of the converter and of the pattern semantics:
for each expression and start position the list of all end positions, in the order in which a
backtracking (Perl, leftmost-first) matcher tries them. A text is a list of runes.
-/
namespace Gpeg

/-- Order of the two ways to go on: greedy operators prefer the first. -/
def prefer (lazy : Bool) (xs ys : List Nat) : List Nat := if lazy then ys ++ xs else xs ++ ys

/-- Iteration of `f`, at most `n` times, every time moving forward. -/
def iter (lazy : Bool) (f : Nat → List Nat) : Nat → Nat → List Nat
  | 0, i => [i]
  | n + 1, i => prefer lazy (((f i).filter (i < ·)).flatMap (iter lazy f n)) [i]

/-- Lower case of an ASCII letter. -/
def lower (r : Nat) : Nat := if 65 ≤ r ∧ r ≤ 90 then r + 32 else r

/-- The rune up to case, if `fold`. -/
def foldRune (fold : Bool) (r : Nat) : Nat := if fold then lower r else r

/-- A rune of a word, `\w`. -/
def wordRune (r : Nat) : Bool := (48 ≤ r && r ≤ 57) || (65 ≤ r && r ≤ 90) || r == 95 || (97 ≤ r && r ≤ 122)

/-- Is there a word rune before, after the position? -/
def wordBefore (t : List Nat) (i : Nat) : Bool := 0 < i && (t[i - 1]?).any wordRune
@[inherit_doc wordBefore] def wordAfter (t : List Nat) (i : Nat) : Bool := (t[i]?).any wordRune

/-- One rune that satisfies `f`. -/
def oneRune (t : List Nat) (i : Nat) (f : Nat → Bool) : List Nat := if (t[i]?).any f then [i + 1] else []

/-- Nothing, provided `b` holds. -/
def onlyIf (i : Nat) (b : Bool) : List Nat := if b then [i] else []

mutual
/-- The end positions of the matches of an expression at `i`, most preferred first. -/
def Rx.ends (t : List Nat) : Rx → Nat → List Nat
  | .empty, i => [i]
  | .lit fold rs, i =>
    if rs.map (foldRune fold) <+: (t.drop i).map (foldRune fold) then [i + rs.length] else []
  | .cls rgs, i => oneRune t i fun r => rgs.any fun g => g.1 ≤ r && r ≤ g.2
  | .any, i => oneRune t i fun _ => true
  | .anyNL, i => oneRune t i fun r => r != 10
  | .cat es, i => es.endsCat t i
  | .alt es, i => es.endsAlt t i
  | .cap e, i => e.ends t i
  | .star lazy e, i => iter lazy (e.ends t) (t.length - i) i
  | .plus lazy e, i => (e.ends t i).flatMap fun j => iter lazy (e.ends t) (t.length - j) j
  | .quest lazy e, i => prefer lazy (e.ends t i) [i]
  | .bol, i => onlyIf i (i = 0 ∨ t[i - 1]? = some 10)
  | .eol, i => onlyIf i (i = t.length ∨ t[i]? = some 10)
  | .bot, i => onlyIf i (i = 0)
  | .eot, i => onlyIf i (i = t.length)
  | .wb, i => onlyIf i (wordBefore t i != wordAfter t i)
  | .nwb, i => onlyIf i (wordBefore t i == wordAfter t i)
  | .other, _ => []
/-- One after the other. -/
def Rxs.endsCat (t : List Nat) : Rxs → Nat → List Nat
  | .nil, i => [i]
  | .cons e es, i => (e.ends t i).flatMap (es.endsCat t)
/-- Any of them, the first preferred. -/
def Rxs.endsAlt (t : List Nat) : Rxs → Nat → List Nat
  | .nil, _ => []
  | .cons e es, i => e.ends t i ++ es.endsAlt t i
end

/-- The match a regular expression search finds: the leftmost position with a match, and there the
most preferred match. -/
def Rx.search (t : List Nat) (e : Rx) : Option (Nat × Nat) :=
  (List.range (t.length + 1)).findSome? fun q => (e.ends t q).head?.map fun j => (q, j)

mutual
/-- The expressions for which the conversion is meant: no case folding, no reluctant operators, no
class without runes, no empty alternation. -/
def Rx.Plain : Rx → Prop
  | .lit fold _ => fold = false
  | .cls rgs => rgs ≠ [] ∧ ∀ g ∈ rgs, g.1 ≤ g.2
  | .cat es => es.Plain
  | .alt .nil => False
  | .alt (.cons e es) => e.Plain ∧ es.Plain
  | .cap e => e.Plain
  | .star lazy e | .plus lazy e | .quest lazy e => lazy = false ∧ e.Plain
  | .empty | .any | .anyNL | .bol | .eol | .bot | .eot | .wb | .nwb | .other => True
def Rxs.Plain : Rxs → Prop
  | .nil => True
  | .cons e es => e.Plain ∧ es.Plain
end

mutual
/-- No repeated expression matches the empty string anywhere in the text. -/
def Rx.Progress (t : List Nat) : Rx → Prop
  | .star _ e | .plus _ e => (∀ i ≤ t.length, i ∉ e.ends t i) ∧ e.Progress t
  | .cat es | .alt es => es.Progress t
  | .cap e | .quest _ e => e.Progress t
  | .empty | .lit _ _ | .cls _ | .any | .anyNL | .bol | .eol | .bot | .eot | .wb | .nwb | .other => True
def Rxs.Progress (t : List Nat) : Rxs → Prop
  | .nil => True
  | .cons e es => e.Progress t ∧ es.Progress t
end

mutual
/-- Can the expression match the empty string (syntactically)? -/
def Rx.nullable : Rx → Bool
  | .lit _ rs => rs.isEmpty
  | .cls _ | .any | .anyNL | .other => false
  | .cat es => es.nullableAll
  | .alt es => es.nullableAny
  | .cap e | .plus _ e => e.nullable
  | .empty | .star _ _ | .quest _ _ | .bol | .eol | .bot | .eot | .wb | .nwb => true
def Rxs.nullableAll : Rxs → Bool
  | .nil => true
  | .cons e es => e.nullable && es.nullableAll
def Rxs.nullableAny : Rxs → Bool
  | .nil => false
  | .cons e es => e.nullable || es.nullableAny
end

mutual
/-- No repeated expression is `nullable`. -/
def Rx.loopsOk : Rx → Bool
  | .star _ e | .plus _ e => !e.nullable && e.loopsOk
  | .cat es | .alt es => es.loopsOk
  | .cap e | .quest _ e => e.loopsOk
  | .empty | .lit _ _ | .cls _ | .any | .anyNL | .bol | .eol | .bot | .eot | .wb | .nwb | .other => true
def Rxs.loopsOk : Rxs → Bool
  | .nil => true
  | .cons e es => e.loopsOk && es.loopsOk
end

/-! ## Bounds -/

theorem mem_prefer {lazy : Bool} {xs ys : List Nat} {j : Nat} : j ∈ prefer lazy xs ys ↔ j ∈ xs ∨ j ∈ ys := by
  unfold prefer; split <;> simp [or_comm]

theorem iter_bounds {lazy : Bool} {f : Nat → List Nat} {len : Nat}
    (hf : ∀ i j, i ≤ len → j ∈ f i → i ≤ j ∧ j ≤ len) : ∀ n i j, i ≤ len → j ∈ iter lazy f n i → i ≤ j ∧ j ≤ len := by
  intro n
  induction n with
  | zero => intro i j hi h; simp [iter] at h; omega
  | succ n ih =>
    intro i j hi h
    rcases mem_prefer.1 h with h | h
    · obtain ⟨q, hq, hj⟩ := List.mem_flatMap.1 h
      have hq' := hf i q hi (List.mem_filter.1 hq).1
      have := ih q j hq'.2 hj
      omega
    · simp at h; omega

/-- Enough fuel is as good as more. -/
theorem iter_fuel {lazy : Bool} {f : Nat → List Nat} {len : Nat}
    (hf : ∀ i j, i ≤ len → j ∈ f i → i ≤ j ∧ j ≤ len) : ∀ n m i, i ≤ len → len - i ≤ n → len - i ≤ m →
    iter lazy f n i = iter lazy f m i := by
  have h0 : ∀ m i, i = len → iter lazy f m i = [i] := by
    intro m i hi
    cases m with
    | zero => rfl
    | succ m =>
      have : (f i).filter (i < ·) = [] := by
        rw [List.filter_eq_nil_iff]
        intro j hj
        have := hf i j (by omega) hj
        simp; omega
      simp [iter, this, prefer]
  intro n
  induction n with
  | zero => intro m i hi h _; rw [h0 m i (by omega)]; rfl
  | succ n ih =>
    intro m i hi hn hm
    cases m with
    | zero => rw [h0 _ i (by omega)]; rfl
    | succ m =>
      unfold iter
      congr 1
      rw [List.flatMap_def, List.flatMap_def]
      congr 1
      apply List.map_congr_left
      intro j hj
      have h1 := hf i j hi (List.mem_filter.1 hj).1
      have h2 := (List.mem_filter.1 hj).2
      simp at h2
      exact ih m j h1.2 (by omega) (by omega)

theorem mem_oneRune {t : List Nat} {i j : Nat} {f : Nat → Bool} (h : j ∈ oneRune t i f) : i < j ∧ j ≤ t.length := by
  unfold oneRune at h
  split at h
  · rename_i h'
    simp at h
    subst h
    cases ht : t[i]? with
    | none => rw [ht] at h'; simp at h'
    | some r =>
      have := (List.getElem?_eq_some_iff.1 ht).1
      omega
  · simp at h

theorem mem_onlyIf {i j : Nat} {b : Bool} (h : j ∈ onlyIf i b) : j = i := by
  unfold onlyIf at h; split at h <;> simp_all

mutual
theorem Rx.ends_bounds {t : List Nat} : ∀ (e : Rx) (i j : Nat), i ≤ t.length → j ∈ e.ends t i → i ≤ j ∧ j ≤ t.length
  | .empty, i, j, hi, h => by simp [Rx.ends] at h; omega
  | .lit fold rs, i, j, hi, h => by
    simp only [Rx.ends] at h
    split at h
    · rename_i h'
      have := h'.length_le
      simp at h this
      omega
    · simp at h
  | .cls rgs, i, j, hi, h => by have := mem_oneRune h; omega
  | .any, i, j, hi, h => by have := mem_oneRune h; omega
  | .anyNL, i, j, hi, h => by have := mem_oneRune h; omega
  | .cat es, i, j, hi, h => Rxs.endsCat_bounds es i j hi h
  | .alt es, i, j, hi, h => Rxs.endsAlt_bounds es i j hi h
  | .cap e, i, j, hi, h => Rx.ends_bounds e i j hi h
  | .star lazy e, i, j, hi, h => iter_bounds (Rx.ends_bounds e) _ i j hi h
  | .plus lazy e, i, j, hi, h => by
    obtain ⟨q, hq, hj⟩ := List.mem_flatMap.1 h
    have h1 := Rx.ends_bounds e i q hi hq
    have := iter_bounds (Rx.ends_bounds e) _ q j h1.2 hj
    omega
  | .quest lazy e, i, j, hi, h => by
    rcases mem_prefer.1 h with h | h
    · exact Rx.ends_bounds e i j hi h
    · simp at h; omega
  | .bol, i, j, hi, h => by have := mem_onlyIf h; omega
  | .eol, i, j, hi, h => by have := mem_onlyIf h; omega
  | .bot, i, j, hi, h => by have := mem_onlyIf h; omega
  | .eot, i, j, hi, h => by have := mem_onlyIf h; omega
  | .wb, i, j, hi, h => by have := mem_onlyIf h; omega
  | .nwb, i, j, hi, h => by have := mem_onlyIf h; omega
  | .other, i, j, hi, h => by simp [Rx.ends] at h
theorem Rxs.endsCat_bounds {t : List Nat} : ∀ (es : Rxs) (i j : Nat), i ≤ t.length → j ∈ es.endsCat t i →
    i ≤ j ∧ j ≤ t.length
  | .nil, i, j, hi, h => by simp [Rxs.endsCat] at h; omega
  | .cons e es, i, j, hi, h => by
    obtain ⟨q, hq, hj⟩ := List.mem_flatMap.1 h
    have h1 := Rx.ends_bounds e i q hi hq
    have := Rxs.endsCat_bounds es q j h1.2 hj
    omega
theorem Rxs.endsAlt_bounds {t : List Nat} : ∀ (es : Rxs) (i j : Nat), i ≤ t.length → j ∈ es.endsAlt t i →
    i ≤ j ∧ j ≤ t.length
  | .nil, i, j, hi, h => by simp [Rxs.endsAlt] at h
  | .cons e es, i, j, hi, h => by
    rcases List.mem_append.1 h with h | h
    · exact Rx.ends_bounds e i j hi h
    · exact Rxs.endsAlt_bounds es i j hi h
end

mutual
theorem Rx.nullable_sound {t : List Nat} : ∀ (e : Rx) (i : Nat), i ≤ t.length → e.nullable = false → i ∉ e.ends t i
  | .lit fold rs, i, hi, hn => by
    simp only [Rx.nullable, List.isEmpty_eq_false_iff] at hn
    simp only [Rx.ends]
    split
    · have := List.length_pos_iff.2 hn
      simp; omega
    · simp
  | .cls rgs, i, hi, hn => fun h => by have := mem_oneRune h; omega
  | .any, i, hi, hn => fun h => by have := mem_oneRune h; omega
  | .anyNL, i, hi, hn => fun h => by have := mem_oneRune h; omega
  | .cat es, i, hi, hn => Rxs.nullableAll_sound es i hi hn
  | .alt es, i, hi, hn => Rxs.nullableAny_sound es i hi hn
  | .cap e, i, hi, hn => Rx.nullable_sound e i hi hn
  | .plus lazy e, i, hi, hn => fun h => by
    obtain ⟨q, hq, hj⟩ := List.mem_flatMap.1 h
    have h1 := Rx.ends_bounds e i q hi hq
    have h2 := iter_bounds (Rx.ends_bounds e) _ q i h1.2 hj
    have : q = i := by omega
    subst this
    exact Rx.nullable_sound e q hi hn hq
  | .other, i, hi, hn => by simp [Rx.ends]
  | .empty, _, _, hn | .star _ _, _, _, hn | .quest _ _, _, _, hn | .bol, _, _, hn | .eol, _, _, hn
  | .bot, _, _, hn | .eot, _, _, hn | .wb, _, _, hn | .nwb, _, _, hn => by simp [Rx.nullable] at hn
theorem Rxs.nullableAll_sound {t : List Nat} : ∀ (es : Rxs) (i : Nat), i ≤ t.length → es.nullableAll = false →
    i ∉ es.endsCat t i
  | .nil, _, _, hn => by simp [Rxs.nullableAll] at hn
  | .cons e es, i, hi, hn => fun h => by
    obtain ⟨q, hq, hj⟩ := List.mem_flatMap.1 h
    have h1 := Rx.ends_bounds e i q hi hq
    have h2 := Rxs.endsCat_bounds es q i h1.2 hj
    have : q = i := by omega
    subst this
    simp only [Rxs.nullableAll, Bool.and_eq_false_iff] at hn
    rcases hn with hn | hn
    · exact Rx.nullable_sound e q hi hn hq
    · exact Rxs.nullableAll_sound es q hi hn hj
theorem Rxs.nullableAny_sound {t : List Nat} : ∀ (es : Rxs) (i : Nat), i ≤ t.length → es.nullableAny = false →
    i ∉ es.endsAlt t i
  | .nil, _, _, _ => by simp [Rxs.endsAlt]
  | .cons e es, i, hi, hn => fun h => by
    simp only [Rxs.nullableAny, Bool.or_eq_false_iff] at hn
    rcases List.mem_append.1 h with h | h
    · exact Rx.nullable_sound e i hi hn.1 h
    · exact Rxs.nullableAny_sound es i hi hn.2 h
end

mutual
/-- The syntactic condition suffices. -/
theorem Rx.progress_of_loopsOk (t : List Nat) : ∀ e : Rx, e.loopsOk = true → e.Progress t
  | .star _ e, h | .plus _ e, h => by
    simp only [Rx.loopsOk, Bool.and_eq_true, Bool.not_eq_true'] at h
    exact ⟨fun i hi => Rx.nullable_sound e i hi h.1, Rx.progress_of_loopsOk t e h.2⟩
  | .cat es, h | .alt es, h => Rxs.progress_of_loopsOk t es h
  | .cap e, h | .quest _ e, h => Rx.progress_of_loopsOk t e h
  | .empty, _ | .lit _ _, _ | .cls _, _ | .any, _ | .anyNL, _ | .bol, _ | .eol, _ | .bot, _ | .eot, _ | .wb, _
  | .nwb, _ | .other, _ => trivial
theorem Rxs.progress_of_loopsOk (t : List Nat) : ∀ es : Rxs, es.loopsOk = true → es.Progress t
  | .nil, _ => trivial
  | .cons e es, h => by
    simp only [Rxs.loopsOk, Bool.and_eq_true] at h
    exact ⟨Rx.progress_of_loopsOk t e h.1, Rxs.progress_of_loopsOk t es h.2⟩
end

end Gpeg
