import Verif.ReSpec
/-!
# Checking that a text writes a given tree of the `re` syntax

`topB` goes through the text along the tree; it is used to show that the files of `/repo/grammars` are texts of
the syntax.
-/
namespace Gpeg.Re

/-- Spacing at the beginning of a text, and what follows it. The flag: in a comment. -/
def skipSp : Bool → List UInt8 → Option (List UInt8 × List UInt8)
  | false, [] => some ([], [])
  | true, [] => none
  | false, b :: l =>
    if blank b then (skipSp false l).map fun (t, r) => (b :: t, r)
    else if b = 35 then (skipSp true l).map fun (t, r) => (b :: t, r)
    else some ([], b :: l)
  | true, b :: l =>
    if b = 10 ∨ b = 13 then (skipSp false l).map fun (t, r) => (b :: t, r)
    else (skipSp true l).map fun (t, r) => (b :: t, r)

theorem skipSp_aux (s : List UInt8) : ∀ t r,
    (skipSp false s = some (t, r) → s = t ++ r ∧ Sp t) ∧
    (skipSp true s = some (t, r) → s = t ++ r ∧ ∃ c b l, t = c ++ b :: l ∧ (∀ x ∈ c, x ≠ 10 ∧ x ≠ 13) ∧ (b = 10 ∨ b = 13) ∧ Sp l) := by
  induction s with
  | nil =>
    intro t r
    refine ⟨fun h => ?_, fun h => by cases h⟩
    cases h
    exact ⟨rfl, .nil⟩
  | cons b s ih =>
    intro t r
    constructor
    · intro h
      rw [skipSp] at h
      split at h
      · rename_i hb
        simp only [Option.map_eq_some_iff, Prod.exists, Prod.mk.injEq] at h
        obtain ⟨t', r', h, rfl, rfl⟩ := h
        obtain ⟨e, hs⟩ := (ih _ _).1 h
        exact ⟨by rw [e]; rfl, .blank hb hs⟩
      · split at h
        · rename_i _ hb
          subst hb
          simp only [Option.map_eq_some_iff, Prod.exists, Prod.mk.injEq] at h
          obtain ⟨t', r', h, rfl, rfl⟩ := h
          obtain ⟨e, c, b, l, rfl, h1, h2, h3⟩ := (ih _ _).2 h
          exact ⟨by rw [e]; rfl, .comment h1 h2 h3⟩
        · cases h
          exact ⟨rfl, .nil⟩
    · intro h
      rw [skipSp] at h
      split at h
      · rename_i hb
        simp only [Option.map_eq_some_iff, Prod.exists, Prod.mk.injEq] at h
        obtain ⟨t', r', h, rfl, rfl⟩ := h
        obtain ⟨e, hs⟩ := (ih _ _).1 h
        exact ⟨by rw [e]; rfl, [], b, t', rfl, fun _ h => (by cases h), hb, hs⟩
      · rename_i hb
        simp only [Option.map_eq_some_iff, Prod.exists, Prod.mk.injEq] at h
        obtain ⟨t', r', h, rfl, rfl⟩ := h
        obtain ⟨e, c, b', l, rfl, h1, h2, h3⟩ := (ih _ _).2 h
        refine ⟨by rw [e]; rfl, b :: c, b', l, rfl, ?_, h2, h3⟩
        intro x hx
        rcases List.mem_cons.1 hx with rfl | hx
        · exact ⟨fun h => hb (.inl h), fun h => hb (.inr h)⟩
        · exact h1 x hx

theorem skipSp_sound {s t r : List UInt8} (h : skipSp false s = some (t, r)) : s = t ++ r ∧ Sp t := (skipSp_aux s t r).1 h

/-- A byte, then spacing. -/
def tokB (bs : List UInt8) (s : List UInt8) : Option (List UInt8 × List UInt8) :=
  if bs <+: s then (skipSp false (s.drop bs.length)) else none

theorem tokB_sound {bs s sp r : List UInt8} (h : tokB bs s = some (sp, r)) : s = bs ++ (sp ++ r) ∧ Sp sp := by
  unfold tokB at h
  split at h
  · rename_i hp
    obtain ⟨q, rfl⟩ := hp
    rw [List.drop_left] at h
    obtain ⟨e, hs⟩ := skipSp_sound h
    exact ⟨by rw [e], hs⟩
  · cases h

def noOctB (s : List UInt8) : Bool := match s with
  | [] => true
  | x :: _ => !isOct x

theorem noOctB_sound {s : List UInt8} (h : noOctB s = true) : NoOct s := by
  intro x hx
  cases s with
  | nil => cases hx
  | cons y s =>
    simp only [List.head?_cons, Option.some.injEq] at hx
    subst hx
    simpa [noOctB] using h

/-- The byte denoted by an escape. -/
def escVal (c : UInt8) : Option UInt8 :=
  if c = 110 then some 10 else if c = 114 then some 13 else if c = 116 then some 9
  else if [39, 34, 91, 93, 92, 45].contains c then some c else none

theorem escVal_sound {c b : UInt8} (h : escVal c = some b) : Esc c b := by
  unfold escVal at h
  split at h
  · rename_i e; subst e; cases h; exact .n
  · split at h
    · rename_i e; subst e; cases h; exact .r
    · split at h
      · rename_i e; subst e; cases h; exact .t
      · split at h
        · rename_i e; cases h; exact .self (by simpa using e)
        · cases h

/-- The character at the beginning of a text: its byte, its text, what follows. -/
def charB : List UInt8 → Option (UInt8 × List UInt8 × List UInt8)
  | [] => none
  | b :: s =>
    if ¬ b = 92 then some (b, [b], s)
    else match s with
      | [] => none
      | c :: s =>
        match escVal c with
        | some x => some (x, [92, c], s)
        | none =>
          if isOct c then
            match s with
            | [] => some (UInt8.ofNat (c.toNat - 48), [92, c], [])
            | e :: s' =>
              if isOct e then
                match s' with
                | [] => some (UInt8.ofNat ((c.toNat - 48) * 8 + (e.toNat - 48)), [92, c, e], [])
                | f :: s'' =>
                  if isOct f && c ≤ 49 then
                    some (UInt8.ofNat ((c.toNat - 48) * 64 + (e.toNat - 48) * 8 + (f.toNat - 48)), [92, c, e, f], s'')
                  else if decide (51 ≤ c) || !isOct f then
                    some (UInt8.ofNat ((c.toNat - 48) * 8 + (e.toNat - 48)), [92, c, e], f :: s'')
                  else none
              else some (UInt8.ofNat (c.toNat - 48), [92, c], e :: s')
          else none

theorem charB_sound {s : List UInt8} {b : UInt8} {t r : List UInt8} (h : charB s = some (b, t, r)) :
    s = t ++ r ∧ CharS b t r := by
  unfold charB at h
  split at h
  · cases h
  · split at h
    · rename_i hb
      cases h
      exact ⟨rfl, .raw hb⟩
    · rename_i hb
      have hb := Decidable.of_not_not hb
      subst hb
      split at h
      · cases h
      · split at h
        · rename_i he
          cases h
          exact ⟨rfl, .esc (escVal_sound he)⟩
        · split at h
          · rename_i hc
            split at h
            · cases h
              exact ⟨rfl, .oct1 hc (noOctB_sound rfl)⟩
            · split at h
              · rename_i he
                split at h
                · cases h
                  exact ⟨rfl, .oct2 hc he (.inr (noOctB_sound rfl))⟩
                · split at h
                  · rename_i hf
                    cases h
                    rw [Bool.and_eq_true, decide_eq_true_eq] at hf
                    exact ⟨rfl, .oct3 hc hf.2 he hf.1⟩
                  · split at h
                    · rename_i hf
                      cases h
                      rw [Bool.or_eq_true, decide_eq_true_eq] at hf
                      exact ⟨rfl, .oct2 hc he (hf.imp id fun h => noOctB_sound h)⟩
                    · cases h
              · rename_i he
                cases h
                exact ⟨rfl, .oct1 hc (noOctB_sound (by simp [noOctB, he]))⟩
          · cases h

theorem CharS.congr {b : UInt8} {t r r' : List UInt8} (h : CharS b t r) (e : r.head? = r'.head?) : CharS b t r' := by
  have hn : NoOct r → NoOct r' := fun hn x hx => hn x (e.trans hx)
  cases h with
  | raw h => exact .raw h
  | esc h => exact .esc h
  | oct3 a b c d => exact .oct3 a b c d
  | oct2 a b c => exact .oct2 a b (c.imp id hn)
  | oct1 a b => exact .oct1 a (hn b)

theorem CharS.ne {b : UInt8} {t r : List UInt8} (h : CharS b t r) : t ≠ [] := by cases h <;> simp

/-- The characters of a literal and the closing quote. -/
def litB (q : UInt8) : List UInt8 → List UInt8 → Option (List UInt8 × List UInt8)
  | [], s => match s with
    | x :: s => if x = q then some ([q], s) else none
    | [] => none
  | b :: bs, s =>
    match charB s with
    | some (b', t, s') =>
      if b' = b ∧ t.head? ≠ some q then (litB q bs s').map fun (u, r) => (t ++ u, r) else none
    | none => none

theorem head?_append_ne {t r : List UInt8} (h : t ≠ []) : (t ++ r).head? = t.head? := by
  cases t with
  | nil => exact absurd rfl h
  | cons => rfl

theorem litB_sound {q : UInt8} : ∀ {bs s t r : List UInt8}, litB q bs s = some (t, r) → s = t ++ r ∧ LitS q bs t ∧ t ≠ [] := by
  intro bs
  induction bs with
  | nil =>
    intro s t r h
    unfold litB at h
    split at h
    · split at h
      · rename_i e
        subst e
        cases h
        exact ⟨rfl, .nil, by simp⟩
      · cases h
    · cases h
  | cons b bs ih =>
    intro s t r h
    unfold litB at h
    split at h
    · rename_i b' t' s' hc
      split at h
      · rename_i hb
        obtain ⟨rfl, hq⟩ := hb
        simp only [Option.map_eq_some_iff, Prod.exists, Prod.mk.injEq] at h
        obtain ⟨u, r', h, rfl, rfl⟩ := h
        obtain ⟨e, hs⟩ := charB_sound hc
        obtain ⟨e', hl, hne⟩ := ih h
        subst e e'
        exact ⟨by simp, .cons (hs.congr (head?_append_ne hne)) hq hl, by simp [hne]⟩
      · cases h
    · cases h

/-- The elements of a class and the closing bracket. -/
def itemsB : List Item → List UInt8 → Option (List UInt8 × List UInt8)
  | [], s => match s with
    | x :: s => if x = 93 then some ([93], s) else none
    | [] => none
  | .one b :: its, s =>
    match charB s with
    | some (b', t, s') =>
      if b' = b ∧ t.head? ≠ some 93 ∧ s'.head? ≠ some 45 then (itemsB its s').map fun (u, r) => (t ++ u, r) else none
    | none => none
  | .range a b :: its, s =>
    match charB s with
    | some (a', t, 45 :: s') =>
      if a' = a ∧ t.head? ≠ some 93 then
        match charB s' with
        | some (b', u, s'') => if b' = b then (itemsB its s'').map fun (v, r) => (t ++ 45 :: (u ++ v), r) else none
        | none => none
      else none
    | _ => none

theorem itemsB_sound : ∀ {its : List Item} {s t r : List UInt8}, itemsB its s = some (t, r) →
    s = t ++ r ∧ ItemsS its t ∧ t ≠ [] := by
  intro its
  induction its with
  | nil =>
    intro s t r h
    unfold itemsB at h
    split at h
    · split at h
      · rename_i e
        subst e
        cases h
        exact ⟨rfl, .nil, by simp⟩
      · cases h
    · cases h
  | cons it its ih =>
    intro s t r h
    cases it with
    | one b =>
      unfold itemsB at h
      split at h
      · rename_i b' t' s' hc
        split at h
        · rename_i hb
          obtain ⟨rfl, hq, hd⟩ := hb
          simp only [Option.map_eq_some_iff, Prod.exists, Prod.mk.injEq] at h
          obtain ⟨u, r', h, rfl, rfl⟩ := h
          obtain ⟨e, hs⟩ := charB_sound hc
          obtain ⟨e', hl, hne⟩ := ih h
          subst e e'
          rw [head?_append_ne hne] at hd
          exact ⟨by simp, .one (hs.congr (head?_append_ne hne)) hq hd hl, by simp [hne]⟩
        · cases h
      · cases h
    | range a b =>
      unfold itemsB at h
      split at h
      · rename_i a' t' s' hc
        split at h
        · rename_i hb
          obtain ⟨rfl, hq⟩ := hb
          split at h
          · rename_i b' u s'' hc'
            split at h
            · rename_i hb
              subst hb
              simp only [Option.map_eq_some_iff, Prod.exists, Prod.mk.injEq] at h
              obtain ⟨v, r', h, rfl, rfl⟩ := h
              obtain ⟨e, hs⟩ := charB_sound hc
              obtain ⟨e', hs'⟩ := charB_sound hc'
              obtain ⟨e'', hl, hne⟩ := ih h
              subst e e' e''
              exact ⟨by simp, .range (hs.congr rfl) hq (hs'.congr (head?_append_ne hne)) hl, by simp⟩
            · cases h
          · cases h
        · cases h
      · cases h

def apartB (s t : List UInt8) : Bool := match s.getLast?, t.head? with
  | some x, some y => !isCont x || !isCont y
  | _, _ => true

theorem apartB_sound {s t : List UInt8} (h : apartB s t = true) : Apart s t := by
  intro x y hx hy
  unfold apartB at h
  rw [hx, hy] at h
  simpa using h

def nameB : List UInt8 → Bool
  | [] => false
  | b :: l => isStart b && l.all isCont

theorem nameB_sound {n : List UInt8} (h : nameB n = true) : IsName n := by
  cases n with
  | nil => cases h
  | cons b l =>
    simp only [nameB, Bool.and_eq_true, List.all_eq_true] at h
    exact ⟨b, l, rfl, h⟩

/-- An optional token. -/
def preB : Pre → List UInt8 → Option (List UInt8 × List UInt8)
  | .none, s => some ([], s)
  | .and, s => (tokB [38] s).map fun (sp, r) => (38 :: sp, r)
  | .not, s => (tokB [33] s).map fun (sp, r) => (33 :: sp, r)

def sufB : Suf → List UInt8 → Option (List UInt8 × List UInt8)
  | .none, s => some ([], s)
  | .opt, s => (tokB [63] s).map fun (sp, r) => (63 :: sp, r)
  | .star, s => (tokB [42] s).map fun (sp, r) => (42 :: sp, r)
  | .plus, s => (tokB [43] s).map fun (sp, r) => (43 :: sp, r)

theorem tok1 {b : UInt8} {s t r : List UInt8} (h : ((tokB [b] s).map fun (sp, r) => (b :: sp, r)) = some (t, r)) :
    s = t ++ r ∧ ∃ sp, t = b :: sp ∧ Sp sp := by
  simp only [Option.map_eq_some_iff, Prod.exists, Prod.mk.injEq] at h
  obtain ⟨u, r', h, rfl, rfl⟩ := h
  obtain ⟨e, hs⟩ := tokB_sound h
  exact ⟨by rw [e]; simp, u, rfl, hs⟩

theorem preB_sound {p : Pre} {s t r : List UInt8} (h : preB p s = some (t, r)) : s = t ++ r ∧ PreS p t := by
  cases p with
  | none => cases h; exact ⟨rfl, .none⟩
  | and => obtain ⟨e, sp, rfl, hs⟩ := tok1 h; exact ⟨e, .and hs⟩
  | not => obtain ⟨e, sp, rfl, hs⟩ := tok1 h; exact ⟨e, .not hs⟩

theorem sufB_sound {p : Suf} {s t r : List UInt8} (h : sufB p s = some (t, r)) : s = t ++ r ∧ SufS p t := by
  cases p with
  | none => cases h; exact ⟨rfl, .none⟩
  | opt => obtain ⟨e, sp, rfl, hs⟩ := tok1 h; exact ⟨e, .opt hs⟩
  | star => obtain ⟨e, sp, rfl, hs⟩ := tok1 h; exact ⟨e, .star hs⟩
  | plus => obtain ⟨e, sp, rfl, hs⟩ := tok1 h; exact ⟨e, .plus hs⟩

/-- An optional `^`. -/
def caratB : Bool → List UInt8 → Option (List UInt8 × List UInt8)
  | false, s => some ([], s)
  | true, s => (tokB [94] s).map fun (sp, r) => (94 :: sp, r)

theorem caratB_sound {p : Bool} {s t r : List UInt8} (h : caratB p s = some (t, r)) : s = t ++ r ∧ CaratS p t := by
  cases p with
  | false => cases h; exact ⟨rfl, .no⟩
  | true => obtain ⟨e, sp, rfl, hs⟩ := tok1 h; exact ⟨e, .yes hs⟩

def clsOk (neg : Bool) (its : List Item) (t : List UInt8) : Bool :=
  if neg then (match t.head? with | some x => !blank x && decide (x ≠ 35) | none => true)
  else !its.isEmpty && decide (t.head? ≠ some 94)

mutual
/-- A primary at the beginning of a text. -/
def primB : Prim → List UInt8 → Option (List UInt8 × List UInt8)
  | .ident n, s =>
    if nameB n then (tokB n s).map fun (sp, r) => (n ++ sp, r) else none
  | .paren e, s =>
    (tokB [40] s).bind fun (sp, s1) => (exprB e s1).bind fun (t, s2) => (tokB [41] s2).map fun (sp', r) =>
      (40 :: (sp ++ (t ++ 41 :: sp')), r)
  | .memo e, s =>
    (tokB [123, 123] s).bind fun (sp, s1) => (exprB e s1).bind fun (t, s2) => (tokB [125, 125] s2).map fun (sp', r) =>
      (123 :: 123 :: (sp ++ (t ++ 125 :: 125 :: sp')), r)
  | .lit bs, s =>
    match s with
    | q :: s1 => if q = 39 ∨ q = 34 then
        (litB q bs s1).bind fun (t, s2) => (skipSp false s2).map fun (sp, r) => (q :: (t ++ sp), r)
      else none
    | [] => none
  | .cls neg its, s =>
    match s with
    | 91 :: s1 =>
      (caratB neg s1).bind fun (u, s2) => (itemsB its s2).bind fun (t, s3) =>
        if clsOk neg its t then (skipSp false s3).map fun (sp, r) => (91 :: (u ++ (t ++ sp)), r) else none
    | _ => none
  | .dot, s => (tokB [46] s).map fun (sp, r) => (46 :: sp, r)
/-- A sequence at the beginning of a text. -/
def seqnB : Seqn → List UInt8 → Option (List UInt8 × List UInt8)
  | .nil, s => some ([], s)
  | .cons pre p suf rest, s =>
    (preB pre s).bind fun (a, s1) => (primB p s1).bind fun (b, s2) => (sufB suf s2).bind fun (c, s3) =>
      (seqnB rest s3).bind fun (t, r) => if apartB (b ++ c) t then some (a ++ (b ++ (c ++ t)), r) else none
/-- An expression at the beginning of a text. -/
def exprB : Expr → List UInt8 → Option (List UInt8 × List UInt8)
  | .one sq, s => seqnB sq s
  | .alt sq e, s =>
    (seqnB sq s).bind fun (t, s1) => (tokB [47] s1).bind fun (sp, s2) => (exprB e s2).map fun (u, r) =>
      (t ++ 47 :: (sp ++ u), r)
end

theorem bind_some {β γ : Type} {o : Option β} {f : β → Option γ} {c : γ} (h : o.bind f = some c) :
    ∃ b, o = some b ∧ f b = some c := Option.bind_eq_some_iff.1 h

mutual
theorem primB_sound : ∀ (p : Prim) {s t r : List UInt8}, primB p s = some (t, r) → s = t ++ r ∧ PrimS p t
  | .ident n, s, t, r, h => by
    unfold primB at h
    split at h
    · rename_i hn
      simp only [Option.map_eq_some_iff, Prod.exists, Prod.mk.injEq] at h
      obtain ⟨sp, r', h, rfl, rfl⟩ := h
      obtain ⟨e, hs⟩ := tokB_sound h
      exact ⟨by rw [e]; simp, .ident (nameB_sound hn) hs⟩
    · cases h
  | .paren e, s, t, r, h => by
    unfold primB at h
    obtain ⟨⟨sp, s1⟩, h1, h⟩ := bind_some h
    obtain ⟨⟨u, s2⟩, h2, h⟩ := bind_some h
    simp only [Option.map_eq_some_iff, Prod.exists, Prod.mk.injEq] at h
    obtain ⟨sp', r', h3, rfl, rfl⟩ := h
    obtain ⟨e1, g1⟩ := tokB_sound h1
    obtain ⟨e2, g2⟩ := exprB_sound e h2
    obtain ⟨e3, g3⟩ := tokB_sound h3
    subst e1 e2 e3
    exact ⟨by simp, .paren g1 g2 g3⟩
  | .memo e, s, t, r, h => by
    unfold primB at h
    obtain ⟨⟨sp, s1⟩, h1, h⟩ := bind_some h
    obtain ⟨⟨u, s2⟩, h2, h⟩ := bind_some h
    simp only [Option.map_eq_some_iff, Prod.exists, Prod.mk.injEq] at h
    obtain ⟨sp', r', h3, rfl, rfl⟩ := h
    obtain ⟨e1, g1⟩ := tokB_sound h1
    obtain ⟨e2, g2⟩ := exprB_sound e h2
    obtain ⟨e3, g3⟩ := tokB_sound h3
    subst e1 e2 e3
    exact ⟨by simp, .memo g1 g2 g3⟩
  | .lit bs, s, t, r, h => by
    unfold primB at h
    split at h
    · split at h
      · rename_i hq
        obtain ⟨⟨u, s2⟩, h2, h⟩ := bind_some h
        simp only [Option.map_eq_some_iff, Prod.exists, Prod.mk.injEq] at h
        obtain ⟨sp', r', h3, rfl, rfl⟩ := h
        obtain ⟨e2, g2, _⟩ := litB_sound h2
        obtain ⟨e3, g3⟩ := skipSp_sound h3
        subst e2 e3
        exact ⟨by simp, .lit hq g2 g3⟩
      · cases h
    · cases h
  | .cls neg its, s, t, r, h => by
    unfold primB at h
    split at h
    · obtain ⟨⟨u, s2⟩, h1, h⟩ := bind_some h
      obtain ⟨⟨v, s3⟩, h2, h⟩ := bind_some h
      simp only [] at h
      split at h
      · rename_i hk
        simp only [Option.map_eq_some_iff, Prod.exists, Prod.mk.injEq] at h
        obtain ⟨sp', r', h3, rfl, rfl⟩ := h
        obtain ⟨e1, g1⟩ := caratB_sound h1
        obtain ⟨e2, g2, _⟩ := itemsB_sound h2
        obtain ⟨e3, g3⟩ := skipSp_sound h3
        subst e1 e2 e3
        refine ⟨by simp, .cls g1 g2 ?_ ?_ ?_ g3⟩
        · cases neg with
          | true => exact .inl rfl
          | false =>
            simp only [clsOk, Bool.false_eq_true, if_false, Bool.and_eq_true] at hk
            exact .inr (by intro e; rw [e] at hk; simp at hk)
        · intro e x hx
          subst e
          simp only [clsOk, if_true, hx, Bool.and_eq_true, decide_eq_true_eq] at hk
          exact ⟨by simpa using hk.1, hk.2⟩
        · intro e
          subst e
          simp only [clsOk, Bool.false_eq_true, if_false, Bool.and_eq_true, decide_eq_true_eq] at hk
          exact hk.2
      · cases h
    · cases h
  | .dot, s, t, r, h => by
    unfold primB at h
    obtain ⟨e, sp, rfl, hs⟩ := tok1 h
    exact ⟨e, .dot hs⟩
theorem seqnB_sound : ∀ (p : Seqn) {s t r : List UInt8}, seqnB p s = some (t, r) → s = t ++ r ∧ SeqS p t
  | .nil, s, t, r, h => by cases h; exact ⟨rfl, .nil⟩
  | .cons pre p suf rest, s, t, r, h => by
    unfold seqnB at h
    obtain ⟨⟨a, s1⟩, h1, h⟩ := bind_some h
    obtain ⟨⟨b, s2⟩, h2, h⟩ := bind_some h
    obtain ⟨⟨c, s3⟩, h3, h⟩ := bind_some h
    obtain ⟨⟨d, s4⟩, h4, h⟩ := bind_some h
    simp only [] at h
    split at h
    · rename_i hap
      cases h
      obtain ⟨e1, g1⟩ := preB_sound h1
      obtain ⟨e2, g2⟩ := primB_sound p h2
      obtain ⟨e3, g3⟩ := sufB_sound h3
      obtain ⟨e4, g4⟩ := seqnB_sound rest h4
      subst e1 e2 e3 e4
      exact ⟨by simp, .cons g1 g2 g3 g4 (apartB_sound hap)⟩
    · cases h
theorem exprB_sound : ∀ (p : Expr) {s t r : List UInt8}, exprB p s = some (t, r) → s = t ++ r ∧ ExprS p t
  | .one sq, s, t, r, h => by
    obtain ⟨e, g⟩ := seqnB_sound sq h
    exact ⟨e, .one g⟩
  | .alt sq e, s, t, r, h => by
    unfold exprB at h
    obtain ⟨⟨a, s1⟩, h1, h⟩ := bind_some h
    obtain ⟨⟨b, s2⟩, h2, h⟩ := bind_some h
    simp only [Option.map_eq_some_iff, Prod.exists, Prod.mk.injEq] at h
    obtain ⟨u, r', h3, rfl, rfl⟩ := h
    obtain ⟨e1, g1⟩ := seqnB_sound sq h1
    obtain ⟨e2, g2⟩ := tokB_sound h2
    obtain ⟨e3, g3⟩ := exprB_sound e h3
    subst e1 e2 e3
    exact ⟨by simp, .alt g1 g2 g3⟩
end

/-- The definitions of a grammar, up to the end of the text. -/
def gramB : Gram → List UInt8 → Bool
  | [], s => s.isEmpty
  | (n, e) :: g, s =>
    nameB n &&
    match tokB n s with
    | some (_, s1) =>
      match tokB [60, 45] s1 with
      | some (_, s2) =>
        match exprB e s2 with
        | some (t, s3) => apartB t s3 && gramB g s3
        | none => false
      | none => false
    | none => false

theorem gramB_sound : ∀ {g : Gram} {s : List UInt8}, gramB g s = true → GramS g s := by
  intro g
  induction g with
  | nil =>
    intro s h
    rw [gramB, List.isEmpty_iff] at h
    subst h
    exact .nil
  | cons d g ih =>
    intro s h
    obtain ⟨n, e⟩ := d
    simp only [gramB, Bool.and_eq_true] at h
    obtain ⟨hn, h⟩ := h
    split at h
    · rename_i h1
      split at h
      · rename_i h2
        split at h
        · rename_i h3
          rw [Bool.and_eq_true] at h
          obtain ⟨e1, g1⟩ := tokB_sound h1
          obtain ⟨e2, g2⟩ := tokB_sound h2
          obtain ⟨e3, g3⟩ := exprB_sound e h3
          subst e1 e2 e3
          have := GramS.cons (nameB_sound hn) g1 g2 g3 (ih h.2) (apartB_sound h.1)
          simpa using this
        · cases h
      · cases h
    · cases h

/-- The text writes the grammar. -/
def topGramB (g : Gram) (s : List UInt8) : Bool :=
  match skipSp false s with
  | some (_, r) => gramB g r && !g.isEmpty && decide (g.map fun d => nameOf d.1).Nodup
  | none => false

theorem topGramB_sound {g : Gram} {s : List UInt8} (h : topGramB g s = true) : TopS (.gram g) s := by
  unfold topGramB at h
  split at h
  · rename_i hs
    simp only [Bool.and_eq_true, decide_eq_true_eq] at h
    obtain ⟨e, hsp⟩ := skipSp_sound hs
    subst e
    exact .gram hsp (gramB_sound h.1.1) (by intro e; rw [e] at h; simp at h) h.2
  · cases h

end Gpeg.Re
