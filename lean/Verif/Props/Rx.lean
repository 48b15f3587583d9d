import Verif.RxSpec
import Verif.Props.Construct
import Verif.Props.Compile
/-! # Properties C45, C50: regular expressions as patterns -/
namespace Gpeg

variable {d : List UInt8}

/-- The runes of a text of ASCII bytes. -/
def runes (d : List UInt8) : List Nat := d.map (·.toNat)
/-- All bytes are ASCII. -/
def Ascii (d : List UInt8) : Prop := ∀ b ∈ d, b.toNat < 128

theorem Ascii.drop (h : Ascii d) (i : Nat) : Ascii (d.drop i) := fun b hb => h b (List.mem_of_mem_drop hb)

theorem runes_length (d : List UInt8) : (runes d).length = d.length := List.length_map _

theorem runes_get (d : List UInt8) (i : Nat) : (runes d)[i]? = (d[i]?).map (·.toNat) := List.getElem?_map

theorem runes_drop (d : List UInt8) (i : Nat) : (runes d).drop i = runes (d.drop i) := by
  simp [runes, List.map_drop]

/-! ## Names -/

theorem rxName_inj {m n : Nat} (h : rxName m = rxName n) : m = n := by
  have h1 : (rxName m).toList = (rxName n).toList := congrArg String.toList h
  unfold rxName at h1
  rw [String.toList_append, String.toList_append] at h1
  have h2 := List.append_cancel_left h1
  have h3 := congrArg (fun l => Nat.ofDigitChars 10 l 0) h2
  simpa [Nat.toString_eq_repr, Nat.toList_repr, Nat.ofDigitChars_toDigits] using h3

theorem rxName_ne_S (m : Nat) : rxName m ≠ "S" := by
  intro h
  have h1 : (rxName m).toList = "S".toList := congrArg String.toList h
  unfold rxName at h1
  rw [String.toList_append] at h1
  have := congrArg List.head? h1
  simp at this

/-- All definitions are of names made later than `n`. -/
def Fresh (n : Nat) (ext : Env) : Prop := ∀ ds ∈ ext, ∀ s ∈ ds.names, ∃ m, n < m ∧ s = rxName m

theorem Fresh.mono {n n' : Nat} {ext : Env} (h : Fresh n' ext) (hn : n ≤ n') : Fresh n ext := by
  intro ds hds s hs
  obtain ⟨m, hm, e⟩ := h ds hds s hs
  exact ⟨m, by omega, e⟩

theorem Fresh.lookup {n : Nat} {ext env : Env} (h : Fresh n ext) :
    lookupNT (rxName n) (ext ++ env) = lookupNT (rxName n) env := by
  induction ext with
  | nil => rfl
  | cons ds ext ih =>
    have : ds.find (rxName n) = none := by
      apply Defs.find_none_of
      intro hmem
      obtain ⟨m, hm, e⟩ := h ds List.mem_cons_self _ hmem
      have := rxName_inj e
      omega
    show lookupNT (rxName n) (ds :: (ext ++ env)) = _
    rw [lookupNT, this]
    exact ih fun ds' h' => h ds' (List.mem_cons_of_mem _ h')

/-! ## Runes and bytes -/

theorem utf8_ascii {r : Nat} (h : r < 128) : utf8 r = [UInt8.ofNat r] := by
  unfold utf8; rw [if_pos h]

theorem u8_toNat {r : Nat} (h : r < 256) : (UInt8.ofNat r).toNat = r := by
  rw [UInt8.toNat_ofNat']; exact Nat.mod_eq_of_lt h

theorem utf8_big {r : Nat} (h : 128 ≤ r) : ∃ b bs, utf8 r = b :: bs ∧ 128 ≤ b.toNat := by
  unfold utf8
  rw [if_neg (by omega)]
  split
  · exact ⟨_, _, rfl, by rw [u8_toNat (by omega)]; omega⟩
  · split
    · exact ⟨_, _, rfl, by decide⟩
    · split
      · exact ⟨_, _, rfl, by rw [u8_toNat (by omega)]; omega⟩
      · exact ⟨_, _, rfl, by rw [u8_toNat (by omega)]; omega⟩

theorem utf8_prefix {d : List UInt8} (rs : List Nat) (hd : Ascii d) :
    (rs.flatMap utf8 <+: d ↔ rs <+: runes d) ∧ (rs <+: runes d → (rs.flatMap utf8).length = rs.length) := by
  induction rs generalizing d with
  | nil => simp
  | cons r rs ih =>
    by_cases hr : r < 128
    · rw [List.flatMap_cons, utf8_ascii hr]
      cases d with
      | nil => simp [runes]
      | cons b d =>
        have hb := hd b List.mem_cons_self
        obtain ⟨h1, h2⟩ := ih (d := d) fun c hc => hd c (List.mem_cons_of_mem _ hc)
        have : (UInt8.ofNat r = b) ↔ r = b.toNat := by
          constructor
          · rintro rfl; rw [u8_toNat (by omega)]
          · rintro rfl; simp
        constructor
        · show (UInt8.ofNat r :: rs.flatMap utf8) <+: b :: d ↔ (r :: rs) <+: b.toNat :: runes d
          rw [List.cons_prefix_cons, List.cons_prefix_cons, this, h1]
        · intro h
          rw [show runes (b :: d) = b.toNat :: runes d from rfl, List.cons_prefix_cons] at h
          simp [h2 h.2]
    · obtain ⟨b, bs, e, hb⟩ := utf8_big (by omega : 128 ≤ r)
      have n1 : ¬ (r :: rs) <+: runes d := by
        cases d with
        | nil => simp [runes]
        | cons c d =>
          rw [show runes (c :: d) = c.toNat :: runes d from rfl, List.cons_prefix_cons]
          have := hd c List.mem_cons_self
          rintro ⟨rfl, _⟩; omega
      refine ⟨⟨fun h => ?_, fun h => absurd h n1⟩, fun h => absurd h n1⟩
      rw [List.flatMap_cons, e] at h
      cases d with
      | nil => simp at h
      | cons c d =>
        rw [List.cons_append, List.cons_prefix_cons] at h
        have := hd c List.mem_cons_self
        rw [h.1] at hb; omega

theorem isWordChar_rune (b : UInt8) : isWordChar b = wordRune b.toNat := by
  unfold isWordChar wordRune
  have h1 : (b == 95) = (b.toNat == 95) := by
    rw [Bool.eq_iff_iff, beq_iff_eq, beq_iff_eq, ← UInt8.toNat_inj]; rfl
  rw [Bool.eq_iff_iff]
  simp only [h1, Bool.or_eq_true, Bool.and_eq_true, decide_eq_true_eq, UInt8.le_iff_toNat_le]
  have e : (97 : UInt8).toNat = 97 ∧ (122 : UInt8).toNat = 122 ∧ (65 : UInt8).toNat = 65 ∧ (90 : UInt8).toNat = 90 ∧
    (48 : UInt8).toNat = 48 ∧ (57 : UInt8).toNat = 57 := by decide
  rw [e.1, e.2.1, e.2.2.1, e.2.2.2.1, e.2.2.2.2.1, e.2.2.2.2.2]
  constructor
  · rintro (((h | h) | h) | h)
    · exact .inr h
    · exact .inl (.inl (.inr h))
    · exact .inl (.inl (.inl h))
    · exact .inl (.inr h)
  · rintro (((h | h) | h) | h)
    · exact .inl (.inr h)
    · exact .inl (.inl (.inr h))
    · exact .inr h
    · exact .inl (.inl (.inl h))

/-- What `EmptyOpContext` computes, flag by flag. -/
theorem emptyOpContext_flags (r1 r2 : Option UInt8) :
    ((emptyOpContext r1 r2 &&& 1 != 0) = (r1.isNone || r1 == some 10)) ∧
    ((emptyOpContext r1 r2 &&& 2 != 0) = (r2.isNone || r2 == some 10)) ∧
    ((emptyOpContext r1 r2 &&& 4 != 0) = r1.isNone) ∧
    ((emptyOpContext r1 r2 &&& 8 != 0) = r2.isNone) ∧
    ((emptyOpContext r1 r2 &&& 16 != 0) = (r1.any isWordChar != r2.any isWordChar)) ∧
    ((emptyOpContext r1 r2 &&& 32 != 0) = (r1.any isWordChar == r2.any isWordChar)) := by
  have key : ∀ r : Option UInt8, r = none ∨ (∃ b, r = some b ∧ isWordChar b = true ∧ (b == 10) = false) ∨
      r = some 10 ∨ (∃ b, r = some b ∧ isWordChar b = false ∧ (b == 10) = false) := by
    intro r
    cases r with
    | none => exact .inl rfl
    | some b =>
      by_cases hb : b = 10
      · subst hb; exact .inr (.inr (.inl rfl))
      · have hb' : (b == 10) = false := by simpa using hb
        cases hw : isWordChar b with
        | true => exact .inr (.inl ⟨b, rfl, hw, hb'⟩)
        | false => exact .inr (.inr (.inr ⟨b, rfl, hw, hb'⟩))
  have hten : isWordChar 10 = false := by decide
  rcases key r1 with rfl | ⟨b, rfl, hb, hb'⟩ | rfl | ⟨b, rfl, hb, hb'⟩ <;>
  rcases key r2 with rfl | ⟨c, rfl, hc, hc'⟩ | rfl | ⟨c, rfl, hc, hc'⟩ <;>
  (clear key; simp only [emptyOpContext, Option.any_some, Option.any_none, Option.isNone_none, Option.isNone_some,
    Option.some_beq_some, Option.none_beq_some, *] <;> decide)

/-! ## Positions and assertions -/

theorem before_runes (d : List UInt8) (i : Nat) (hi : i ≤ d.length) :
    (if i = 0 then none else d[i - 1]?).isNone = decide (i = 0) := by
  by_cases h : i = 0
  · simp [h]
  · rw [if_neg h]; simp [h]; omega

theorem some_ten (x : Option UInt8) : (x == some 10) = decide (x.map (·.toNat) = some 10) := by
  cases x with
  | none => rfl
  | some b =>
    rw [Option.some_beq_some, Bool.eq_iff_iff, beq_iff_eq, decide_eq_true_eq, ← UInt8.toNat_inj]
    simp

theorem any_word (x : Option UInt8) : x.any isWordChar = (x.map (·.toNat)).any wordRune := by
  cases x with
  | none => rfl
  | some b => exact isWordChar_rune b

theorem assert_bol {i : Nat} (hi : i ≤ d.length) :
    assertAt d i 1 = decide (i = 0 ∨ (runes d)[i - 1]? = some 10) := by
  unfold assertAt
  rw [(emptyOpContext_flags _ _).1, before_runes d i hi, some_ten, runes_get]
  by_cases h : i = 0
  · simp [h]
  · simp [h]

theorem assert_eol {i : Nat} (hi : i ≤ d.length) :
    assertAt d i 2 = decide (i = (runes d).length ∨ (runes d)[i]? = some 10) := by
  unfold assertAt
  rw [(emptyOpContext_flags _ _).2.1, some_ten, runes_get, runes_length]
  by_cases h : i = d.length
  · simp [h]
  · have : (d[i]?).isNone = false := by simp; omega
    rw [this]; simp [h]

theorem assert_bot {i : Nat} (hi : i ≤ d.length) : assertAt d i 4 = decide (i = 0) := by
  unfold assertAt
  rw [(emptyOpContext_flags _ _).2.2.1, before_runes d i hi]

theorem assert_eot {i : Nat} (hi : i ≤ d.length) : assertAt d i 8 = decide (i = (runes d).length) := by
  unfold assertAt
  rw [(emptyOpContext_flags _ _).2.2.2.1, runes_length, Bool.eq_iff_iff]
  simp; omega

theorem before_word (i : Nat) : (if i = 0 then none else d[i - 1]?).any isWordChar = wordBefore (runes d) i := by
  unfold wordBefore
  rw [runes_get]
  by_cases h : i = 0
  · simp [h]
  · rw [if_neg h, any_word]; simp; intro; omega

theorem assert_wb {i : Nat} : assertAt d i 16 = (wordBefore (runes d) i != wordAfter (runes d) i) := by
  unfold assertAt
  rw [(emptyOpContext_flags _ _).2.2.2.2.1, before_word, any_word, ← runes_get]
  rfl

theorem assert_nwb {i : Nat} : assertAt d i 32 = (wordBefore (runes d) i == wordAfter (runes d) i) := by
  unfold assertAt
  rw [(emptyOpContext_flags _ _).2.2.2.2.2, before_word, any_word, ← runes_get]
  rfl

/-! ## The pieces of the conversion -/

section
variable {env : Env} {k : Pat} {i : Nat} {F : Nat → Option (Nat × List CTree)}

theorem one_ok {a : Pat} {j : Nat} (h : Ford d env a i (some (j, []))) (hk : Ford d env k j (F j)) :
    Ford d env (concatPat [a, k]) i ([j].findSome? F) := by
  show Ford d env (.seq a k) i _
  have : [j].findSome? F = F j := by
    rw [List.findSome?_cons]; cases F j <;> rfl
  rw [this]
  cases hF : F j with
  | none => rw [hF] at hk; exact .seqFail2 h hk
  | some x => rw [hF] at hk; obtain ⟨m, cs⟩ := x; exact .seqOk (cs := []) h hk

theorem one_fail {a : Pat} (h : Ford d env a i none) : Ford d env (concatPat [a, k]) i ([].findSome? F) :=
  Ford.seqFail1 h

theorem op_ford {op : UInt8} {b : Bool} (hb : assertAt d i op = b)
    (hk : ∀ j ∈ onlyIf i b, Ford d env k j (F j)) :
    Ford d env (concatPat [.emptyOp op, k]) i ((onlyIf i b).findSome? F) := by
  cases b with
  | true => exact one_ok (.opOk hb) (hk i (by simp [onlyIf]))
  | false => exact one_fail (.opFail hb)

theorem rune_ford {a : Pat} {f : Nat → Bool}
    (h1 : ∀ b, d[i]? = some b → f b.toNat = true → Ford d env a i (some (i + 1, [])))
    (h2 : ∀ b, d[i]? = some b → f b.toNat = false → Ford d env a i none) (h3 : d[i]? = none → Ford d env a i none)
    (hk : ∀ j ∈ oneRune (runes d) i f, Ford d env k j (F j)) :
    Ford d env (concatPat [a, k]) i ((oneRune (runes d) i f).findSome? F) := by
  cases hd : d[i]? with
  | none =>
    have : oneRune (runes d) i f = [] := by unfold oneRune; rw [runes_get, hd]; rfl
    rw [this]; exact one_fail (h3 hd)
  | some b =>
    cases hf : f b.toNat with
    | true =>
      have : oneRune (runes d) i f = [i + 1] := by unfold oneRune; rw [runes_get, hd]; simp [hf]
      rw [this] at hk ⊢
      exact one_ok (h1 b hd hf) (hk _ List.mem_cons_self)
    | false =>
      have : oneRune (runes d) i f = [] := by unfold oneRune; rw [runes_get, hd]; simp [hf]
      rw [this]; exact one_fail (h2 b hd hf)

theorem FAlt.append_none {ps qs : List Pat} {x : Option (Nat × List CTree)} (h : FAlt d env ps i none)
    (h' : FAlt d env qs i x) : FAlt d env (ps ++ qs) i x := by
  induction ps with
  | nil => exact h'
  | cons p ps ih =>
    cases h with
    | next h1 h2 => exact .next h1 (ih h2)

theorem FAlt.append_some {ps qs : List Pat} {x : Nat × List CTree} (h : FAlt d env ps i (some x)) :
    FAlt d env (ps ++ qs) i (some x) := by
  induction ps with
  | nil => cases h
  | cons p ps ih =>
    cases h with
    | here h => exact .here h
    | next h1 h2 => exact .next h1 (ih h2)

/-- Alternatives all of which give `x` or fail. -/
theorem falt_class {α : Type} {x : Option (Nat × List CTree)} (f : α → List Pat) (m : α → Bool) (xs : List α)
    (h : ∀ a ∈ xs, FAlt d env (f a) i (if m a then x else none)) :
    FAlt d env (xs.flatMap f) i (if xs.any m then x else none) := by
  induction xs with
  | nil => exact .nil
  | cons a xs ih =>
    have h1 := h a List.mem_cons_self
    have h2 := ih fun b hb => h b (List.mem_cons_of_mem _ hb)
    rw [List.flatMap_cons]
    cases hm : m a with
    | false =>
      rw [hm] at h1
      simpa [hm] using h1.append_none h2
    | true =>
      rw [hm] at h1
      simp only [if_true, List.any_cons, hm, Bool.true_or] at h1 ⊢
      cases x with
      | none => exact h1.append_none (by simpa using h2)
      | some x => exact h1.append_some

theorem clsAlts_ford (ha : Ascii d) {b : UInt8} (hb : d[i]? = some b) {start stop : Nat}
    {x : Option (Nat × List CTree)} (hk : start ≤ b.toNat → b.toNat ≤ stop → Ford d env k (i + 1) x) :
    FAlt d env (clsAlts k start stop) i (if start ≤ b.toNat && b.toNat ≤ stop then x else none) := by
  have hb128 : b.toNat < 128 := ha b (List.mem_of_getElem? hb)
  have single : ∀ {a : Pat} {m : Bool}, (m = true → Ford d env a i (some (i + 1, [])) ∧ Ford d env k (i + 1) x) →
      (m = false → Ford d env a i none) → FAlt d env [concatPat [a, k]] i (if m then x else none) := by
    intro a m h1 h2
    cases m with
    | true =>
      obtain ⟨h3, h4⟩ := h1 rfl
      have := one_ok (F := fun _ => x) h3 h4
      cases x with
      | none => exact .next (by simpa using this) .nil
      | some x => exact .here (by simpa using this)
    | false => exact .next (one_fail (F := fun _ => none) (h2 rfl)) .nil
  unfold clsAlts
  split
  · rename_i h
    have hm : (CSet.range (UInt8.ofNat start) (UInt8.ofNat stop)).has b = (start ≤ b.toNat && b.toNat ≤ stop) := by
      rw [CSet.has_range, Bool.eq_iff_iff]
      simp only [decide_eq_true_eq, Bool.and_eq_true, UInt8.le_iff_toNat_le, u8_toNat h.1, u8_toNat h.2]
    refine single (fun hh => ⟨.clsOk hb (hm.trans hh), ?_⟩) fun hh => .clsFail fun b' hb' => ?_
    · simp only [Bool.and_eq_true, decide_eq_true_eq] at hh
      exact hk hh.1 hh.2
    · rw [hb] at hb'; cases hb'; exact hm.trans hh
  · have hmap : ∀ l : List Nat, (l.map fun q => concatPat [Pat.lit (utf8 (start + q)), k]) =
        l.flatMap fun q => [concatPat [Pat.lit (utf8 (start + q)), k]] := by
      intro l; induction l with
      | nil => rfl
      | cons a l ih => simp [ih]
    rw [hmap]
    have hany : (start ≤ b.toNat && b.toNat ≤ stop) =
        (List.range (stop + 1 - start)).any fun q => start + q == b.toNat := by
      rw [Bool.eq_iff_iff]
      simp only [Bool.and_eq_true, decide_eq_true_eq, List.any_eq_true, List.mem_range, beq_iff_eq]
      constructor
      · rintro ⟨h1, h2⟩; exact ⟨b.toNat - start, by omega, by omega⟩
      · rintro ⟨q, h1, h2⟩; omega
    rw [hany]
    have hdrop : d.drop i = b :: d.drop (i + 1) := by
      obtain ⟨hlt, e⟩ := List.getElem?_eq_some_iff.1 hb
      rw [List.drop_eq_getElem_cons hlt, e]
    refine falt_class _ _ _ fun q hq => ?_
    rw [List.mem_range] at hq
    have hp := utf8_prefix [start + q] (ha.drop i)
    rw [hdrop, show runes (b :: d.drop (i + 1)) = b.toNat :: runes (d.drop (i + 1)) from rfl] at hp
    simp only [List.flatMap_cons, List.flatMap_nil, List.append_nil, List.cons_prefix_cons, List.nil_prefix, and_true]
      at hp
    rw [← hdrop] at hp
    refine single (fun hh => ?_) fun hh => .litFail fun hc => ?_
    · rw [beq_iff_eq] at hh
      have := Ford.litOk (env := env) (hp.1.2 hh)
      rw [hp.2 hh] at this
      exact ⟨this, hk (by omega) (by omega)⟩
    · have := hp.1.1 hc
      simp [this] at hh

theorem clsAlts_fail (hb : d[i]? = none) (hi : i ≤ d.length) {start stop : Nat} :
    FAlt d env (clsAlts k start stop) i none := by
  have hlen : i = d.length := by
    have := List.getElem?_eq_none_iff.1 hb; omega
  unfold clsAlts
  split
  · exact .next (one_fail (F := fun _ => none) (.clsFail fun b h => by rw [hb] at h; cases h)) .nil
  · generalize List.range (stop + 1 - start) = l
    induction l with
    | nil => exact .nil
    | cons q l ih =>
      refine .next (one_fail (F := fun _ => none) (.litFail ?_)) ih
      rw [hlen, List.drop_length]
      intro h
      have h0 : utf8 (start + q) = [] := List.prefix_nil.1 h
      by_cases hr : start + q < 128
      · rw [utf8_ascii hr] at h0; cases h0
      · obtain ⟨b, bs, e, _⟩ := utf8_big (by omega : 128 ≤ start + q)
        rw [e] at h0; cases h0

theorem clsAlts_ne_nil {start stop : Nat} (h : start ≤ stop) : clsAlts k start stop ≠ [] := by
  unfold clsAlts
  split
  · simp
  · intro h'
    have := congrArg List.length h'
    simp at this; omega

theorem cls_ford (ha : Ascii d) (hi : i ≤ d.length) {rgs : List (Nat × Nat)} (hne : rgs ≠ [])
    (hle : ∀ g ∈ rgs, g.1 ≤ g.2)
    (hk : ∀ j ∈ (Rx.cls rgs).ends (runes d) i, Ford d env k j (F j)) :
    Ford d env (orPat (rgs.flatMap fun r => clsAlts k r.1 r.2)) i (((Rx.cls rgs).ends (runes d) i).findSome? F) := by
  have hfalt : FAlt d env (rgs.flatMap fun r => clsAlts k r.1 r.2) i
      (((Rx.cls rgs).ends (runes d) i).findSome? F) := by
    cases hd : d[i]? with
    | none =>
      have : (Rx.cls rgs).ends (runes d) i = [] := by simp only [Rx.ends]; unfold oneRune; rw [runes_get, hd]; rfl
      rw [this]
      have := falt_class (x := (none : Option (Nat × List CTree))) (fun r : Nat × Nat => clsAlts k r.1 r.2)
        (fun _ => true) rgs fun a _ => clsAlts_fail (env := env) (k := k) hd hi
      simpa using this
    | some b =>
      have he : (Rx.cls rgs).ends (runes d) i =
          if rgs.any (fun g => g.1 ≤ b.toNat && b.toNat ≤ g.2) then [i + 1] else [] := by
        simp only [Rx.ends]; unfold oneRune; rw [runes_get, hd]; rfl
      have := falt_class (x := F (i + 1)) (fun r : Nat × Nat => clsAlts k r.1 r.2)
        (fun g => g.1 ≤ b.toNat && b.toNat ≤ g.2) rgs fun g hg => clsAlts_ford (env := env) (k := k) ha hd fun h1 h2 => ?_
      · rw [he]
        split
        · rename_i h
          rw [if_pos h] at this
          have e : [i + 1].findSome? F = F (i + 1) := by rw [List.findSome?_cons]; cases F (i + 1) <;> rfl
          rw [e]; exact this
        · rename_i h
          rw [if_neg h] at this
          exact this
      · apply hk
        rw [he, if_pos]
        · simp
        · rw [List.any_eq_true]
          exact ⟨g, hg, by simp [h1, h2]⟩
  revert hfalt
  cases hl : rgs.flatMap fun r => clsAlts k r.1 r.2 with
  | nil =>
    exfalso
    obtain ⟨g, rgs, rfl⟩ := List.exists_cons_of_ne_nil hne
    rw [List.flatMap_cons, List.append_eq_nil_iff] at hl
    exact clsAlts_ne_nil (hle g List.mem_cons_self) hl.1
  | cons p ps => exact (C43_or p ps i _).2

end

/-! ## Correctness of the conversion -/

theorem findSome_flatMap {α β γ : Type} (l : List α) (f : α → List β) (F : β → Option γ) :
    (l.flatMap f).findSome? F = l.findSome? fun a => (f a).findSome? F := by
  induction l with
  | nil => rfl
  | cons a l ih =>
    rw [List.flatMap_cons, List.findSome?_append, ih, List.findSome?_cons]
    cases (f a).findSome? F <;> rfl

/-- The pattern built by `star`, and that it behaves as the iteration. `hr` is what is known about the body. -/
theorem star_ford {env : Env} {k r : Pat} {n : Nat} {F : Nat → Option (Nat × List CTree)} {f : Nat → List Nat}
    (hf : ∀ i j, i ≤ d.length → j ∈ f i → i ≤ j ∧ j ≤ d.length) (hp : ∀ i ≤ d.length, i ∉ f i)
    {N : String} (hN : N = rxName (n + 1))
    (hr : ∀ (env : Env) (i : Nat) (F : Nat → Option (Nat × List CTree)), i ≤ d.length →
      (∀ ext, Fresh (n + 1) ext → ∀ j ∈ f i, Ford d (ext ++ env) (.nonterm N) j (F j)) →
      Ford d env r i ((f i).findSome? F)) :
    ∀ i, i ≤ d.length → (∀ j ∈ iter false f (d.length - i) i, Ford d (Defs.cons N (orPat [r, k]) .nil :: env) k j (F j)) →
      Ford d (Defs.cons N (orPat [r, k]) .nil :: env) (orPat [r, k]) i ((iter false f (d.length - i) i).findSome? F) := by
  subst hN
  intro i
  induction hm : d.length - i using Nat.strongRecOn generalizing i with
  | ind m ih =>
    subst hm
    intro hi hk
    -- unfold the iteration once
    have hunf : iter false f (d.length - i) i = (f i).flatMap (fun j => iter false f (d.length - j) j) ++ [i] := by
      rw [iter_fuel hf _ (d.length - i + 1) i hi (Nat.le_refl _) (by omega)]
      show prefer false _ _ = _
      unfold prefer
      rw [if_neg (by simp)]
      have hfil : (f i).filter (i < ·) = f i := by
        rw [List.filter_eq_self]
        intro j hj
        have := hf i j hi hj
        have hne : j ≠ i := by rintro rfl; exact hp _ hi hj
        simp; omega
      rw [hfil, List.flatMap_def, List.flatMap_def]
      congr 2
      apply List.map_congr_left
      intro j hj
      have := hf i j hi hj
      exact iter_fuel hf _ _ j this.2 (by omega) (by omega)
    rw [hunf] at hk ⊢
    have h1 := hr (Defs.cons (rxName (n + 1)) (orPat [r, k]) .nil :: env) i
      (fun j => (iter false f (d.length - j) j).findSome? F) hi ?_
    · rw [List.findSome?_append, findSome_flatMap]
      have hkk := hk i (by simp)
      show Ford d _ (.alt r k) i _
      cases hx : (f i).findSome? (fun j => (iter false f (d.length - j) j).findSome? F) with
      | none =>
        rw [hx] at h1
        refine .altR h1 ?_
        have e : [i].findSome? F = F i := by rw [List.findSome?_cons]; cases F i <;> rfl
        simpa [e] using hkk
      | some x => rw [hx] at h1; exact .altL h1
    · intro ext hext j hj
      have hb := hf i j hi hj
      have hne : j ≠ i := by rintro rfl; exact hp _ hi hj
      refine .nonterm (b := orPat [r, k]) (env' := Defs.cons (rxName (n + 1)) (orPat [r, k]) .nil :: env) ?_
        (ih (d.length - j) (by omega) j rfl hb.2 fun q hq => hk q ?_)
      · rw [hext.lookup, lookupNT, Defs.find, if_pos rfl]
      · exact List.mem_append_left _ (List.mem_flatMap.2 ⟨j, hj, hq⟩)

mutual
theorem Rx.pi_le : ∀ (e : Rx) {k : Pat} {n : Nat} {p : Pat} {n' : Nat}, e.pi k n = some (p, n') → n ≤ n'
  | .empty, k, n, p, n', h | .lit _ _, k, n, p, n', h | .cls _, k, n, p, n', h | .any, k, n, p, n', h
  | .anyNL, k, n, p, n', h | .bol, k, n, p, n', h | .eol, k, n, p, n', h | .bot, k, n, p, n', h
  | .eot, k, n, p, n', h | .wb, k, n, p, n', h | .nwb, k, n, p, n', h => by
    simp only [Rx.pi, Option.some.injEq, Prod.mk.injEq] at h; omega
  | .cat es, k, n, p, n', h => Rxs.piCat_le es h
  | .alt es, k, n, p, n', h => by
    simp only [Rx.pi, Option.map_eq_some_iff, Prod.mk.injEq] at h
    obtain ⟨⟨ps, m⟩, h, _, rfl⟩ := h
    exact Rxs.piAlt_le es h
  | .cap e, k, n, p, n', h => Rx.pi_le e (by simpa only [Rx.pi] using h)
  | .star _ e, k, n, p, n', h => by
    simp only [Rx.pi, Option.map_eq_some_iff, Prod.mk.injEq] at h
    obtain ⟨⟨q, m⟩, h, _, rfl⟩ := h
    have := Rx.pi_le e h
    show n ≤ m; omega
  | .plus _ e, k, n, p, n', h => by
    simp only [Rx.pi, Option.bind_eq_some_iff] at h
    obtain ⟨⟨q, m⟩, h, h'⟩ := h
    have := Rx.pi_le e h
    have := Rx.pi_le e h'
    simp only at this; omega
  | .quest _ e, k, n, p, n', h => by
    simp only [Rx.pi, Option.map_eq_some_iff, Prod.mk.injEq] at h
    obtain ⟨⟨q, m⟩, h, _, rfl⟩ := h
    exact Rx.pi_le e h
  | .other, k, n, p, n', h => by simp [Rx.pi] at h
theorem Rxs.piCat_le : ∀ (es : Rxs) {k : Pat} {n : Nat} {p : Pat} {n' : Nat}, es.piCat k n = some (p, n') → n ≤ n'
  | .nil, k, n, p, n', h => by simp only [Rxs.piCat, Option.some.injEq, Prod.mk.injEq] at h; omega
  | .cons e es, k, n, p, n', h => by
    simp only [Rxs.piCat, Option.bind_eq_some_iff] at h
    obtain ⟨⟨q, m⟩, h, h'⟩ := h
    have := Rxs.piCat_le es h
    have := Rx.pi_le e h'
    simp only at this; omega
theorem Rxs.piAlt_le : ∀ (es : Rxs) {k : Pat} {n : Nat} {p : List Pat} {n' : Nat}, es.piAlt k n = some (p, n') → n ≤ n'
  | .nil, k, n, p, n', h => by simp only [Rxs.piAlt, Option.some.injEq, Prod.mk.injEq] at h; omega
  | .cons e es, k, n, p, n', h => by
    simp only [Rxs.piAlt, Option.bind_eq_some_iff, Option.map_eq_some_iff, Prod.mk.injEq] at h
    obtain ⟨⟨q, m⟩, h, ⟨ps, m'⟩, h', _, rfl⟩ := h
    have := Rx.pi_le e h
    have := Rxs.piAlt_le es h'
    simp only at this; show n ≤ m'; omega
end

theorem foldRune_false (l : List Nat) : l.map (foldRune false) = l := by
  have : foldRune false = id := by funext r; rfl
  rw [this, List.map_id]

mutual
/-- `pi e k` matches at `i` what `k` matches at the first end of a match of `e` at `i` from which `k` matches. -/
theorem Rx.pi_ford (ha : Ascii d) : ∀ (e : Rx) {k p : Pat} {n n' i : Nat} {env : Env}
    {F : Nat → Option (Nat × List CTree)}, e.pi k n = some (p, n') → e.Plain → e.Progress (runes d) → i ≤ d.length →
    (∀ ext, Fresh n ext → ∀ j ∈ e.ends (runes d) i, Ford d (ext ++ env) k j (F j)) →
    ∀ ext, Fresh n' ext → Ford d (ext ++ env) p i ((e.ends (runes d) i).findSome? F)
  | .empty, k, p, n, n', i, env, F, h, _, _, hi, hk, ext, hx => by
    simp only [Rx.pi, Option.some.injEq, Prod.mk.injEq] at h
    obtain ⟨rfl, rfl⟩ := h
    have e : [i].findSome? F = F i := by rw [List.findSome?_cons]; cases F i <;> rfl
    rw [Rx.ends, e]
    exact hk ext hx i (by simp [Rx.ends])
  | .lit fold rs, k, p, n, n', i, env, F, h, hpl, _, hi, hk, ext, hx => by
    simp only [Rx.pi, Option.some.injEq, Prod.mk.injEq] at h
    obtain ⟨rfl, rfl⟩ := h
    cases (show fold = false from hpl)
    have hp := utf8_prefix rs (ha.drop i)
    rw [← runes_drop] at hp
    have hk' := hk ext hx
    simp only [Rx.ends, foldRune_false] at hk' ⊢
    split
    · rename_i hpre
      rw [if_pos hpre] at hk'
      have := Ford.litOk (env := ext ++ env) (hp.1.2 hpre)
      rw [hp.2 hpre] at this
      exact one_ok this (hk' _ List.mem_cons_self)
    · rename_i hpre
      exact one_fail (.litFail fun hc => hpre (hp.1.1 hc))
  | .cls rgs, k, p, n, n', i, env, F, h, hpl, _, hi, hk, ext, hx => by
    simp only [Rx.pi, Option.some.injEq, Prod.mk.injEq] at h
    obtain ⟨rfl, rfl⟩ := h
    exact cls_ford ha hi hpl.1 hpl.2 (hk ext hx)
  | .any, k, p, n, n', i, env, F, h, _, _, hi, hk, ext, hx => by
    simp only [Rx.pi, Option.some.injEq, Prod.mk.injEq] at h
    obtain ⟨rfl, rfl⟩ := h
    refine rune_ford (fun b hb _ => .dotOk (n := 1) ?_) (fun b hb hf => by cases hf) (fun hb => .dotFail ?_) (hk ext hx)
    · exact (List.getElem?_eq_some_iff.1 hb).1
    · have := List.getElem?_eq_none_iff.1 hb
      show d.length < i + 1; omega
  | .anyNL, k, p, n, n', i, env, F, h, _, _, hi, hk, ext, hx => by
    simp only [Rx.pi, Option.some.injEq, Prod.mk.injEq] at h
    obtain ⟨rfl, rfl⟩ := h
    have hh : ∀ b : UInt8, (CSet.new [10]).complement.has b = (b.toNat != 10) := by
      intro b
      rw [CSet.has_complement, CSet.has_new, Bool.eq_iff_iff]
      simp [← UInt8.toNat_inj]
    refine rune_ford (fun b hb hf => .clsOk hb ((hh b).trans hf)) (fun b hb hf => .clsFail fun b' hb' => ?_)
      (fun hb => .clsFail fun b' hb' => ?_) (hk ext hx)
    · rw [hb] at hb'; cases hb'; exact (hh b).trans hf
    · rw [hb] at hb'; cases hb'
  | .cat es, k, p, n, n', i, env, F, h, hpl, hpr, hi, hk, ext, hx =>
    Rxs.piCat_ford ha es h hpl hpr hi hk ext hx
  | .alt es, k, p, n, n', i, env, F, h, hpl, hpr, hi, hk, ext, hx => by
    simp only [Rx.pi, Option.map_eq_some_iff, Prod.mk.injEq] at h
    obtain ⟨⟨ps, m⟩, h, rfl, rfl⟩ := h
    cases es with
    | nil => exact hpl.elim
    | cons e es =>
      have := Rxs.piAlt_ford ha (.cons e es) h hpl hpr hi hk ext hx
      cases ps with
      | nil =>
        simp only [Rxs.piAlt, Option.bind_eq_some_iff, Option.map_eq_some_iff, Prod.mk.injEq] at h
        obtain ⟨_, _, _, _, h, _⟩ := h
        cases h
      | cons q ps => exact (C43_or q ps i _).2 this
  | .cap e, k, p, n, n', i, env, F, h, hpl, hpr, hi, hk, ext, hx =>
    Rx.pi_ford ha e (by simpa only [Rx.pi] using h) hpl hpr hi hk ext hx
  | .star lazy e, k, p, n, n', i, env, F, h, hpl, hpr, hi, hk, ext, hx => by
    simp only [Rx.pi, Option.map_eq_some_iff, Prod.mk.injEq] at h
    obtain ⟨⟨r, m⟩, h, rfl, rfl⟩ := h
    obtain ⟨rfl, hple⟩ := (show lazy = false ∧ e.Plain from hpl)
    have hm := Rx.pi_le e h
    refine .grammar (b := orPat [r, k]) (by rw [Defs.find, if_pos rfl]) ?_
    have hb := Rx.ends_bounds (t := runes d) e
    have hpr1 := hpr.1
    have hk' := hk (Defs.cons (rxName (n + 1)) (orPat [r, k]) .nil :: ext) ?_
    · simp only [Rx.ends] at hk' ⊢
      rw [runes_length] at hb hpr1 hk' ⊢
      exact star_ford hb hpr1 rfl
        (fun env' i' F' hi' hk' => Rx.pi_ford ha e h hple hpr.2 hi' hk' [] (fun _ h => by cases h)) i hi hk'
    · intro ds hds s hs
      rcases List.mem_cons.1 hds with rfl | hds
      · simp [Defs.names] at hs
        exact ⟨n + 1, by omega, hs⟩
      · exact (hx.mono (show n ≤ m by omega)) ds hds s hs
  | .plus lazy e, k, p, n, n', i, env, F, h, hpl, hpr, hi, hk, ext, hx => by
    simp only [Rx.pi, Option.bind_eq_some_iff] at h
    obtain ⟨⟨r, m⟩, h, h'⟩ := h
    obtain ⟨rfl, hple⟩ := (show lazy = false ∧ e.Plain from hpl)
    have hm := Rx.pi_le e h
    have hb := Rx.ends_bounds (t := runes d) e
    have hpr1 := hpr.1
    simp only [Rx.ends] at hk ⊢
    rw [findSome_flatMap]
    refine Rx.pi_ford ha e h' hple hpr.2 hi (fun ext' hx' j hj => ?_) ext hx
    have hbj := hb i j (by rw [runes_length]; exact hi) hj
    refine .grammar (b := orPat [r, k]) (by rw [Defs.find, if_pos rfl]) ?_
    have hk' := hk (Defs.cons (rxName (n + 1)) (orPat [r, k]) .nil :: ext') ?_
    · rw [runes_length] at hb hpr1 hk' hbj ⊢
      exact star_ford hb hpr1 rfl
        (fun env' i' F' hi' hk' => Rx.pi_ford ha e h hple hpr.2 hi' hk' [] (fun _ h => by cases h)) j hbj.2
        fun q hq => hk' q (List.mem_flatMap.2 ⟨j, hj, hq⟩)
    · intro ds hds s hs
      rcases List.mem_cons.1 hds with rfl | hds
      · simp [Defs.names] at hs
        exact ⟨n + 1, by omega, hs⟩
      · exact (hx'.mono (show n ≤ m by omega)) ds hds s hs
  | .quest lazy e, k, p, n, n', i, env, F, h, hpl, hpr, hi, hk, ext, hx => by
    simp only [Rx.pi, Option.map_eq_some_iff, Prod.mk.injEq] at h
    obtain ⟨⟨r, m⟩, h, rfl, rfl⟩ := h
    obtain ⟨rfl, hple⟩ := (show lazy = false ∧ e.Plain from hpl)
    have hm := Rx.pi_le e h
    simp only [Rx.ends] at hk ⊢
    have h1 := Rx.pi_ford ha e h hple hpr hi (fun ext hx j hj => hk ext hx j (mem_prefer.2 (.inl hj))) ext hx
    have h2 := hk ext (hx.mono hm) i (mem_prefer.2 (.inr List.mem_cons_self))
    have e1 : [i].findSome? F = F i := by rw [List.findSome?_cons]; cases F i <;> rfl
    rw [show prefer false (e.ends (runes d) i) [i] = e.ends (runes d) i ++ [i] from rfl, List.findSome?_append, e1]
    show Ford d _ (.alt r k) i _
    cases hx : (e.ends (runes d) i).findSome? F with
    | none => rw [hx] at h1; exact .altR h1 h2
    | some x => rw [hx] at h1; exact .altL h1
  | .bol, k, p, n, n', i, env, F, h, _, _, hi, hk, ext, hx => by
    simp only [Rx.pi, Option.some.injEq, Prod.mk.injEq] at h
    obtain ⟨rfl, rfl⟩ := h
    exact op_ford (assert_bol hi) (hk ext hx)
  | .eol, k, p, n, n', i, env, F, h, _, _, hi, hk, ext, hx => by
    simp only [Rx.pi, Option.some.injEq, Prod.mk.injEq] at h
    obtain ⟨rfl, rfl⟩ := h
    exact op_ford (assert_eol hi) (hk ext hx)
  | .bot, k, p, n, n', i, env, F, h, _, _, hi, hk, ext, hx => by
    simp only [Rx.pi, Option.some.injEq, Prod.mk.injEq] at h
    obtain ⟨rfl, rfl⟩ := h
    exact op_ford (assert_bot hi) (hk ext hx)
  | .eot, k, p, n, n', i, env, F, h, _, _, hi, hk, ext, hx => by
    simp only [Rx.pi, Option.some.injEq, Prod.mk.injEq] at h
    obtain ⟨rfl, rfl⟩ := h
    exact op_ford (assert_eot hi) (hk ext hx)
  | .wb, k, p, n, n', i, env, F, h, _, _, hi, hk, ext, hx => by
    simp only [Rx.pi, Option.some.injEq, Prod.mk.injEq] at h
    obtain ⟨rfl, rfl⟩ := h
    exact op_ford assert_wb (hk ext hx)
  | .nwb, k, p, n, n', i, env, F, h, _, _, hi, hk, ext, hx => by
    simp only [Rx.pi, Option.some.injEq, Prod.mk.injEq] at h
    obtain ⟨rfl, rfl⟩ := h
    exact op_ford assert_nwb (hk ext hx)
  | .other, k, p, n, n', i, env, F, h, _, _, hi, hk, ext, hx => by simp [Rx.pi] at h
theorem Rxs.piCat_ford (ha : Ascii d) : ∀ (es : Rxs) {k p : Pat} {n n' i : Nat} {env : Env}
    {F : Nat → Option (Nat × List CTree)}, es.piCat k n = some (p, n') → es.Plain → es.Progress (runes d) →
    i ≤ d.length →
    (∀ ext, Fresh n ext → ∀ j ∈ es.endsCat (runes d) i, Ford d (ext ++ env) k j (F j)) →
    ∀ ext, Fresh n' ext → Ford d (ext ++ env) p i ((es.endsCat (runes d) i).findSome? F)
  | .nil, k, p, n, n', i, env, F, h, _, _, hi, hk, ext, hx => by
    simp only [Rxs.piCat, Option.some.injEq, Prod.mk.injEq] at h
    obtain ⟨rfl, rfl⟩ := h
    have e : [i].findSome? F = F i := by rw [List.findSome?_cons]; cases F i <;> rfl
    rw [Rxs.endsCat, e]
    exact hk ext hx i (by simp [Rxs.endsCat])
  | .cons e es, k, p, n, n', i, env, F, h, hpl, hpr, hi, hk, ext, hx => by
    simp only [Rxs.piCat, Option.bind_eq_some_iff] at h
    obtain ⟨⟨q, m⟩, h, h'⟩ := h
    simp only [Rxs.endsCat] at hk ⊢
    rw [findSome_flatMap]
    refine Rx.pi_ford ha e h' hpl.1 hpr.1 hi (fun ext' hx' j hj => ?_) ext hx
    have hbj := Rx.ends_bounds (t := runes d) e i j (by rw [runes_length]; exact hi) hj
    rw [runes_length] at hbj
    exact Rxs.piCat_ford ha es h hpl.2 hpr.2 hbj.2
      (fun ext'' hx'' j' hj' => hk ext'' hx'' j' (List.mem_flatMap.2 ⟨j, hj, hj'⟩)) ext' hx'
theorem Rxs.piAlt_ford (ha : Ascii d) : ∀ (es : Rxs) {k : Pat} {ps : List Pat} {n n' i : Nat} {env : Env}
    {F : Nat → Option (Nat × List CTree)}, es.piAlt k n = some (ps, n') → es.Plain → es.Progress (runes d) →
    i ≤ d.length →
    (∀ ext, Fresh n ext → ∀ j ∈ es.endsAlt (runes d) i, Ford d (ext ++ env) k j (F j)) →
    ∀ ext, Fresh n' ext → FAlt d (ext ++ env) ps i ((es.endsAlt (runes d) i).findSome? F)
  | .nil, k, p, n, n', i, env, F, h, _, _, hi, hk, ext, hx => by
    simp only [Rxs.piAlt, Option.some.injEq, Prod.mk.injEq] at h
    obtain ⟨rfl, rfl⟩ := h
    exact .nil
  | .cons e es, k, p, n, n', i, env, F, h, hpl, hpr, hi, hk, ext, hx => by
    simp only [Rxs.piAlt, Option.bind_eq_some_iff, Option.map_eq_some_iff, Prod.mk.injEq] at h
    obtain ⟨⟨q, m⟩, h, ⟨ps, m'⟩, h', rfl, rfl⟩ := h
    have hm := Rx.pi_le e h
    have hm' := Rxs.piAlt_le es h'
    simp only [Rxs.endsAlt] at hk ⊢
    have h1 := Rx.pi_ford ha e h hpl.1 hpr.1 hi (fun ext hx j hj => hk ext hx j (List.mem_append_left _ hj)) ext
      (hx.mono hm')
    have h2 := Rxs.piAlt_ford ha es h' hpl.2 hpr.2 hi
      (fun ext hx j hj => hk ext (hx.mono hm) j (List.mem_append_right _ hj)) ext hx
    rw [List.findSome?_append]
    cases hx : (e.ends (runes d) i).findSome? F with
    | none => rw [hx] at h1; exact .next h1 h2
    | some x => rw [hx] at h1; exact .here h1
end

/-! ## The converted pattern is well formed -/

/-- What the compiler theorems ask of a pattern, and that names made later than `n` do not occur. -/
structure PatOk (n : Nat) (k : Pat) : Prop where
  scp : k.Scoped
  leaf : ∀ l ∈ k.leaves, l = .dot 1
  noS : "S" ∉ k.nts
  nocap : ∀ m > n, k.noCap [rxName m]

theorem PatOk.mono {n n' : Nat} {k : Pat} (h : PatOk n k) (hn : n ≤ n') : PatOk n' k :=
  ⟨h.scp, h.leaf, h.noS, fun m hm => h.nocap m (by omega)⟩

/-- Leaves that match bytes or nothing. -/
def Pat.atom : Pat → Bool
  | .lit _ | .cls _ | .emptyOp _ | .dot 1 | .empty => true
  | _ => false

theorem atom_facts {a : Pat} (h : a.atom = true) :
    a.Scoped ∧ (∀ l ∈ a.leaves, l = .dot 1) ∧ "S" ∉ a.nts ∧ ∀ ns, a.noCap ns := by
  cases a <;> simp_all [Pat.atom, Pat.Scoped, Pat.leaves, Pat.nts, Pat.noCap]
  split at h <;> simp_all

theorem PatOk.atomSeq {n : Nat} {a k : Pat} (ha : a.atom = true) (h : PatOk n k) : PatOk n (concatPat [a, k]) := by
  obtain ⟨h1, h2, h3, h4⟩ := atom_facts ha
  refine ⟨⟨h1, h.scp⟩, ?_, ?_, fun m hm => ⟨h4 _, h.nocap m hm⟩⟩
  · intro l hl
    simp only [concatPat, List.foldl, Pat.leaves, List.mem_append] at hl
    rcases hl with hl | hl
    · exact h2 l hl
    · exact h.leaf l hl
  · simp only [concatPat, List.foldl, Pat.nts, List.mem_append, not_or]
    exact ⟨h3, h.noS⟩

theorem PatOk.or {n : Nat} {ps : List Pat} (h : ∀ p ∈ ps, PatOk n p) : PatOk n (orPat ps) := by
  cases ps with
  | nil => exact ⟨trivial, by simp [orPat, Pat.leaves], by simp [orPat, Pat.nts], fun _ _ => trivial⟩
  | cons p ps =>
    induction ps generalizing p with
    | nil => exact h p List.mem_cons_self
    | cons q ps ih =>
      rw [orPat_cons]
      have h1 := h p List.mem_cons_self
      have h2 := ih q fun r hr => h r (List.mem_cons_of_mem _ hr)
      refine ⟨⟨h1.scp, h2.scp⟩, ?_, ?_, fun m hm => ⟨h1.nocap m hm, h2.nocap m hm⟩⟩
      · intro l hl
        simp only [Pat.leaves, List.mem_append] at hl
        rcases hl with hl | hl
        · exact h1.leaf l hl
        · exact h2.leaf l hl
      · simp only [Pat.nts, List.mem_append, not_or]
        exact ⟨h1.noS, h2.noS⟩

theorem PatOk.star {n m : Nat} {r k : Pat} (hr : PatOk m r) (hr' : r.noCap [rxName (n + 1)]) (hk : PatOk n k)
    (hm : n + 1 ≤ m) :
    PatOk m (.grammar (rxName (n + 1)) (.cons (rxName (n + 1)) (orPat [r, k]) .nil)) := by
  refine ⟨⟨⟨⟨hr', hk.nocap _ (by omega)⟩, trivial⟩, ⟨⟨hr.scp, hk.scp⟩, trivial⟩⟩, ?_, ?_, fun q hq => ?_⟩
  · intro l hl
    simp only [Pat.leaves, Defs.leaves, orPat, List.reverse_cons, List.reverse_nil, List.nil_append, List.cons_append,
      List.foldl, List.append_nil, List.mem_append] at hl
    rcases hl with hl | hl
    · exact hr.leaf l hl
    · exact hk.leaf l hl
  · simp only [Pat.nts, Defs.nts, orPat, List.reverse_cons, List.reverse_nil, List.nil_append, List.cons_append,
      List.foldl, List.append_nil, List.mem_append, not_or]
    exact ⟨hr.noS, hk.noS⟩
  · refine ⟨fun s _ hs hs' => ?_, ⟨⟨hr.nocap q hq, hk.nocap q (by omega)⟩, trivial⟩⟩
    simp only [Defs.names, List.mem_cons, List.not_mem_nil, or_false] at hs hs'
    have := rxName_inj (hs.symm.trans hs')
    omega

theorem orPat_noCap {ps : List Pat} {ns : List String} (h : ∀ p ∈ ps, p.noCap ns) : (orPat ps).noCap ns := by
  cases ps with
  | nil => trivial
  | cons p ps =>
    induction ps generalizing p with
    | nil => exact h p List.mem_cons_self
    | cons q ps ih =>
      rw [orPat_cons]
      exact ⟨h p List.mem_cons_self, ih q fun r hr => h r (List.mem_cons_of_mem _ hr)⟩

theorem star_noCap {n q : Nat} {r k : Pat} (hq : q ≤ n) (hr : r.noCap [rxName q]) (hk : k.noCap [rxName q]) :
    (Pat.grammar (rxName (n + 1)) (.cons (rxName (n + 1)) (orPat [r, k]) .nil)).noCap [rxName q] := by
  refine ⟨fun s _ hs hs' => ?_, ⟨⟨hr, hk⟩, trivial⟩⟩
  simp only [Defs.names, List.mem_cons, List.not_mem_nil, or_false] at hs hs'
  have := rxName_inj (hs.symm.trans hs')
  omega

theorem ntOk (n : Nat) : PatOk (n + 1) (.nonterm (rxName (n + 1))) :=
  ⟨trivial, by simp [Pat.leaves], by simpa [Pat.nts] using (rxName_ne_S (n + 1)).symm, fun _ _ => trivial⟩

mutual
/-- A name that the conversion does not make is captured in the result only if it is in `k`. -/
theorem Rx.pi_noCap : ∀ (e : Rx) {k p : Pat} {n n' q : Nat}, e.pi k n = some (p, n') → q ≤ n → k.noCap [rxName q] →
    p.noCap [rxName q]
  | .empty, k, p, n, n', q, h, hq, hk => by
    simp only [Rx.pi, Option.some.injEq, Prod.mk.injEq] at h
    obtain ⟨rfl, rfl⟩ := h
    exact hk
  | .cls rgs, k, p, n, n', q, h, hq, hk => by
    simp only [Rx.pi, Option.some.injEq, Prod.mk.injEq] at h
    obtain ⟨rfl, rfl⟩ := h
    apply orPat_noCap
    intro a ha
    obtain ⟨g, _, ha⟩ := List.mem_flatMap.1 ha
    unfold clsAlts at ha
    split at ha
    · simp only [List.mem_cons, List.not_mem_nil, or_false] at ha
      subst ha; exact ⟨trivial, hk⟩
    · obtain ⟨_, _, rfl⟩ := List.mem_map.1 ha
      exact ⟨trivial, hk⟩
  | .lit _ _, k, p, n, n', q, h, hq, hk | .any, k, p, n, n', q, h, hq, hk
  | .anyNL, k, p, n, n', q, h, hq, hk | .bol, k, p, n, n', q, h, hq, hk | .eol, k, p, n, n', q, h, hq, hk
  | .bot, k, p, n, n', q, h, hq, hk | .eot, k, p, n, n', q, h, hq, hk | .wb, k, p, n, n', q, h, hq, hk
  | .nwb, k, p, n, n', q, h, hq, hk => by
    simp only [Rx.pi, Option.some.injEq, Prod.mk.injEq] at h
    obtain ⟨rfl, rfl⟩ := h
    exact ⟨trivial, hk⟩
  | .cat es, k, p, n, n', q, h, hq, hk => Rxs.piCat_noCap es h hq hk
  | .alt es, k, p, n, n', q, h, hq, hk => by
    simp only [Rx.pi, Option.map_eq_some_iff, Prod.mk.injEq] at h
    obtain ⟨⟨ps, m⟩, h, rfl, rfl⟩ := h
    exact orPat_noCap (Rxs.piAlt_noCap es h hq hk)
  | .cap e, k, p, n, n', q, h, hq, hk => Rx.pi_noCap e (by simpa only [Rx.pi] using h) hq hk
  | .star _ e, k, p, n, n', q, h, hq, hk => by
    simp only [Rx.pi, Option.map_eq_some_iff, Prod.mk.injEq] at h
    obtain ⟨⟨r, m⟩, h, rfl, rfl⟩ := h
    exact star_noCap hq (Rx.pi_noCap e h (by omega) trivial) hk
  | .plus _ e, k, p, n, n', q, h, hq, hk => by
    simp only [Rx.pi, Option.bind_eq_some_iff] at h
    obtain ⟨⟨r, m⟩, h, h'⟩ := h
    have hm := Rx.pi_le e h
    exact Rx.pi_noCap e h' (show q ≤ m by omega) (star_noCap hq (Rx.pi_noCap e h (by omega) trivial) hk)
  | .quest _ e, k, p, n, n', q, h, hq, hk => by
    simp only [Rx.pi, Option.map_eq_some_iff, Prod.mk.injEq] at h
    obtain ⟨⟨r, m⟩, h, rfl, rfl⟩ := h
    exact ⟨Rx.pi_noCap e h hq hk, hk⟩
  | .other, k, p, n, n', q, h, hq, hk => by simp [Rx.pi] at h
theorem Rxs.piCat_noCap : ∀ (es : Rxs) {k p : Pat} {n n' q : Nat}, es.piCat k n = some (p, n') → q ≤ n →
    k.noCap [rxName q] → p.noCap [rxName q]
  | .nil, k, p, n, n', q, h, hq, hk => by
    simp only [Rxs.piCat, Option.some.injEq, Prod.mk.injEq] at h
    obtain ⟨rfl, rfl⟩ := h
    exact hk
  | .cons e es, k, p, n, n', q, h, hq, hk => by
    simp only [Rxs.piCat, Option.bind_eq_some_iff] at h
    obtain ⟨⟨r, m⟩, h, h'⟩ := h
    have hm := Rxs.piCat_le es h
    exact Rx.pi_noCap e h' (show q ≤ m by omega) (Rxs.piCat_noCap es h hq hk)
theorem Rxs.piAlt_noCap : ∀ (es : Rxs) {k : Pat} {ps : List Pat} {n n' q : Nat}, es.piAlt k n = some (ps, n') → q ≤ n →
    k.noCap [rxName q] → ∀ p ∈ ps, p.noCap [rxName q]
  | .nil, k, p, n, n', q, h, hq, hk => by
    simp only [Rxs.piAlt, Option.some.injEq, Prod.mk.injEq] at h
    obtain ⟨rfl, rfl⟩ := h
    intro _ h; cases h
  | .cons e es, k, p, n, n', q, h, hq, hk => by
    simp only [Rxs.piAlt, Option.bind_eq_some_iff, Option.map_eq_some_iff, Prod.mk.injEq] at h
    obtain ⟨⟨r, m⟩, h, ⟨ps, m'⟩, h', rfl, rfl⟩ := h
    have hm := Rx.pi_le e h
    intro a ha
    rcases List.mem_cons.1 ha with rfl | ha
    · exact Rx.pi_noCap e h hq hk
    · exact Rxs.piAlt_noCap es h' (show q ≤ m by omega) hk a ha
end

mutual
theorem Rx.pi_ok : ∀ (e : Rx) {k p : Pat} {n n' : Nat}, e.pi k n = some (p, n') → PatOk n k → PatOk n' p
  | .empty, k, p, n, n', h, hk => by
    simp only [Rx.pi, Option.some.injEq, Prod.mk.injEq] at h
    obtain ⟨rfl, rfl⟩ := h
    exact hk
  | .cls rgs, k, p, n, n', h, hk => by
    simp only [Rx.pi, Option.some.injEq, Prod.mk.injEq] at h
    obtain ⟨rfl, rfl⟩ := h
    apply PatOk.or
    intro a ha
    obtain ⟨g, _, ha⟩ := List.mem_flatMap.1 ha
    unfold clsAlts at ha
    split at ha
    · simp only [List.mem_cons, List.not_mem_nil, or_false] at ha
      subst ha; exact hk.atomSeq rfl
    · obtain ⟨_, _, rfl⟩ := List.mem_map.1 ha
      exact hk.atomSeq rfl
  | .lit _ _, k, p, n, n', h, hk | .any, k, p, n, n', h, hk
  | .anyNL, k, p, n, n', h, hk | .bol, k, p, n, n', h, hk | .eol, k, p, n, n', h, hk
  | .bot, k, p, n, n', h, hk | .eot, k, p, n, n', h, hk | .wb, k, p, n, n', h, hk
  | .nwb, k, p, n, n', h, hk => by
    simp only [Rx.pi, Option.some.injEq, Prod.mk.injEq] at h
    obtain ⟨rfl, rfl⟩ := h
    exact hk.atomSeq rfl
  | .cat es, k, p, n, n', h, hk => Rxs.piCat_ok es h hk
  | .alt es, k, p, n, n', h, hk => by
    simp only [Rx.pi, Option.map_eq_some_iff, Prod.mk.injEq] at h
    obtain ⟨⟨ps, m⟩, h, rfl, rfl⟩ := h
    exact .or (Rxs.piAlt_ok es h hk)
  | .cap e, k, p, n, n', h, hk => Rx.pi_ok e (by simpa only [Rx.pi] using h) hk
  | .star _ e, k, p, n, n', h, hk => by
    simp only [Rx.pi, Option.map_eq_some_iff, Prod.mk.injEq] at h
    obtain ⟨⟨r, m⟩, h, rfl, rfl⟩ := h
    exact PatOk.star (Rx.pi_ok e h (ntOk n)) (Rx.pi_noCap e h (Nat.le_refl _) trivial) hk (Rx.pi_le e h)
  | .plus _ e, k, p, n, n', h, hk => by
    simp only [Rx.pi, Option.bind_eq_some_iff] at h
    obtain ⟨⟨r, m⟩, h, h'⟩ := h
    exact Rx.pi_ok e h' (PatOk.star (Rx.pi_ok e h (ntOk n)) (Rx.pi_noCap e h (Nat.le_refl _) trivial) hk (Rx.pi_le e h))
  | .quest _ e, k, p, n, n', h, hk => by
    simp only [Rx.pi, Option.map_eq_some_iff, Prod.mk.injEq] at h
    obtain ⟨⟨r, m⟩, h, rfl, rfl⟩ := h
    apply PatOk.or
    intro a ha
    simp only [List.mem_cons, List.not_mem_nil, or_false] at ha
    rcases ha with rfl | rfl
    · exact Rx.pi_ok e h hk
    · exact hk.mono (Rx.pi_le e h)
  | .other, k, p, n, n', h, hk => by simp [Rx.pi] at h
theorem Rxs.piCat_ok : ∀ (es : Rxs) {k p : Pat} {n n' : Nat}, es.piCat k n = some (p, n') → PatOk n k → PatOk n' p
  | .nil, k, p, n, n', h, hk => by
    simp only [Rxs.piCat, Option.some.injEq, Prod.mk.injEq] at h
    obtain ⟨rfl, rfl⟩ := h
    exact hk
  | .cons e es, k, p, n, n', h, hk => by
    simp only [Rxs.piCat, Option.bind_eq_some_iff] at h
    obtain ⟨⟨r, m⟩, h, h'⟩ := h
    exact Rx.pi_ok e h' (Rxs.piCat_ok es h hk)
theorem Rxs.piAlt_ok : ∀ (es : Rxs) {k : Pat} {ps : List Pat} {n n' : Nat}, es.piAlt k n = some (ps, n') →
    PatOk n k → ∀ p ∈ ps, PatOk n' p
  | .nil, k, p, n, n', h, hk => by
    simp only [Rxs.piAlt, Option.some.injEq, Prod.mk.injEq] at h
    obtain ⟨rfl, rfl⟩ := h
    intro _ h; cases h
  | .cons e es, k, p, n, n', h, hk => by
    simp only [Rxs.piAlt, Option.bind_eq_some_iff, Option.map_eq_some_iff, Prod.mk.injEq] at h
    obtain ⟨⟨r, m⟩, h, ⟨ps, m'⟩, h', rfl, rfl⟩ := h
    intro a ha
    rcases List.mem_cons.1 ha with rfl | ha
    · exact (Rx.pi_ok e h hk).mono (Rxs.piAlt_le es h')
    · exact Rxs.piAlt_ok es h' (hk.mono (Rx.pi_le e h)) a ha
end

/-! ## C50: `verify` is sound for `pi` -/

mutual
/-- **C50**. The conversion panics on exactly the expressions that `verify` rejects. -/
theorem C50_verify : ∀ (e : Rx) (k : Pat) (n : Nat), (e.pi k n).isSome = e.verify
  | .empty, k, n | .lit _ _, k, n | .cls _, k, n | .any, k, n | .anyNL, k, n | .bol, k, n | .eol, k, n | .bot, k, n
  | .eot, k, n | .wb, k, n | .nwb, k, n | .other, k, n => by simp [Rx.pi, Rx.verify]
  | .cat es, k, n => by rw [Rx.pi, Rx.verify]; exact C50_verifyCat es k n
  | .alt es, k, n => by rw [Rx.pi, Rx.verify, Option.isSome_map]; exact C50_verifyAlt es k n
  | .cap e, k, n => by rw [Rx.pi, Rx.verify]; exact C50_verify e k n
  | .star _ e, k, n => by rw [Rx.pi, Rx.verify, Option.isSome_map]; exact C50_verify e _ _
  | .plus _ e, k, n => by
    rw [Rx.pi, Rx.verify]
    cases h : e.pi (.nonterm (rxName (n + 1))) (n + 1) with
    | none =>
      have := C50_verify e (.nonterm (rxName (n + 1))) (n + 1)
      rw [h] at this; exact this
    | some r => exact C50_verify e _ _
  | .quest _ e, k, n => by rw [Rx.pi, Rx.verify, Option.isSome_map]; exact C50_verify e _ _
theorem C50_verifyCat : ∀ (es : Rxs) (k : Pat) (n : Nat), (es.piCat k n).isSome = es.verify
  | .nil, k, n => by simp [Rxs.piCat, Rxs.verify]
  | .cons e es, k, n => by
    rw [Rxs.piCat, Rxs.verify]
    have := C50_verifyCat es k n
    cases h : es.piCat k n with
    | none => rw [h] at this; simp [← this]
    | some r => rw [h] at this; simp [← this, C50_verify e r.1 r.2]
theorem C50_verifyAlt : ∀ (es : Rxs) (k : Pat) (n : Nat), (es.piAlt k n).isSome = es.verify
  | .nil, k, n => by simp [Rxs.piAlt, Rxs.verify]
  | .cons e es, k, n => by
    rw [Rxs.piAlt, Rxs.verify]
    have := C50_verify e k n
    cases h : e.pi k n with
    | none => rw [h] at this; simp [← this]
    | some r => rw [h] at this; simp [← this, C50_verifyAlt es k r.2]
end

/-! ## C45: matching and searching -/

section
variable {e : Rx} {n : Nat}

theorem findSome_head {α β : Type} (g : α → β) (l : List α) : l.findSome? (fun j => some (g j)) = l.head?.map g := by
  cases l with
  | nil => rfl
  | cons a l => rw [List.findSome?_cons]; rfl

/-- **C45** at one position: the converted expression matches the most preferred match of the backtracking
matcher, and fails if there is none. -/
theorem C45_match_partial (ha : Ascii d) (hpl : e.Plain) (hpr : e.Progress (runes d)) {p : Pat} {n' : Nat}
    (h : e.pi .empty n = some (p, n')) {i : Nat} (hi : i ≤ d.length) :
    Ford d [] p i ((e.ends (runes d) i).head?.map fun j => (j, [])) := by
  have := Rx.pi_ford ha e (env := []) (F := fun j => some (j, [])) h hpl hpr hi (fun _ _ _ _ => .empty) []
    (fun _ h => by cases h)
  rwa [findSome_head] at this

theorem ford_search_none {env : Env} {p : Pat} : ∀ {i : Nat}, i ≤ d.length →
    (∀ q, i ≤ q → q ≤ d.length → Ford d env p q none) → Ford d env (.search p) i none := by
  intro i
  induction hm : d.length - i generalizing i with
  | zero => intro hi h; exact .searchEnd (h i (Nat.le_refl _) hi) (by omega)
  | succ m ih =>
    intro hi h
    exact .searchNext (h i (Nat.le_refl _) hi) (by omega) (ih (by omega) (by omega) fun q h1 h2 => h q (by omega) h2)

/-- The result of a search as a result of a pattern: the position after the match and a capture (with
number 0) of the match. -/
def found : Option (Nat × Nat) → Option (Nat × List CTree)
  | some (q, j) => some (j, [.node 0 q (j - q) []])
  | none => none

theorem findSome_range {β : Type} {f : Nat → Option β} {m : Nat} :
    (∀ b, (List.range m).findSome? f = some b → ∃ q < m, f q = some b ∧ ∀ q' < q, f q' = none) ∧
    ((List.range m).findSome? f = none → ∀ q < m, f q = none) := by
  induction m with
  | zero => exact ⟨fun b h => by simp at h, fun _ q h => by omega⟩
  | succ m ih =>
    rw [List.range_succ, List.findSome?_append]
    cases hx : (List.range m).findSome? f with
    | none =>
      have hn := ih.2 hx
      refine ⟨fun b h => ⟨m, by omega, ?_, hn⟩, fun h q hq => ?_⟩
      · simp only [Option.none_or, List.findSome?_cons] at h
        cases hm : f m with
        | none => rw [hm] at h; cases h
        | some c => rw [hm] at h; exact h
      · by_cases hqm : q < m
        · exact hn q hqm
        · have : q = m := by omega
          subst this
          simp only [Option.none_or, List.findSome?_cons] at h
          cases hm : f q with
          | none => rfl
          | some c => rw [hm] at h; cases h
    | some c =>
      refine ⟨fun b h => ?_, fun h => by cases h⟩
      obtain ⟨q, h1, h2⟩ := ih.1 c hx
      cases h
      exact ⟨q, by omega, h2⟩

/-- **C45** for the whole pattern of `FromRegexp`: it captures the match a regular expression search finds. -/
theorem C45_search_partial (ha : Ascii d) (hpl : e.Plain) (hpr : e.Progress (runes d)) {P : Pat}
    (h : fromRegexp e n = some P) : Ford d [] P 0 (found (e.search (runes d))) := by
  unfold fromRegexp at h
  split at h
  · rw [Option.map_eq_some_iff] at h
    obtain ⟨⟨p, n'⟩, h, rfl⟩ := h
    have hm := fun i hi => C45_match_partial ha hpl hpr h (i := i) hi
    have hcap : ∀ i ≤ d.length, (∀ j, (e.ends (runes d) i).head? = some j → Ford d [] (.cap p 0) i
        (some (j, [.node 0 i (j - i) []]))) ∧ ((e.ends (runes d) i).head? = none → Ford d [] (.cap p 0) i none) := by
      intro i hi
      have := hm i hi
      refine ⟨fun j hj => ?_, fun hj => ?_⟩
      · rw [hj] at this; exact .capOk this
      · rw [hj] at this; exact .capFail this
    have hr := findSome_range (f := fun q => (e.ends (runes d) q).head?.map fun j => (q, j)) (m := d.length + 1)
    have hsr : e.search (runes d) = (List.range (d.length + 1)).findSome?
        fun q => (e.ends (runes d) q).head?.map fun j => (q, j) := by unfold Rx.search; rw [runes_length]
    rw [hsr]
    cases hx : (List.range (d.length + 1)).findSome? fun q => (e.ends (runes d) q).head?.map fun j => (q, j) with
    | none =>
      refine ford_search_none (Nat.zero_le _) fun q _ hq => (hcap q hq).2 ?_
      simpa using hr.2 hx q (by omega)
    | some b =>
      obtain ⟨q, hq, h1, h2⟩ := hr.1 b hx
      rw [Option.map_eq_some_iff] at h1
      obtain ⟨j, h1, rfl⟩ := h1
      refine ford_search_of (Nat.zero_le _) (show q ≤ d.length by omega) ((hcap q (by omega)).1 j h1) fun q' _ hq' =>
        (hcap q' (by omega)).2 ?_
      simpa using h2 q' hq'
  · cases h

/-- The converted pattern satisfies the hypotheses of the theorems about compiled patterns. -/
theorem fromRegexp_ok {P : Pat} (h : fromRegexp e n = some P) : P.Pure ∧ P.Dots1 ∧ P.Scoped := by
  unfold fromRegexp at h
  split at h
  · rw [Option.map_eq_some_iff] at h
    obtain ⟨⟨p, n'⟩, h, rfl⟩ := h
    have hp := Rx.pi_ok e h
      ⟨trivial, by simp [Pat.leaves], by simp [Pat.nts], fun _ _ => trivial⟩
    have hl : ∀ l ∈ (Pat.search (.cap p 0)).leaves, l = .dot 1 := by
      intro l hl
      rcases List.mem_cons.1 hl with rfl | hl
      · rfl
      · exact hp.leaf l hl
    refine ⟨⟨fun h => ?_, fun h => ?_⟩, fun m hm => ?_, hp.noS, hp.scp⟩
    · cases hl _ h
    · cases hl _ h
    · cases hl _ hm; rfl
  · cases h

variable {σ : Type} {code : Code} {chk : CheckFn σ} {bufsz : Nat} {st : σ} {P : Pat}

/-- **C45** for the machine: on ASCII text the compiled pattern of `FromRegexp` stops; it matches exactly
when a search for the regular expression finds something, ends after the match found and captures it.
(Missing: reluctant operators, case folding, empty classes and text beyond ASCII, for which the statement is
false, see below; termination is false without `Progress`.) -/
theorem C45_exec_partial (ha : Ascii d) (hpl : e.Plain) (hpr : e.Progress (runes d)) (h : fromRegexp e n = some P)
    (hc : Compiled P code) (hchk : CheckOK chk) (hb : 0 < bufsz) :
    (∀ q j, e.search (runes d) = some (q, j) ↔ ∃ ch src errs st', RunsTo chk none code bufsz d st
      (.done true (some (.dummy 0 j ch)) src errs () st') ∧ src.pos = j ∧
      Capture.treesL ch = [.node 0 q (j - q) []]) ∧
    (e.search (runes d) = none ↔ ∃ cap src errs st', RunsTo chk none code bufsz d st (.done false cap src errs () st')) := by
  obtain ⟨h1, h2, h3⟩ := fromRegexp_ok h
  have hf := C45_search_partial ha hpl hpr h
  have hx := C15_exec_is_peg (data := d) (st := st) h1 hc h2 h3 hchk hb
  have bound : ∀ q j, e.search (runes d) = some (q, j) → q ≤ j := by
    intro q j hs
    unfold Rx.search at hs
    obtain ⟨q', hq, h1, h2⟩ := findSome_range.1 _ hs
    rw [Option.map_eq_some_iff] at h1
    obtain ⟨j', h1, h3⟩ := h1
    cases h3
    exact (Rx.ends_bounds e q j (by omega) (List.mem_of_mem_head? h1)).1
  constructor
  · intro q j
    constructor
    · intro hs
      rw [hs] at hf
      obtain ⟨cap, src, errs, st', hr, rfl⟩ := (hx.1 j).2 ⟨_, hf⟩
      obtain ⟨ch, rfl, hf'⟩ := C17_captures h1 hc h2 h3 hchk hb hr
      have := hf.det hf'
      simp only [found, Option.some.injEq, Prod.mk.injEq, true_and] at this
      exact ⟨ch, src, errs, st', hr, rfl, this.symm⟩
    · rintro ⟨ch, src, errs, st', hr, rfl, hch⟩
      obtain ⟨ch', hcap, hf'⟩ := C17_captures h1 hc h2 h3 hchk hb hr
      cases hcap
      have := hf.det hf'
      rw [hch] at this
      cases hs : e.search (runes d) with
      | none => rw [hs] at this; cases this
      | some x =>
        obtain ⟨q', j'⟩ := x
        rw [hs] at this
        simp only [found, Option.some.injEq, Prod.mk.injEq, List.cons.injEq, CTree.node.injEq, and_true, true_and] at this
        obtain ⟨rfl, h4, _⟩ := this
        rw [Option.some.injEq, Prod.mk.injEq]
        exact ⟨by omega, rfl⟩
  · rw [hx.2]
    constructor
    · intro hs; rw [hs] at hf; exact hf
    · intro hn
      have := hf.det hn
      cases hs : e.search (runes d) with
      | none => rfl
      | some x => rw [hs] at this; cases this

/-- The syntactic form of the condition on repetitions. -/
theorem C45_exec_loopsOk_partial (ha : Ascii d) (hpl : e.Plain) (hl : e.loopsOk = true) (h : fromRegexp e n = some P)
    (hc : Compiled P code) (hchk : CheckOK chk) (hb : 0 < bufsz) :
    (∀ q j, e.search (runes d) = some (q, j) ↔ ∃ ch src errs st', RunsTo chk none code bufsz d st
      (.done true (some (.dummy 0 j ch)) src errs () st') ∧ src.pos = j ∧
      Capture.treesL ch = [.node 0 q (j - q) []]) ∧
    (e.search (runes d) = none ↔ ∃ cap src errs st', RunsTo chk none code bufsz d st (.done false cap src errs () st')) :=
  C45_exec_partial ha hpl (Rx.progress_of_loopsOk _ e hl) h hc hchk hb

end

/-! An instance -/

/-- `\ba(b|bc)*[c-d]$`. -/
def exRx : Rx := .cat (.cons .wb (.cons (.lit false [97]) (.cons (.star false (.cap (.alt (.cons (.lit false [98])
  (.cons (.lit false [98, 99]) .nil))))) (.cons (.cls [(99, 100)]) (.cons .eot .nil)))))

/-- `exRx` converted. -/
def exRxPat : Pat := (fromRegexp exRx 0).getD .empty
/-- Compiled. -/
def exRxProg : Program × CState := match compile 30 exRxPat ⟨0, 0, true⟩ with
  | .ok x => x
  | .error _ => ([], ⟨0, 0, true⟩)
/-- Its bytecode. -/
def exRxCode : Code := (encode exRxProg.1).getD ⟨[], [], [], []⟩

example : fromRegexp exRx 0 = some exRxPat := rfl
example : exRx.Plain := by simp [exRx, Rx.Plain, Rxs.Plain]
example : exRx.loopsOk = true := by decide
set_option maxRecDepth 100000 in
theorem exRx_prog : compile 30 exRxPat ⟨0, 0, true⟩ = .ok exRxProg := by
  have h : (match compile 30 exRxPat ⟨0, 0, true⟩ with | .ok _ => true | .error _ => false) = true := by decide +kernel
  unfold exRxProg
  revert h
  cases compile 30 exRxPat ⟨0, 0, true⟩ with
  | ok x => intro _; rfl
  | error e => intro h; cases h
set_option maxRecDepth 100000 in
example : Compiled exRxPat exRxCode := by
  have h1 := exRx_prog
  have h2 : encode exRxProg.1 = some exRxCode := by decide +kernel
  revert h1 h2
  generalize exRxProg = x
  exact fun h1 h2 => ⟨30, _, x.1, x.2, h1, h2⟩
/-- `xa abcbcd`: the match is found only by backtracking into the repetition. -/
example : exRx.search [120, 97, 32, 97, 98, 99, 98, 99, 100] = some (3, 9) := by decide +kernel
set_option maxRecDepth 100000 in
example : ∃ src, RunsTo (fun _ s _ _ _ _ _ => (none, s)) none exRxCode 4 [120, 97, 32, 97, 98, 99, 98, 99, 100] ()
    (.done true (some (.dummy 0 9 [.node 0 3 6 []])) src [] () ()) := by
  have h : (match runOut (stepB ⟨chunkedOps, noneTable, fun _ s _ _ _ _ _ => (none, s), none⟩ exRxCode) 120
      (initVM ⟨chunkedOps, noneTable, fun _ s _ _ _ _ _ => (none, s), none⟩
        (Input.new 4 [120, 97, 32, 97, 98, 99, 98, 99, 100]) () ()) with
      | some o => (match o.res with
        | some (.done true (some (.dummy 0 9 [.node 0 3 6 []])) _ [] () ()) => true
        | _ => false)
      | none => false) = true := by decide +kernel
  split at h
  · rename_i o ho
    split at h
    · rename_i src hr
      exact ⟨src, 120, o, ho, hr⟩
    · cases h
  · cases h

/-! ## Where the conversion is wrong -/

/-- The checker that does nothing. -/
def noCheck : CheckFn Unit := fun _ s _ _ _ _ _ => (none, s)

/-- The bytecode of `FromRegexp`. -/
def rxCode (e : Rx) : Code := match compile 30 ((fromRegexp e 0).getD .empty) ⟨0, 0, true⟩ with
  | .ok (p, _) => (encode p).getD ⟨[], [], [], []⟩
  | .error _ => ⟨[], [], [], []⟩

/-- Search for `e` in the text `t`, and run of the converted expression on the same text, give different
results: the first is `want` (positions in runes), the second matches up to `got` (in bytes), or not at all. -/
def Differs (e : Rx) (t : List Nat) (want : Option (Nat × Nat)) (got : Option Nat) : Prop :=
  e.search t = want ∧ ∃ P, fromRegexp e 0 = some P ∧ Compiled P (rxCode e) ∧
    ∃ ok cap src, RunsTo noCheck none (rxCode e) 4096 (t.flatMap utf8) () (.done ok cap src [] () ()) ∧
      match got with
      | some j => ok = true ∧ src.pos = j
      | none => ok = false

/-- **C45** is false of the code for reluctant operators: `a*?` finds all of `aa` instead of nothing. -/
theorem C45_false_lazy : Differs (.star true (.lit false [97])) [97, 97] (some (0, 0)) (some 2) :=
  ⟨by decide +kernel, _, rfl, ⟨30, ⟨0, 0, true⟩, _, _, rfl, rfl⟩, _, _, _, ⟨40, _, rfl, rfl⟩, rfl, rfl⟩

/-- **C45** is false of the code for case folding: `(?i)a` is not found in `A`. -/
theorem C45_false_fold : Differs (.lit true [65]) [97] (some (0, 1)) none :=
  ⟨by decide +kernel, _, rfl, ⟨30, ⟨0, 0, true⟩, _, _, rfl, rfl⟩, _, _, _, ⟨40, _, rfl, rfl⟩, rfl⟩

/-- **C45** is false of the code for the empty class, `[^\x00-\x{10FFFF}]b`: it is found everywhere, and what
follows it is dropped. -/
theorem C45_false_empty_class : Differs (.cat (.cons (.cls []) (.cons (.lit false [98]) .nil))) [97] none (some 0) :=
  ⟨by decide +kernel, _, rfl, ⟨30, ⟨0, 0, true⟩, _, _, rfl, rfl⟩, _, _, _, ⟨40, _, rfl, rfl⟩, rfl, rfl⟩

/-- **C45** is false of the code for classes with runes from 128 to 255: `[é]` is not found in `é`. -/
theorem C45_false_latin1 : Differs (.cls [(233, 233)]) [233] (some (0, 1)) none :=
  ⟨by decide +kernel, _, rfl, ⟨30, ⟨0, 0, true⟩, _, _, rfl, rfl⟩, _, _, _, ⟨40, _, rfl, rfl⟩, rfl⟩

/-- **C45** is false of the code for `.` beyond ASCII: `^.$` is not found in `é`. -/
theorem C45_false_any : Differs (.cat (.cons .bot (.cons .anyNL (.cons .eot .nil)))) [233] (some (0, 1)) none :=
  ⟨by decide +kernel, _, rfl, ⟨30, ⟨0, 0, true⟩, _, _, rfl, rfl⟩, _, _, _, ⟨60, _, rfl, rfl⟩, rfl⟩

/-- **C45** is false of the code for `\B` beyond ASCII: in `aé` it is found inside of `é`, after two
bytes, instead of after two runes. -/
theorem C45_false_boundary : Differs .nwb [97, 233] (some (2, 2)) (some 2) :=
  ⟨by decide +kernel, _, rfl, ⟨30, ⟨0, 0, true⟩, _, _, rfl, rfl⟩, _, _, _, ⟨60, _, rfl, rfl⟩, rfl, rfl⟩

/-- `(a?)*`. -/
def exLoop : Rx := .star false (.cap (.quest false (.lit false [97])))
/-- `exLoop` converted, the definition of its nonterminal, and its environment. -/
def exLoopBody : Pat := .alt (.alt (.seq (.lit [97]) (.nonterm "a1")) (.nonterm "a1")) .empty
@[inherit_doc exLoopBody] def exLoopEnv : Env := [.cons "a1" exLoopBody .nil]
@[inherit_doc exLoopBody] def exLoopPat : Pat := .search (.cap (.grammar "a1" (.cons "a1" exLoopBody .nil)) 0)

theorem exLoop_diverges {env : Env} {p : Pat} {i : Nat} {x : Option (Nat × List CTree)} (h : Ford [] env p i x) :
    env = exLoopEnv → p = exLoopBody ∨ p = .nonterm "a1" ∨ p = .alt (.seq (.lit [97]) (.nonterm "a1")) (.nonterm "a1") →
    False := by
  induction h with
  | altL _ ih =>
    rintro rfl (h | h | h)
    · cases h; exact ih rfl (.inr (.inr rfl))
    · cases h
    · cases h
      rename_i h'
      cases h' with
      | seqOk h1 _ => cases h1 with | litOk h1 => simp at h1
  | altR h1 h2 ih1 ih2 =>
    rintro rfl (h | h | h)
    · cases h; exact ih1 rfl (.inr (.inr rfl))
    · cases h
    · cases h; exact ih2 rfl (.inr (.inl rfl))
  | nonterm h1 _ ih =>
    rintro rfl (h | h | h)
    · cases h
    · cases h
      have : lookupNT "a1" exLoopEnv = some (exLoopBody, exLoopEnv) := rfl
      rw [this] at h1
      cases h1
      exact ih rfl (.inl rfl)
    · cases h
  | _ => rintro rfl (h | h | h) <;> cases h

set_option maxRecDepth 100000 in
theorem exLoop_compiled : ∃ code, Compiled exLoopPat code := by
  have h : (match compile 30 exLoopPat ⟨0, 0, true⟩ with | .ok x => (encode x.1).isSome | .error _ => false) = true := by
    decide +kernel
  split at h
  · rename_i x hx
    obtain ⟨code, hc⟩ := Option.isSome_iff_exists.1 h
    exact ⟨code, 30, _, x.1, x.2, hx, hc⟩
  · cases h

/-- **C45** is false of the code for repetitions of an expression that matches the empty string: the search
for `(a?)*` in the empty text finds the empty string, the converted expression runs forever. -/
theorem C45_false_loop : exLoop.search [] = some (0, 0) ∧ fromRegexp exLoop 0 = some exLoopPat ∧
    ∃ code, Compiled exLoopPat code ∧ ¬ ∃ r, RunsTo noCheck none code 4096 [] () r := by
  obtain ⟨code, hcode⟩ := exLoop_compiled
  refine ⟨by decide +kernel, by rfl, code, hcode, ?_⟩
  rw [C16_terminates_iff_ford (p := exLoopPat)]
  · rintro ⟨x, h⟩
    have : ∀ x, ¬ Ford [] [] (.cap (.grammar "a1" (.cons "a1" exLoopBody .nil)) 0) 0 x := by
      intro x h
      cases h with
      | capOk h => cases h with
        | grammar h1 h2 => cases h1; exact exLoop_diverges h2 rfl (.inl rfl)
      | capFail h => cases h with
        | grammar h1 h2 => cases h1; exact exLoop_diverges h2 rfl (.inl rfl)
    cases h with
    | searchHere h => exact this _ h
    | searchNext h => exact this _ h
    | searchEnd h => exact this _ h
  · exact (fromRegexp_ok (e := exLoop) (n := 0) rfl).1
  · exact hcode
  · exact (fromRegexp_ok (e := exLoop) (n := 0) rfl).2.1
  · exact (fromRegexp_ok (e := exLoop) (n := 0) rfl).2.2
  · intro id s f src st pos r; simp [noCheck]
  · decide

end Gpeg
