import Verif.Listing
import Verif.Props.SetString
import Std.Data.String.ToNat
import Std.Data.String.ToInt
/-! # Property C81: what the listing of a program tells -/
namespace Gpeg

/-! ## Cutting texts -/

theorem cut_first {α : Type} {c : α} : ∀ {x y : List α} {u v : List α}, c ∉ x → c ∉ y → x ++ c :: u = y ++ c :: v → x = y ∧ u = v
  | [], [], u, v, _, _, h => by cases h; exact ⟨rfl, rfl⟩
  | [], b :: y, u, v, _, hy, h => by
    injection h with h1 _
    exact absurd (h1 ▸ List.mem_cons_self) hy
  | a :: x, [], u, v, hx, _, h => by
    injection h with h1 _
    exact absurd (h1 ▸ List.mem_cons_self) hx
  | a :: x, b :: y, u, v, hx, hy, h => by
    injection h with h1 h2
    obtain ⟨h3, h4⟩ := cut_first (fun h => hx (List.mem_cons_of_mem _ h)) (fun h => hy (List.mem_cons_of_mem _ h)) h2
    exact ⟨by rw [h1, h3], h4⟩

theorem cut_last {α : Type} {c : α} {x y u v : List α} (hu : c ∉ u) (hv : c ∉ v) (h : x ++ c :: u = y ++ c :: v) : x = y ∧ u = v := by
  have h := congrArg List.reverse h
  simp only [List.reverse_append, List.reverse_cons, List.append_assoc, List.singleton_append] at h
  obtain ⟨h1, h2⟩ := cut_first (by simpa using hu) (by simpa using hv) h
  exact ⟨List.reverse_inj.1 h2, List.reverse_inj.1 h1⟩

/-! ## Numbers -/

theorem num_inj {m n : Nat} (h : num m = num n) : m = n := Nat.repr_injective (String.toList_inj.1 h)

theorem numI_inj {m n : Int} (h : numI m = numI n) : m = n := Int.repr_injective (String.toList_inj.1 h)

theorem num_digit {n : Nat} {c : Char} (h : c ∈ num n) : c.isDigit = true := by
  rw [num, Nat.toList_repr] at h
  exact Nat.isDigit_of_mem_toDigits (by decide) (by decide) h

theorem numI_digit {n : Int} {c : Char} (h : c ∈ numI n) : c.isDigit = true ∨ c = '-' := by
  cases n with
  | ofNat n => exact .inl (num_digit (n := n) h)
  | negSucc n =>
    have h : c ∈ ("-" ++ (n + 1).repr : String).toList := h
    rw [String.toList_append, List.mem_append] at h
    rcases h with h | h
    · exact .inr (by simpa using h)
    · exact .inl (num_digit (n := n + 1) h)

theorem lblText_inj {m n : Nat} (h : lblText m = lblText n) : m = n := num_inj (by injection h)

/-! ## Characters and sets -/

/-- The byte a quoted character stands for. -/
def unquote : List Char → Nat
  | ['\'', c, '\''] => c.toNat
  | ['\'', '\\', c, '\''] =>
    if c = 'a' then 7 else if c = 'b' then 8 else if c = 't' then 9 else if c = 'n' then 10 else if c = 'v' then 11
    else if c = 'f' then 12 else if c = 'r' then 13 else c.toNat
  | ['\'', '\\', 'x', a, b, '\''] => hexVal a * 16 + hexVal b
  | ['\'', '\\', 'u', '0', '0', a, b, '\''] => hexVal a * 16 + hexVal b
  | _ => 0
where hexVal (c : Char) : Nat := if c.toNat < 58 then c.toNat - 48 else c.toNat - 87

theorem unquote_quote : ∀ b : UInt8, unquote (quoteLatin b.toNat) = b.toNat ∧ '\n' ∉ quoteLatin b.toNat := by
  have h : ((List.range 256).all fun b => unquote (quoteLatin b) == b && !(quoteLatin b).contains '\n') = true := by decide +kernel
  intro b
  have := List.all_eq_true.1 h b.toNat (List.mem_range.2 b.toNat_lt)
  simpa using this

theorem quoteLatin_inj {a b : UInt8} (h : quoteLatin a.toNat = quoteLatin b.toNat) : a = b := by
  have := (unquote_quote a).1
  rw [h, (unquote_quote b).1] at this
  exact UInt8.toNat_inj.1 this.symm

theorem quoteRune_line {b : Nat} (h : b ≤ 255) : '\n' ∉ quoteRune b := by
  have h' : ((List.range 256).all fun b => !(quoteRune b).contains '\n') = true := by decide +kernel
  simpa using List.all_eq_true.1 h' b (List.mem_range.2 (by omega))

theorem commas_line : ∀ {ts : List (List Char)}, (∀ t ∈ ts, '\n' ∉ t) → '\n' ∉ commas ts
  | [], _ => by simp [commas]
  | [t], h => h t List.mem_cons_self
  | t :: t' :: ts, h => by
    rw [commas]
    · have := commas_line (ts := t' :: ts) fun x hx => h x (List.mem_cons_of_mem _ hx)
      simp only [List.mem_append, List.mem_cons, not_or]
      exact ⟨h t List.mem_cons_self, by decide, this⟩
    · simp

theorem string_line (c : CSet) : '\n' ∉ c.string := by
  obtain ⟨rs, h1, _, h3⟩ := C64_string c
  rw [h3]
  have : '\n' ∉ commas (rs.map runText) := by
    refine commas_line fun t ht => ?_
    obtain ⟨r, hr, rfl⟩ := List.mem_map.1 ht
    have := h1.1 r hr
    unfold runText
    split
    · exact quoteRune_line (by omega)
    · simp only [List.mem_append, List.mem_cons, List.not_mem_nil, or_false, not_or]
      exact ⟨quoteRune_line (by omega), ⟨by decide, by decide⟩, quoteRune_line (by omega)⟩
  simp only [List.mem_cons, List.mem_append, List.not_mem_nil, or_false, not_or]
  exact ⟨by decide, this, by decide⟩

/-! ## Messages -/

theorem hexN_length : ∀ k n, (hexN k n).length = k
  | 0, _ => rfl
  | k + 1, n => by simp [hexN, hexN_length k]

theorem hexChar_inj {a b : Nat} (ha : a < 16) (hb : b < 16) (h : hexChar a = hexChar b) : a = b := by
  have : ∀ a < 16, ∀ b < 16, hexChar a = hexChar b → a = b := by decide
  exact this a ha b hb h

theorem hexN_inj : ∀ {k a b : Nat}, a < 16 ^ k → b < 16 ^ k → hexN k a = hexN k b → a = b
  | 0, a, b, ha, hb, _ => by simp at ha hb; omega
  | k + 1, a, b, ha, hb, h => by
    rw [Nat.pow_succ] at ha hb
    obtain ⟨h1, h2⟩ := List.append_inj' h rfl
    have h1 := hexN_inj (k := k) (by omega) (by omega) h1
    have h2 := hexChar_inj (by omega) (by omega) (List.cons.inj h2).1
    omega

theorem hexN_line : ∀ (k n : Nat), '\n' ∉ hexN k n
  | 0, _ => by simp [hexN]
  | k + 1, n => by
    have : ∀ d < 16, '\n' ≠ hexChar d := by decide
    simp only [hexN, List.mem_append, List.mem_singleton, not_or]
    exact ⟨hexN_line k _, this _ (by omega)⟩

/-- The short escapes. -/
def escapes : List (Char × Nat) := [('"', 34), ('\\', 92), ('a', 7), ('b', 8), ('t', 9), ('n', 10), ('v', 11), ('f', 12), ('r', 13)]

/-- The long ones. -/
def hexes : List (Char × Nat) := [('x', 2), ('u', 4), ('U', 8)]

theorem quoteChar_cases (c : Char) :
    (quoteChar c = [c] ∧ c ≠ '\\' ∧ c ≠ '"' ∧ c ≠ '\n') ∨ (∃ e, quoteChar c = ['\\', e] ∧ (e, c.toNat) ∈ escapes) ∨
      (∃ e k, quoteChar c = '\\' :: e :: hexN k c.toNat ∧ (e, k) ∈ hexes ∧ c.toNat < 16 ^ k) := by
  have hv : c.toNat < 16 ^ 8 := by
    have := c.valid
    have : c.toNat < 0x110000 := by
      rcases this with h | h
      · exact Nat.lt_trans h (by decide)
      · exact h.2
    omega
  unfold quoteChar
  by_cases h1 : c = '"'
  · subst h1; exact .inr (.inl ⟨'"', by simp, by decide⟩)
  by_cases h2 : c = '\\'
  · subst h2; exact .inr (.inl ⟨'\\', by simp, by decide⟩)
  rw [if_neg h1, if_neg h2]
  by_cases h3 : 32 ≤ c.toNat ∧ c.toNat < 127
  · exact .inl ⟨if_pos h3, h2, h1, fun h => by rw [h] at h3; exact absurd h3 (by decide)⟩
  rw [if_neg h3]
  refine .inr ?_
  by_cases a7 : c.toNat = 7
  · rw [if_pos a7]; exact .inl ⟨_, rfl, by rw [a7]; decide⟩
  by_cases a8 : c.toNat = 8
  · rw [if_neg a7, if_pos a8]; exact .inl ⟨_, rfl, by rw [a8]; decide⟩
  by_cases a9 : c.toNat = 9
  · rw [if_neg a7, if_neg a8, if_pos a9]; exact .inl ⟨_, rfl, by rw [a9]; decide⟩
  by_cases a10 : c.toNat = 10
  · rw [if_neg a7, if_neg a8, if_neg a9, if_pos a10]; exact .inl ⟨_, rfl, by rw [a10]; decide⟩
  by_cases a11 : c.toNat = 11
  · rw [if_neg a7, if_neg a8, if_neg a9, if_neg a10, if_pos a11]; exact .inl ⟨_, rfl, by rw [a11]; decide⟩
  by_cases a12 : c.toNat = 12
  · rw [if_neg a7, if_neg a8, if_neg a9, if_neg a10, if_neg a11, if_pos a12]; exact .inl ⟨_, rfl, by rw [a12]; decide⟩
  by_cases a13 : c.toNat = 13
  · rw [if_neg a7, if_neg a8, if_neg a9, if_neg a10, if_neg a11, if_neg a12, if_pos a13]; exact .inl ⟨_, rfl, by rw [a13]; decide⟩
  rw [if_neg a7, if_neg a8, if_neg a9, if_neg a10, if_neg a11, if_neg a12, if_neg a13]
  refine .inr ?_
  by_cases h4 : c.toNat < 128
  · rw [if_pos h4]; exact ⟨_, _, rfl, by decide, by omega⟩
  by_cases h5 : c.toNat < 65536
  · rw [if_neg h4, if_pos h5]; exact ⟨_, _, rfl, by decide, by omega⟩
  · rw [if_neg h4, if_neg h5]; exact ⟨_, _, rfl, by decide, hv⟩

theorem quoteChar_cancel {c d : Char} {u v : List Char} (h : quoteChar c ++ u = quoteChar d ++ v) : c = d ∧ u = v := by
  have hee : (escapes.all fun a => escapes.all fun b => a.1 != b.1 || a.2 == b.2) = true := by decide
  have hhh : (hexes.all fun a => hexes.all fun b => a.1 != b.1 || a.2 == b.2) = true := by decide
  have heh : (escapes.all fun a => hexes.all fun b => a.1 != b.1) = true := by decide
  have ch : ∀ {c d : Char}, c.toNat = d.toNat → c = d := fun h => Char.toNat_inj.1 h
  rcases quoteChar_cases c with ⟨h1, h2, _⟩ | ⟨e, h1, h2⟩ | ⟨e, k, h1, h2, h3⟩ <;>
  rcases quoteChar_cases d with ⟨g1, g2, _⟩ | ⟨f, g1, g2⟩ | ⟨f, l, g1, g2, g3⟩ <;> rw [h1, g1] at h <;>
  simp only [List.cons_append, List.nil_append, List.cons.injEq, true_and] at h
  · exact h
  · exact absurd h.1 h2
  · exact absurd h.1 h2
  · exact absurd h.1.symm g2
  · obtain ⟨rfl, h⟩ := h
    have := List.all_eq_true.1 (List.all_eq_true.1 hee _ h2) _ g2
    exact ⟨ch (by simpa using this), h⟩
  · have := List.all_eq_true.1 (List.all_eq_true.1 heh _ h2) _ g2
    rw [h.1] at this
    simp at this
  · exact absurd h.1.symm g2
  · have := List.all_eq_true.1 (List.all_eq_true.1 heh _ g2) _ h2
    rw [h.1] at this
    simp at this
  · obtain ⟨rfl, h⟩ := h
    have := List.all_eq_true.1 (List.all_eq_true.1 hhh _ h2) _ g2
    have hk : k = l := by simpa using this
    subst hk
    obtain ⟨h4, h5⟩ := List.append_inj h (by rw [hexN_length, hexN_length])
    exact ⟨ch (hexN_inj h3 g3 h4), h5⟩

theorem quoteChar_front (c : Char) (u : List Char) : quoteChar c ++ u ≠ ['"'] := by
  intro h
  rcases quoteChar_cases c with ⟨h1, _, h2, _⟩ | ⟨e, h1, h2⟩ | ⟨e, k, h1, h2, h3⟩ <;> rw [h1] at h
  · injection h with h _; exact h2 h
  · injection h with h _; exact absurd h (by decide)
  · injection h with h _; exact absurd h (by decide)

theorem quoteText_inj {m n : String} (h : quoteText m = quoteText n) : m = n := by
  have : ∀ {a b : List Char}, a.flatMap quoteChar ++ ['"'] = b.flatMap quoteChar ++ ['"'] → a = b := by
    intro a
    induction a with
    | nil =>
      intro b h
      cases b with
      | nil => rfl
      | cons d b =>
        rw [List.flatMap_cons, List.append_assoc] at h
        exact absurd h.symm (quoteChar_front _ _)
    | cons c a ih =>
      intro b h
      cases b with
      | nil =>
        rw [List.flatMap_cons, List.append_assoc] at h
        exact absurd h (quoteChar_front _ _)
      | cons d b =>
        rw [List.flatMap_cons, List.append_assoc, List.flatMap_cons, List.append_assoc] at h
        obtain ⟨h1, h2⟩ := quoteChar_cancel h
        rw [h1, ih h2]
  exact String.toList_inj.1 (this (List.cons.inj h).2)

theorem quoteText_line (m : String) : '\n' ∉ quoteText m := by
  have : '\n' ∉ m.toList.flatMap quoteChar := by
    intro h
    obtain ⟨c, _, h⟩ := List.mem_flatMap.1 h
    have he : (escapes.all fun a => a.1 != '\n') = true := by decide
    have hh : (hexes.all fun a => a.1 != '\n') = true := by decide
    rcases quoteChar_cases c with ⟨h1, _, _, h2⟩ | ⟨e, h1, h2⟩ | ⟨e, k, h1, h2, h3⟩ <;> rw [h1] at h <;>
      simp only [List.mem_cons, List.not_mem_nil, or_false] at h
    · exact h2 h.symm
    · have := List.all_eq_true.1 he _ h2
      rcases h with h | h
      · exact absurd h (by decide)
      · rw [← h] at this; simp at this
    · have := List.all_eq_true.1 hh _ h2
      rcases h with h | h | h
      · exact absurd h (by decide)
      · rw [← h] at this; simp at this
      · exact hexN_line _ _ h
  simp only [quoteText, List.mem_cons, List.mem_append, List.not_mem_nil, or_false, not_or]
  exact ⟨by decide, this, by decide⟩

/-! ## Instructions -/

/-- The instructions whose text tells all about them: no checkers, no dummies, and assertions with one condition. -/
def Insn.Shown : Insn → Prop
  | .emptyOp op => op = 1 ∨ op = 2 ∨ op = 4 ∨ op = 8 ∨ op = 16 ∨ op = 32
  | .checkBegin _ _ | .checkEnd _ | .openCall _ => False
  | _ => True

/-- One instruction of each kind. -/
def kinds : List Insn :=
  [.label 0, .char 0, .jump 0, .choice 0, .call 0, .commit 0, .ret, .fail, .set .empty, .any 0, .partialCommit 0, .span .empty,
   .backCommit 0, .failTwice, .emptyOp 0, .testChar 0 0, .testCharNC 0 0, .testSet .empty 0, .testSetNC .empty 0, .testAny 0 0, .endI true,
   .nop, .memoOpen 0 0, .memoClose, .memoTreeOpen 0 0, .memoTreeInsert, .memoTree, .memoTreeClose 0, .captureBegin 0, .captureLate 0 0,
   .captureEnd, .captureFull 0 0, .checkBegin 0 0, .checkEnd 0, .error "", .openCall ""]

/-- The word and the character behind it. -/
def Insn.front (i : Insn) : List Char :=
  i.word ++ [cond (i.operands (fun _ => [])).isSome ' ' '\n']

theorem front_kind (i : Insn) : ∃ k ∈ kinds, k.ctorIdx = i.ctorIdx ∧ k.front = i.front := by
  cases i
  · exact ⟨.label 0, List.mem_of_getElem? (i := 0) rfl, rfl, rfl⟩
  · exact ⟨.char 0, List.mem_of_getElem? (i := 1) rfl, rfl, rfl⟩
  · exact ⟨.jump 0, List.mem_of_getElem? (i := 2) rfl, rfl, rfl⟩
  · exact ⟨.choice 0, List.mem_of_getElem? (i := 3) rfl, rfl, rfl⟩
  · exact ⟨.call 0, List.mem_of_getElem? (i := 4) rfl, rfl, rfl⟩
  · exact ⟨.commit 0, List.mem_of_getElem? (i := 5) rfl, rfl, rfl⟩
  · exact ⟨.ret, List.mem_of_getElem? (i := 6) rfl, rfl, rfl⟩
  · exact ⟨.fail, List.mem_of_getElem? (i := 7) rfl, rfl, rfl⟩
  · exact ⟨.set .empty, List.mem_of_getElem? (i := 8) rfl, rfl, by change _ ++ [cond true _ _] = _ ++ [cond true _ _]; rfl⟩
  · exact ⟨.any 0, List.mem_of_getElem? (i := 9) rfl, rfl, rfl⟩
  · exact ⟨.partialCommit 0, List.mem_of_getElem? (i := 10) rfl, rfl, rfl⟩
  · exact ⟨.span .empty, List.mem_of_getElem? (i := 11) rfl, rfl, by change _ ++ [cond true _ _] = _ ++ [cond true _ _]; rfl⟩
  · exact ⟨.backCommit 0, List.mem_of_getElem? (i := 12) rfl, rfl, rfl⟩
  · exact ⟨.failTwice, List.mem_of_getElem? (i := 13) rfl, rfl, rfl⟩
  · exact ⟨.emptyOp 0, List.mem_of_getElem? (i := 14) rfl, rfl, rfl⟩
  · exact ⟨.testChar 0 0, List.mem_of_getElem? (i := 15) rfl, rfl, rfl⟩
  · exact ⟨.testCharNC 0 0, List.mem_of_getElem? (i := 16) rfl, rfl, rfl⟩
  · exact ⟨.testSet .empty 0, List.mem_of_getElem? (i := 17) rfl, rfl, by change _ ++ [cond true _ _] = _ ++ [cond true _ _]; rfl⟩
  · exact ⟨.testSetNC .empty 0, List.mem_of_getElem? (i := 18) rfl, rfl, by change _ ++ [cond true _ _] = _ ++ [cond true _ _]; rfl⟩
  · exact ⟨.testAny 0 0, List.mem_of_getElem? (i := 19) rfl, rfl, rfl⟩
  · exact ⟨.endI true, List.mem_of_getElem? (i := 20) rfl, rfl, rfl⟩
  · exact ⟨.nop, List.mem_of_getElem? (i := 21) rfl, rfl, rfl⟩
  · exact ⟨.memoOpen 0 0, List.mem_of_getElem? (i := 22) rfl, rfl, rfl⟩
  · exact ⟨.memoClose, List.mem_of_getElem? (i := 23) rfl, rfl, rfl⟩
  · exact ⟨.memoTreeOpen 0 0, List.mem_of_getElem? (i := 24) rfl, rfl, rfl⟩
  · exact ⟨.memoTreeInsert, List.mem_of_getElem? (i := 25) rfl, rfl, rfl⟩
  · exact ⟨.memoTree, List.mem_of_getElem? (i := 26) rfl, rfl, rfl⟩
  · exact ⟨.memoTreeClose 0, List.mem_of_getElem? (i := 27) rfl, rfl, rfl⟩
  · exact ⟨.captureBegin 0, List.mem_of_getElem? (i := 28) rfl, rfl, rfl⟩
  · exact ⟨.captureLate 0 0, List.mem_of_getElem? (i := 29) rfl, rfl, rfl⟩
  · exact ⟨.captureEnd, List.mem_of_getElem? (i := 30) rfl, rfl, rfl⟩
  · exact ⟨.captureFull 0 0, List.mem_of_getElem? (i := 31) rfl, rfl, rfl⟩
  · exact ⟨.checkBegin 0 0, List.mem_of_getElem? (i := 32) rfl, rfl, rfl⟩
  · exact ⟨.checkEnd 0, List.mem_of_getElem? (i := 33) rfl, rfl, rfl⟩
  · exact ⟨.error "", List.mem_of_getElem? (i := 34) rfl, rfl, rfl⟩
  · exact ⟨.openCall "", List.mem_of_getElem? (i := 35) rfl, rfl, rfl⟩

theorem fronts_free : (kinds.all fun a => kinds.all fun b => !(a.front.isPrefixOf b.front) || a.ctorIdx == b.ctorIdx) = true := by decide +kernel

theorem front_tag {i j : Insn} (h : i.front <+: j.front) : i.ctorIdx = j.ctorIdx := by
  obtain ⟨a, ha, h1, h2⟩ := front_kind i
  obtain ⟨b, hb, h3, h4⟩ := front_kind j
  have := List.all_eq_true.1 (List.all_eq_true.1 fronts_free a ha) b hb
  rw [h2, h4, h1, h3, List.isPrefixOf_iff_prefix.2 h] at this
  simpa using this

section
variable {chk : Nat → List Char}

/-- What is behind `front`. -/
def Insn.back (chk : Nat → List Char) (i : Insn) (r : List Char) : List Char :=
  match i.operands chk with
  | some t => t ++ '\n' :: r
  | none => r

theorem text_front (i : Insn) (r : List Char) : i.text chk ++ '\n' :: r = i.front ++ i.back chk r := by
  cases i <;> simp [Insn.text, Insn.front, Insn.back, Insn.operands]

set_option maxHeartbeats 1000000 in
theorem operands_line {i : Insn} (hi : i.Shown) {t : List Char} (h : i.operands chk = some t) : '\n' ∉ t := by
  have hn : ∀ n, '\n' ∉ num n := fun n h => absurd (num_digit h) (by decide)
  have hI : ∀ n, '\n' ∉ numI n := fun n h => by
    rcases numI_digit h with h | h
    · exact absurd h (by decide)
    · exact absurd h (by decide)
  have hl : ∀ l, '\n' ∉ lblText l := fun l h => by
    rcases List.mem_cons.1 h with h | h
    · exact absurd h (by decide)
    · exact hn l h
  have hu := fun b => (unquote_quote b).2
  have sp : '\n' ≠ ' ' := by decide
  cases i <;> simp only [Insn.operands, Option.some.injEq, reduceCtorEq] at h <;> first | cases hi; done | skip
  case emptyOp op => subst h; rcases hi with rfl | rfl | rfl | rfl | rfl | rfl <;> decide
  case endI fl => subst h; cases fl <;> decide
  all_goals
    subst h
    first
    | exact hn _ | exact hI _ | exact hl _ | exact hu _ | exact string_line _ | exact quoteText_line _
    | (simp only [List.mem_append, List.mem_cons, not_or]
       first
       | exact ⟨hu _, sp, hl _⟩
       | exact ⟨string_line _, sp, hl _⟩ | exact ⟨hn _, sp, hl _⟩ | exact ⟨hl _, sp, hI _⟩ | exact ⟨hn _, sp, hI _⟩)

theorem operands_inj {i j : Insn} (hi : i.Shown) (hj : j.Shown) (h : i.ctorIdx = j.ctorIdx)
    (ho : i.operands chk = j.operands chk) : i = j := by
  have hn : ∀ n, ' ' ∉ num n := fun n h => absurd (num_digit h) (by decide)
  have hI : ∀ n, ' ' ∉ numI n := fun n h => by
    rcases numI_digit h with h | h
    · exact absurd h (by decide)
    · exact absurd h (by decide)
  have hl : ∀ l, ' ' ∉ lblText l := fun l h => by
    rcases List.mem_cons.1 h with h | h
    · exact absurd h (by decide)
    · exact hn l h
  have hnum : ∀ {a b : UInt8}, num a.toNat = num b.toNat → a = b := fun h => UInt8.toNat_inj.1 (num_inj h)
  cases i with
  | checkBegin _ _ => exact hi.elim
  | checkEnd _ => exact hi.elim
  | openCall _ => exact hi.elim
  | label a =>
    refine Insn.label.elim (motive := fun j => j.Shown → _ = j.operands chk → _ = j) j h.symm (fun a' hj ho => ?_) hj ho
    rw [num_inj (Option.some.inj ho)]
  | char a =>
    refine Insn.char.elim (motive := fun j => j.Shown → _ = j.operands chk → _ = j) j h.symm (fun a' hj ho => ?_) hj ho
    rw [quoteLatin_inj (Option.some.inj ho)]
  | jump a =>
    refine Insn.jump.elim (motive := fun j => j.Shown → _ = j.operands chk → _ = j) j h.symm (fun a' hj ho => ?_) hj ho
    rw [lblText_inj (Option.some.inj ho)]
  | choice a =>
    refine Insn.choice.elim (motive := fun j => j.Shown → _ = j.operands chk → _ = j) j h.symm (fun a' hj ho => ?_) hj ho
    rw [lblText_inj (Option.some.inj ho)]
  | call a =>
    refine Insn.call.elim (motive := fun j => j.Shown → _ = j.operands chk → _ = j) j h.symm (fun a' hj ho => ?_) hj ho
    rw [lblText_inj (Option.some.inj ho)]
  | commit a =>
    refine Insn.commit.elim (motive := fun j => j.Shown → _ = j.operands chk → _ = j) j h.symm (fun a' hj ho => ?_) hj ho
    rw [lblText_inj (Option.some.inj ho)]
  | set a =>
    refine Insn.set.elim (motive := fun j => j.Shown → _ = j.operands chk → _ = j) j h.symm (fun a' hj ho => ?_) hj ho
    rw [C64_injective (Option.some.inj ho)]
  | any a =>
    refine Insn.any.elim (motive := fun j => j.Shown → _ = j.operands chk → _ = j) j h.symm (fun a' hj ho => ?_) hj ho
    rw [hnum (Option.some.inj ho)]
  | partialCommit a =>
    refine Insn.partialCommit.elim (motive := fun j => j.Shown → _ = j.operands chk → _ = j) j h.symm (fun a' hj ho => ?_) hj ho
    rw [lblText_inj (Option.some.inj ho)]
  | span a =>
    refine Insn.span.elim (motive := fun j => j.Shown → _ = j.operands chk → _ = j) j h.symm (fun a' hj ho => ?_) hj ho
    rw [C64_injective (Option.some.inj ho)]
  | backCommit a =>
    refine Insn.backCommit.elim (motive := fun j => j.Shown → _ = j.operands chk → _ = j) j h.symm (fun a' hj ho => ?_) hj ho
    rw [lblText_inj (Option.some.inj ho)]
  | emptyOp a =>
    refine Insn.emptyOp.elim (motive := fun j => j.Shown → _ = j.operands chk → _ = j) j h.symm (fun a' hj ho => ?_) hj ho
    have ho := Option.some.inj ho
    rcases hi with rfl | rfl | rfl | rfl | rfl | rfl <;> rcases hj with rfl | rfl | rfl | rfl | rfl | rfl <;>
      first | rfl | exact absurd ho (by decide)
  | endI a =>
    refine Insn.endI.elim (motive := fun j => j.Shown → _ = j.operands chk → _ = j) j h.symm (fun a' hj ho => ?_) hj ho
    cases a <;> cases a' <;> first | rfl | exact absurd (Option.some.inj ho) (by decide)
  | memoTreeClose a =>
    refine Insn.memoTreeClose.elim (motive := fun j => j.Shown → _ = j.operands chk → _ = j) j h.symm (fun a' hj ho => ?_) hj ho
    rw [numI_inj (Option.some.inj ho)]
  | captureBegin a =>
    refine Insn.captureBegin.elim (motive := fun j => j.Shown → _ = j.operands chk → _ = j) j h.symm (fun a' hj ho => ?_) hj ho
    rw [numI_inj (Option.some.inj ho)]
  | error a =>
    refine Insn.error.elim (motive := fun j => j.Shown → _ = j.operands chk → _ = j) j h.symm (fun a' hj ho => ?_) hj ho
    rw [quoteText_inj (Option.some.inj ho)]
  | ret => exact Insn.ret.elim (motive := fun j => j.Shown → _ = j.operands chk → _ = j) j h.symm (fun _ _ => rfl) hj ho
  | fail => exact Insn.fail.elim (motive := fun j => j.Shown → _ = j.operands chk → _ = j) j h.symm (fun _ _ => rfl) hj ho
  | failTwice => exact Insn.failTwice.elim (motive := fun j => j.Shown → _ = j.operands chk → _ = j) j h.symm (fun _ _ => rfl) hj ho
  | nop => exact Insn.nop.elim (motive := fun j => j.Shown → _ = j.operands chk → _ = j) j h.symm (fun _ _ => rfl) hj ho
  | memoClose => exact Insn.memoClose.elim (motive := fun j => j.Shown → _ = j.operands chk → _ = j) j h.symm (fun _ _ => rfl) hj ho
  | memoTreeInsert => exact Insn.memoTreeInsert.elim (motive := fun j => j.Shown → _ = j.operands chk → _ = j) j h.symm (fun _ _ => rfl) hj ho
  | memoTree => exact Insn.memoTree.elim (motive := fun j => j.Shown → _ = j.operands chk → _ = j) j h.symm (fun _ _ => rfl) hj ho
  | captureEnd => exact Insn.captureEnd.elim (motive := fun j => j.Shown → _ = j.operands chk → _ = j) j h.symm (fun _ _ => rfl) hj ho
  | testChar a b =>
    refine Insn.testChar.elim (motive := fun j => j.Shown → _ = j.operands chk → _ = j) j h.symm (fun a' b' hj ho => ?_) hj ho
    obtain ⟨h1, h2⟩ := cut_last (hl _) (hl _) (Option.some.inj ho)
    rw [quoteLatin_inj h1, lblText_inj h2]
  | testCharNC a b =>
    refine Insn.testCharNC.elim (motive := fun j => j.Shown → _ = j.operands chk → _ = j) j h.symm (fun a' b' hj ho => ?_) hj ho
    obtain ⟨h1, h2⟩ := cut_last (hl _) (hl _) (Option.some.inj ho)
    rw [quoteLatin_inj h1, lblText_inj h2]
  | testSet a b =>
    refine Insn.testSet.elim (motive := fun j => j.Shown → _ = j.operands chk → _ = j) j h.symm (fun a' b' hj ho => ?_) hj ho
    obtain ⟨h1, h2⟩ := cut_last (hl _) (hl _) (Option.some.inj ho)
    rw [C64_injective h1, lblText_inj h2]
  | testSetNC a b =>
    refine Insn.testSetNC.elim (motive := fun j => j.Shown → _ = j.operands chk → _ = j) j h.symm (fun a' b' hj ho => ?_) hj ho
    obtain ⟨h1, h2⟩ := cut_last (hl _) (hl _) (Option.some.inj ho)
    rw [C64_injective h1, lblText_inj h2]
  | testAny a b =>
    refine Insn.testAny.elim (motive := fun j => j.Shown → _ = j.operands chk → _ = j) j h.symm (fun a' b' hj ho => ?_) hj ho
    obtain ⟨h1, h2⟩ := cut_last (hl _) (hl _) (Option.some.inj ho)
    rw [hnum h1, lblText_inj h2]
  | memoOpen a b =>
    refine Insn.memoOpen.elim (motive := fun j => j.Shown → _ = j.operands chk → _ = j) j h.symm (fun a' b' hj ho => ?_) hj ho
    obtain ⟨h1, h2⟩ := cut_last (hI _) (hI _) (Option.some.inj ho)
    rw [lblText_inj h1, numI_inj h2]
  | memoTreeOpen a b =>
    refine Insn.memoTreeOpen.elim (motive := fun j => j.Shown → _ = j.operands chk → _ = j) j h.symm (fun a' b' hj ho => ?_) hj ho
    obtain ⟨h1, h2⟩ := cut_last (hI _) (hI _) (Option.some.inj ho)
    rw [lblText_inj h1, numI_inj h2]
  | captureLate a b =>
    refine Insn.captureLate.elim (motive := fun j => j.Shown → _ = j.operands chk → _ = j) j h.symm (fun a' b' hj ho => ?_) hj ho
    obtain ⟨h1, h2⟩ := cut_last (hI _) (hI _) (Option.some.inj ho)
    rw [hnum h1, numI_inj h2]
  | captureFull a b =>
    refine Insn.captureFull.elim (motive := fun j => j.Shown → _ = j.operands chk → _ = j) j h.symm (fun a' b' hj ho => ?_) hj ho
    obtain ⟨h1, h2⟩ := cut_last (hI _) (hI _) (Option.some.inj ho)
    rw [hnum h1, numI_inj h2]

/-- An instruction can be read off its line. -/
theorem text_inj {i j : Insn} (hi : i.Shown) (hj : j.Shown)
    {r r' : List Char} (h : i.text chk ++ '\n' :: r = j.text chk ++ '\n' :: r') : i = j ∧ r = r' := by
  rw [text_front, text_front] at h
  have ht : i.ctorIdx = j.ctorIdx := by
    rcases List.append_eq_append_iff.1 h with ⟨a, h1, _⟩ | ⟨a, h1, _⟩
    · exact front_tag ⟨a, h1.symm⟩
    · exact (front_tag ⟨a, h1.symm⟩).symm
  have hf : i.front = j.front := by
    obtain ⟨a, ha, h1, h2⟩ := front_kind i
    obtain ⟨b, hb, h3, h4⟩ := front_kind j
    rw [← h2, ← h4]
    have : (kinds.all fun a => kinds.all fun b => !(a.ctorIdx == b.ctorIdx) || a.front == b.front) = true := by decide +kernel
    have := List.all_eq_true.1 (List.all_eq_true.1 this a ha) b hb
    rw [h1, h3, ht] at this
    simpa using this
  rw [hf] at h
  have h := List.append_cancel_left h
  have hs : (i.operands chk).isSome = (j.operands chk).isSome := by
    have hc : ∀ i : Insn, (i.operands chk).isSome = (i.operands (fun _ => [])).isSome := fun i => by cases i <;> rfl
    have h1 : i.front.getLast? = j.front.getLast? := by rw [hf]
    simp only [Insn.front, List.getLast?_append, List.getLast?_singleton, Option.some_or, Option.some.injEq] at h1
    rw [hc, hc]
    revert h1
    cases (i.operands (fun _ => [])).isSome <;> cases (j.operands (fun _ => [])).isSome <;> decide
  unfold Insn.back at h
  cases h1 : i.operands chk with
  | none =>
    cases h2 : j.operands chk with
    | some t => rw [h1, h2] at hs; cases hs
    | none =>
      rw [h1, h2] at h
      exact ⟨operands_inj hi hj ht (h1.trans h2.symm), h⟩
  | some t =>
    cases h2 : j.operands chk with
    | none => rw [h1, h2] at hs; cases hs
    | some t' =>
      rw [h1, h2] at h
      obtain ⟨h3, h4⟩ := cut_first (operands_line hi h1) (operands_line hj h2) h
      exact ⟨operands_inj hi hj ht (by rw [h1, h2, h3]), h4⟩

/-! ## Programs -/

/-- The listing from some instruction on. -/
def rest (chk : Nat → List Char) : Bool → Program → List Char
  | _, [] => ['\n']
  | b, .nop :: p => rest chk b p
  | b, .label l :: p => (if b then ['\n'] else []) ++ (lblText l ++ ':' :: rest chk true p)
  | _, i :: p => '\t' :: (i.text chk ++ '\n' :: rest chk false p)

theorem listing_rest (p : Program) : p.listing chk = rest chk false p := by
  have : ∀ (p : Program) (s : List Char) (b : Bool), (p.foldl (listStep chk) (s, b)).1 ++ ['\n'] = s ++ rest chk b p := by
    intro p
    induction p with
    | nil => intro s b; rfl
    | cons i p ih => intro s b; cases i <;> simp [listStep, rest, ih]
  exact this p [] false

/-- The kinds of beginnings of `rest`. -/
theorem rest_skip : ∀ (p : Program) (b : Bool), rest chk b p = rest chk b (p.filter (· != .nop))
  | [], _ => rfl
  | i :: p, b => by
    have := rest_skip p
    cases i <;> simp [rest, this]

theorem rest_inj : ∀ (p q : Program) (b : Bool),
    (∀ i ∈ p, i.Shown ∧ i ≠ .nop) → (∀ i ∈ q, i.Shown ∧ i ≠ .nop) → rest chk b p = rest chk b q → p = q := by
  have line : ∀ (i : Insn) (p : Program) (b : Bool), i ≠ .nop → (∀ l, i ≠ .label l) →
      rest chk b (i :: p) = '\t' :: (i.text chk ++ '\n' :: rest chk false p) := by
    intro i p b h1 h2
    cases i <;> first | rfl | exact absurd rfl h1 | exact absurd rfl (h2 _)
  have lab : ∀ (l : Nat) (p : Program) (b : Bool),
      rest chk b (.label l :: p) = (if b then ['\n'] else []) ++ ('L' :: (num l ++ ':' :: rest chk true p)) :=
    fun _ _ _ => rfl
  have colon : ∀ n, ':' ∉ num n := fun n h => absurd (num_digit h) (by decide)
  intro p
  induction p with
  | nil =>
    intro q b _ hq2 h
    cases q with
    | nil => rfl
    | cons j q =>
      by_cases hj : ∃ l, j = .label l
      · obtain ⟨l, rfl⟩ := hj
        rw [lab] at h
        cases b <;> simp [rest] at h
      · rw [line j q b (hq2 j List.mem_cons_self).2 fun l hl => hj ⟨l, hl⟩] at h
        simp [rest] at h
  | cons i p ih =>
    intro q b hp2 hq2 h
    obtain ⟨hi1, hi2⟩ := hp2 i List.mem_cons_self
    have hp3 := fun x hx => hp2 x (List.mem_cons_of_mem _ hx)
    cases q with
    | nil =>
      by_cases hi : ∃ l, i = .label l
      · obtain ⟨l, rfl⟩ := hi
        rw [lab] at h
        cases b <;> simp [rest] at h
      · rw [line i p b hi2 fun l hl => hi ⟨l, hl⟩] at h
        simp [rest] at h
    | cons j q =>
      obtain ⟨hj1, hj2⟩ := hq2 j List.mem_cons_self
      have hq3 := fun x hx => hq2 x (List.mem_cons_of_mem _ hx)
      by_cases hi : ∃ l, i = .label l
      · obtain ⟨l, rfl⟩ := hi
        by_cases hj : ∃ l, j = .label l
        · obtain ⟨l', rfl⟩ := hj
          rw [lab, lab] at h
          have h := List.append_cancel_left h
          injection h with _ h
          obtain ⟨h1, h2⟩ := cut_first (colon _) (colon _) h
          rw [num_inj h1, ih q true hp3 hq3 h2]
        · rw [lab, line j q b hj2 fun l hl => hj ⟨l, hl⟩] at h
          cases b <;> simp at h
      · by_cases hj : ∃ l, j = .label l
        · obtain ⟨l', rfl⟩ := hj
          rw [lab, line i p b hi2 fun l hl => hi ⟨l, hl⟩] at h
          cases b <;> simp at h
        · rw [line i p b hi2 fun l hl => hi ⟨l, hl⟩, line j q b hj2 fun l hl => hj ⟨l, hl⟩] at h
          injection h with _ h
          obtain ⟨h1, h2⟩ := text_inj hi1 hj1 h
          rw [h1, ih q false hp3 hq3 h2]

end

/-- **C81, the listing tells the program.** Two programs with the same listing are the same but for `Nop`s, which are not listed, if they
have no checkers and no dummies and their assertions have one condition each. -/
theorem C81_listing_partial (chk : Nat → List Char) (p q : Program) (hp : ∀ i ∈ p, i.Shown) (hp' : ∀ i ∈ q, i.Shown)
    (h : p.listing chk = q.listing chk) : p.filter (· != .nop) = q.filter (· != .nop) := by
  rw [listing_rest, listing_rest, rest_skip p, rest_skip q] at h
  refine rest_inj _ _ _ ?_ ?_ h
  · intro i hi
    have := List.mem_filter.1 hi
    exact ⟨hp i this.1, by simpa using this.2⟩
  · intro i hi
    have := List.mem_filter.1 hi
    exact ⟨hp' i this.1, by simpa using this.2⟩

/-- **C81, finding.** Without the conditions of `C81_listing_partial` it is not so: `CheckBegin` is listed without its operands, and
assertions with two conditions are all listed as `Unknown`. -/
theorem C81_false (chk : Nat → List Char) :
    (∃ p q : Program, p.listing chk = q.listing chk ∧ p = [.checkBegin 1 0] ∧ q = [.checkBegin 2 0]) ∧
    (∃ p q : Program, p.listing chk = q.listing chk ∧ p = [.emptyOp 3] ∧ q = [.emptyOp 5]) :=
  ⟨⟨[.checkBegin 1 0], [.checkBegin 2 0], rfl, rfl, rfl⟩, ⟨[.emptyOp 3], [.emptyOp 5], rfl, rfl, rfl⟩⟩

/-- The listing of a small program, with two labels in a row and a `Nop`. -/
example :
    Program.listing (fun _ => []) [.nop, .label 0, .label 1, .testChar 97 2, .nop, .captureLate 1 (-3), .label 2, .endI false] =
      "L0:\nL1:\tTestChar 'a' L2\n\tCapture late 1 -3\nL2:\tEnd Success\n\n".toList := by decide +kernel

end Gpeg
