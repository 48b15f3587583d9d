import Verif.CodeJson
import Verif.Props.Listing
/-! # Property C47: codes written as JSON and read back -/
namespace Gpeg

/-! ## Strings -/

theorem hexDigit_hexChar {d : Nat} (h : d < 16) : hexDigit (hexChar d) = some d := by
  have : ∀ d < 16, hexDigit (hexChar d) = some d := by decide
  exact this d h

theorem jsonEsc_hex {n : Nat} (h : n < 0xd800) (r : List Char) : jsonEsc ('u' :: (hexN 4 n ++ r)) = some (Char.ofNat n, r) := by
  have h1 := hexDigit_hexChar (d := n / 16 / 16 / 16 % 16) (by omega)
  have h2 := hexDigit_hexChar (d := n / 16 / 16 % 16) (by omega)
  have h3 := hexDigit_hexChar (d := n / 16 % 16) (by omega)
  have h4 := hexDigit_hexChar (d := n % 16) (by omega)
  have e : ((n / 16 / 16 / 16 % 16 * 16 + n / 16 / 16 % 16) * 16 + n / 16 % 16) * 16 + n % 16 = n := by omega
  simp only [hexN, List.nil_append, List.cons_append, jsonEsc, h1, h2, h3, h4, e]
  rw [if_neg (by omega)]

theorem parseStr_char (f : Nat) (c : Char) (r : List Char) :
    parseStr (f + 1) (jsonChar c ++ r) = (parseStr f r).map fun x => (c :: x.1, x.2) := by
  unfold jsonChar
  by_cases h1 : c = '"'
  · subst h1; rfl
  by_cases h2 : c = '\\'
  · subst h2; rfl
  by_cases h3 : c = '\n'
  · subst h3; rfl
  by_cases h4 : c = '\r'
  · subst h4; rfl
  by_cases h5 : c = '\t'
  · subst h5; rfl
  rw [if_neg h1, if_neg h2, if_neg h3, if_neg h4, if_neg h5]
  split
  · rename_i h
    have hn : c.toNat < 0xd800 := by
      rcases h with h | rfl | rfl | rfl | h | h
      · omega
      · decide
      · decide
      · decide
      · omega
      · omega
    have he := jsonEsc_hex hn r
    rw [Char.ofNat_toNat] at he
    have : parseStr (f + 1) ('\\' :: 'u' :: (hexN 4 c.toNat ++ r)) = (parseStr f r).map fun x => (c :: x.1, x.2) := by
      rw [parseStr, if_neg (by decide), if_pos rfl, he]
    exact this
  · rename_i h
    have : parseStr (f + 1) (c :: r) = (parseStr f r).map fun x => (c :: x.1, x.2) := by
      rw [parseStr, if_neg h1, if_neg h2, if_neg fun h' => h (.inl h')]
    exact this

theorem parseStr_str : ∀ (s : List Char) (f : Nat) (r : List Char), s.length < f →
    parseStr f (s.flatMap jsonChar ++ '"' :: r) = some (s, r)
  | [], f + 1, r, _ => by rfl
  | c :: s, f + 1, r, h => by
    rw [List.flatMap_cons, List.append_assoc, parseStr_char, parseStr_str s f r (by simpa using h)]
    rfl

theorem jsonChar_pos (c : Char) : 1 ≤ (jsonChar c).length := by
  unfold jsonChar
  repeat' split
  all_goals simp

theorem flat_length : ∀ s : List Char, s.length ≤ (s.flatMap jsonChar).length
  | [] => Nat.le_refl _
  | c :: s => by
    have := flat_length s
    have := jsonChar_pos c
    rw [List.flatMap_cons, List.length_append, List.length_cons]
    omega

theorem parseStr_jsonStr {s : List Char} {r t : List Char} (h : t = s.flatMap jsonChar ++ '"' :: r) {f : Nat} (hf : t.length ≤ f) :
    parseStr f t = some (s, r) := by
  subst h
  refine parseStr_str s f r ?_
  have := flat_length s
  simp only [List.length_append, List.length_cons] at hf
  omega

/-! ## Numbers -/

theorem jsonWs_cons {c : Char} (h : (c == ' ' || c == '\t' || c == '\n' || c == '\r') = false) (r : List Char) : jsonWs (c :: r) = c :: r := by
  unfold jsonWs
  rw [List.dropWhile_cons, if_neg]
  simp [h]

theorem digit_ne {c d : Char} (h : c.isDigit = true) (hd : d.isDigit = false) : c ≠ d := by
  rintro rfl
  rw [h] at hd
  cases hd

theorem foldl_digits (n : Nat) : (num n).foldl (fun n c => n * 10 + (c.toNat - 48)) 0 = n := by
  have h := Nat.ofDigitChars_ten_toDigits (n := n)
  rw [Nat.ofDigitChars_eq_foldl] at h
  rw [num, Nat.toList_repr]
  refine Eq.trans ?_ h
  congr 1
  funext a c
  rw [Nat.mul_comm]
  rfl

theorem num_ne (n : Nat) : num n ≠ [] := by
  rw [num, Nat.toList_repr]
  exact Nat.toDigits_ne_nil

theorem num_zero : ∀ (n : Nat), (num n).head? = some '0' → num n = ['0'] := by
  intro n
  induction n using Nat.strongRecOn with
  | _ n ih =>
    intro h
    by_cases hn : n < 10
    · have hd : ∀ n < 10, (num n).head? = some '0' → num n = ['0'] := by decide
      exact hd n hn h
    · have e : num n = num (n / 10) ++ [(n % 10).digitChar] := by
        simp only [num, Nat.toList_repr]
        exact Nat.toDigits_of_base_le (by decide) (by omega)
      have hh : (num (n / 10)).head? = some '0' := by
        rw [e, List.head?_append] at h
        cases hx : num (n / 10) with
        | nil => exact absurd hx (num_ne _)
        | cons c l => rw [hx] at h; exact h
      have h0 : num (n / 10) = num 0 := (ih (n / 10) (by omega) hh).trans (by decide)
      have := num_inj h0
      omega

theorem takeWhile_num {p : Char → Bool} : ∀ {l r : List Char}, (∀ c ∈ l, p c = true) → (∀ c ∈ r.head?, p c = false) →
    (l ++ r).takeWhile p = l ∧ (l ++ r).dropWhile p = r
  | [], [], _, _ => ⟨rfl, rfl⟩
  | [], c :: r, _, h => by
    have := h c rfl
    simp [this]
  | c :: l, r, h, h' => by
    have h1 := h c List.mem_cons_self
    have h2 := takeWhile_num (l := l) (fun x hx => h x (List.mem_cons_of_mem _ hx)) h'
    simp [h1, h2]

theorem parseNum_num (n : Nat) {r : List Char} (hr : ∀ c ∈ r.head?, c.isDigit = false) : parseNum (num n ++ r) = some (.num n, r) := by
  obtain ⟨h1, h2⟩ := takeWhile_num (fun c hc => num_digit hc) hr (l := num n)
  unfold parseNum
  simp only [h1, h2, foldl_digits]
  rw [if_neg]
  rintro (h | ⟨h, h'⟩)
  · exact num_ne n h
  · exact h' (num_zero n h)

/-! ## Values -/

/-- What may stand behind a value: the end, or a comma or a bracket. -/
def Behind (r : List Char) : Prop := ∀ c ∈ r.head?, c = ',' ∨ c = ']' ∨ c = '}'

theorem jsonStr_parse (s r : List Char) {f : Nat} (hf : (s.flatMap jsonChar ++ '"' :: r).length ≤ f) :
    parseStr f (s.flatMap jsonChar ++ '"' :: r) = some (s, r) := parseStr_jsonStr rfl hf

theorem str_cons (s r : List Char) : jsonStr s ++ r = '"' :: (s.flatMap jsonChar ++ '"' :: r) := by simp [jsonStr]

theorem render_head : ∀ v : Json, ∃ c l, v.render = c :: l ∧ (c = 'n' ∨ c = '"' ∨ c = '[' ∨ c = '{' ∨ c.isDigit = true)
  | .null => ⟨_, _, rfl, by decide⟩
  | .num n => by
    cases h : num n with
    | nil => exact absurd h (num_ne n)
    | cons c l => exact ⟨c, l, by rw [Json.render, h], .inr (.inr (.inr (.inr (num_digit (n := n) (by rw [h]; exact List.mem_cons_self)))))⟩
  | .str s => ⟨_, _, rfl, by decide⟩
  | .arr [] => ⟨_, _, rfl, by decide⟩
  | .arr (v :: l) => ⟨_, _, rfl, by decide⟩
  | .obj [] => ⟨_, _, rfl, by decide⟩
  | .obj ((k, v) :: l) => ⟨_, _, rfl, by decide⟩

theorem ws_digit {c : Char} (h : c.isDigit = true) : (c == ' ' || c == '\t' || c == '\n' || c == '\r') = false := by
  have h1 := digit_ne h (d := ' ') (by decide)
  have h2 := digit_ne h (d := '\t') (by decide)
  have h3 := digit_ne h (d := '\n') (by decide)
  have h4 := digit_ne h (d := '\r') (by decide)
  simp [h1, h2, h3, h4]

theorem render_ws (v : Json) (r : List Char) : jsonWs (v.render ++ r) = v.render ++ r := by
  obtain ⟨c, l, h, hc⟩ := render_head v
  rw [h, List.cons_append]
  refine jsonWs_cons ?_ _
  rcases hc with rfl | rfl | rfl | rfl | hc
  · decide
  · decide
  · decide
  · decide
  · exact ws_digit hc

theorem behindL (l : List Json) (r : List Char) : Behind (Json.renderL l ++ ']' :: r) := by
  cases l with
  | nil => intro c hc; cases hc; decide
  | cons v l => intro c hc; rw [Json.renderL] at hc; cases hc; decide

theorem behindF (l : List (List Char × Json)) (r : List Char) : Behind (Json.renderF l ++ '}' :: r) := by
  cases l with
  | nil => intro c hc; cases hc; decide
  | cons v l => obtain ⟨k, v⟩ := v; intro c hc; rw [Json.renderF] at hc; cases hc; decide

theorem render_no {v : Json} {r : List Char} {c : Char} (hc : c = ']' ∨ c = '}') : (v.render ++ r).head? ≠ some c := by
  obtain ⟨d, l, h, hd⟩ := render_head v
  rw [h, List.cons_append, List.head?_cons]
  intro h
  injection h with h
  subst h
  rcases hc with rfl | rfl <;> revert hd <;> decide

mutual
theorem parseV_render : ∀ (v : Json) (f : Nat) (r : List Char), 2 * v.render.length ≤ f → Behind r → parseV f (v.render ++ r) = some (v, r)
  | v, 0, r, hf, _ => by
    obtain ⟨c, l, h, _⟩ := render_head v
    rw [h] at hf
    simp at hf
  | .null, f + 1, r, hf, hr => by rfl
  | .num n, f + 1, r, hf, hr => by
    rw [parseV, render_ws, Json.render]
    cases h : num n with
    | nil => exact absurd h (num_ne n)
    | cons c l =>
      have hc : c.isDigit = true := num_digit (n := n) (by rw [h]; exact List.mem_cons_self)
      simp only [List.cons_append]
      rw [if_neg (digit_ne hc (by decide)), if_neg (digit_ne hc (by decide)), if_neg (digit_ne hc (by decide)),
        if_neg (digit_ne hc (by decide))]
      have := parseNum_num n (r := r) fun c hc => by
        rcases hr c hc with rfl | rfl | rfl <;> decide
      rwa [h] at this
  | .str s, f + 1, r, hf, hr => by
    rw [parseV, render_ws, Json.render, str_cons]
    simp only
    rw [if_neg (by decide), if_pos (by trivial), jsonStr_parse s r (by omega)]
    rfl
  | .arr [], f + 1, r, hf, hr => by
    rw [parseV, render_ws, Json.render]
    rfl
  | .arr (v :: l), f + 1, r, hf, hr => by
    rw [parseV, render_ws]
    simp only [Json.render, List.cons_append, List.append_assoc, List.nil_append, List.length_cons, List.length_append, List.length_nil] at hf ⊢
    rw [if_neg (by decide), if_neg (by decide), if_pos (by trivial), render_ws, if_neg (render_no (.inl rfl)), parseElems_render v l f r (by omega)]
    rfl
  | .obj [], f + 1, r, hf, hr => by
    rw [parseV, render_ws, Json.render]
    rfl
  | .obj ((k, v) :: l), f + 1, r, hf, hr => by
    rw [parseV, render_ws]
    simp only [Json.render, List.cons_append, List.append_assoc, List.nil_append, List.length_cons, List.length_append, List.length_nil] at hf ⊢
    have hs : jsonWs (jsonStr k ++ (':' :: (v.render ++ (Json.renderF l ++ '}' :: r)))) = jsonStr k ++ (':' :: (v.render ++ (Json.renderF l ++ '}' :: r))) :=
      jsonWs_cons (by decide) _
    rw [if_neg (by decide), if_neg (by decide), if_neg (by decide), if_pos (by trivial), hs, if_neg (by rw [str_cons]; simp),
      parseFields_render k v l f r (by omega)]
    rfl
theorem parseElems_render : ∀ (v : Json) (l : List Json) (f : Nat) (r : List Char), 2 * (v.render.length + (Json.renderL l).length) + 1 ≤ f →
    parseElems f (v.render ++ (Json.renderL l ++ ']' :: r)) = some (v :: l, r)
  | v, l, 0, r, hf => by omega
  | v, [], f + 1, r, hf => by
    rw [parseElems, parseV_render v f _ (by omega) (behindL _ _)]
    rfl
  | v, w :: l, f + 1, r, hf => by
    have hp : 1 ≤ v.render.length := by
      obtain ⟨c, l, h, _⟩ := render_head v
      rw [h]; simp
    rw [parseElems, parseV_render v f _ (by omega) (behindL _ _)]
    simp only [Json.renderL, List.cons_append, List.append_assoc, List.length_cons, List.length_append] at hf ⊢
    rw [jsonWs_cons (by decide)]
    simp only
    rw [if_pos (by trivial), parseElems_render w l f r (by omega)]
    rfl
theorem parseFields_render : ∀ (k : List Char) (v : Json) (l : List (List Char × Json)) (f : Nat) (r : List Char),
    2 * (v.render.length + (Json.renderF l).length) + 1 ≤ f →
    parseFields f (jsonStr k ++ (':' :: (v.render ++ (Json.renderF l ++ '}' :: r)))) = some ((k, v) :: l, r)
  | k, v, l, 0, r, hf => by omega
  | k, v, [], f + 1, r, hf => by
    rw [parseFields, str_cons, jsonWs_cons (by decide), List.head?_cons, if_pos (by trivial), List.tail_cons, jsonStr_parse _ _ (by simp; omega)]
    simp only
    rw [jsonWs_cons (by decide), List.head?_cons, if_pos (by trivial), List.tail_cons, parseV_render v f _ (by omega) (behindF _ _)]
    rfl
  | k, v, (k', w) :: l, f + 1, r, hf => by
    rw [parseFields, str_cons, jsonWs_cons (by decide), List.head?_cons, if_pos (by trivial), List.tail_cons, jsonStr_parse _ _ (by simp; omega)]
    simp only
    rw [jsonWs_cons (by decide), List.head?_cons, if_pos (by trivial), List.tail_cons, parseV_render v f _ (by omega) (behindF _ _)]
    simp only [Json.renderF, List.cons_append, List.append_assoc, List.length_cons, List.length_append] at hf ⊢
    rw [jsonWs_cons (by decide)]
    simp only
    rw [if_pos (by trivial), parseFields_render k' w l f r (by omega)]
    rfl
end

theorem parseJson_render (v : Json) : parseJson v.render = some v := by
  have := parseV_render v (2 * v.render.length) [] (Nat.le_refl _) (fun c hc => by cases hc)
  rw [List.append_nil] at this
  rw [parseJson, this]
  rfl

/-! ## Bytes -/

theorem b64_val {n : Nat} (h : n < 64) : b64Val (b64 n) = some n ∧ b64 n ≠ '=' := by
  have : ∀ n < 64, b64Val (b64 n) = some n ∧ b64 n ≠ '=' := by decide
  exact this n h

theorem ofNat_eq {a : UInt8} {n : Nat} (h : n = a.toNat) : UInt8.ofNat n = a := by
  subst h
  exact UInt8.ofNat_toNat

theorem b64_roundtrip : ∀ l : List UInt8, b64Dec (b64Enc l) = some l
  | [] => rfl
  | [a] => by
    have ha := a.toNat_lt
    simp only [b64Enc, b64Dec, (b64_val (n := a.toNat * 65536 / 262144) (by omega)).1,
      (b64_val (n := a.toNat * 65536 / 4096 % 64) (by omega)).1, and_self, if_true]
    rw [ofNat_eq (a := a) (by omega)]
  | [a, b] => by
    have ha := a.toNat_lt
    have hb := b.toNat_lt
    have hz := b64_val (n := (a.toNat * 65536 + b.toNat * 256) / 64 % 64) (by omega)
    simp only [b64Enc, b64Dec, (b64_val (n := (a.toNat * 65536 + b.toNat * 256) / 262144) (by omega)).1,
      (b64_val (n := (a.toNat * 65536 + b.toNat * 256) / 4096 % 64) (by omega)).1, and_self, if_true, hz.1, if_neg hz.2]
    rw [ofNat_eq (a := a) (by omega), ofNat_eq (a := b) (by omega)]
  | a :: b :: c :: r => by
    have ha := a.toNat_lt
    have hb := b.toNat_lt
    have hc := c.toNat_lt
    have hz := b64_val (n := (a.toNat * 65536 + b.toNat * 256 + c.toNat) / 64 % 64) (by omega)
    have hw := b64_val (n := (a.toNat * 65536 + b.toNat * 256 + c.toNat) % 64) (by omega)
    simp only [b64Enc, b64Dec, (b64_val (n := (a.toNat * 65536 + b.toNat * 256 + c.toNat) / 262144) (by omega)).1,
      (b64_val (n := (a.toNat * 65536 + b.toNat * 256 + c.toNat) / 4096 % 64) (by omega)).1, hz.1, hw.1, hw.2, false_and, if_false,
      b64_roundtrip r, Option.map_some]
    rw [ofNat_eq (a := a) (by omega), ofNat_eq (a := b) (by omega), ofNat_eq (a := c) (by omega)]

/-! ## Codes -/

theorem word_roundtrip (w : BitVec 64) : (Json.num w.toNat).word = some w := by
  rw [Json.word, if_pos w.isLt, BitVec.ofNat_toNat, BitVec.setWidth_eq]

theorem set_roundtrip (c : CSet) : c.json.set = some c := by
  simp only [CSet.json, Json.set, List.foldlM_cons, List.foldlM_nil, if_true, Json.bits, List.mapM_cons, List.mapM_nil, word_roundtrip]
  rfl

theorem mapM_roundtrip {α : Type} {f : α → Json} {g : Json → Option α} (h : ∀ a, g (f a) = some a) : ∀ l : List α, (l.map f).mapM g = some l
  | [] => rfl
  | a :: l => by
    rw [List.map_cons, List.mapM_cons, h, mapM_roundtrip h l]
    rfl

theorem slice_nilArr {α : Type} {f : α → Json} {g : Json → Option α} (h : ∀ a, g (f a) = some a) (l : List α) :
    (nilArr (l.map f)).slice g = some l := by
  cases l with
  | nil => rfl
  | cons a l =>
    have := mapM_roundtrip h (a :: l)
    exact this

/-- The names of the fields are different. -/
theorem names : (nameErrors ≠ nameSets ∧ nameCheckers ≠ nameSets ∧ nameCheckers ≠ nameErrors) ∧
    nameInsns ≠ nameSets ∧ nameInsns ≠ nameErrors ∧ nameInsns ≠ nameCheckers := by decide

theorem fromJson_json (chk : Nat → Json) (c : Code) : Code.fromJson (c.toJson chk) =
    ((nilArr (c.checkers.map chk)).slice fun _ => none).map fun l => { c with checkers := l } := by
  obtain ⟨⟨n1, n2, n3⟩, n4, n5, n6⟩ := names
  rw [Code.fromJson, Code.toJson, parseJson_render]
  simp only [Code.json, List.foldlM_cons, List.foldlM_nil]
  have h1 : ∀ c' : Code, c'.field (nameSets, .arr (c.sets.map CSet.json)) = some { c' with sets := c.sets } := fun c' => by
    simp only [Code.field, if_true]
    simp only [Json.slice, mapM_roundtrip set_roundtrip, Option.map_some]
  have h2 : ∀ c' : Code, c'.field (nameErrors, nilArr (c.errors.map fun m => .str m.toList)) = some { c' with errors := c.errors } :=
    fun c' => by
      have := slice_nilArr (f := fun m : String => Json.str m.toList) (g := Json.text) (fun a => by rw [Json.text, String.ofList_toList]) c.errors
      simp only [Code.field, if_neg n1, if_true, this, Option.map_some]
  have h3 : ∀ (c' : Code) x, c'.field (nameCheckers, x) = (x.slice fun _ => none).map fun l => { c' with checkers := l } :=
    fun c' x => by simp only [Code.field, if_neg n2, if_neg n3, if_true]
  have h4 : ∀ c' : Code, c'.field (nameInsns, .str (b64Enc c.insns)) = some { c' with insns := c.insns } := fun c' => by
    simp only [Code.field, if_neg n4, if_neg n5, if_neg n6, if_true, Json.bytes, b64_roundtrip, Option.map_some]
  rw [h1]
  simp only [Option.bind_eq_bind, Option.bind_some, h2, h3, h4, Option.pure_def]
  cases (nilArr (c.checkers.map chk)).slice fun _ => (none : Option Nat) <;> rfl

/-- **C47, JSON.** A code without checkers that is written with `ToJson` is read back by `FromJson` as it was. -/
theorem C47_json_partial (chk : Nat → Json) (c : Code) (h : c.checkers = []) : Code.fromJson (c.toJson chk) = some c := by
  rw [fromJson_json, h]
  obtain ⟨a, b, c, d⟩ := c
  cases h
  rfl

/-- **C47, finding.** No code with a checker can be read back from JSON, whatever the checker is. -/
theorem C47_json_false (chk : Nat → Json) (c : Code) (h : c.checkers ≠ []) : Code.fromJson (c.toJson chk) = none := by
  rw [fromJson_json]
  cases hc : c.checkers with
  | nil => exact absurd hc h
  | cons k l => rfl

theorem addSet_checkers (c : Code) (s : CSet) : (c.addSet s).2.checkers = c.checkers := by
  unfold Code.addSet
  split <;> rfl

theorem addError_checkers (c : Code) (m : String) : (c.addError m).2.checkers = c.checkers := by
  unfold Code.addError
  split <;> rfl

/-- The checkers that an instruction adds. -/
def Insn.checks : Insn → List Nat
  | .checkEnd k => [k]
  | _ => []

theorem args_checkers {lb : Nat → Nat} {c c' : Code} {i : Insn} {a : List UInt8} (h : encodeArgs lb c i = some (a, c')) :
    c'.checkers = c.checkers ++ i.checks := by
  cases i <;> simp only [encodeArgs, reduceCtorEq, Option.some.injEq, Prod.mk.injEq, Option.map_eq_some_iff] at h
  case testSet | testSetNC =>
    split at h
    · cases h; rw [addSet_checkers]; exact (List.append_nil _).symm
    · cases h
  case memoOpen | memoTreeOpen | checkBegin =>
    split at h
    · cases h; exact (List.append_nil _).symm
    · cases h
  case set | span => obtain ⟨_, _, _, rfl⟩ := h; rw [addSet_checkers]; exact (List.append_nil _).symm
  case error => obtain ⟨_, _, _, rfl⟩ := h; rw [addError_checkers]; exact (List.append_nil _).symm
  case checkEnd => obtain ⟨_, _, _, rfl⟩ := h; rfl
  all_goals first
    | (obtain ⟨_, rfl⟩ := h; exact (List.append_nil _).symm)
    | (obtain ⟨_, _, _, rfl⟩ := h; exact (List.append_nil _).symm)

theorem loop_checkers {lb : Nat → Nat} : ∀ {p : Program} {c d : Code}, encodeLoop lb c p = some d → d.checkers = c.checkers ++ p.flatMap Insn.checks
  | [], c, d, h => by cases h; simp
  | i :: p, c, d, h => by
    rw [encodeLoop] at h
    split at h
    · rename_i hs
      have : i.checks = [] := by cases i <;> first | rfl | cases hs
      rw [loop_checkers h, List.flatMap_cons, this, List.nil_append]
    · split at h
      · cases h
      · rename_i ha
        rw [loop_checkers h, List.flatMap_cons, ← List.append_assoc]
        have := args_checkers ha
        exact congrArg (· ++ _) this

/-- **C47, JSON**, for programs: what `Encode` makes of a program without `CheckEnd` is read back as it was, and what it makes of any
other is not read back at all. -/
theorem C47_program_partial (chk : Nat → Json) {p : Program} {c : Code} (h : encode p = some c) :
    ((∀ k, Insn.checkEnd k ∉ p) → Code.fromJson (c.toJson chk) = some c) ∧
    ((∃ k, Insn.checkEnd k ∈ p) → Code.fromJson (c.toJson chk) = none) := by
  obtain ⟨d, hd, rfl⟩ := Option.map_eq_some_iff.1 h
  have hc := loop_checkers hd
  rw [List.nil_append] at hc
  constructor
  · intro hp
    refine C47_json_partial chk _ (hc.trans (List.flatMap_eq_nil_iff.2 fun i hi => ?_))
    cases i <;> first | rfl | exact absurd hi (hp _)
  · rintro ⟨k, hk⟩
    refine C47_json_false chk _ fun h0 => ?_
    have h0 : d.checkers = [] := h0
    rw [hc] at h0
    cases List.flatMap_eq_nil_iff.1 h0 _ hk

/-- A code with a set, a message and bytes of all three kinds of ends; and one with a checker. -/
example : (∃ c : Code, c.checkers = [] ∧ c = ⟨[.empty], ["a\"<\n"], [], [1, 2, 250, 4]⟩ ∧ Code.toJson (fun _ => .null) c =
      "{\"Sets\":[{\"Bits\":[0,0,0,0]}],\"Errors\":[\"a\\\"\\u003c\\n\"],\"Checkers\":null,\"Insns\":\"AQL6BA==\"}".toList) ∧
    (∃ c : Code, c.checkers ≠ []) :=
  ⟨⟨_, rfl, rfl, by decide +kernel⟩, ⟨⟨[], [], [0], []⟩, by decide⟩⟩

/-- Programs of both kinds are encoded. -/
example : (∃ c, encode [.label 0, .error "no", .jump 0, .endI false] = some c) ∧ (∃ c, encode [.checkBegin 1 0, .checkEnd 3, .endI false] = some c) :=
  ⟨⟨_, rfl⟩, ⟨_, rfl⟩⟩

end Gpeg
