/-!
# JSON texts

The reference for `Verif/Props/Json.lean`: the grammar of RFC 8259 on bytes, with parameters for the points in which
`grammars/json.peg` differs from it. Nothing here refers to parsing expressions.
-/
namespace Gpeg.Json

/-- What varies: the blanks, the bytes that may follow a backslash (besides `u`), and which sequences of characters
(`false`) and escapes (`true`) may stand in a string. -/
structure Variant where
  ws : UInt8 → Bool
  esc : UInt8 → Bool
  body : List Bool → Bool

/-- RFC 8259, sections 2 and 7. Texts are bytes; that they are UTF-8 is not required. -/
def rfc : Variant where
  ws b := b == 32 || b == 9 || b == 10 || b == 13
  esc b := b == 34 || b == 92 || b == 47 || b == 98 || b == 102 || b == 110 || b == 114 || b == 116
  body _ := true

/-- A sequence begins with two escapes. -/
def twoEscapes : List Bool → Bool
  | true :: true :: _ => true
  | _ => false

/-- What `grammars/json.peg` takes: vertical tabulators and form feeds as blanks, `\{` and `\|` but not `\/`, and no two
escapes at the beginning of a string. -/
def file : Variant where
  ws b := b == 32 || b == 9 || b == 10 || b == 13 || b == 11 || b == 12
  esc b := b == 34 || b == 92 || b == 98 || b == 102 || b == 110 || b == 114 || b == 116 || b == 123 || b == 124
  body fs := !twoEscapes fs

/-- What both have in common. -/
def common : Variant where
  ws := rfc.ws
  esc b := rfc.esc b && file.esc b
  body := file.body

/-- Digits. -/
def digit (b : UInt8) : Bool := 48 ≤ b && b ≤ 57
/-- Hexadecimal digits. -/
def hex (b : UInt8) : Bool := (48 ≤ b && b ≤ 57) || (65 ≤ b && b ≤ 70) || (97 ≤ b && b ≤ 102)
/-- Bytes that stand for themselves in a string. -/
def plain (b : UInt8) : Bool := 32 ≤ b && b != 34 && b != 92

/-- One or more digits. -/
def Digits (w : List UInt8) : Prop := w ≠ [] ∧ ∀ b ∈ w, digit b = true

/-- Optional minus sign. -/
inductive Sign : List UInt8 → Prop
  | no : Sign []
  | minus : Sign [45]
/-- Integers without leading zeros. -/
inductive Int : List UInt8 → Prop
  | zero : Int [48]
  | pos {b w} : 49 ≤ b → b ≤ 57 → (∀ x ∈ w, digit x = true) → Int (b :: w)
/-- Optional fraction. -/
inductive Frac : List UInt8 → Prop
  | no : Frac []
  | yes {w} : Digits w → Frac (46 :: w)
/-- Optional exponent. -/
inductive Exp : List UInt8 → Prop
  | no : Exp []
  | plain {e w} : e = 101 ∨ e = 69 → Digits w → Exp (e :: w)
  | signed {e s w} : e = 101 ∨ e = 69 → s = 43 ∨ s = 45 → Digits w → Exp (e :: s :: w)
/-- Numbers. -/
inductive Number : List UInt8 → Prop
  | mk {s i f e} : Sign s → Int i → Frac f → Exp e → Number (s ++ (i ++ (f ++ e)))

/-- Blanks. -/
def Ws (V : Variant) (w : List UInt8) : Prop := ∀ b ∈ w, V.ws b = true

/-- Contents of strings; the list tells which of its elements are escapes. -/
inductive Items (V : Variant) : List Bool → List UInt8 → Prop
  | nil : Items V [] []
  | char {b fs w} : plain b = true → Items V fs w → Items V (false :: fs) (b :: w)
  | esc {b fs w} : V.esc b = true → Items V fs w → Items V (true :: fs) (92 :: b :: w)
  | uni {a b c d fs w} : hex a = true → hex b = true → hex c = true → hex d = true → Items V fs w →
      Items V (true :: fs) (92 :: 117 :: a :: b :: c :: d :: w)

/-- Strings. -/
inductive Str (V : Variant) : List UInt8 → Prop
  | mk {fs w} : Items V fs w → V.body fs = true → Str V (34 :: (w ++ [34]))

/-- The syntactic categories. -/
inductive Cat | value | element | elements | members

/-- JSON texts: a value; a value with blanks around it (this is a whole text); values separated by commas; members of an
object separated by commas. -/
inductive Json (V : Variant) : Cat → List UInt8 → Prop
  | number {w} : Number w → Json V .value w
  | string {w} : Str V w → Json V .value w
  | true : Json V .value [116, 114, 117, 101]
  | false : Json V .value [102, 97, 108, 115, 101]
  | null : Json V .value [110, 117, 108, 108]
  | obj0 {sp} : Ws V sp → Json V .value (123 :: (sp ++ [125]))
  | obj {w} : Json V .members w → Json V .value (123 :: (w ++ [125]))
  | arr0 {sp} : Ws V sp → Json V .value (91 :: (sp ++ [93]))
  | arr {w} : Json V .elements w → Json V .value (91 :: (w ++ [93]))
  | element {sp w sp'} : Ws V sp → Json V .value w → Ws V sp' → Json V .element (sp ++ (w ++ sp'))
  | oneElement {w} : Json V .element w → Json V .elements w
  | moreElements {w v} : Json V .element w → Json V .elements v → Json V .elements (w ++ 44 :: v)
  | oneMember {sp k sp' w} : Ws V sp → Str V k → Ws V sp' → Json V .element w → Json V .members (sp ++ (k ++ (sp' ++ 58 :: w)))
  | moreMembers {sp k sp' w v} : Ws V sp → Str V k → Ws V sp' → Json V .element w → Json V .members v →
      Json V .members (sp ++ (k ++ (sp' ++ 58 :: (w ++ 44 :: v))))

/-! ## Comparing variants -/

/-- Every text of the first is one of the second. -/
structure Variant.Le (V W : Variant) : Prop where
  ws : ∀ b, V.ws b = true → W.ws b = true
  esc : ∀ b, V.esc b = true → W.esc b = true
  body : ∀ fs, V.body fs = true → W.body fs = true

theorem Items.mono {V W : Variant} (h : V.Le W) {fs : List Bool} {w : List UInt8} (hi : Items V fs w) : Items W fs w := by
  induction hi with
  | nil => exact .nil
  | char h1 _ ih => exact .char h1 ih
  | esc h1 _ ih => exact .esc (h.esc _ h1) ih
  | uni h1 h2 h3 h4 _ ih => exact .uni h1 h2 h3 h4 ih

theorem Str.mono {V W : Variant} (h : V.Le W) {w : List UInt8} : Str V w → Str W w
  | .mk h1 h2 => .mk (h1.mono h) (h.body _ h2)

theorem Json.mono {V W : Variant} (h : V.Le W) {c : Cat} {w : List UInt8} (hj : Json V c w) : Json W c w := by
  have ws : ∀ {w}, Ws V w → Ws W w := fun hw b hb => h.ws b (hw b hb)
  induction hj with
  | number h1 => exact .number h1
  | string h1 => exact .string (h1.mono h)
  | true => exact .true
  | false => exact .false
  | null => exact .null
  | obj0 h1 => exact .obj0 (ws h1)
  | obj _ ih => exact .obj ih
  | arr0 h1 => exact .arr0 (ws h1)
  | arr _ ih => exact .arr ih
  | element h1 _ h3 ih => exact .element (ws h1) ih (ws h3)
  | oneElement _ ih => exact .oneElement ih
  | moreElements _ _ ih1 ih2 => exact .moreElements ih1 ih2
  | oneMember h1 h2 h3 _ ih => exact .oneMember (ws h1) (h2.mono h) (ws h3) ih
  | moreMembers h1 h2 h3 _ _ ih1 ih2 => exact .moreMembers (ws h1) (h2.mono h) (ws h3) ih1 ih2

theorem common_rfc : common.Le rfc where
  ws _ h := h
  esc b h := by simp only [common, Bool.and_eq_true] at h; exact h.1
  body _ _ := rfl

theorem common_file : common.Le file where
  ws b h := by simp only [common, rfc, file, Bool.or_eq_true] at h ⊢; exact .inl (.inl h)
  esc b h := by simp only [common, Bool.and_eq_true] at h; exact h.2
  body _ h := h

end Gpeg.Json
