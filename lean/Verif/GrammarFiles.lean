import Verif.ReCheck
/-!
# The smaller grammar files

The files `grammars/*.peg` (except those of C and Java, see `Verif/GrammarFilesC.lean` and `Verif/GrammarFilesJava.lean`) as
texts, and trees of the `re` syntax written by them.
-/
namespace Gpeg.Re

set_option maxRecDepth 100000

/-- The bytes of a text of ASCII characters. -/
def bytes (s : String) : List UInt8 := s.toList.map fun c => UInt8.ofNat c.toNat

theorem bytes_ofList (cs : List Char) : bytes (String.ofList cs) = cs.map fun c => UInt8.ofNat c.toNat := by
  rw [bytes, String.toList_ofList]

/-- `grammars/arith.peg`, the whole file. -/
def arithFile : List UInt8 := bytes "Expr   <- Factor ([+\\-] Factor)*
Factor <- Term ([*/] Term)*
Term   <- Number / '(' Expr ')'
Number <- [0-9]+
"

theorem arith_eq : arithFile =
  [69, 120, 112, 114, 32, 32, 32, 60, 45, 32, 70, 97, 99, 116, 111, 114, 32, 40, 91, 43, 92, 45, 93, 32, 70, 97, 99, 116, 111, 114, 41, 42, 10, 70,
   97, 99, 116, 111, 114, 32, 60, 45, 32, 84, 101, 114, 109, 32, 40, 91, 42, 47, 93, 32, 84, 101, 114, 109, 41, 42, 10, 84, 101, 114, 109, 32, 32, 32,
   60, 45, 32, 78, 117, 109, 98, 101, 114, 32, 47, 32, 39, 40, 39, 32, 69, 120, 112, 114, 32, 39, 41, 39, 10, 78, 117, 109, 98, 101, 114, 32, 60, 45,
   32, 91, 48, 45, 57, 93, 43, 10] :=
  bytes_ofList
  ['E', 'x', 'p', 'r', '\x20', '\x20', '\x20', '<', '-', '\x20', 'F', 'a', 'c', 't', 'o', 'r', '\x20', '(', '[', '+', '\\', '-', ']', '\x20', 'F',
   'a', 'c', 't', 'o', 'r', ')', '*', '\n', 'F', 'a', 'c', 't', 'o', 'r', '\x20', '<', '-', '\x20', 'T', 'e', 'r', 'm', '\x20', '(', '[', '*', '/',
   ']', '\x20', 'T', 'e', 'r', 'm', ')', '*', '\n', 'T', 'e', 'r', 'm', '\x20', '\x20', '\x20', '<', '-', '\x20', 'N', 'u', 'm', 'b', 'e', 'r',
   '\x20', '/', '\x20', '\'', '(', '\'', '\x20', 'E', 'x', 'p', 'r', '\x20', '\'', ')', '\'', '\n', 'N', 'u', 'm', 'b', 'e', 'r', '\x20', '<', '-',
   '\x20', '[', '0', '-', '9', ']', '+', '\n']

/-- The definitions of `grammars/arith.peg`. -/
def arithGram : Gram := [
  (bytes "Expr", .one (.cons .none (.ident (bytes "Factor")) .none (.cons .none (.paren (.one (.cons .none (.cls false [.one 43, .one 45]) .none
    (.cons .none (.ident (bytes "Factor")) .none .nil)))) .star .nil))),
  (bytes "Factor", .one (.cons .none (.ident (bytes "Term")) .none (.cons .none (.paren (.one (.cons .none (.cls false [.one 42, .one 47]) .none
    (.cons .none (.ident (bytes "Term")) .none .nil)))) .star .nil))),
  (bytes "Term", .alt (.cons .none (.ident (bytes "Number")) .none .nil) (.one (.cons .none (.lit [40]) .none (.cons .none (.ident (bytes "Expr"))
    .none (.cons .none (.lit [41]) .none .nil))))),
  (bytes "Number", .one (.cons .none (.cls false [.range 48 57]) .plus .nil))]

/-- The file writes the definitions. -/
theorem arith_text : TopS (.gram arithGram) arithFile := by
  rw [arith_eq]
  exact topGramB_sound (by decide +kernel)

/-- `grammars/json.peg`, the whole file. -/
def jsonFile : List UInt8 := bytes "doc           <- JSON !.
JSON          <- S_ (Number / Object / Array / String / True / False / Null) S_
Object        <- '{' (String ':' JSON (',' String ':' JSON)* / S_) '}'
Array         <- '[' (JSON (',' JSON)* / S_) ']'
StringBody    <- Escape? ((![\"\\\\\\00-\\37] .)+ Escape*)*
String        <- S_ '\"' StringBody '\"' S_
Escape        <- '\\\\' ([\"{|\\\\bfnrt] / UnicodeEscape)
UnicodeEscape <- 'u' [0-9A-Fa-f][0-9A-Fa-f][0-9A-Fa-f][0-9A-Fa-f]
Number        <- Minus? IntPart FractPart? ExpPart?
Minus         <- '-'
IntPart       <- '0' / [1-9][0-9]*
FractPart     <- '.' [0-9]+
ExpPart       <- [eE] [+\\-]? [0-9]+
True          <- 'true'
False         <- 'false'
Null          <- 'null'
S_            <- [\\11-\\15\\40]*
"

theorem json_eq : jsonFile =
  [100, 111, 99, 32, 32, 32, 32, 32, 32, 32, 32, 32, 32, 32, 60, 45, 32, 74, 83, 79, 78, 32, 33, 46, 10, 74, 83, 79, 78, 32, 32, 32, 32, 32, 32, 32,
   32, 32, 32, 60, 45, 32, 83, 95, 32, 40, 78, 117, 109, 98, 101, 114, 32, 47, 32, 79, 98, 106, 101, 99, 116, 32, 47, 32, 65, 114, 114, 97, 121, 32,
   47, 32, 83, 116, 114, 105, 110, 103, 32, 47, 32, 84, 114, 117, 101, 32, 47, 32, 70, 97, 108, 115, 101, 32, 47, 32, 78, 117, 108, 108, 41, 32, 83,
   95, 10, 79, 98, 106, 101, 99, 116, 32, 32, 32, 32, 32, 32, 32, 32, 60, 45, 32, 39, 123, 39, 32, 40, 83, 116, 114, 105, 110, 103, 32, 39, 58, 39,
   32, 74, 83, 79, 78, 32, 40, 39, 44, 39, 32, 83, 116, 114, 105, 110, 103, 32, 39, 58, 39, 32, 74, 83, 79, 78, 41, 42, 32, 47, 32, 83, 95, 41, 32,
   39, 125, 39, 10, 65, 114, 114, 97, 121, 32, 32, 32, 32, 32, 32, 32, 32, 32, 60, 45, 32, 39, 91, 39, 32, 40, 74, 83, 79, 78, 32, 40, 39, 44, 39, 32,
   74, 83, 79, 78, 41, 42, 32, 47, 32, 83, 95, 41, 32, 39, 93, 39, 10, 83, 116, 114, 105, 110, 103, 66, 111, 100, 121, 32, 32, 32, 32, 60, 45, 32, 69,
   115, 99, 97, 112, 101, 63, 32, 40, 40, 33, 91, 34, 92, 92, 92, 48, 48, 45, 92, 51, 55, 93, 32, 46, 41, 43, 32, 69, 115, 99, 97, 112, 101, 42, 41,
   42, 10, 83, 116, 114, 105, 110, 103, 32, 32, 32, 32, 32, 32, 32, 32, 60, 45, 32, 83, 95, 32, 39, 34, 39, 32, 83, 116, 114, 105, 110, 103, 66, 111,
   100, 121, 32, 39, 34, 39, 32, 83, 95, 10, 69, 115, 99, 97, 112, 101, 32, 32, 32, 32, 32, 32, 32, 32, 60, 45, 32, 39, 92, 92, 39, 32, 40, 91, 34,
   123, 124, 92, 92, 98, 102, 110, 114, 116, 93, 32, 47, 32, 85, 110, 105, 99, 111, 100, 101, 69, 115, 99, 97, 112, 101, 41, 10, 85, 110, 105, 99,
   111, 100, 101, 69, 115, 99, 97, 112, 101, 32, 60, 45, 32, 39, 117, 39, 32, 91, 48, 45, 57, 65, 45, 70, 97, 45, 102, 93, 91, 48, 45, 57, 65, 45, 70,
   97, 45, 102, 93, 91, 48, 45, 57, 65, 45, 70, 97, 45, 102, 93, 91, 48, 45, 57, 65, 45, 70, 97, 45, 102, 93, 10, 78, 117, 109, 98, 101, 114, 32, 32,
   32, 32, 32, 32, 32, 32, 60, 45, 32, 77, 105, 110, 117, 115, 63, 32, 73, 110, 116, 80, 97, 114, 116, 32, 70, 114, 97, 99, 116, 80, 97, 114, 116, 63,
   32, 69, 120, 112, 80, 97, 114, 116, 63, 10, 77, 105, 110, 117, 115, 32, 32, 32, 32, 32, 32, 32, 32, 32, 60, 45, 32, 39, 45, 39, 10, 73, 110, 116,
   80, 97, 114, 116, 32, 32, 32, 32, 32, 32, 32, 60, 45, 32, 39, 48, 39, 32, 47, 32, 91, 49, 45, 57, 93, 91, 48, 45, 57, 93, 42, 10, 70, 114, 97, 99,
   116, 80, 97, 114, 116, 32, 32, 32, 32, 32, 60, 45, 32, 39, 46, 39, 32, 91, 48, 45, 57, 93, 43, 10, 69, 120, 112, 80, 97, 114, 116, 32, 32, 32, 32,
   32, 32, 32, 60, 45, 32, 91, 101, 69, 93, 32, 91, 43, 92, 45, 93, 63, 32, 91, 48, 45, 57, 93, 43, 10, 84, 114, 117, 101, 32, 32, 32, 32, 32, 32, 32,
   32, 32, 32, 60, 45, 32, 39, 116, 114, 117, 101, 39, 10, 70, 97, 108, 115, 101, 32, 32, 32, 32, 32, 32, 32, 32, 32, 60, 45, 32, 39, 102, 97, 108,
   115, 101, 39, 10, 78, 117, 108, 108, 32, 32, 32, 32, 32, 32, 32, 32, 32, 32, 60, 45, 32, 39, 110, 117, 108, 108, 39, 10, 83, 95, 32, 32, 32, 32,
   32, 32, 32, 32, 32, 32, 32, 32, 60, 45, 32, 91, 92, 49, 49, 45, 92, 49, 53, 92, 52, 48, 93, 42, 10] :=
  bytes_ofList
  ['d', 'o', 'c', '\x20', '\x20', '\x20', '\x20', '\x20', '\x20', '\x20', '\x20', '\x20', '\x20', '\x20', '<', '-', '\x20', 'J', 'S', 'O', 'N',
   '\x20', '!', '.', '\n', 'J', 'S', 'O', 'N', '\x20', '\x20', '\x20', '\x20', '\x20', '\x20', '\x20', '\x20', '\x20', '\x20', '<', '-', '\x20', 'S',
   '_', '\x20', '(', 'N', 'u', 'm', 'b', 'e', 'r', '\x20', '/', '\x20', 'O', 'b', 'j', 'e', 'c', 't', '\x20', '/', '\x20', 'A', 'r', 'r', 'a', 'y',
   '\x20', '/', '\x20', 'S', 't', 'r', 'i', 'n', 'g', '\x20', '/', '\x20', 'T', 'r', 'u', 'e', '\x20', '/', '\x20', 'F', 'a', 'l', 's', 'e', '\x20',
   '/', '\x20', 'N', 'u', 'l', 'l', ')', '\x20', 'S', '_', '\n', 'O', 'b', 'j', 'e', 'c', 't', '\x20', '\x20', '\x20', '\x20', '\x20', '\x20', '\x20',
   '\x20', '<', '-', '\x20', '\'', '{', '\'', '\x20', '(', 'S', 't', 'r', 'i', 'n', 'g', '\x20', '\'', ':', '\'', '\x20', 'J', 'S', 'O', 'N', '\x20',
   '(', '\'', ',', '\'', '\x20', 'S', 't', 'r', 'i', 'n', 'g', '\x20', '\'', ':', '\'', '\x20', 'J', 'S', 'O', 'N', ')', '*', '\x20', '/', '\x20',
   'S', '_', ')', '\x20', '\'', '}', '\'', '\n', 'A', 'r', 'r', 'a', 'y', '\x20', '\x20', '\x20', '\x20', '\x20', '\x20', '\x20', '\x20', '\x20', '<',
   '-', '\x20', '\'', '[', '\'', '\x20', '(', 'J', 'S', 'O', 'N', '\x20', '(', '\'', ',', '\'', '\x20', 'J', 'S', 'O', 'N', ')', '*', '\x20', '/',
   '\x20', 'S', '_', ')', '\x20', '\'', ']', '\'', '\n', 'S', 't', 'r', 'i', 'n', 'g', 'B', 'o', 'd', 'y', '\x20', '\x20', '\x20', '\x20', '<', '-',
   '\x20', 'E', 's', 'c', 'a', 'p', 'e', '?', '\x20', '(', '(', '!', '[', '"', '\\', '\\', '\\', '0', '0', '-', '\\', '3', '7', ']', '\x20', '.', ')',
   '+', '\x20', 'E', 's', 'c', 'a', 'p', 'e', '*', ')', '*', '\n', 'S', 't', 'r', 'i', 'n', 'g', '\x20', '\x20', '\x20', '\x20', '\x20', '\x20',
   '\x20', '\x20', '<', '-', '\x20', 'S', '_', '\x20', '\'', '"', '\'', '\x20', 'S', 't', 'r', 'i', 'n', 'g', 'B', 'o', 'd', 'y', '\x20', '\'', '"',
   '\'', '\x20', 'S', '_', '\n', 'E', 's', 'c', 'a', 'p', 'e', '\x20', '\x20', '\x20', '\x20', '\x20', '\x20', '\x20', '\x20', '<', '-', '\x20', '\'',
   '\\', '\\', '\'', '\x20', '(', '[', '"', '{', '|', '\\', '\\', 'b', 'f', 'n', 'r', 't', ']', '\x20', '/', '\x20', 'U', 'n', 'i', 'c', 'o', 'd',
   'e', 'E', 's', 'c', 'a', 'p', 'e', ')', '\n', 'U', 'n', 'i', 'c', 'o', 'd', 'e', 'E', 's', 'c', 'a', 'p', 'e', '\x20', '<', '-', '\x20', '\'', 'u',
   '\'', '\x20', '[', '0', '-', '9', 'A', '-', 'F', 'a', '-', 'f', ']', '[', '0', '-', '9', 'A', '-', 'F', 'a', '-', 'f', ']', '[', '0', '-', '9',
   'A', '-', 'F', 'a', '-', 'f', ']', '[', '0', '-', '9', 'A', '-', 'F', 'a', '-', 'f', ']', '\n', 'N', 'u', 'm', 'b', 'e', 'r', '\x20', '\x20',
   '\x20', '\x20', '\x20', '\x20', '\x20', '\x20', '<', '-', '\x20', 'M', 'i', 'n', 'u', 's', '?', '\x20', 'I', 'n', 't', 'P', 'a', 'r', 't', '\x20',
   'F', 'r', 'a', 'c', 't', 'P', 'a', 'r', 't', '?', '\x20', 'E', 'x', 'p', 'P', 'a', 'r', 't', '?', '\n', 'M', 'i', 'n', 'u', 's', '\x20', '\x20',
   '\x20', '\x20', '\x20', '\x20', '\x20', '\x20', '\x20', '<', '-', '\x20', '\'', '-', '\'', '\n', 'I', 'n', 't', 'P', 'a', 'r', 't', '\x20', '\x20',
   '\x20', '\x20', '\x20', '\x20', '\x20', '<', '-', '\x20', '\'', '0', '\'', '\x20', '/', '\x20', '[', '1', '-', '9', ']', '[', '0', '-', '9', ']',
   '*', '\n', 'F', 'r', 'a', 'c', 't', 'P', 'a', 'r', 't', '\x20', '\x20', '\x20', '\x20', '\x20', '<', '-', '\x20', '\'', '.', '\'', '\x20', '[',
   '0', '-', '9', ']', '+', '\n', 'E', 'x', 'p', 'P', 'a', 'r', 't', '\x20', '\x20', '\x20', '\x20', '\x20', '\x20', '\x20', '<', '-', '\x20', '[',
   'e', 'E', ']', '\x20', '[', '+', '\\', '-', ']', '?', '\x20', '[', '0', '-', '9', ']', '+', '\n', 'T', 'r', 'u', 'e', '\x20', '\x20', '\x20',
   '\x20', '\x20', '\x20', '\x20', '\x20', '\x20', '\x20', '<', '-', '\x20', '\'', 't', 'r', 'u', 'e', '\'', '\n', 'F', 'a', 'l', 's', 'e', '\x20',
   '\x20', '\x20', '\x20', '\x20', '\x20', '\x20', '\x20', '\x20', '<', '-', '\x20', '\'', 'f', 'a', 'l', 's', 'e', '\'', '\n', 'N', 'u', 'l', 'l',
   '\x20', '\x20', '\x20', '\x20', '\x20', '\x20', '\x20', '\x20', '\x20', '\x20', '<', '-', '\x20', '\'', 'n', 'u', 'l', 'l', '\'', '\n', 'S', '_',
   '\x20', '\x20', '\x20', '\x20', '\x20', '\x20', '\x20', '\x20', '\x20', '\x20', '\x20', '\x20', '<', '-', '\x20', '[', '\\', '1', '1', '-', '\\',
   '1', '5', '\\', '4', '0', ']', '*', '\n']

/-- The definitions of `grammars/json.peg`. -/
def jsonGram : Gram := [
  (bytes "doc", .one (.cons .none (.ident (bytes "JSON")) .none (.cons .not .dot .none .nil))),
  (bytes "JSON", .one (.cons .none (.ident (bytes "S_")) .none (.cons .none (.paren (.alt (.cons .none (.ident (bytes "Number")) .none .nil) (.alt
    (.cons .none (.ident (bytes "Object")) .none .nil) (.alt (.cons .none (.ident (bytes "Array")) .none .nil) (.alt (.cons .none (.ident (bytes
    "String")) .none .nil) (.alt (.cons .none (.ident (bytes "True")) .none .nil) (.alt (.cons .none (.ident (bytes "False")) .none .nil) (.one (.cons
    .none (.ident (bytes "Null")) .none .nil))))))))) .none (.cons .none (.ident (bytes "S_")) .none .nil)))),
  (bytes "Object", .one (.cons .none (.lit [123]) .none (.cons .none (.paren (.alt (.cons .none (.ident (bytes "String")) .none (.cons .none (.lit
    [58]) .none (.cons .none (.ident (bytes "JSON")) .none (.cons .none (.paren (.one (.cons .none (.lit [44]) .none (.cons .none (.ident (bytes
    "String")) .none (.cons .none (.lit [58]) .none (.cons .none (.ident (bytes "JSON")) .none .nil)))))) .star .nil)))) (.one (.cons .none (.ident
    (bytes "S_")) .none .nil)))) .none (.cons .none (.lit [125]) .none .nil)))),
  (bytes "Array", .one (.cons .none (.lit [91]) .none (.cons .none (.paren (.alt (.cons .none (.ident (bytes "JSON")) .none (.cons .none (.paren (.one
    (.cons .none (.lit [44]) .none (.cons .none (.ident (bytes "JSON")) .none .nil)))) .star .nil)) (.one (.cons .none (.ident (bytes "S_")) .none
    .nil)))) .none (.cons .none (.lit [93]) .none .nil)))),
  (bytes "StringBody", .one (.cons .none (.ident (bytes "Escape")) .opt (.cons .none (.paren (.one (.cons .none (.paren (.one (.cons .not (.cls false
    [.one 34, .one 92, .range 0 31]) .none (.cons .none .dot .none .nil)))) .plus (.cons .none (.ident (bytes "Escape")) .star .nil)))) .star .nil))),
  (bytes "String", .one (.cons .none (.ident (bytes "S_")) .none (.cons .none (.lit [34]) .none (.cons .none (.ident (bytes "StringBody")) .none
    (.cons .none (.lit [34]) .none (.cons .none (.ident (bytes "S_")) .none .nil)))))),
  (bytes "Escape", .one (.cons .none (.lit [92]) .none (.cons .none (.paren (.alt (.cons .none (.cls false [.one 34, .one 123, .one 124, .one 92, .one
    98, .one 102, .one 110, .one 114, .one 116]) .none .nil) (.one (.cons .none (.ident (bytes "UnicodeEscape")) .none .nil)))) .none .nil))),
  (bytes "UnicodeEscape", .one (.cons .none (.lit [117]) .none (.cons .none (.cls false [.range 48 57, .range 65 70, .range 97 102]) .none (.cons
    .none (.cls false [.range 48 57, .range 65 70, .range 97 102]) .none (.cons .none (.cls false [.range 48 57, .range 65 70, .range 97 102]) .none
    (.cons .none (.cls false [.range 48 57, .range 65 70, .range 97 102]) .none .nil)))))),
  (bytes "Number", .one (.cons .none (.ident (bytes "Minus")) .opt (.cons .none (.ident (bytes "IntPart")) .none (.cons .none (.ident (bytes
    "FractPart")) .opt (.cons .none (.ident (bytes "ExpPart")) .opt .nil))))),
  (bytes "Minus", .one (.cons .none (.lit [45]) .none .nil)),
  (bytes "IntPart", .alt (.cons .none (.lit [48]) .none .nil) (.one (.cons .none (.cls false [.range 49 57]) .none (.cons .none (.cls false [.range 48
    57]) .star .nil)))),
  (bytes "FractPart", .one (.cons .none (.lit [46]) .none (.cons .none (.cls false [.range 48 57]) .plus .nil))),
  (bytes "ExpPart", .one (.cons .none (.cls false [.one 101, .one 69]) .none (.cons .none (.cls false [.one 43, .one 45]) .opt (.cons .none (.cls
    false [.range 48 57]) .plus .nil)))),
  (bytes "True", .one (.cons .none (.lit [116, 114, 117, 101]) .none .nil)),
  (bytes "False", .one (.cons .none (.lit [102, 97, 108, 115, 101]) .none .nil)),
  (bytes "Null", .one (.cons .none (.lit [110, 117, 108, 108]) .none .nil)),
  (bytes "S_", .one (.cons .none (.cls false [.range 9 13, .one 32]) .star .nil))]

/-- The file writes the definitions. -/
theorem json_text : TopS (.gram jsonGram) jsonFile := by
  rw [json_eq]
  exact topGramB_sound (by decide +kernel)

/-- `grammars/json_memo.peg`, the whole file. -/
def jsonMemoFile : List UInt8 := bytes "doc           <- JSON !.
JSON          <- S_ (Number / Object / Array / String / True / False / Null) S_
Object        <- '{' (String ':' JSON (',' String ':' JSON)* / S_) '}'
Array         <- '[' (JSON ({{',' JSON}})* / S_) ']'
StringBody    <- Escape? ((![\"\\\\\\00-\\37] .)+ Escape*)*
String        <- S_ '\"' StringBody '\"' S_
Escape        <- '\\\\' ([\"{|\\\\bfnrt] / UnicodeEscape)
UnicodeEscape <- 'u' [0-9A-Fa-f][0-9A-Fa-f][0-9A-Fa-f][0-9A-Fa-f]
Number        <- Minus? IntPart FractPart? ExpPart?
Minus         <- '-'
IntPart       <- '0' / [1-9][0-9]*
FractPart     <- '.' [0-9]+
ExpPart       <- [eE] [+\\-]? [0-9]+
True          <- 'true'
False         <- 'false'
Null          <- 'null'
S_            <- [\\11-\\15\\40]*
"

theorem jsonMemo_eq : jsonMemoFile =
  [100, 111, 99, 32, 32, 32, 32, 32, 32, 32, 32, 32, 32, 32, 60, 45, 32, 74, 83, 79, 78, 32, 33, 46, 10, 74, 83, 79, 78, 32, 32, 32, 32, 32, 32, 32,
   32, 32, 32, 60, 45, 32, 83, 95, 32, 40, 78, 117, 109, 98, 101, 114, 32, 47, 32, 79, 98, 106, 101, 99, 116, 32, 47, 32, 65, 114, 114, 97, 121, 32,
   47, 32, 83, 116, 114, 105, 110, 103, 32, 47, 32, 84, 114, 117, 101, 32, 47, 32, 70, 97, 108, 115, 101, 32, 47, 32, 78, 117, 108, 108, 41, 32, 83,
   95, 10, 79, 98, 106, 101, 99, 116, 32, 32, 32, 32, 32, 32, 32, 32, 60, 45, 32, 39, 123, 39, 32, 40, 83, 116, 114, 105, 110, 103, 32, 39, 58, 39,
   32, 74, 83, 79, 78, 32, 40, 39, 44, 39, 32, 83, 116, 114, 105, 110, 103, 32, 39, 58, 39, 32, 74, 83, 79, 78, 41, 42, 32, 47, 32, 83, 95, 41, 32,
   39, 125, 39, 10, 65, 114, 114, 97, 121, 32, 32, 32, 32, 32, 32, 32, 32, 32, 60, 45, 32, 39, 91, 39, 32, 40, 74, 83, 79, 78, 32, 40, 123, 123, 39,
   44, 39, 32, 74, 83, 79, 78, 125, 125, 41, 42, 32, 47, 32, 83, 95, 41, 32, 39, 93, 39, 10, 83, 116, 114, 105, 110, 103, 66, 111, 100, 121, 32, 32,
   32, 32, 60, 45, 32, 69, 115, 99, 97, 112, 101, 63, 32, 40, 40, 33, 91, 34, 92, 92, 92, 48, 48, 45, 92, 51, 55, 93, 32, 46, 41, 43, 32, 69, 115, 99,
   97, 112, 101, 42, 41, 42, 10, 83, 116, 114, 105, 110, 103, 32, 32, 32, 32, 32, 32, 32, 32, 60, 45, 32, 83, 95, 32, 39, 34, 39, 32, 83, 116, 114,
   105, 110, 103, 66, 111, 100, 121, 32, 39, 34, 39, 32, 83, 95, 10, 69, 115, 99, 97, 112, 101, 32, 32, 32, 32, 32, 32, 32, 32, 60, 45, 32, 39, 92,
   92, 39, 32, 40, 91, 34, 123, 124, 92, 92, 98, 102, 110, 114, 116, 93, 32, 47, 32, 85, 110, 105, 99, 111, 100, 101, 69, 115, 99, 97, 112, 101, 41,
   10, 85, 110, 105, 99, 111, 100, 101, 69, 115, 99, 97, 112, 101, 32, 60, 45, 32, 39, 117, 39, 32, 91, 48, 45, 57, 65, 45, 70, 97, 45, 102, 93, 91,
   48, 45, 57, 65, 45, 70, 97, 45, 102, 93, 91, 48, 45, 57, 65, 45, 70, 97, 45, 102, 93, 91, 48, 45, 57, 65, 45, 70, 97, 45, 102, 93, 10, 78, 117,
   109, 98, 101, 114, 32, 32, 32, 32, 32, 32, 32, 32, 60, 45, 32, 77, 105, 110, 117, 115, 63, 32, 73, 110, 116, 80, 97, 114, 116, 32, 70, 114, 97, 99,
   116, 80, 97, 114, 116, 63, 32, 69, 120, 112, 80, 97, 114, 116, 63, 10, 77, 105, 110, 117, 115, 32, 32, 32, 32, 32, 32, 32, 32, 32, 60, 45, 32, 39,
   45, 39, 10, 73, 110, 116, 80, 97, 114, 116, 32, 32, 32, 32, 32, 32, 32, 60, 45, 32, 39, 48, 39, 32, 47, 32, 91, 49, 45, 57, 93, 91, 48, 45, 57, 93,
   42, 10, 70, 114, 97, 99, 116, 80, 97, 114, 116, 32, 32, 32, 32, 32, 60, 45, 32, 39, 46, 39, 32, 91, 48, 45, 57, 93, 43, 10, 69, 120, 112, 80, 97,
   114, 116, 32, 32, 32, 32, 32, 32, 32, 60, 45, 32, 91, 101, 69, 93, 32, 91, 43, 92, 45, 93, 63, 32, 91, 48, 45, 57, 93, 43, 10, 84, 114, 117, 101,
   32, 32, 32, 32, 32, 32, 32, 32, 32, 32, 60, 45, 32, 39, 116, 114, 117, 101, 39, 10, 70, 97, 108, 115, 101, 32, 32, 32, 32, 32, 32, 32, 32, 32, 60,
   45, 32, 39, 102, 97, 108, 115, 101, 39, 10, 78, 117, 108, 108, 32, 32, 32, 32, 32, 32, 32, 32, 32, 32, 60, 45, 32, 39, 110, 117, 108, 108, 39, 10,
   83, 95, 32, 32, 32, 32, 32, 32, 32, 32, 32, 32, 32, 32, 60, 45, 32, 91, 92, 49, 49, 45, 92, 49, 53, 92, 52, 48, 93, 42, 10] :=
  bytes_ofList
  ['d', 'o', 'c', '\x20', '\x20', '\x20', '\x20', '\x20', '\x20', '\x20', '\x20', '\x20', '\x20', '\x20', '<', '-', '\x20', 'J', 'S', 'O', 'N',
   '\x20', '!', '.', '\n', 'J', 'S', 'O', 'N', '\x20', '\x20', '\x20', '\x20', '\x20', '\x20', '\x20', '\x20', '\x20', '\x20', '<', '-', '\x20', 'S',
   '_', '\x20', '(', 'N', 'u', 'm', 'b', 'e', 'r', '\x20', '/', '\x20', 'O', 'b', 'j', 'e', 'c', 't', '\x20', '/', '\x20', 'A', 'r', 'r', 'a', 'y',
   '\x20', '/', '\x20', 'S', 't', 'r', 'i', 'n', 'g', '\x20', '/', '\x20', 'T', 'r', 'u', 'e', '\x20', '/', '\x20', 'F', 'a', 'l', 's', 'e', '\x20',
   '/', '\x20', 'N', 'u', 'l', 'l', ')', '\x20', 'S', '_', '\n', 'O', 'b', 'j', 'e', 'c', 't', '\x20', '\x20', '\x20', '\x20', '\x20', '\x20', '\x20',
   '\x20', '<', '-', '\x20', '\'', '{', '\'', '\x20', '(', 'S', 't', 'r', 'i', 'n', 'g', '\x20', '\'', ':', '\'', '\x20', 'J', 'S', 'O', 'N', '\x20',
   '(', '\'', ',', '\'', '\x20', 'S', 't', 'r', 'i', 'n', 'g', '\x20', '\'', ':', '\'', '\x20', 'J', 'S', 'O', 'N', ')', '*', '\x20', '/', '\x20',
   'S', '_', ')', '\x20', '\'', '}', '\'', '\n', 'A', 'r', 'r', 'a', 'y', '\x20', '\x20', '\x20', '\x20', '\x20', '\x20', '\x20', '\x20', '\x20', '<',
   '-', '\x20', '\'', '[', '\'', '\x20', '(', 'J', 'S', 'O', 'N', '\x20', '(', '{', '{', '\'', ',', '\'', '\x20', 'J', 'S', 'O', 'N', '}', '}', ')',
   '*', '\x20', '/', '\x20', 'S', '_', ')', '\x20', '\'', ']', '\'', '\n', 'S', 't', 'r', 'i', 'n', 'g', 'B', 'o', 'd', 'y', '\x20', '\x20', '\x20',
   '\x20', '<', '-', '\x20', 'E', 's', 'c', 'a', 'p', 'e', '?', '\x20', '(', '(', '!', '[', '"', '\\', '\\', '\\', '0', '0', '-', '\\', '3', '7', ']',
   '\x20', '.', ')', '+', '\x20', 'E', 's', 'c', 'a', 'p', 'e', '*', ')', '*', '\n', 'S', 't', 'r', 'i', 'n', 'g', '\x20', '\x20', '\x20', '\x20',
   '\x20', '\x20', '\x20', '\x20', '<', '-', '\x20', 'S', '_', '\x20', '\'', '"', '\'', '\x20', 'S', 't', 'r', 'i', 'n', 'g', 'B', 'o', 'd', 'y',
   '\x20', '\'', '"', '\'', '\x20', 'S', '_', '\n', 'E', 's', 'c', 'a', 'p', 'e', '\x20', '\x20', '\x20', '\x20', '\x20', '\x20', '\x20', '\x20', '<',
   '-', '\x20', '\'', '\\', '\\', '\'', '\x20', '(', '[', '"', '{', '|', '\\', '\\', 'b', 'f', 'n', 'r', 't', ']', '\x20', '/', '\x20', 'U', 'n', 'i',
   'c', 'o', 'd', 'e', 'E', 's', 'c', 'a', 'p', 'e', ')', '\n', 'U', 'n', 'i', 'c', 'o', 'd', 'e', 'E', 's', 'c', 'a', 'p', 'e', '\x20', '<', '-',
   '\x20', '\'', 'u', '\'', '\x20', '[', '0', '-', '9', 'A', '-', 'F', 'a', '-', 'f', ']', '[', '0', '-', '9', 'A', '-', 'F', 'a', '-', 'f', ']', '[',
   '0', '-', '9', 'A', '-', 'F', 'a', '-', 'f', ']', '[', '0', '-', '9', 'A', '-', 'F', 'a', '-', 'f', ']', '\n', 'N', 'u', 'm', 'b', 'e', 'r',
   '\x20', '\x20', '\x20', '\x20', '\x20', '\x20', '\x20', '\x20', '<', '-', '\x20', 'M', 'i', 'n', 'u', 's', '?', '\x20', 'I', 'n', 't', 'P', 'a',
   'r', 't', '\x20', 'F', 'r', 'a', 'c', 't', 'P', 'a', 'r', 't', '?', '\x20', 'E', 'x', 'p', 'P', 'a', 'r', 't', '?', '\n', 'M', 'i', 'n', 'u', 's',
   '\x20', '\x20', '\x20', '\x20', '\x20', '\x20', '\x20', '\x20', '\x20', '<', '-', '\x20', '\'', '-', '\'', '\n', 'I', 'n', 't', 'P', 'a', 'r', 't',
   '\x20', '\x20', '\x20', '\x20', '\x20', '\x20', '\x20', '<', '-', '\x20', '\'', '0', '\'', '\x20', '/', '\x20', '[', '1', '-', '9', ']', '[', '0',
   '-', '9', ']', '*', '\n', 'F', 'r', 'a', 'c', 't', 'P', 'a', 'r', 't', '\x20', '\x20', '\x20', '\x20', '\x20', '<', '-', '\x20', '\'', '.', '\'',
   '\x20', '[', '0', '-', '9', ']', '+', '\n', 'E', 'x', 'p', 'P', 'a', 'r', 't', '\x20', '\x20', '\x20', '\x20', '\x20', '\x20', '\x20', '<', '-',
   '\x20', '[', 'e', 'E', ']', '\x20', '[', '+', '\\', '-', ']', '?', '\x20', '[', '0', '-', '9', ']', '+', '\n', 'T', 'r', 'u', 'e', '\x20', '\x20',
   '\x20', '\x20', '\x20', '\x20', '\x20', '\x20', '\x20', '\x20', '<', '-', '\x20', '\'', 't', 'r', 'u', 'e', '\'', '\n', 'F', 'a', 'l', 's', 'e',
   '\x20', '\x20', '\x20', '\x20', '\x20', '\x20', '\x20', '\x20', '\x20', '<', '-', '\x20', '\'', 'f', 'a', 'l', 's', 'e', '\'', '\n', 'N', 'u', 'l',
   'l', '\x20', '\x20', '\x20', '\x20', '\x20', '\x20', '\x20', '\x20', '\x20', '\x20', '<', '-', '\x20', '\'', 'n', 'u', 'l', 'l', '\'', '\n', 'S',
   '_', '\x20', '\x20', '\x20', '\x20', '\x20', '\x20', '\x20', '\x20', '\x20', '\x20', '\x20', '\x20', '<', '-', '\x20', '[', '\\', '1', '1', '-',
   '\\', '1', '5', '\\', '4', '0', ']', '*', '\n']

/-- The definitions of `grammars/json_memo.peg`. -/
def jsonMemoGram : Gram := [
  (bytes "doc", .one (.cons .none (.ident (bytes "JSON")) .none (.cons .not .dot .none .nil))),
  (bytes "JSON", .one (.cons .none (.ident (bytes "S_")) .none (.cons .none (.paren (.alt (.cons .none (.ident (bytes "Number")) .none .nil) (.alt
    (.cons .none (.ident (bytes "Object")) .none .nil) (.alt (.cons .none (.ident (bytes "Array")) .none .nil) (.alt (.cons .none (.ident (bytes
    "String")) .none .nil) (.alt (.cons .none (.ident (bytes "True")) .none .nil) (.alt (.cons .none (.ident (bytes "False")) .none .nil) (.one (.cons
    .none (.ident (bytes "Null")) .none .nil))))))))) .none (.cons .none (.ident (bytes "S_")) .none .nil)))),
  (bytes "Object", .one (.cons .none (.lit [123]) .none (.cons .none (.paren (.alt (.cons .none (.ident (bytes "String")) .none (.cons .none (.lit
    [58]) .none (.cons .none (.ident (bytes "JSON")) .none (.cons .none (.paren (.one (.cons .none (.lit [44]) .none (.cons .none (.ident (bytes
    "String")) .none (.cons .none (.lit [58]) .none (.cons .none (.ident (bytes "JSON")) .none .nil)))))) .star .nil)))) (.one (.cons .none (.ident
    (bytes "S_")) .none .nil)))) .none (.cons .none (.lit [125]) .none .nil)))),
  (bytes "Array", .one (.cons .none (.lit [91]) .none (.cons .none (.paren (.alt (.cons .none (.ident (bytes "JSON")) .none (.cons .none (.paren (.one
    (.cons .none (.memo (.one (.cons .none (.lit [44]) .none (.cons .none (.ident (bytes "JSON")) .none .nil)))) .none .nil))) .star .nil)) (.one
    (.cons .none (.ident (bytes "S_")) .none .nil)))) .none (.cons .none (.lit [93]) .none .nil)))),
  (bytes "StringBody", .one (.cons .none (.ident (bytes "Escape")) .opt (.cons .none (.paren (.one (.cons .none (.paren (.one (.cons .not (.cls false
    [.one 34, .one 92, .range 0 31]) .none (.cons .none .dot .none .nil)))) .plus (.cons .none (.ident (bytes "Escape")) .star .nil)))) .star .nil))),
  (bytes "String", .one (.cons .none (.ident (bytes "S_")) .none (.cons .none (.lit [34]) .none (.cons .none (.ident (bytes "StringBody")) .none
    (.cons .none (.lit [34]) .none (.cons .none (.ident (bytes "S_")) .none .nil)))))),
  (bytes "Escape", .one (.cons .none (.lit [92]) .none (.cons .none (.paren (.alt (.cons .none (.cls false [.one 34, .one 123, .one 124, .one 92, .one
    98, .one 102, .one 110, .one 114, .one 116]) .none .nil) (.one (.cons .none (.ident (bytes "UnicodeEscape")) .none .nil)))) .none .nil))),
  (bytes "UnicodeEscape", .one (.cons .none (.lit [117]) .none (.cons .none (.cls false [.range 48 57, .range 65 70, .range 97 102]) .none (.cons
    .none (.cls false [.range 48 57, .range 65 70, .range 97 102]) .none (.cons .none (.cls false [.range 48 57, .range 65 70, .range 97 102]) .none
    (.cons .none (.cls false [.range 48 57, .range 65 70, .range 97 102]) .none .nil)))))),
  (bytes "Number", .one (.cons .none (.ident (bytes "Minus")) .opt (.cons .none (.ident (bytes "IntPart")) .none (.cons .none (.ident (bytes
    "FractPart")) .opt (.cons .none (.ident (bytes "ExpPart")) .opt .nil))))),
  (bytes "Minus", .one (.cons .none (.lit [45]) .none .nil)),
  (bytes "IntPart", .alt (.cons .none (.lit [48]) .none .nil) (.one (.cons .none (.cls false [.range 49 57]) .none (.cons .none (.cls false [.range 48
    57]) .star .nil)))),
  (bytes "FractPart", .one (.cons .none (.lit [46]) .none (.cons .none (.cls false [.range 48 57]) .plus .nil))),
  (bytes "ExpPart", .one (.cons .none (.cls false [.one 101, .one 69]) .none (.cons .none (.cls false [.one 43, .one 45]) .opt (.cons .none (.cls
    false [.range 48 57]) .plus .nil)))),
  (bytes "True", .one (.cons .none (.lit [116, 114, 117, 101]) .none .nil)),
  (bytes "False", .one (.cons .none (.lit [102, 97, 108, 115, 101]) .none .nil)),
  (bytes "Null", .one (.cons .none (.lit [110, 117, 108, 108]) .none .nil)),
  (bytes "S_", .one (.cons .none (.cls false [.range 9 13, .one 32]) .star .nil))]

/-- The file writes the definitions. -/
theorem jsonMemo_text : TopS (.gram jsonMemoGram) jsonMemoFile := by
  rw [jsonMemo_eq]
  exact topGramB_sound (by decide +kernel)

/-- `grammars/peg.peg`, the whole file. -/
def pegFile : List UInt8 := bytes "# Hierarchical syntax
Grammar    <- Spacing_ Definition+ EndOfFile_
Definition <- Identifier LEFTARROW_ Expression

Expression <- Sequence (SLASH_ Sequence)*
Sequence   <- Prefix*
Prefix     <- (AND / NOT)? Suffix
Suffix     <- Primary (QUESTION / STAR / PLUS)?
Primary    <- Identifier !LEFTARROW_
            / OPEN_ Expression CLOSE_
            / Literal / Class / DOT

# Lexical syntax
Identifier <- IdentStart IdentCont* Spacing_
IdentStart <- [a-zA-Z_]
IdentCont  <- IdentStart / [0-9]

Literal    <- ['] (!['] Char)* ['] Spacing_
            / [\"] (![\"] Char)* [\"] Spacing_
Class      <- '[' (!']' Range)* ']' Spacing_
Range      <- Char '-' Char / Char
Char       <- '\\\\' [nrt'\"\\[\\]\\\\]
            / '\\\\' [0-2][0-7][0-7]
            / '\\\\' [0-7][0-7]?
            / !'\\\\' .

LEFTARROW_  <- '<-' Spacing_
SLASH_      <- '/' Spacing_
AND        <- '&' Spacing_
NOT        <- '!' Spacing_
QUESTION   <- '?' Spacing_
STAR       <- '*' Spacing_
PLUS       <- '+' Spacing_
OPEN_       <- '(' Spacing_
CLOSE_      <- ')' Spacing_
DOT        <- '.' Spacing_

Spacing_   <- (Space_ / Comment_)*
Comment_   <- '#' (!EndOfLine_ .)* EndOfLine_
Space_     <- ' ' / '\\t' / EndOfLine_
EndOfLine_ <- '\\r\\n' / '\\n' / '\\r'
EndOfFile_ <- !.
"

theorem peg_eq : pegFile =
  [35, 32, 72, 105, 101, 114, 97, 114, 99, 104, 105, 99, 97, 108, 32, 115, 121, 110, 116, 97, 120, 10, 71, 114, 97, 109, 109, 97, 114, 32, 32, 32, 32,
   60, 45, 32, 83, 112, 97, 99, 105, 110, 103, 95, 32, 68, 101, 102, 105, 110, 105, 116, 105, 111, 110, 43, 32, 69, 110, 100, 79, 102, 70, 105, 108,
   101, 95, 10, 68, 101, 102, 105, 110, 105, 116, 105, 111, 110, 32, 60, 45, 32, 73, 100, 101, 110, 116, 105, 102, 105, 101, 114, 32, 76, 69, 70, 84,
   65, 82, 82, 79, 87, 95, 32, 69, 120, 112, 114, 101, 115, 115, 105, 111, 110, 10, 10, 69, 120, 112, 114, 101, 115, 115, 105, 111, 110, 32, 60, 45,
   32, 83, 101, 113, 117, 101, 110, 99, 101, 32, 40, 83, 76, 65, 83, 72, 95, 32, 83, 101, 113, 117, 101, 110, 99, 101, 41, 42, 10, 83, 101, 113, 117,
   101, 110, 99, 101, 32, 32, 32, 60, 45, 32, 80, 114, 101, 102, 105, 120, 42, 10, 80, 114, 101, 102, 105, 120, 32, 32, 32, 32, 32, 60, 45, 32, 40,
   65, 78, 68, 32, 47, 32, 78, 79, 84, 41, 63, 32, 83, 117, 102, 102, 105, 120, 10, 83, 117, 102, 102, 105, 120, 32, 32, 32, 32, 32, 60, 45, 32, 80,
   114, 105, 109, 97, 114, 121, 32, 40, 81, 85, 69, 83, 84, 73, 79, 78, 32, 47, 32, 83, 84, 65, 82, 32, 47, 32, 80, 76, 85, 83, 41, 63, 10, 80, 114,
   105, 109, 97, 114, 121, 32, 32, 32, 32, 60, 45, 32, 73, 100, 101, 110, 116, 105, 102, 105, 101, 114, 32, 33, 76, 69, 70, 84, 65, 82, 82, 79, 87,
   95, 10, 32, 32, 32, 32, 32, 32, 32, 32, 32, 32, 32, 32, 47, 32, 79, 80, 69, 78, 95, 32, 69, 120, 112, 114, 101, 115, 115, 105, 111, 110, 32, 67,
   76, 79, 83, 69, 95, 10, 32, 32, 32, 32, 32, 32, 32, 32, 32, 32, 32, 32, 47, 32, 76, 105, 116, 101, 114, 97, 108, 32, 47, 32, 67, 108, 97, 115, 115,
   32, 47, 32, 68, 79, 84, 10, 10, 35, 32, 76, 101, 120, 105, 99, 97, 108, 32, 115, 121, 110, 116, 97, 120, 10, 73, 100, 101, 110, 116, 105, 102, 105,
   101, 114, 32, 60, 45, 32, 73, 100, 101, 110, 116, 83, 116, 97, 114, 116, 32, 73, 100, 101, 110, 116, 67, 111, 110, 116, 42, 32, 83, 112, 97, 99,
   105, 110, 103, 95, 10, 73, 100, 101, 110, 116, 83, 116, 97, 114, 116, 32, 60, 45, 32, 91, 97, 45, 122, 65, 45, 90, 95, 93, 10, 73, 100, 101, 110,
   116, 67, 111, 110, 116, 32, 32, 60, 45, 32, 73, 100, 101, 110, 116, 83, 116, 97, 114, 116, 32, 47, 32, 91, 48, 45, 57, 93, 10, 10, 76, 105, 116,
   101, 114, 97, 108, 32, 32, 32, 32, 60, 45, 32, 91, 39, 93, 32, 40, 33, 91, 39, 93, 32, 67, 104, 97, 114, 41, 42, 32, 91, 39, 93, 32, 83, 112, 97,
   99, 105, 110, 103, 95, 10, 32, 32, 32, 32, 32, 32, 32, 32, 32, 32, 32, 32, 47, 32, 91, 34, 93, 32, 40, 33, 91, 34, 93, 32, 67, 104, 97, 114, 41,
   42, 32, 91, 34, 93, 32, 83, 112, 97, 99, 105, 110, 103, 95, 10, 67, 108, 97, 115, 115, 32, 32, 32, 32, 32, 32, 60, 45, 32, 39, 91, 39, 32, 40, 33,
   39, 93, 39, 32, 82, 97, 110, 103, 101, 41, 42, 32, 39, 93, 39, 32, 83, 112, 97, 99, 105, 110, 103, 95, 10, 82, 97, 110, 103, 101, 32, 32, 32, 32,
   32, 32, 60, 45, 32, 67, 104, 97, 114, 32, 39, 45, 39, 32, 67, 104, 97, 114, 32, 47, 32, 67, 104, 97, 114, 10, 67, 104, 97, 114, 32, 32, 32, 32, 32,
   32, 32, 60, 45, 32, 39, 92, 92, 39, 32, 91, 110, 114, 116, 39, 34, 92, 91, 92, 93, 92, 92, 93, 10, 32, 32, 32, 32, 32, 32, 32, 32, 32, 32, 32, 32,
   47, 32, 39, 92, 92, 39, 32, 91, 48, 45, 50, 93, 91, 48, 45, 55, 93, 91, 48, 45, 55, 93, 10, 32, 32, 32, 32, 32, 32, 32, 32, 32, 32, 32, 32, 47, 32,
   39, 92, 92, 39, 32, 91, 48, 45, 55, 93, 91, 48, 45, 55, 93, 63, 10, 32, 32, 32, 32, 32, 32, 32, 32, 32, 32, 32, 32, 47, 32, 33, 39, 92, 92, 39, 32,
   46, 10, 10, 76, 69, 70, 84, 65, 82, 82, 79, 87, 95, 32, 32, 60, 45, 32, 39, 60, 45, 39, 32, 83, 112, 97, 99, 105, 110, 103, 95, 10, 83, 76, 65, 83,
   72, 95, 32, 32, 32, 32, 32, 32, 60, 45, 32, 39, 47, 39, 32, 83, 112, 97, 99, 105, 110, 103, 95, 10, 65, 78, 68, 32, 32, 32, 32, 32, 32, 32, 32, 60,
   45, 32, 39, 38, 39, 32, 83, 112, 97, 99, 105, 110, 103, 95, 10, 78, 79, 84, 32, 32, 32, 32, 32, 32, 32, 32, 60, 45, 32, 39, 33, 39, 32, 83, 112,
   97, 99, 105, 110, 103, 95, 10, 81, 85, 69, 83, 84, 73, 79, 78, 32, 32, 32, 60, 45, 32, 39, 63, 39, 32, 83, 112, 97, 99, 105, 110, 103, 95, 10, 83,
   84, 65, 82, 32, 32, 32, 32, 32, 32, 32, 60, 45, 32, 39, 42, 39, 32, 83, 112, 97, 99, 105, 110, 103, 95, 10, 80, 76, 85, 83, 32, 32, 32, 32, 32, 32,
   32, 60, 45, 32, 39, 43, 39, 32, 83, 112, 97, 99, 105, 110, 103, 95, 10, 79, 80, 69, 78, 95, 32, 32, 32, 32, 32, 32, 32, 60, 45, 32, 39, 40, 39, 32,
   83, 112, 97, 99, 105, 110, 103, 95, 10, 67, 76, 79, 83, 69, 95, 32, 32, 32, 32, 32, 32, 60, 45, 32, 39, 41, 39, 32, 83, 112, 97, 99, 105, 110, 103,
   95, 10, 68, 79, 84, 32, 32, 32, 32, 32, 32, 32, 32, 60, 45, 32, 39, 46, 39, 32, 83, 112, 97, 99, 105, 110, 103, 95, 10, 10, 83, 112, 97, 99, 105,
   110, 103, 95, 32, 32, 32, 60, 45, 32, 40, 83, 112, 97, 99, 101, 95, 32, 47, 32, 67, 111, 109, 109, 101, 110, 116, 95, 41, 42, 10, 67, 111, 109,
   109, 101, 110, 116, 95, 32, 32, 32, 60, 45, 32, 39, 35, 39, 32, 40, 33, 69, 110, 100, 79, 102, 76, 105, 110, 101, 95, 32, 46, 41, 42, 32, 69, 110,
   100, 79, 102, 76, 105, 110, 101, 95, 10, 83, 112, 97, 99, 101, 95, 32, 32, 32, 32, 32, 60, 45, 32, 39, 32, 39, 32, 47, 32, 39, 92, 116, 39, 32, 47,
   32, 69, 110, 100, 79, 102, 76, 105, 110, 101, 95, 10, 69, 110, 100, 79, 102, 76, 105, 110, 101, 95, 32, 60, 45, 32, 39, 92, 114, 92, 110, 39, 32,
   47, 32, 39, 92, 110, 39, 32, 47, 32, 39, 92, 114, 39, 10, 69, 110, 100, 79, 102, 70, 105, 108, 101, 95, 32, 60, 45, 32, 33, 46, 10] :=
  bytes_ofList
  ['#', '\x20', 'H', 'i', 'e', 'r', 'a', 'r', 'c', 'h', 'i', 'c', 'a', 'l', '\x20', 's', 'y', 'n', 't', 'a', 'x', '\n', 'G', 'r', 'a', 'm', 'm', 'a',
   'r', '\x20', '\x20', '\x20', '\x20', '<', '-', '\x20', 'S', 'p', 'a', 'c', 'i', 'n', 'g', '_', '\x20', 'D', 'e', 'f', 'i', 'n', 'i', 't', 'i', 'o',
   'n', '+', '\x20', 'E', 'n', 'd', 'O', 'f', 'F', 'i', 'l', 'e', '_', '\n', 'D', 'e', 'f', 'i', 'n', 'i', 't', 'i', 'o', 'n', '\x20', '<', '-',
   '\x20', 'I', 'd', 'e', 'n', 't', 'i', 'f', 'i', 'e', 'r', '\x20', 'L', 'E', 'F', 'T', 'A', 'R', 'R', 'O', 'W', '_', '\x20', 'E', 'x', 'p', 'r',
   'e', 's', 's', 'i', 'o', 'n', '\n', '\n', 'E', 'x', 'p', 'r', 'e', 's', 's', 'i', 'o', 'n', '\x20', '<', '-', '\x20', 'S', 'e', 'q', 'u', 'e', 'n',
   'c', 'e', '\x20', '(', 'S', 'L', 'A', 'S', 'H', '_', '\x20', 'S', 'e', 'q', 'u', 'e', 'n', 'c', 'e', ')', '*', '\n', 'S', 'e', 'q', 'u', 'e', 'n',
   'c', 'e', '\x20', '\x20', '\x20', '<', '-', '\x20', 'P', 'r', 'e', 'f', 'i', 'x', '*', '\n', 'P', 'r', 'e', 'f', 'i', 'x', '\x20', '\x20', '\x20',
   '\x20', '\x20', '<', '-', '\x20', '(', 'A', 'N', 'D', '\x20', '/', '\x20', 'N', 'O', 'T', ')', '?', '\x20', 'S', 'u', 'f', 'f', 'i', 'x', '\n',
   'S', 'u', 'f', 'f', 'i', 'x', '\x20', '\x20', '\x20', '\x20', '\x20', '<', '-', '\x20', 'P', 'r', 'i', 'm', 'a', 'r', 'y', '\x20', '(', 'Q', 'U',
   'E', 'S', 'T', 'I', 'O', 'N', '\x20', '/', '\x20', 'S', 'T', 'A', 'R', '\x20', '/', '\x20', 'P', 'L', 'U', 'S', ')', '?', '\n', 'P', 'r', 'i', 'm',
   'a', 'r', 'y', '\x20', '\x20', '\x20', '\x20', '<', '-', '\x20', 'I', 'd', 'e', 'n', 't', 'i', 'f', 'i', 'e', 'r', '\x20', '!', 'L', 'E', 'F', 'T',
   'A', 'R', 'R', 'O', 'W', '_', '\n', '\x20', '\x20', '\x20', '\x20', '\x20', '\x20', '\x20', '\x20', '\x20', '\x20', '\x20', '\x20', '/', '\x20',
   'O', 'P', 'E', 'N', '_', '\x20', 'E', 'x', 'p', 'r', 'e', 's', 's', 'i', 'o', 'n', '\x20', 'C', 'L', 'O', 'S', 'E', '_', '\n', '\x20', '\x20',
   '\x20', '\x20', '\x20', '\x20', '\x20', '\x20', '\x20', '\x20', '\x20', '\x20', '/', '\x20', 'L', 'i', 't', 'e', 'r', 'a', 'l', '\x20', '/',
   '\x20', 'C', 'l', 'a', 's', 's', '\x20', '/', '\x20', 'D', 'O', 'T', '\n', '\n', '#', '\x20', 'L', 'e', 'x', 'i', 'c', 'a', 'l', '\x20', 's', 'y',
   'n', 't', 'a', 'x', '\n', 'I', 'd', 'e', 'n', 't', 'i', 'f', 'i', 'e', 'r', '\x20', '<', '-', '\x20', 'I', 'd', 'e', 'n', 't', 'S', 't', 'a', 'r',
   't', '\x20', 'I', 'd', 'e', 'n', 't', 'C', 'o', 'n', 't', '*', '\x20', 'S', 'p', 'a', 'c', 'i', 'n', 'g', '_', '\n', 'I', 'd', 'e', 'n', 't', 'S',
   't', 'a', 'r', 't', '\x20', '<', '-', '\x20', '[', 'a', '-', 'z', 'A', '-', 'Z', '_', ']', '\n', 'I', 'd', 'e', 'n', 't', 'C', 'o', 'n', 't',
   '\x20', '\x20', '<', '-', '\x20', 'I', 'd', 'e', 'n', 't', 'S', 't', 'a', 'r', 't', '\x20', '/', '\x20', '[', '0', '-', '9', ']', '\n', '\n', 'L',
   'i', 't', 'e', 'r', 'a', 'l', '\x20', '\x20', '\x20', '\x20', '<', '-', '\x20', '[', '\'', ']', '\x20', '(', '!', '[', '\'', ']', '\x20', 'C', 'h',
   'a', 'r', ')', '*', '\x20', '[', '\'', ']', '\x20', 'S', 'p', 'a', 'c', 'i', 'n', 'g', '_', '\n', '\x20', '\x20', '\x20', '\x20', '\x20', '\x20',
   '\x20', '\x20', '\x20', '\x20', '\x20', '\x20', '/', '\x20', '[', '"', ']', '\x20', '(', '!', '[', '"', ']', '\x20', 'C', 'h', 'a', 'r', ')', '*',
   '\x20', '[', '"', ']', '\x20', 'S', 'p', 'a', 'c', 'i', 'n', 'g', '_', '\n', 'C', 'l', 'a', 's', 's', '\x20', '\x20', '\x20', '\x20', '\x20',
   '\x20', '<', '-', '\x20', '\'', '[', '\'', '\x20', '(', '!', '\'', ']', '\'', '\x20', 'R', 'a', 'n', 'g', 'e', ')', '*', '\x20', '\'', ']', '\'',
   '\x20', 'S', 'p', 'a', 'c', 'i', 'n', 'g', '_', '\n', 'R', 'a', 'n', 'g', 'e', '\x20', '\x20', '\x20', '\x20', '\x20', '\x20', '<', '-', '\x20',
   'C', 'h', 'a', 'r', '\x20', '\'', '-', '\'', '\x20', 'C', 'h', 'a', 'r', '\x20', '/', '\x20', 'C', 'h', 'a', 'r', '\n', 'C', 'h', 'a', 'r', '\x20',
   '\x20', '\x20', '\x20', '\x20', '\x20', '\x20', '<', '-', '\x20', '\'', '\\', '\\', '\'', '\x20', '[', 'n', 'r', 't', '\'', '"', '\\', '[', '\\',
   ']', '\\', '\\', ']', '\n', '\x20', '\x20', '\x20', '\x20', '\x20', '\x20', '\x20', '\x20', '\x20', '\x20', '\x20', '\x20', '/', '\x20', '\'',
   '\\', '\\', '\'', '\x20', '[', '0', '-', '2', ']', '[', '0', '-', '7', ']', '[', '0', '-', '7', ']', '\n', '\x20', '\x20', '\x20', '\x20', '\x20',
   '\x20', '\x20', '\x20', '\x20', '\x20', '\x20', '\x20', '/', '\x20', '\'', '\\', '\\', '\'', '\x20', '[', '0', '-', '7', ']', '[', '0', '-', '7',
   ']', '?', '\n', '\x20', '\x20', '\x20', '\x20', '\x20', '\x20', '\x20', '\x20', '\x20', '\x20', '\x20', '\x20', '/', '\x20', '!', '\'', '\\', '\\',
   '\'', '\x20', '.', '\n', '\n', 'L', 'E', 'F', 'T', 'A', 'R', 'R', 'O', 'W', '_', '\x20', '\x20', '<', '-', '\x20', '\'', '<', '-', '\'', '\x20',
   'S', 'p', 'a', 'c', 'i', 'n', 'g', '_', '\n', 'S', 'L', 'A', 'S', 'H', '_', '\x20', '\x20', '\x20', '\x20', '\x20', '\x20', '<', '-', '\x20', '\'',
   '/', '\'', '\x20', 'S', 'p', 'a', 'c', 'i', 'n', 'g', '_', '\n', 'A', 'N', 'D', '\x20', '\x20', '\x20', '\x20', '\x20', '\x20', '\x20', '\x20',
   '<', '-', '\x20', '\'', '&', '\'', '\x20', 'S', 'p', 'a', 'c', 'i', 'n', 'g', '_', '\n', 'N', 'O', 'T', '\x20', '\x20', '\x20', '\x20', '\x20',
   '\x20', '\x20', '\x20', '<', '-', '\x20', '\'', '!', '\'', '\x20', 'S', 'p', 'a', 'c', 'i', 'n', 'g', '_', '\n', 'Q', 'U', 'E', 'S', 'T', 'I', 'O',
   'N', '\x20', '\x20', '\x20', '<', '-', '\x20', '\'', '?', '\'', '\x20', 'S', 'p', 'a', 'c', 'i', 'n', 'g', '_', '\n', 'S', 'T', 'A', 'R', '\x20',
   '\x20', '\x20', '\x20', '\x20', '\x20', '\x20', '<', '-', '\x20', '\'', '*', '\'', '\x20', 'S', 'p', 'a', 'c', 'i', 'n', 'g', '_', '\n', 'P', 'L',
   'U', 'S', '\x20', '\x20', '\x20', '\x20', '\x20', '\x20', '\x20', '<', '-', '\x20', '\'', '+', '\'', '\x20', 'S', 'p', 'a', 'c', 'i', 'n', 'g',
   '_', '\n', 'O', 'P', 'E', 'N', '_', '\x20', '\x20', '\x20', '\x20', '\x20', '\x20', '\x20', '<', '-', '\x20', '\'', '(', '\'', '\x20', 'S', 'p',
   'a', 'c', 'i', 'n', 'g', '_', '\n', 'C', 'L', 'O', 'S', 'E', '_', '\x20', '\x20', '\x20', '\x20', '\x20', '\x20', '<', '-', '\x20', '\'', ')',
   '\'', '\x20', 'S', 'p', 'a', 'c', 'i', 'n', 'g', '_', '\n', 'D', 'O', 'T', '\x20', '\x20', '\x20', '\x20', '\x20', '\x20', '\x20', '\x20', '<',
   '-', '\x20', '\'', '.', '\'', '\x20', 'S', 'p', 'a', 'c', 'i', 'n', 'g', '_', '\n', '\n', 'S', 'p', 'a', 'c', 'i', 'n', 'g', '_', '\x20', '\x20',
   '\x20', '<', '-', '\x20', '(', 'S', 'p', 'a', 'c', 'e', '_', '\x20', '/', '\x20', 'C', 'o', 'm', 'm', 'e', 'n', 't', '_', ')', '*', '\n', 'C', 'o',
   'm', 'm', 'e', 'n', 't', '_', '\x20', '\x20', '\x20', '<', '-', '\x20', '\'', '#', '\'', '\x20', '(', '!', 'E', 'n', 'd', 'O', 'f', 'L', 'i', 'n',
   'e', '_', '\x20', '.', ')', '*', '\x20', 'E', 'n', 'd', 'O', 'f', 'L', 'i', 'n', 'e', '_', '\n', 'S', 'p', 'a', 'c', 'e', '_', '\x20', '\x20',
   '\x20', '\x20', '\x20', '<', '-', '\x20', '\'', '\x20', '\'', '\x20', '/', '\x20', '\'', '\\', 't', '\'', '\x20', '/', '\x20', 'E', 'n', 'd', 'O',
   'f', 'L', 'i', 'n', 'e', '_', '\n', 'E', 'n', 'd', 'O', 'f', 'L', 'i', 'n', 'e', '_', '\x20', '<', '-', '\x20', '\'', '\\', 'r', '\\', 'n', '\'',
   '\x20', '/', '\x20', '\'', '\\', 'n', '\'', '\x20', '/', '\x20', '\'', '\\', 'r', '\'', '\n', 'E', 'n', 'd', 'O', 'f', 'F', 'i', 'l', 'e', '_',
   '\x20', '<', '-', '\x20', '!', '.', '\n']

/-- The definitions of `grammars/peg.peg`. -/
def pegGram : Gram := [
  (bytes "Grammar", .one (.cons .none (.ident (bytes "Spacing_")) .none (.cons .none (.ident (bytes "Definition")) .plus (.cons .none (.ident (bytes
    "EndOfFile_")) .none .nil)))),
  (bytes "Definition", .one (.cons .none (.ident (bytes "Identifier")) .none (.cons .none (.ident (bytes "LEFTARROW_")) .none (.cons .none (.ident
    (bytes "Expression")) .none .nil)))),
  (bytes "Expression", .one (.cons .none (.ident (bytes "Sequence")) .none (.cons .none (.paren (.one (.cons .none (.ident (bytes "SLASH_")) .none
    (.cons .none (.ident (bytes "Sequence")) .none .nil)))) .star .nil))),
  (bytes "Sequence", .one (.cons .none (.ident (bytes "Prefix")) .star .nil)),
  (bytes "Prefix", .one (.cons .none (.paren (.alt (.cons .none (.ident (bytes "AND")) .none .nil) (.one (.cons .none (.ident (bytes "NOT")) .none
    .nil)))) .opt (.cons .none (.ident (bytes "Suffix")) .none .nil))),
  (bytes "Suffix", .one (.cons .none (.ident (bytes "Primary")) .none (.cons .none (.paren (.alt (.cons .none (.ident (bytes "QUESTION")) .none .nil)
    (.alt (.cons .none (.ident (bytes "STAR")) .none .nil) (.one (.cons .none (.ident (bytes "PLUS")) .none .nil))))) .opt .nil))),
  (bytes "Primary", .alt (.cons .none (.ident (bytes "Identifier")) .none (.cons .not (.ident (bytes "LEFTARROW_")) .none .nil)) (.alt (.cons .none
    (.ident (bytes "OPEN_")) .none (.cons .none (.ident (bytes "Expression")) .none (.cons .none (.ident (bytes "CLOSE_")) .none .nil))) (.alt (.cons
    .none (.ident (bytes "Literal")) .none .nil) (.alt (.cons .none (.ident (bytes "Class")) .none .nil) (.one (.cons .none (.ident (bytes "DOT"))
    .none .nil)))))),
  (bytes "Identifier", .one (.cons .none (.ident (bytes "IdentStart")) .none (.cons .none (.ident (bytes "IdentCont")) .star (.cons .none (.ident
    (bytes "Spacing_")) .none .nil)))),
  (bytes "IdentStart", .one (.cons .none (.cls false [.range 97 122, .range 65 90, .one 95]) .none .nil)),
  (bytes "IdentCont", .alt (.cons .none (.ident (bytes "IdentStart")) .none .nil) (.one (.cons .none (.cls false [.range 48 57]) .none .nil))),
  (bytes "Literal", .alt (.cons .none (.cls false [.one 39]) .none (.cons .none (.paren (.one (.cons .not (.cls false [.one 39]) .none (.cons .none
    (.ident (bytes "Char")) .none .nil)))) .star (.cons .none (.cls false [.one 39]) .none (.cons .none (.ident (bytes "Spacing_")) .none .nil))))
    (.one (.cons .none (.cls false [.one 34]) .none (.cons .none (.paren (.one (.cons .not (.cls false [.one 34]) .none (.cons .none (.ident (bytes
    "Char")) .none .nil)))) .star (.cons .none (.cls false [.one 34]) .none (.cons .none (.ident (bytes "Spacing_")) .none .nil)))))),
  (bytes "Class", .one (.cons .none (.lit [91]) .none (.cons .none (.paren (.one (.cons .not (.lit [93]) .none (.cons .none (.ident (bytes "Range"))
    .none .nil)))) .star (.cons .none (.lit [93]) .none (.cons .none (.ident (bytes "Spacing_")) .none .nil))))),
  (bytes "Range", .alt (.cons .none (.ident (bytes "Char")) .none (.cons .none (.lit [45]) .none (.cons .none (.ident (bytes "Char")) .none .nil)))
    (.one (.cons .none (.ident (bytes "Char")) .none .nil))),
  (bytes "Char", .alt (.cons .none (.lit [92]) .none (.cons .none (.cls false [.one 110, .one 114, .one 116, .one 39, .one 34, .one 91, .one 93, .one
    92]) .none .nil)) (.alt (.cons .none (.lit [92]) .none (.cons .none (.cls false [.range 48 50]) .none (.cons .none (.cls false [.range 48 55])
    .none (.cons .none (.cls false [.range 48 55]) .none .nil)))) (.alt (.cons .none (.lit [92]) .none (.cons .none (.cls false [.range 48 55]) .none
    (.cons .none (.cls false [.range 48 55]) .opt .nil))) (.one (.cons .not (.lit [92]) .none (.cons .none .dot .none .nil)))))),
  (bytes "LEFTARROW_", .one (.cons .none (.lit [60, 45]) .none (.cons .none (.ident (bytes "Spacing_")) .none .nil))),
  (bytes "SLASH_", .one (.cons .none (.lit [47]) .none (.cons .none (.ident (bytes "Spacing_")) .none .nil))),
  (bytes "AND", .one (.cons .none (.lit [38]) .none (.cons .none (.ident (bytes "Spacing_")) .none .nil))),
  (bytes "NOT", .one (.cons .none (.lit [33]) .none (.cons .none (.ident (bytes "Spacing_")) .none .nil))),
  (bytes "QUESTION", .one (.cons .none (.lit [63]) .none (.cons .none (.ident (bytes "Spacing_")) .none .nil))),
  (bytes "STAR", .one (.cons .none (.lit [42]) .none (.cons .none (.ident (bytes "Spacing_")) .none .nil))),
  (bytes "PLUS", .one (.cons .none (.lit [43]) .none (.cons .none (.ident (bytes "Spacing_")) .none .nil))),
  (bytes "OPEN_", .one (.cons .none (.lit [40]) .none (.cons .none (.ident (bytes "Spacing_")) .none .nil))),
  (bytes "CLOSE_", .one (.cons .none (.lit [41]) .none (.cons .none (.ident (bytes "Spacing_")) .none .nil))),
  (bytes "DOT", .one (.cons .none (.lit [46]) .none (.cons .none (.ident (bytes "Spacing_")) .none .nil))),
  (bytes "Spacing_", .one (.cons .none (.paren (.alt (.cons .none (.ident (bytes "Space_")) .none .nil) (.one (.cons .none (.ident (bytes "Comment_"))
    .none .nil)))) .star .nil)),
  (bytes "Comment_", .one (.cons .none (.lit [35]) .none (.cons .none (.paren (.one (.cons .not (.ident (bytes "EndOfLine_")) .none (.cons .none .dot
    .none .nil)))) .star (.cons .none (.ident (bytes "EndOfLine_")) .none .nil)))),
  (bytes "Space_", .alt (.cons .none (.lit [32]) .none .nil) (.alt (.cons .none (.lit [9]) .none .nil) (.one (.cons .none (.ident (bytes
    "EndOfLine_")) .none .nil)))),
  (bytes "EndOfLine_", .alt (.cons .none (.lit [13, 10]) .none .nil) (.alt (.cons .none (.lit [10]) .none .nil) (.one (.cons .none (.lit [13]) .none
    .nil)))),
  (bytes "EndOfFile_", .one (.cons .not .dot .none .nil))]

/-- The file writes the definitions. -/
theorem peg_text : TopS (.gram pegGram) pegFile := by
  rw [peg_eq]
  exact topGramB_sound (by decide +kernel)

/-- `grammars/lpeg.peg`, the whole file. -/
def lpegFile : List UInt8 := bytes "pattern         <- exp !.
exp             <- S (alternative / grammar)

alternative     <- seq ('/' S seq)*
seq             <- prefix*
prefix          <- '&' S prefix / '!' S prefix / suffix
suffix          <- primary S (([+*?]
                            / '^' [+\\-]? num
                            / '->' S (string / '{}' / name)
                            / '=>' S name) S)*

primary         <- '(' exp ')' / string / class / defined
                 / '{:' (name ':')? exp ':}'
                 / '=' name
                 / '{*' exp '*}' # bare capture
                 / '{~' exp '~}' # substitution capture
                 / '{|' exp '|}' # table capture
                 / '{+' exp '+}' # memoization expression
                 / '{' exp '}'   # string capture
                 / '.'
                 / name S !arrow

grammar         <- definition+
definition      <- name S arrow exp

class           <- '[' '^'? item (!']' item)* ']'
item            <- defined / range / .
range           <- . '-' (!']' .)

S               <- (space / comment)*   # spaces and comments
name            <- [A-Za-z][A-Za-z0-9_]*
arrow           <- '<-'
num             <- [0-9]+
string          <- '\"' (!'\"' .)* '\"' / \"'\" (!\"'\" .)* \"'\"
defined         <- '%' name

comment         <- '#' (!eol .)* eol
space           <- ' ' / '\\t' / eol
eol             <- '\\r\\n' / '\\n' / '\\r'
"

theorem lpeg_eq : lpegFile =
  [112, 97, 116, 116, 101, 114, 110, 32, 32, 32, 32, 32, 32, 32, 32, 32, 60, 45, 32, 101, 120, 112, 32, 33, 46, 10, 101, 120, 112, 32, 32, 32, 32, 32,
   32, 32, 32, 32, 32, 32, 32, 32, 60, 45, 32, 83, 32, 40, 97, 108, 116, 101, 114, 110, 97, 116, 105, 118, 101, 32, 47, 32, 103, 114, 97, 109, 109,
   97, 114, 41, 10, 10, 97, 108, 116, 101, 114, 110, 97, 116, 105, 118, 101, 32, 32, 32, 32, 32, 60, 45, 32, 115, 101, 113, 32, 40, 39, 47, 39, 32,
   83, 32, 115, 101, 113, 41, 42, 10, 115, 101, 113, 32, 32, 32, 32, 32, 32, 32, 32, 32, 32, 32, 32, 32, 60, 45, 32, 112, 114, 101, 102, 105, 120, 42,
   10, 112, 114, 101, 102, 105, 120, 32, 32, 32, 32, 32, 32, 32, 32, 32, 32, 60, 45, 32, 39, 38, 39, 32, 83, 32, 112, 114, 101, 102, 105, 120, 32, 47,
   32, 39, 33, 39, 32, 83, 32, 112, 114, 101, 102, 105, 120, 32, 47, 32, 115, 117, 102, 102, 105, 120, 10, 115, 117, 102, 102, 105, 120, 32, 32, 32,
   32, 32, 32, 32, 32, 32, 32, 60, 45, 32, 112, 114, 105, 109, 97, 114, 121, 32, 83, 32, 40, 40, 91, 43, 42, 63, 93, 10, 32, 32, 32, 32, 32, 32, 32,
   32, 32, 32, 32, 32, 32, 32, 32, 32, 32, 32, 32, 32, 32, 32, 32, 32, 32, 32, 32, 32, 47, 32, 39, 94, 39, 32, 91, 43, 92, 45, 93, 63, 32, 110, 117,
   109, 10, 32, 32, 32, 32, 32, 32, 32, 32, 32, 32, 32, 32, 32, 32, 32, 32, 32, 32, 32, 32, 32, 32, 32, 32, 32, 32, 32, 32, 47, 32, 39, 45, 62, 39,
   32, 83, 32, 40, 115, 116, 114, 105, 110, 103, 32, 47, 32, 39, 123, 125, 39, 32, 47, 32, 110, 97, 109, 101, 41, 10, 32, 32, 32, 32, 32, 32, 32, 32,
   32, 32, 32, 32, 32, 32, 32, 32, 32, 32, 32, 32, 32, 32, 32, 32, 32, 32, 32, 32, 47, 32, 39, 61, 62, 39, 32, 83, 32, 110, 97, 109, 101, 41, 32, 83,
   41, 42, 10, 10, 112, 114, 105, 109, 97, 114, 121, 32, 32, 32, 32, 32, 32, 32, 32, 32, 60, 45, 32, 39, 40, 39, 32, 101, 120, 112, 32, 39, 41, 39,
   32, 47, 32, 115, 116, 114, 105, 110, 103, 32, 47, 32, 99, 108, 97, 115, 115, 32, 47, 32, 100, 101, 102, 105, 110, 101, 100, 10, 32, 32, 32, 32, 32,
   32, 32, 32, 32, 32, 32, 32, 32, 32, 32, 32, 32, 47, 32, 39, 123, 58, 39, 32, 40, 110, 97, 109, 101, 32, 39, 58, 39, 41, 63, 32, 101, 120, 112, 32,
   39, 58, 125, 39, 10, 32, 32, 32, 32, 32, 32, 32, 32, 32, 32, 32, 32, 32, 32, 32, 32, 32, 47, 32, 39, 61, 39, 32, 110, 97, 109, 101, 10, 32, 32, 32,
   32, 32, 32, 32, 32, 32, 32, 32, 32, 32, 32, 32, 32, 32, 47, 32, 39, 123, 42, 39, 32, 101, 120, 112, 32, 39, 42, 125, 39, 32, 35, 32, 98, 97, 114,
   101, 32, 99, 97, 112, 116, 117, 114, 101, 10, 32, 32, 32, 32, 32, 32, 32, 32, 32, 32, 32, 32, 32, 32, 32, 32, 32, 47, 32, 39, 123, 126, 39, 32,
   101, 120, 112, 32, 39, 126, 125, 39, 32, 35, 32, 115, 117, 98, 115, 116, 105, 116, 117, 116, 105, 111, 110, 32, 99, 97, 112, 116, 117, 114, 101,
   10, 32, 32, 32, 32, 32, 32, 32, 32, 32, 32, 32, 32, 32, 32, 32, 32, 32, 47, 32, 39, 123, 124, 39, 32, 101, 120, 112, 32, 39, 124, 125, 39, 32, 35,
   32, 116, 97, 98, 108, 101, 32, 99, 97, 112, 116, 117, 114, 101, 10, 32, 32, 32, 32, 32, 32, 32, 32, 32, 32, 32, 32, 32, 32, 32, 32, 32, 47, 32, 39,
   123, 43, 39, 32, 101, 120, 112, 32, 39, 43, 125, 39, 32, 35, 32, 109, 101, 109, 111, 105, 122, 97, 116, 105, 111, 110, 32, 101, 120, 112, 114, 101,
   115, 115, 105, 111, 110, 10, 32, 32, 32, 32, 32, 32, 32, 32, 32, 32, 32, 32, 32, 32, 32, 32, 32, 47, 32, 39, 123, 39, 32, 101, 120, 112, 32, 39,
   125, 39, 32, 32, 32, 35, 32, 115, 116, 114, 105, 110, 103, 32, 99, 97, 112, 116, 117, 114, 101, 10, 32, 32, 32, 32, 32, 32, 32, 32, 32, 32, 32, 32,
   32, 32, 32, 32, 32, 47, 32, 39, 46, 39, 10, 32, 32, 32, 32, 32, 32, 32, 32, 32, 32, 32, 32, 32, 32, 32, 32, 32, 47, 32, 110, 97, 109, 101, 32, 83,
   32, 33, 97, 114, 114, 111, 119, 10, 10, 103, 114, 97, 109, 109, 97, 114, 32, 32, 32, 32, 32, 32, 32, 32, 32, 60, 45, 32, 100, 101, 102, 105, 110,
   105, 116, 105, 111, 110, 43, 10, 100, 101, 102, 105, 110, 105, 116, 105, 111, 110, 32, 32, 32, 32, 32, 32, 60, 45, 32, 110, 97, 109, 101, 32, 83,
   32, 97, 114, 114, 111, 119, 32, 101, 120, 112, 10, 10, 99, 108, 97, 115, 115, 32, 32, 32, 32, 32, 32, 32, 32, 32, 32, 32, 60, 45, 32, 39, 91, 39,
   32, 39, 94, 39, 63, 32, 105, 116, 101, 109, 32, 40, 33, 39, 93, 39, 32, 105, 116, 101, 109, 41, 42, 32, 39, 93, 39, 10, 105, 116, 101, 109, 32, 32,
   32, 32, 32, 32, 32, 32, 32, 32, 32, 32, 60, 45, 32, 100, 101, 102, 105, 110, 101, 100, 32, 47, 32, 114, 97, 110, 103, 101, 32, 47, 32, 46, 10, 114,
   97, 110, 103, 101, 32, 32, 32, 32, 32, 32, 32, 32, 32, 32, 32, 60, 45, 32, 46, 32, 39, 45, 39, 32, 40, 33, 39, 93, 39, 32, 46, 41, 10, 10, 83, 32,
   32, 32, 32, 32, 32, 32, 32, 32, 32, 32, 32, 32, 32, 32, 60, 45, 32, 40, 115, 112, 97, 99, 101, 32, 47, 32, 99, 111, 109, 109, 101, 110, 116, 41,
   42, 32, 32, 32, 35, 32, 115, 112, 97, 99, 101, 115, 32, 97, 110, 100, 32, 99, 111, 109, 109, 101, 110, 116, 115, 10, 110, 97, 109, 101, 32, 32, 32,
   32, 32, 32, 32, 32, 32, 32, 32, 32, 60, 45, 32, 91, 65, 45, 90, 97, 45, 122, 93, 91, 65, 45, 90, 97, 45, 122, 48, 45, 57, 95, 93, 42, 10, 97, 114,
   114, 111, 119, 32, 32, 32, 32, 32, 32, 32, 32, 32, 32, 32, 60, 45, 32, 39, 60, 45, 39, 10, 110, 117, 109, 32, 32, 32, 32, 32, 32, 32, 32, 32, 32,
   32, 32, 32, 60, 45, 32, 91, 48, 45, 57, 93, 43, 10, 115, 116, 114, 105, 110, 103, 32, 32, 32, 32, 32, 32, 32, 32, 32, 32, 60, 45, 32, 39, 34, 39,
   32, 40, 33, 39, 34, 39, 32, 46, 41, 42, 32, 39, 34, 39, 32, 47, 32, 34, 39, 34, 32, 40, 33, 34, 39, 34, 32, 46, 41, 42, 32, 34, 39, 34, 10, 100,
   101, 102, 105, 110, 101, 100, 32, 32, 32, 32, 32, 32, 32, 32, 32, 60, 45, 32, 39, 37, 39, 32, 110, 97, 109, 101, 10, 10, 99, 111, 109, 109, 101,
   110, 116, 32, 32, 32, 32, 32, 32, 32, 32, 32, 60, 45, 32, 39, 35, 39, 32, 40, 33, 101, 111, 108, 32, 46, 41, 42, 32, 101, 111, 108, 10, 115, 112,
   97, 99, 101, 32, 32, 32, 32, 32, 32, 32, 32, 32, 32, 32, 60, 45, 32, 39, 32, 39, 32, 47, 32, 39, 92, 116, 39, 32, 47, 32, 101, 111, 108, 10, 101,
   111, 108, 32, 32, 32, 32, 32, 32, 32, 32, 32, 32, 32, 32, 32, 60, 45, 32, 39, 92, 114, 92, 110, 39, 32, 47, 32, 39, 92, 110, 39, 32, 47, 32, 39,
   92, 114, 39, 10] :=
  bytes_ofList
  ['p', 'a', 't', 't', 'e', 'r', 'n', '\x20', '\x20', '\x20', '\x20', '\x20', '\x20', '\x20', '\x20', '\x20', '<', '-', '\x20', 'e', 'x', 'p', '\x20',
   '!', '.', '\n', 'e', 'x', 'p', '\x20', '\x20', '\x20', '\x20', '\x20', '\x20', '\x20', '\x20', '\x20', '\x20', '\x20', '\x20', '\x20', '<', '-',
   '\x20', 'S', '\x20', '(', 'a', 'l', 't', 'e', 'r', 'n', 'a', 't', 'i', 'v', 'e', '\x20', '/', '\x20', 'g', 'r', 'a', 'm', 'm', 'a', 'r', ')', '\n',
   '\n', 'a', 'l', 't', 'e', 'r', 'n', 'a', 't', 'i', 'v', 'e', '\x20', '\x20', '\x20', '\x20', '\x20', '<', '-', '\x20', 's', 'e', 'q', '\x20', '(',
   '\'', '/', '\'', '\x20', 'S', '\x20', 's', 'e', 'q', ')', '*', '\n', 's', 'e', 'q', '\x20', '\x20', '\x20', '\x20', '\x20', '\x20', '\x20', '\x20',
   '\x20', '\x20', '\x20', '\x20', '\x20', '<', '-', '\x20', 'p', 'r', 'e', 'f', 'i', 'x', '*', '\n', 'p', 'r', 'e', 'f', 'i', 'x', '\x20', '\x20',
   '\x20', '\x20', '\x20', '\x20', '\x20', '\x20', '\x20', '\x20', '<', '-', '\x20', '\'', '&', '\'', '\x20', 'S', '\x20', 'p', 'r', 'e', 'f', 'i',
   'x', '\x20', '/', '\x20', '\'', '!', '\'', '\x20', 'S', '\x20', 'p', 'r', 'e', 'f', 'i', 'x', '\x20', '/', '\x20', 's', 'u', 'f', 'f', 'i', 'x',
   '\n', 's', 'u', 'f', 'f', 'i', 'x', '\x20', '\x20', '\x20', '\x20', '\x20', '\x20', '\x20', '\x20', '\x20', '\x20', '<', '-', '\x20', 'p', 'r',
   'i', 'm', 'a', 'r', 'y', '\x20', 'S', '\x20', '(', '(', '[', '+', '*', '?', ']', '\n', '\x20', '\x20', '\x20', '\x20', '\x20', '\x20', '\x20',
   '\x20', '\x20', '\x20', '\x20', '\x20', '\x20', '\x20', '\x20', '\x20', '\x20', '\x20', '\x20', '\x20', '\x20', '\x20', '\x20', '\x20', '\x20',
   '\x20', '\x20', '\x20', '/', '\x20', '\'', '^', '\'', '\x20', '[', '+', '\\', '-', ']', '?', '\x20', 'n', 'u', 'm', '\n', '\x20', '\x20', '\x20',
   '\x20', '\x20', '\x20', '\x20', '\x20', '\x20', '\x20', '\x20', '\x20', '\x20', '\x20', '\x20', '\x20', '\x20', '\x20', '\x20', '\x20', '\x20',
   '\x20', '\x20', '\x20', '\x20', '\x20', '\x20', '\x20', '/', '\x20', '\'', '-', '>', '\'', '\x20', 'S', '\x20', '(', 's', 't', 'r', 'i', 'n', 'g',
   '\x20', '/', '\x20', '\'', '{', '}', '\'', '\x20', '/', '\x20', 'n', 'a', 'm', 'e', ')', '\n', '\x20', '\x20', '\x20', '\x20', '\x20', '\x20',
   '\x20', '\x20', '\x20', '\x20', '\x20', '\x20', '\x20', '\x20', '\x20', '\x20', '\x20', '\x20', '\x20', '\x20', '\x20', '\x20', '\x20', '\x20',
   '\x20', '\x20', '\x20', '\x20', '/', '\x20', '\'', '=', '>', '\'', '\x20', 'S', '\x20', 'n', 'a', 'm', 'e', ')', '\x20', 'S', ')', '*', '\n', '\n',
   'p', 'r', 'i', 'm', 'a', 'r', 'y', '\x20', '\x20', '\x20', '\x20', '\x20', '\x20', '\x20', '\x20', '\x20', '<', '-', '\x20', '\'', '(', '\'',
   '\x20', 'e', 'x', 'p', '\x20', '\'', ')', '\'', '\x20', '/', '\x20', 's', 't', 'r', 'i', 'n', 'g', '\x20', '/', '\x20', 'c', 'l', 'a', 's', 's',
   '\x20', '/', '\x20', 'd', 'e', 'f', 'i', 'n', 'e', 'd', '\n', '\x20', '\x20', '\x20', '\x20', '\x20', '\x20', '\x20', '\x20', '\x20', '\x20',
   '\x20', '\x20', '\x20', '\x20', '\x20', '\x20', '\x20', '/', '\x20', '\'', '{', ':', '\'', '\x20', '(', 'n', 'a', 'm', 'e', '\x20', '\'', ':',
   '\'', ')', '?', '\x20', 'e', 'x', 'p', '\x20', '\'', ':', '}', '\'', '\n', '\x20', '\x20', '\x20', '\x20', '\x20', '\x20', '\x20', '\x20', '\x20',
   '\x20', '\x20', '\x20', '\x20', '\x20', '\x20', '\x20', '\x20', '/', '\x20', '\'', '=', '\'', '\x20', 'n', 'a', 'm', 'e', '\n', '\x20', '\x20',
   '\x20', '\x20', '\x20', '\x20', '\x20', '\x20', '\x20', '\x20', '\x20', '\x20', '\x20', '\x20', '\x20', '\x20', '\x20', '/', '\x20', '\'', '{',
   '*', '\'', '\x20', 'e', 'x', 'p', '\x20', '\'', '*', '}', '\'', '\x20', '#', '\x20', 'b', 'a', 'r', 'e', '\x20', 'c', 'a', 'p', 't', 'u', 'r', 'e',
   '\n', '\x20', '\x20', '\x20', '\x20', '\x20', '\x20', '\x20', '\x20', '\x20', '\x20', '\x20', '\x20', '\x20', '\x20', '\x20', '\x20', '\x20', '/',
   '\x20', '\'', '{', '~', '\'', '\x20', 'e', 'x', 'p', '\x20', '\'', '~', '}', '\'', '\x20', '#', '\x20', 's', 'u', 'b', 's', 't', 'i', 't', 'u',
   't', 'i', 'o', 'n', '\x20', 'c', 'a', 'p', 't', 'u', 'r', 'e', '\n', '\x20', '\x20', '\x20', '\x20', '\x20', '\x20', '\x20', '\x20', '\x20',
   '\x20', '\x20', '\x20', '\x20', '\x20', '\x20', '\x20', '\x20', '/', '\x20', '\'', '{', '|', '\'', '\x20', 'e', 'x', 'p', '\x20', '\'', '|', '}',
   '\'', '\x20', '#', '\x20', 't', 'a', 'b', 'l', 'e', '\x20', 'c', 'a', 'p', 't', 'u', 'r', 'e', '\n', '\x20', '\x20', '\x20', '\x20', '\x20',
   '\x20', '\x20', '\x20', '\x20', '\x20', '\x20', '\x20', '\x20', '\x20', '\x20', '\x20', '\x20', '/', '\x20', '\'', '{', '+', '\'', '\x20', 'e',
   'x', 'p', '\x20', '\'', '+', '}', '\'', '\x20', '#', '\x20', 'm', 'e', 'm', 'o', 'i', 'z', 'a', 't', 'i', 'o', 'n', '\x20', 'e', 'x', 'p', 'r',
   'e', 's', 's', 'i', 'o', 'n', '\n', '\x20', '\x20', '\x20', '\x20', '\x20', '\x20', '\x20', '\x20', '\x20', '\x20', '\x20', '\x20', '\x20', '\x20',
   '\x20', '\x20', '\x20', '/', '\x20', '\'', '{', '\'', '\x20', 'e', 'x', 'p', '\x20', '\'', '}', '\'', '\x20', '\x20', '\x20', '#', '\x20', 's',
   't', 'r', 'i', 'n', 'g', '\x20', 'c', 'a', 'p', 't', 'u', 'r', 'e', '\n', '\x20', '\x20', '\x20', '\x20', '\x20', '\x20', '\x20', '\x20', '\x20',
   '\x20', '\x20', '\x20', '\x20', '\x20', '\x20', '\x20', '\x20', '/', '\x20', '\'', '.', '\'', '\n', '\x20', '\x20', '\x20', '\x20', '\x20', '\x20',
   '\x20', '\x20', '\x20', '\x20', '\x20', '\x20', '\x20', '\x20', '\x20', '\x20', '\x20', '/', '\x20', 'n', 'a', 'm', 'e', '\x20', 'S', '\x20', '!',
   'a', 'r', 'r', 'o', 'w', '\n', '\n', 'g', 'r', 'a', 'm', 'm', 'a', 'r', '\x20', '\x20', '\x20', '\x20', '\x20', '\x20', '\x20', '\x20', '\x20',
   '<', '-', '\x20', 'd', 'e', 'f', 'i', 'n', 'i', 't', 'i', 'o', 'n', '+', '\n', 'd', 'e', 'f', 'i', 'n', 'i', 't', 'i', 'o', 'n', '\x20', '\x20',
   '\x20', '\x20', '\x20', '\x20', '<', '-', '\x20', 'n', 'a', 'm', 'e', '\x20', 'S', '\x20', 'a', 'r', 'r', 'o', 'w', '\x20', 'e', 'x', 'p', '\n',
   '\n', 'c', 'l', 'a', 's', 's', '\x20', '\x20', '\x20', '\x20', '\x20', '\x20', '\x20', '\x20', '\x20', '\x20', '\x20', '<', '-', '\x20', '\'', '[',
   '\'', '\x20', '\'', '^', '\'', '?', '\x20', 'i', 't', 'e', 'm', '\x20', '(', '!', '\'', ']', '\'', '\x20', 'i', 't', 'e', 'm', ')', '*', '\x20',
   '\'', ']', '\'', '\n', 'i', 't', 'e', 'm', '\x20', '\x20', '\x20', '\x20', '\x20', '\x20', '\x20', '\x20', '\x20', '\x20', '\x20', '\x20', '<',
   '-', '\x20', 'd', 'e', 'f', 'i', 'n', 'e', 'd', '\x20', '/', '\x20', 'r', 'a', 'n', 'g', 'e', '\x20', '/', '\x20', '.', '\n', 'r', 'a', 'n', 'g',
   'e', '\x20', '\x20', '\x20', '\x20', '\x20', '\x20', '\x20', '\x20', '\x20', '\x20', '\x20', '<', '-', '\x20', '.', '\x20', '\'', '-', '\'',
   '\x20', '(', '!', '\'', ']', '\'', '\x20', '.', ')', '\n', '\n', 'S', '\x20', '\x20', '\x20', '\x20', '\x20', '\x20', '\x20', '\x20', '\x20',
   '\x20', '\x20', '\x20', '\x20', '\x20', '\x20', '<', '-', '\x20', '(', 's', 'p', 'a', 'c', 'e', '\x20', '/', '\x20', 'c', 'o', 'm', 'm', 'e', 'n',
   't', ')', '*', '\x20', '\x20', '\x20', '#', '\x20', 's', 'p', 'a', 'c', 'e', 's', '\x20', 'a', 'n', 'd', '\x20', 'c', 'o', 'm', 'm', 'e', 'n', 't',
   's', '\n', 'n', 'a', 'm', 'e', '\x20', '\x20', '\x20', '\x20', '\x20', '\x20', '\x20', '\x20', '\x20', '\x20', '\x20', '\x20', '<', '-', '\x20',
   '[', 'A', '-', 'Z', 'a', '-', 'z', ']', '[', 'A', '-', 'Z', 'a', '-', 'z', '0', '-', '9', '_', ']', '*', '\n', 'a', 'r', 'r', 'o', 'w', '\x20',
   '\x20', '\x20', '\x20', '\x20', '\x20', '\x20', '\x20', '\x20', '\x20', '\x20', '<', '-', '\x20', '\'', '<', '-', '\'', '\n', 'n', 'u', 'm',
   '\x20', '\x20', '\x20', '\x20', '\x20', '\x20', '\x20', '\x20', '\x20', '\x20', '\x20', '\x20', '\x20', '<', '-', '\x20', '[', '0', '-', '9', ']',
   '+', '\n', 's', 't', 'r', 'i', 'n', 'g', '\x20', '\x20', '\x20', '\x20', '\x20', '\x20', '\x20', '\x20', '\x20', '\x20', '<', '-', '\x20', '\'',
   '"', '\'', '\x20', '(', '!', '\'', '"', '\'', '\x20', '.', ')', '*', '\x20', '\'', '"', '\'', '\x20', '/', '\x20', '"', '\'', '"', '\x20', '(',
   '!', '"', '\'', '"', '\x20', '.', ')', '*', '\x20', '"', '\'', '"', '\n', 'd', 'e', 'f', 'i', 'n', 'e', 'd', '\x20', '\x20', '\x20', '\x20',
   '\x20', '\x20', '\x20', '\x20', '\x20', '<', '-', '\x20', '\'', '%', '\'', '\x20', 'n', 'a', 'm', 'e', '\n', '\n', 'c', 'o', 'm', 'm', 'e', 'n',
   't', '\x20', '\x20', '\x20', '\x20', '\x20', '\x20', '\x20', '\x20', '\x20', '<', '-', '\x20', '\'', '#', '\'', '\x20', '(', '!', 'e', 'o', 'l',
   '\x20', '.', ')', '*', '\x20', 'e', 'o', 'l', '\n', 's', 'p', 'a', 'c', 'e', '\x20', '\x20', '\x20', '\x20', '\x20', '\x20', '\x20', '\x20',
   '\x20', '\x20', '\x20', '<', '-', '\x20', '\'', '\x20', '\'', '\x20', '/', '\x20', '\'', '\\', 't', '\'', '\x20', '/', '\x20', 'e', 'o', 'l', '\n',
   'e', 'o', 'l', '\x20', '\x20', '\x20', '\x20', '\x20', '\x20', '\x20', '\x20', '\x20', '\x20', '\x20', '\x20', '\x20', '<', '-', '\x20', '\'',
   '\\', 'r', '\\', 'n', '\'', '\x20', '/', '\x20', '\'', '\\', 'n', '\'', '\x20', '/', '\x20', '\'', '\\', 'r', '\'', '\n']

/-- The definitions of `grammars/lpeg.peg`. -/
def lpegGram : Gram := [
  (bytes "pattern", .one (.cons .none (.ident (bytes "exp")) .none (.cons .not .dot .none .nil))),
  (bytes "exp", .one (.cons .none (.ident (bytes "S")) .none (.cons .none (.paren (.alt (.cons .none (.ident (bytes "alternative")) .none .nil) (.one
    (.cons .none (.ident (bytes "grammar")) .none .nil)))) .none .nil))),
  (bytes "alternative", .one (.cons .none (.ident (bytes "seq")) .none (.cons .none (.paren (.one (.cons .none (.lit [47]) .none (.cons .none (.ident
    (bytes "S")) .none (.cons .none (.ident (bytes "seq")) .none .nil))))) .star .nil))),
  (bytes "seq", .one (.cons .none (.ident (bytes "prefix")) .star .nil)),
  (bytes "prefix", .alt (.cons .none (.lit [38]) .none (.cons .none (.ident (bytes "S")) .none (.cons .none (.ident (bytes "prefix")) .none .nil)))
    (.alt (.cons .none (.lit [33]) .none (.cons .none (.ident (bytes "S")) .none (.cons .none (.ident (bytes "prefix")) .none .nil))) (.one (.cons
    .none (.ident (bytes "suffix")) .none .nil)))),
  (bytes "suffix", .one (.cons .none (.ident (bytes "primary")) .none (.cons .none (.ident (bytes "S")) .none (.cons .none (.paren (.one (.cons .none
    (.paren (.alt (.cons .none (.cls false [.one 43, .one 42, .one 63]) .none .nil) (.alt (.cons .none (.lit [94]) .none (.cons .none (.cls false
    [.one 43, .one 45]) .opt (.cons .none (.ident (bytes "num")) .none .nil))) (.alt (.cons .none (.lit [45, 62]) .none (.cons .none (.ident (bytes
    "S")) .none (.cons .none (.paren (.alt (.cons .none (.ident (bytes "string")) .none .nil) (.alt (.cons .none (.lit [123, 125]) .none .nil) (.one
    (.cons .none (.ident (bytes "name")) .none .nil))))) .none .nil))) (.one (.cons .none (.lit [61, 62]) .none (.cons .none (.ident (bytes "S"))
    .none (.cons .none (.ident (bytes "name")) .none .nil)))))))) .none (.cons .none (.ident (bytes "S")) .none .nil)))) .star .nil)))),
  (bytes "primary", .alt (.cons .none (.lit [40]) .none (.cons .none (.ident (bytes "exp")) .none (.cons .none (.lit [41]) .none .nil))) (.alt (.cons
    .none (.ident (bytes "string")) .none .nil) (.alt (.cons .none (.ident (bytes "class")) .none .nil) (.alt (.cons .none (.ident (bytes "defined"))
    .none .nil) (.alt (.cons .none (.lit [123, 58]) .none (.cons .none (.paren (.one (.cons .none (.ident (bytes "name")) .none (.cons .none (.lit
    [58]) .none .nil)))) .opt (.cons .none (.ident (bytes "exp")) .none (.cons .none (.lit [58, 125]) .none .nil)))) (.alt (.cons .none (.lit [61])
    .none (.cons .none (.ident (bytes "name")) .none .nil)) (.alt (.cons .none (.lit [123, 42]) .none (.cons .none (.ident (bytes "exp")) .none (.cons
    .none (.lit [42, 125]) .none .nil))) (.alt (.cons .none (.lit [123, 126]) .none (.cons .none (.ident (bytes "exp")) .none (.cons .none (.lit [126,
    125]) .none .nil))) (.alt (.cons .none (.lit [123, 124]) .none (.cons .none (.ident (bytes "exp")) .none (.cons .none (.lit [124, 125]) .none
    .nil))) (.alt (.cons .none (.lit [123, 43]) .none (.cons .none (.ident (bytes "exp")) .none (.cons .none (.lit [43, 125]) .none .nil))) (.alt
    (.cons .none (.lit [123]) .none (.cons .none (.ident (bytes "exp")) .none (.cons .none (.lit [125]) .none .nil))) (.alt (.cons .none (.lit [46])
    .none .nil) (.one (.cons .none (.ident (bytes "name")) .none (.cons .none (.ident (bytes "S")) .none (.cons .not (.ident (bytes "arrow")) .none
    .nil)))))))))))))))),
  (bytes "grammar", .one (.cons .none (.ident (bytes "definition")) .plus .nil)),
  (bytes "definition", .one (.cons .none (.ident (bytes "name")) .none (.cons .none (.ident (bytes "S")) .none (.cons .none (.ident (bytes "arrow"))
    .none (.cons .none (.ident (bytes "exp")) .none .nil))))),
  (bytes "class", .one (.cons .none (.lit [91]) .none (.cons .none (.lit [94]) .opt (.cons .none (.ident (bytes "item")) .none (.cons .none (.paren
    (.one (.cons .not (.lit [93]) .none (.cons .none (.ident (bytes "item")) .none .nil)))) .star (.cons .none (.lit [93]) .none .nil)))))),
  (bytes "item", .alt (.cons .none (.ident (bytes "defined")) .none .nil) (.alt (.cons .none (.ident (bytes "range")) .none .nil) (.one (.cons .none
    .dot .none .nil)))),
  (bytes "range", .one (.cons .none .dot .none (.cons .none (.lit [45]) .none (.cons .none (.paren (.one (.cons .not (.lit [93]) .none (.cons .none
    .dot .none .nil)))) .none .nil)))),
  (bytes "S", .one (.cons .none (.paren (.alt (.cons .none (.ident (bytes "space")) .none .nil) (.one (.cons .none (.ident (bytes "comment")) .none
    .nil)))) .star .nil)),
  (bytes "name", .one (.cons .none (.cls false [.range 65 90, .range 97 122]) .none (.cons .none (.cls false [.range 65 90, .range 97 122, .range 48
    57, .one 95]) .star .nil))),
  (bytes "arrow", .one (.cons .none (.lit [60, 45]) .none .nil)),
  (bytes "num", .one (.cons .none (.cls false [.range 48 57]) .plus .nil)),
  (bytes "string", .alt (.cons .none (.lit [34]) .none (.cons .none (.paren (.one (.cons .not (.lit [34]) .none (.cons .none .dot .none .nil)))) .star
    (.cons .none (.lit [34]) .none .nil))) (.one (.cons .none (.lit [39]) .none (.cons .none (.paren (.one (.cons .not (.lit [39]) .none (.cons .none
    .dot .none .nil)))) .star (.cons .none (.lit [39]) .none .nil))))),
  (bytes "defined", .one (.cons .none (.lit [37]) .none (.cons .none (.ident (bytes "name")) .none .nil))),
  (bytes "comment", .one (.cons .none (.lit [35]) .none (.cons .none (.paren (.one (.cons .not (.ident (bytes "eol")) .none (.cons .none .dot .none
    .nil)))) .star (.cons .none (.ident (bytes "eol")) .none .nil)))),
  (bytes "space", .alt (.cons .none (.lit [32]) .none .nil) (.alt (.cons .none (.lit [9]) .none .nil) (.one (.cons .none (.ident (bytes "eol")) .none
    .nil)))),
  (bytes "eol", .alt (.cons .none (.lit [13, 10]) .none .nil) (.alt (.cons .none (.lit [10]) .none .nil) (.one (.cons .none (.lit [13]) .none .nil))))]

/-- The file writes the definitions. -/
theorem lpeg_text : TopS (.gram lpegGram) lpegFile := by
  rw [lpeg_eq]
  exact topGramB_sound (by decide +kernel)

/-- `grammars/re.peg`, the whole file. -/
def reFile : List UInt8 := bytes "Pattern    <- Spacing_ (Expression / Grammar) EndOfFile_
Grammar    <- Definition+
Definition <- Identifier '<-' Expression

Expression <- Sequence ('/' Sequence)*
Sequence   <- Prefix*
Prefix     <- (AND / NOT)? Suffix
Suffix     <- Primary (QUESTION / STAR / PLUS)?
Primary    <- Identifier !'<-'
            / '(' Expression ')'
            / Literal / Class
            / '{' Expression '}'
            / '{+' Expression '+}'
            / DOT

# Lexical syntax
Identifier <- IdentStart IdentCont* Spacing_
IdentStart <- [a-zA-Z_]
IdentCont  <- IdentStart / [0-9]

Literal    <- ['] (!['] Char)* ['] Spacing_
            / [\"] (![\"] Char)* [\"] Spacing_
Class      <- '[' CARAT? (!']' Range)* ']' Spacing_
Range      <- Char '-' Char / Char
Char       <- '\\\\' [nrt'\"\\[\\]\\\\]
            / '\\\\' [0-2][0-7][0-7]
            / '\\\\' [0-7][0-7]?
            / !'\\\\' .

AND        <- '&' Spacing_
NOT        <- '!' Spacing_
QUESTION   <- '?' Spacing_
STAR       <- '*' Spacing_
PLUS       <- '+' Spacing_
DOT        <- '.' Spacing_
CARAT      <- '^' Spacing_

Spacing_   <- (Space_ / Comment_)*
Comment_   <- '#' (!EndOfLine_ .)* EndOfLine_
Space_     <- ' ' / '\\t' / EndOfLine_
EndOfLine_ <- '\\r\\n' / '\\n' / '\\r'
EndOfFile_ <- !.
"

theorem re_eq : reFile =
  [80, 97, 116, 116, 101, 114, 110, 32, 32, 32, 32, 60, 45, 32, 83, 112, 97, 99, 105, 110, 103, 95, 32, 40, 69, 120, 112, 114, 101, 115, 115, 105,
   111, 110, 32, 47, 32, 71, 114, 97, 109, 109, 97, 114, 41, 32, 69, 110, 100, 79, 102, 70, 105, 108, 101, 95, 10, 71, 114, 97, 109, 109, 97, 114, 32,
   32, 32, 32, 60, 45, 32, 68, 101, 102, 105, 110, 105, 116, 105, 111, 110, 43, 10, 68, 101, 102, 105, 110, 105, 116, 105, 111, 110, 32, 60, 45, 32,
   73, 100, 101, 110, 116, 105, 102, 105, 101, 114, 32, 39, 60, 45, 39, 32, 69, 120, 112, 114, 101, 115, 115, 105, 111, 110, 10, 10, 69, 120, 112,
   114, 101, 115, 115, 105, 111, 110, 32, 60, 45, 32, 83, 101, 113, 117, 101, 110, 99, 101, 32, 40, 39, 47, 39, 32, 83, 101, 113, 117, 101, 110, 99,
   101, 41, 42, 10, 83, 101, 113, 117, 101, 110, 99, 101, 32, 32, 32, 60, 45, 32, 80, 114, 101, 102, 105, 120, 42, 10, 80, 114, 101, 102, 105, 120,
   32, 32, 32, 32, 32, 60, 45, 32, 40, 65, 78, 68, 32, 47, 32, 78, 79, 84, 41, 63, 32, 83, 117, 102, 102, 105, 120, 10, 83, 117, 102, 102, 105, 120,
   32, 32, 32, 32, 32, 60, 45, 32, 80, 114, 105, 109, 97, 114, 121, 32, 40, 81, 85, 69, 83, 84, 73, 79, 78, 32, 47, 32, 83, 84, 65, 82, 32, 47, 32,
   80, 76, 85, 83, 41, 63, 10, 80, 114, 105, 109, 97, 114, 121, 32, 32, 32, 32, 60, 45, 32, 73, 100, 101, 110, 116, 105, 102, 105, 101, 114, 32, 33,
   39, 60, 45, 39, 10, 32, 32, 32, 32, 32, 32, 32, 32, 32, 32, 32, 32, 47, 32, 39, 40, 39, 32, 69, 120, 112, 114, 101, 115, 115, 105, 111, 110, 32,
   39, 41, 39, 10, 32, 32, 32, 32, 32, 32, 32, 32, 32, 32, 32, 32, 47, 32, 76, 105, 116, 101, 114, 97, 108, 32, 47, 32, 67, 108, 97, 115, 115, 10, 32,
   32, 32, 32, 32, 32, 32, 32, 32, 32, 32, 32, 47, 32, 39, 123, 39, 32, 69, 120, 112, 114, 101, 115, 115, 105, 111, 110, 32, 39, 125, 39, 10, 32, 32,
   32, 32, 32, 32, 32, 32, 32, 32, 32, 32, 47, 32, 39, 123, 43, 39, 32, 69, 120, 112, 114, 101, 115, 115, 105, 111, 110, 32, 39, 43, 125, 39, 10, 32,
   32, 32, 32, 32, 32, 32, 32, 32, 32, 32, 32, 47, 32, 68, 79, 84, 10, 10, 35, 32, 76, 101, 120, 105, 99, 97, 108, 32, 115, 121, 110, 116, 97, 120,
   10, 73, 100, 101, 110, 116, 105, 102, 105, 101, 114, 32, 60, 45, 32, 73, 100, 101, 110, 116, 83, 116, 97, 114, 116, 32, 73, 100, 101, 110, 116, 67,
   111, 110, 116, 42, 32, 83, 112, 97, 99, 105, 110, 103, 95, 10, 73, 100, 101, 110, 116, 83, 116, 97, 114, 116, 32, 60, 45, 32, 91, 97, 45, 122, 65,
   45, 90, 95, 93, 10, 73, 100, 101, 110, 116, 67, 111, 110, 116, 32, 32, 60, 45, 32, 73, 100, 101, 110, 116, 83, 116, 97, 114, 116, 32, 47, 32, 91,
   48, 45, 57, 93, 10, 10, 76, 105, 116, 101, 114, 97, 108, 32, 32, 32, 32, 60, 45, 32, 91, 39, 93, 32, 40, 33, 91, 39, 93, 32, 67, 104, 97, 114, 41,
   42, 32, 91, 39, 93, 32, 83, 112, 97, 99, 105, 110, 103, 95, 10, 32, 32, 32, 32, 32, 32, 32, 32, 32, 32, 32, 32, 47, 32, 91, 34, 93, 32, 40, 33, 91,
   34, 93, 32, 67, 104, 97, 114, 41, 42, 32, 91, 34, 93, 32, 83, 112, 97, 99, 105, 110, 103, 95, 10, 67, 108, 97, 115, 115, 32, 32, 32, 32, 32, 32,
   60, 45, 32, 39, 91, 39, 32, 67, 65, 82, 65, 84, 63, 32, 40, 33, 39, 93, 39, 32, 82, 97, 110, 103, 101, 41, 42, 32, 39, 93, 39, 32, 83, 112, 97, 99,
   105, 110, 103, 95, 10, 82, 97, 110, 103, 101, 32, 32, 32, 32, 32, 32, 60, 45, 32, 67, 104, 97, 114, 32, 39, 45, 39, 32, 67, 104, 97, 114, 32, 47,
   32, 67, 104, 97, 114, 10, 67, 104, 97, 114, 32, 32, 32, 32, 32, 32, 32, 60, 45, 32, 39, 92, 92, 39, 32, 91, 110, 114, 116, 39, 34, 92, 91, 92, 93,
   92, 92, 93, 10, 32, 32, 32, 32, 32, 32, 32, 32, 32, 32, 32, 32, 47, 32, 39, 92, 92, 39, 32, 91, 48, 45, 50, 93, 91, 48, 45, 55, 93, 91, 48, 45, 55,
   93, 10, 32, 32, 32, 32, 32, 32, 32, 32, 32, 32, 32, 32, 47, 32, 39, 92, 92, 39, 32, 91, 48, 45, 55, 93, 91, 48, 45, 55, 93, 63, 10, 32, 32, 32, 32,
   32, 32, 32, 32, 32, 32, 32, 32, 47, 32, 33, 39, 92, 92, 39, 32, 46, 10, 10, 65, 78, 68, 32, 32, 32, 32, 32, 32, 32, 32, 60, 45, 32, 39, 38, 39, 32,
   83, 112, 97, 99, 105, 110, 103, 95, 10, 78, 79, 84, 32, 32, 32, 32, 32, 32, 32, 32, 60, 45, 32, 39, 33, 39, 32, 83, 112, 97, 99, 105, 110, 103, 95,
   10, 81, 85, 69, 83, 84, 73, 79, 78, 32, 32, 32, 60, 45, 32, 39, 63, 39, 32, 83, 112, 97, 99, 105, 110, 103, 95, 10, 83, 84, 65, 82, 32, 32, 32, 32,
   32, 32, 32, 60, 45, 32, 39, 42, 39, 32, 83, 112, 97, 99, 105, 110, 103, 95, 10, 80, 76, 85, 83, 32, 32, 32, 32, 32, 32, 32, 60, 45, 32, 39, 43, 39,
   32, 83, 112, 97, 99, 105, 110, 103, 95, 10, 68, 79, 84, 32, 32, 32, 32, 32, 32, 32, 32, 60, 45, 32, 39, 46, 39, 32, 83, 112, 97, 99, 105, 110, 103,
   95, 10, 67, 65, 82, 65, 84, 32, 32, 32, 32, 32, 32, 60, 45, 32, 39, 94, 39, 32, 83, 112, 97, 99, 105, 110, 103, 95, 10, 10, 83, 112, 97, 99, 105,
   110, 103, 95, 32, 32, 32, 60, 45, 32, 40, 83, 112, 97, 99, 101, 95, 32, 47, 32, 67, 111, 109, 109, 101, 110, 116, 95, 41, 42, 10, 67, 111, 109,
   109, 101, 110, 116, 95, 32, 32, 32, 60, 45, 32, 39, 35, 39, 32, 40, 33, 69, 110, 100, 79, 102, 76, 105, 110, 101, 95, 32, 46, 41, 42, 32, 69, 110,
   100, 79, 102, 76, 105, 110, 101, 95, 10, 83, 112, 97, 99, 101, 95, 32, 32, 32, 32, 32, 60, 45, 32, 39, 32, 39, 32, 47, 32, 39, 92, 116, 39, 32, 47,
   32, 69, 110, 100, 79, 102, 76, 105, 110, 101, 95, 10, 69, 110, 100, 79, 102, 76, 105, 110, 101, 95, 32, 60, 45, 32, 39, 92, 114, 92, 110, 39, 32,
   47, 32, 39, 92, 110, 39, 32, 47, 32, 39, 92, 114, 39, 10, 69, 110, 100, 79, 102, 70, 105, 108, 101, 95, 32, 60, 45, 32, 33, 46, 10] :=
  bytes_ofList
  ['P', 'a', 't', 't', 'e', 'r', 'n', '\x20', '\x20', '\x20', '\x20', '<', '-', '\x20', 'S', 'p', 'a', 'c', 'i', 'n', 'g', '_', '\x20', '(', 'E', 'x',
   'p', 'r', 'e', 's', 's', 'i', 'o', 'n', '\x20', '/', '\x20', 'G', 'r', 'a', 'm', 'm', 'a', 'r', ')', '\x20', 'E', 'n', 'd', 'O', 'f', 'F', 'i',
   'l', 'e', '_', '\n', 'G', 'r', 'a', 'm', 'm', 'a', 'r', '\x20', '\x20', '\x20', '\x20', '<', '-', '\x20', 'D', 'e', 'f', 'i', 'n', 'i', 't', 'i',
   'o', 'n', '+', '\n', 'D', 'e', 'f', 'i', 'n', 'i', 't', 'i', 'o', 'n', '\x20', '<', '-', '\x20', 'I', 'd', 'e', 'n', 't', 'i', 'f', 'i', 'e', 'r',
   '\x20', '\'', '<', '-', '\'', '\x20', 'E', 'x', 'p', 'r', 'e', 's', 's', 'i', 'o', 'n', '\n', '\n', 'E', 'x', 'p', 'r', 'e', 's', 's', 'i', 'o',
   'n', '\x20', '<', '-', '\x20', 'S', 'e', 'q', 'u', 'e', 'n', 'c', 'e', '\x20', '(', '\'', '/', '\'', '\x20', 'S', 'e', 'q', 'u', 'e', 'n', 'c',
   'e', ')', '*', '\n', 'S', 'e', 'q', 'u', 'e', 'n', 'c', 'e', '\x20', '\x20', '\x20', '<', '-', '\x20', 'P', 'r', 'e', 'f', 'i', 'x', '*', '\n',
   'P', 'r', 'e', 'f', 'i', 'x', '\x20', '\x20', '\x20', '\x20', '\x20', '<', '-', '\x20', '(', 'A', 'N', 'D', '\x20', '/', '\x20', 'N', 'O', 'T',
   ')', '?', '\x20', 'S', 'u', 'f', 'f', 'i', 'x', '\n', 'S', 'u', 'f', 'f', 'i', 'x', '\x20', '\x20', '\x20', '\x20', '\x20', '<', '-', '\x20', 'P',
   'r', 'i', 'm', 'a', 'r', 'y', '\x20', '(', 'Q', 'U', 'E', 'S', 'T', 'I', 'O', 'N', '\x20', '/', '\x20', 'S', 'T', 'A', 'R', '\x20', '/', '\x20',
   'P', 'L', 'U', 'S', ')', '?', '\n', 'P', 'r', 'i', 'm', 'a', 'r', 'y', '\x20', '\x20', '\x20', '\x20', '<', '-', '\x20', 'I', 'd', 'e', 'n', 't',
   'i', 'f', 'i', 'e', 'r', '\x20', '!', '\'', '<', '-', '\'', '\n', '\x20', '\x20', '\x20', '\x20', '\x20', '\x20', '\x20', '\x20', '\x20', '\x20',
   '\x20', '\x20', '/', '\x20', '\'', '(', '\'', '\x20', 'E', 'x', 'p', 'r', 'e', 's', 's', 'i', 'o', 'n', '\x20', '\'', ')', '\'', '\n', '\x20',
   '\x20', '\x20', '\x20', '\x20', '\x20', '\x20', '\x20', '\x20', '\x20', '\x20', '\x20', '/', '\x20', 'L', 'i', 't', 'e', 'r', 'a', 'l', '\x20',
   '/', '\x20', 'C', 'l', 'a', 's', 's', '\n', '\x20', '\x20', '\x20', '\x20', '\x20', '\x20', '\x20', '\x20', '\x20', '\x20', '\x20', '\x20', '/',
   '\x20', '\'', '{', '\'', '\x20', 'E', 'x', 'p', 'r', 'e', 's', 's', 'i', 'o', 'n', '\x20', '\'', '}', '\'', '\n', '\x20', '\x20', '\x20', '\x20',
   '\x20', '\x20', '\x20', '\x20', '\x20', '\x20', '\x20', '\x20', '/', '\x20', '\'', '{', '+', '\'', '\x20', 'E', 'x', 'p', 'r', 'e', 's', 's', 'i',
   'o', 'n', '\x20', '\'', '+', '}', '\'', '\n', '\x20', '\x20', '\x20', '\x20', '\x20', '\x20', '\x20', '\x20', '\x20', '\x20', '\x20', '\x20', '/',
   '\x20', 'D', 'O', 'T', '\n', '\n', '#', '\x20', 'L', 'e', 'x', 'i', 'c', 'a', 'l', '\x20', 's', 'y', 'n', 't', 'a', 'x', '\n', 'I', 'd', 'e', 'n',
   't', 'i', 'f', 'i', 'e', 'r', '\x20', '<', '-', '\x20', 'I', 'd', 'e', 'n', 't', 'S', 't', 'a', 'r', 't', '\x20', 'I', 'd', 'e', 'n', 't', 'C',
   'o', 'n', 't', '*', '\x20', 'S', 'p', 'a', 'c', 'i', 'n', 'g', '_', '\n', 'I', 'd', 'e', 'n', 't', 'S', 't', 'a', 'r', 't', '\x20', '<', '-',
   '\x20', '[', 'a', '-', 'z', 'A', '-', 'Z', '_', ']', '\n', 'I', 'd', 'e', 'n', 't', 'C', 'o', 'n', 't', '\x20', '\x20', '<', '-', '\x20', 'I', 'd',
   'e', 'n', 't', 'S', 't', 'a', 'r', 't', '\x20', '/', '\x20', '[', '0', '-', '9', ']', '\n', '\n', 'L', 'i', 't', 'e', 'r', 'a', 'l', '\x20',
   '\x20', '\x20', '\x20', '<', '-', '\x20', '[', '\'', ']', '\x20', '(', '!', '[', '\'', ']', '\x20', 'C', 'h', 'a', 'r', ')', '*', '\x20', '[',
   '\'', ']', '\x20', 'S', 'p', 'a', 'c', 'i', 'n', 'g', '_', '\n', '\x20', '\x20', '\x20', '\x20', '\x20', '\x20', '\x20', '\x20', '\x20', '\x20',
   '\x20', '\x20', '/', '\x20', '[', '"', ']', '\x20', '(', '!', '[', '"', ']', '\x20', 'C', 'h', 'a', 'r', ')', '*', '\x20', '[', '"', ']', '\x20',
   'S', 'p', 'a', 'c', 'i', 'n', 'g', '_', '\n', 'C', 'l', 'a', 's', 's', '\x20', '\x20', '\x20', '\x20', '\x20', '\x20', '<', '-', '\x20', '\'', '[',
   '\'', '\x20', 'C', 'A', 'R', 'A', 'T', '?', '\x20', '(', '!', '\'', ']', '\'', '\x20', 'R', 'a', 'n', 'g', 'e', ')', '*', '\x20', '\'', ']', '\'',
   '\x20', 'S', 'p', 'a', 'c', 'i', 'n', 'g', '_', '\n', 'R', 'a', 'n', 'g', 'e', '\x20', '\x20', '\x20', '\x20', '\x20', '\x20', '<', '-', '\x20',
   'C', 'h', 'a', 'r', '\x20', '\'', '-', '\'', '\x20', 'C', 'h', 'a', 'r', '\x20', '/', '\x20', 'C', 'h', 'a', 'r', '\n', 'C', 'h', 'a', 'r', '\x20',
   '\x20', '\x20', '\x20', '\x20', '\x20', '\x20', '<', '-', '\x20', '\'', '\\', '\\', '\'', '\x20', '[', 'n', 'r', 't', '\'', '"', '\\', '[', '\\',
   ']', '\\', '\\', ']', '\n', '\x20', '\x20', '\x20', '\x20', '\x20', '\x20', '\x20', '\x20', '\x20', '\x20', '\x20', '\x20', '/', '\x20', '\'',
   '\\', '\\', '\'', '\x20', '[', '0', '-', '2', ']', '[', '0', '-', '7', ']', '[', '0', '-', '7', ']', '\n', '\x20', '\x20', '\x20', '\x20', '\x20',
   '\x20', '\x20', '\x20', '\x20', '\x20', '\x20', '\x20', '/', '\x20', '\'', '\\', '\\', '\'', '\x20', '[', '0', '-', '7', ']', '[', '0', '-', '7',
   ']', '?', '\n', '\x20', '\x20', '\x20', '\x20', '\x20', '\x20', '\x20', '\x20', '\x20', '\x20', '\x20', '\x20', '/', '\x20', '!', '\'', '\\', '\\',
   '\'', '\x20', '.', '\n', '\n', 'A', 'N', 'D', '\x20', '\x20', '\x20', '\x20', '\x20', '\x20', '\x20', '\x20', '<', '-', '\x20', '\'', '&', '\'',
   '\x20', 'S', 'p', 'a', 'c', 'i', 'n', 'g', '_', '\n', 'N', 'O', 'T', '\x20', '\x20', '\x20', '\x20', '\x20', '\x20', '\x20', '\x20', '<', '-',
   '\x20', '\'', '!', '\'', '\x20', 'S', 'p', 'a', 'c', 'i', 'n', 'g', '_', '\n', 'Q', 'U', 'E', 'S', 'T', 'I', 'O', 'N', '\x20', '\x20', '\x20', '<',
   '-', '\x20', '\'', '?', '\'', '\x20', 'S', 'p', 'a', 'c', 'i', 'n', 'g', '_', '\n', 'S', 'T', 'A', 'R', '\x20', '\x20', '\x20', '\x20', '\x20',
   '\x20', '\x20', '<', '-', '\x20', '\'', '*', '\'', '\x20', 'S', 'p', 'a', 'c', 'i', 'n', 'g', '_', '\n', 'P', 'L', 'U', 'S', '\x20', '\x20',
   '\x20', '\x20', '\x20', '\x20', '\x20', '<', '-', '\x20', '\'', '+', '\'', '\x20', 'S', 'p', 'a', 'c', 'i', 'n', 'g', '_', '\n', 'D', 'O', 'T',
   '\x20', '\x20', '\x20', '\x20', '\x20', '\x20', '\x20', '\x20', '<', '-', '\x20', '\'', '.', '\'', '\x20', 'S', 'p', 'a', 'c', 'i', 'n', 'g', '_',
   '\n', 'C', 'A', 'R', 'A', 'T', '\x20', '\x20', '\x20', '\x20', '\x20', '\x20', '<', '-', '\x20', '\'', '^', '\'', '\x20', 'S', 'p', 'a', 'c', 'i',
   'n', 'g', '_', '\n', '\n', 'S', 'p', 'a', 'c', 'i', 'n', 'g', '_', '\x20', '\x20', '\x20', '<', '-', '\x20', '(', 'S', 'p', 'a', 'c', 'e', '_',
   '\x20', '/', '\x20', 'C', 'o', 'm', 'm', 'e', 'n', 't', '_', ')', '*', '\n', 'C', 'o', 'm', 'm', 'e', 'n', 't', '_', '\x20', '\x20', '\x20', '<',
   '-', '\x20', '\'', '#', '\'', '\x20', '(', '!', 'E', 'n', 'd', 'O', 'f', 'L', 'i', 'n', 'e', '_', '\x20', '.', ')', '*', '\x20', 'E', 'n', 'd',
   'O', 'f', 'L', 'i', 'n', 'e', '_', '\n', 'S', 'p', 'a', 'c', 'e', '_', '\x20', '\x20', '\x20', '\x20', '\x20', '<', '-', '\x20', '\'', '\x20',
   '\'', '\x20', '/', '\x20', '\'', '\\', 't', '\'', '\x20', '/', '\x20', 'E', 'n', 'd', 'O', 'f', 'L', 'i', 'n', 'e', '_', '\n', 'E', 'n', 'd', 'O',
   'f', 'L', 'i', 'n', 'e', '_', '\x20', '<', '-', '\x20', '\'', '\\', 'r', '\\', 'n', '\'', '\x20', '/', '\x20', '\'', '\\', 'n', '\'', '\x20', '/',
   '\x20', '\'', '\\', 'r', '\'', '\n', 'E', 'n', 'd', 'O', 'f', 'F', 'i', 'l', 'e', '_', '\x20', '<', '-', '\x20', '!', '.', '\n']

/-- The definitions of `grammars/re.peg`. -/
def reGram : Gram := [
  (bytes "Pattern", .one (.cons .none (.ident (bytes "Spacing_")) .none (.cons .none (.paren (.alt (.cons .none (.ident (bytes "Expression")) .none
    .nil) (.one (.cons .none (.ident (bytes "Grammar")) .none .nil)))) .none (.cons .none (.ident (bytes "EndOfFile_")) .none .nil)))),
  (bytes "Grammar", .one (.cons .none (.ident (bytes "Definition")) .plus .nil)),
  (bytes "Definition", .one (.cons .none (.ident (bytes "Identifier")) .none (.cons .none (.lit [60, 45]) .none (.cons .none (.ident (bytes
    "Expression")) .none .nil)))),
  (bytes "Expression", .one (.cons .none (.ident (bytes "Sequence")) .none (.cons .none (.paren (.one (.cons .none (.lit [47]) .none (.cons .none
    (.ident (bytes "Sequence")) .none .nil)))) .star .nil))),
  (bytes "Sequence", .one (.cons .none (.ident (bytes "Prefix")) .star .nil)),
  (bytes "Prefix", .one (.cons .none (.paren (.alt (.cons .none (.ident (bytes "AND")) .none .nil) (.one (.cons .none (.ident (bytes "NOT")) .none
    .nil)))) .opt (.cons .none (.ident (bytes "Suffix")) .none .nil))),
  (bytes "Suffix", .one (.cons .none (.ident (bytes "Primary")) .none (.cons .none (.paren (.alt (.cons .none (.ident (bytes "QUESTION")) .none .nil)
    (.alt (.cons .none (.ident (bytes "STAR")) .none .nil) (.one (.cons .none (.ident (bytes "PLUS")) .none .nil))))) .opt .nil))),
  (bytes "Primary", .alt (.cons .none (.ident (bytes "Identifier")) .none (.cons .not (.lit [60, 45]) .none .nil)) (.alt (.cons .none (.lit [40])
    .none (.cons .none (.ident (bytes "Expression")) .none (.cons .none (.lit [41]) .none .nil))) (.alt (.cons .none (.ident (bytes "Literal")) .none
    .nil) (.alt (.cons .none (.ident (bytes "Class")) .none .nil) (.alt (.cons .none (.lit [123]) .none (.cons .none (.ident (bytes "Expression"))
    .none (.cons .none (.lit [125]) .none .nil))) (.alt (.cons .none (.lit [123, 43]) .none (.cons .none (.ident (bytes "Expression")) .none (.cons
    .none (.lit [43, 125]) .none .nil))) (.one (.cons .none (.ident (bytes "DOT")) .none .nil)))))))),
  (bytes "Identifier", .one (.cons .none (.ident (bytes "IdentStart")) .none (.cons .none (.ident (bytes "IdentCont")) .star (.cons .none (.ident
    (bytes "Spacing_")) .none .nil)))),
  (bytes "IdentStart", .one (.cons .none (.cls false [.range 97 122, .range 65 90, .one 95]) .none .nil)),
  (bytes "IdentCont", .alt (.cons .none (.ident (bytes "IdentStart")) .none .nil) (.one (.cons .none (.cls false [.range 48 57]) .none .nil))),
  (bytes "Literal", .alt (.cons .none (.cls false [.one 39]) .none (.cons .none (.paren (.one (.cons .not (.cls false [.one 39]) .none (.cons .none
    (.ident (bytes "Char")) .none .nil)))) .star (.cons .none (.cls false [.one 39]) .none (.cons .none (.ident (bytes "Spacing_")) .none .nil))))
    (.one (.cons .none (.cls false [.one 34]) .none (.cons .none (.paren (.one (.cons .not (.cls false [.one 34]) .none (.cons .none (.ident (bytes
    "Char")) .none .nil)))) .star (.cons .none (.cls false [.one 34]) .none (.cons .none (.ident (bytes "Spacing_")) .none .nil)))))),
  (bytes "Class", .one (.cons .none (.lit [91]) .none (.cons .none (.ident (bytes "CARAT")) .opt (.cons .none (.paren (.one (.cons .not (.lit [93])
    .none (.cons .none (.ident (bytes "Range")) .none .nil)))) .star (.cons .none (.lit [93]) .none (.cons .none (.ident (bytes "Spacing_")) .none
    .nil)))))),
  (bytes "Range", .alt (.cons .none (.ident (bytes "Char")) .none (.cons .none (.lit [45]) .none (.cons .none (.ident (bytes "Char")) .none .nil)))
    (.one (.cons .none (.ident (bytes "Char")) .none .nil))),
  (bytes "Char", .alt (.cons .none (.lit [92]) .none (.cons .none (.cls false [.one 110, .one 114, .one 116, .one 39, .one 34, .one 91, .one 93, .one
    92]) .none .nil)) (.alt (.cons .none (.lit [92]) .none (.cons .none (.cls false [.range 48 50]) .none (.cons .none (.cls false [.range 48 55])
    .none (.cons .none (.cls false [.range 48 55]) .none .nil)))) (.alt (.cons .none (.lit [92]) .none (.cons .none (.cls false [.range 48 55]) .none
    (.cons .none (.cls false [.range 48 55]) .opt .nil))) (.one (.cons .not (.lit [92]) .none (.cons .none .dot .none .nil)))))),
  (bytes "AND", .one (.cons .none (.lit [38]) .none (.cons .none (.ident (bytes "Spacing_")) .none .nil))),
  (bytes "NOT", .one (.cons .none (.lit [33]) .none (.cons .none (.ident (bytes "Spacing_")) .none .nil))),
  (bytes "QUESTION", .one (.cons .none (.lit [63]) .none (.cons .none (.ident (bytes "Spacing_")) .none .nil))),
  (bytes "STAR", .one (.cons .none (.lit [42]) .none (.cons .none (.ident (bytes "Spacing_")) .none .nil))),
  (bytes "PLUS", .one (.cons .none (.lit [43]) .none (.cons .none (.ident (bytes "Spacing_")) .none .nil))),
  (bytes "DOT", .one (.cons .none (.lit [46]) .none (.cons .none (.ident (bytes "Spacing_")) .none .nil))),
  (bytes "CARAT", .one (.cons .none (.lit [94]) .none (.cons .none (.ident (bytes "Spacing_")) .none .nil))),
  (bytes "Spacing_", .one (.cons .none (.paren (.alt (.cons .none (.ident (bytes "Space_")) .none .nil) (.one (.cons .none (.ident (bytes "Comment_"))
    .none .nil)))) .star .nil)),
  (bytes "Comment_", .one (.cons .none (.lit [35]) .none (.cons .none (.paren (.one (.cons .not (.ident (bytes "EndOfLine_")) .none (.cons .none .dot
    .none .nil)))) .star (.cons .none (.ident (bytes "EndOfLine_")) .none .nil)))),
  (bytes "Space_", .alt (.cons .none (.lit [32]) .none .nil) (.alt (.cons .none (.lit [9]) .none .nil) (.one (.cons .none (.ident (bytes
    "EndOfLine_")) .none .nil)))),
  (bytes "EndOfLine_", .alt (.cons .none (.lit [13, 10]) .none .nil) (.alt (.cons .none (.lit [10]) .none .nil) (.one (.cons .none (.lit [13]) .none
    .nil)))),
  (bytes "EndOfFile_", .one (.cons .not .dot .none .nil))]

/-- The file writes the definitions. -/
theorem re_text : TopS (.gram reGram) reFile := by
  rw [re_eq]
  exact topGramB_sound (by decide +kernel)

end Gpeg.Re
