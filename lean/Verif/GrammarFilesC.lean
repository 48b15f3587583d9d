import Verif.GrammarFiles
/-!
# The grammar file `grammars/c.peg`
-/
namespace Gpeg.Re

set_option maxRecDepth 100000


/-- `grammars/c.peg:1-30` -/
def cFile1 : List UInt8 := bytes "#===========================================================================
#
#  Parsing Expression Grammar of C for Mouse 1.1 - 1.5.
#  Based on standard ISO/IEC 9899.1999:TC2, without preprocessor.
#  Requires semantics class to process Typedefs.
#
#---------------------------------------------------------------------------
#
#  Copyright (C) 2007, 2009, 2010 by Roman R Redziejowski (www.romanredz.se).
#
#  The author gives unlimited permission to copy and distribute
#  this file, with or without modifications, as long as this notice
#  is preserved, and any changes are properly documented.
#
#  This file is distributed in the hope that it will be useful,
#  but WITHOUT ANY WARRANTY; without even the implied warranty of
#  MERCHANTABILITY or FITNESS FOR A PARTICULAR PURPOSE.
#
#---------------------------------------------------------------------------
#
#  Latest update 2010-11-19
#
#---------------------------------------------------------------------------
#
#  Modifications to the standard grammar:
#
#    Defined # as start of line comment.
#    Added FunctionSpecifier \"_stdcall\".
#    Added TypeQualifier \"__declspec()\".
#    Added TypeSpecifier \"__attribute__()\".
"

theorem c_eq1 : cFile1 =
  [35, 61, 61, 61, 61, 61, 61, 61, 61, 61, 61, 61, 61, 61, 61, 61, 61, 61, 61, 61, 61, 61, 61, 61, 61, 61, 61, 61, 61, 61, 61, 61, 61, 61, 61, 61, 61,
   61, 61, 61, 61, 61, 61, 61, 61, 61, 61, 61, 61, 61, 61, 61, 61, 61, 61, 61, 61, 61, 61, 61, 61, 61, 61, 61, 61, 61, 61, 61, 61, 61, 61, 61, 61, 61,
   61, 61, 10, 35, 10, 35, 32, 32, 80, 97, 114, 115, 105, 110, 103, 32, 69, 120, 112, 114, 101, 115, 115, 105, 111, 110, 32, 71, 114, 97, 109, 109,
   97, 114, 32, 111, 102, 32, 67, 32, 102, 111, 114, 32, 77, 111, 117, 115, 101, 32, 49, 46, 49, 32, 45, 32, 49, 46, 53, 46, 10, 35, 32, 32, 66, 97,
   115, 101, 100, 32, 111, 110, 32, 115, 116, 97, 110, 100, 97, 114, 100, 32, 73, 83, 79, 47, 73, 69, 67, 32, 57, 56, 57, 57, 46, 49, 57, 57, 57, 58,
   84, 67, 50, 44, 32, 119, 105, 116, 104, 111, 117, 116, 32, 112, 114, 101, 112, 114, 111, 99, 101, 115, 115, 111, 114, 46, 10, 35, 32, 32, 82, 101,
   113, 117, 105, 114, 101, 115, 32, 115, 101, 109, 97, 110, 116, 105, 99, 115, 32, 99, 108, 97, 115, 115, 32, 116, 111, 32, 112, 114, 111, 99, 101,
   115, 115, 32, 84, 121, 112, 101, 100, 101, 102, 115, 46, 10, 35, 10, 35, 45, 45, 45, 45, 45, 45, 45, 45, 45, 45, 45, 45, 45, 45, 45, 45, 45, 45,
   45, 45, 45, 45, 45, 45, 45, 45, 45, 45, 45, 45, 45, 45, 45, 45, 45, 45, 45, 45, 45, 45, 45, 45, 45, 45, 45, 45, 45, 45, 45, 45, 45, 45, 45, 45, 45,
   45, 45, 45, 45, 45, 45, 45, 45, 45, 45, 45, 45, 45, 45, 45, 45, 45, 45, 45, 45, 10, 35, 10, 35, 32, 32, 67, 111, 112, 121, 114, 105, 103, 104, 116,
   32, 40, 67, 41, 32, 50, 48, 48, 55, 44, 32, 50, 48, 48, 57, 44, 32, 50, 48, 49, 48, 32, 98, 121, 32, 82, 111, 109, 97, 110, 32, 82, 32, 82, 101,
   100, 122, 105, 101, 106, 111, 119, 115, 107, 105, 32, 40, 119, 119, 119, 46, 114, 111, 109, 97, 110, 114, 101, 100, 122, 46, 115, 101, 41, 46, 10,
   35, 10, 35, 32, 32, 84, 104, 101, 32, 97, 117, 116, 104, 111, 114, 32, 103, 105, 118, 101, 115, 32, 117, 110, 108, 105, 109, 105, 116, 101, 100,
   32, 112, 101, 114, 109, 105, 115, 115, 105, 111, 110, 32, 116, 111, 32, 99, 111, 112, 121, 32, 97, 110, 100, 32, 100, 105, 115, 116, 114, 105, 98,
   117, 116, 101, 10, 35, 32, 32, 116, 104, 105, 115, 32, 102, 105, 108, 101, 44, 32, 119, 105, 116, 104, 32, 111, 114, 32, 119, 105, 116, 104, 111,
   117, 116, 32, 109, 111, 100, 105, 102, 105, 99, 97, 116, 105, 111, 110, 115, 44, 32, 97, 115, 32, 108, 111, 110, 103, 32, 97, 115, 32, 116, 104,
   105, 115, 32, 110, 111, 116, 105, 99, 101, 10, 35, 32, 32, 105, 115, 32, 112, 114, 101, 115, 101, 114, 118, 101, 100, 44, 32, 97, 110, 100, 32, 97,
   110, 121, 32, 99, 104, 97, 110, 103, 101, 115, 32, 97, 114, 101, 32, 112, 114, 111, 112, 101, 114, 108, 121, 32, 100, 111, 99, 117, 109, 101, 110,
   116, 101, 100, 46, 10, 35, 10, 35, 32, 32, 84, 104, 105, 115, 32, 102, 105, 108, 101, 32, 105, 115, 32, 100, 105, 115, 116, 114, 105, 98, 117, 116,
   101, 100, 32, 105, 110, 32, 116, 104, 101, 32, 104, 111, 112, 101, 32, 116, 104, 97, 116, 32, 105, 116, 32, 119, 105, 108, 108, 32, 98, 101, 32,
   117, 115, 101, 102, 117, 108, 44, 10, 35, 32, 32, 98, 117, 116, 32, 87, 73, 84, 72, 79, 85, 84, 32, 65, 78, 89, 32, 87, 65, 82, 82, 65, 78, 84, 89,
   59, 32, 119, 105, 116, 104, 111, 117, 116, 32, 101, 118, 101, 110, 32, 116, 104, 101, 32, 105, 109, 112, 108, 105, 101, 100, 32, 119, 97, 114, 114,
   97, 110, 116, 121, 32, 111, 102, 10, 35, 32, 32, 77, 69, 82, 67, 72, 65, 78, 84, 65, 66, 73, 76, 73, 84, 89, 32, 111, 114, 32, 70, 73, 84, 78, 69,
   83, 83, 32, 70, 79, 82, 32, 65, 32, 80, 65, 82, 84, 73, 67, 85, 76, 65, 82, 32, 80, 85, 82, 80, 79, 83, 69, 46, 10, 35, 10, 35, 45, 45, 45, 45, 45,
   45, 45, 45, 45, 45, 45, 45, 45, 45, 45, 45, 45, 45, 45, 45, 45, 45, 45, 45, 45, 45, 45, 45, 45, 45, 45, 45, 45, 45, 45, 45, 45, 45, 45, 45, 45, 45,
   45, 45, 45, 45, 45, 45, 45, 45, 45, 45, 45, 45, 45, 45, 45, 45, 45, 45, 45, 45, 45, 45, 45, 45, 45, 45, 45, 45, 45, 45, 45, 45, 45, 10, 35, 10, 35,
   32, 32, 76, 97, 116, 101, 115, 116, 32, 117, 112, 100, 97, 116, 101, 32, 50, 48, 49, 48, 45, 49, 49, 45, 49, 57, 10, 35, 10, 35, 45, 45, 45, 45,
   45, 45, 45, 45, 45, 45, 45, 45, 45, 45, 45, 45, 45, 45, 45, 45, 45, 45, 45, 45, 45, 45, 45, 45, 45, 45, 45, 45, 45, 45, 45, 45, 45, 45, 45, 45, 45,
   45, 45, 45, 45, 45, 45, 45, 45, 45, 45, 45, 45, 45, 45, 45, 45, 45, 45, 45, 45, 45, 45, 45, 45, 45, 45, 45, 45, 45, 45, 45, 45, 45, 45, 10, 35, 10,
   35, 32, 32, 77, 111, 100, 105, 102, 105, 99, 97, 116, 105, 111, 110, 115, 32, 116, 111, 32, 116, 104, 101, 32, 115, 116, 97, 110, 100, 97, 114,
   100, 32, 103, 114, 97, 109, 109, 97, 114, 58, 10, 35, 10, 35, 32, 32, 32, 32, 68, 101, 102, 105, 110, 101, 100, 32, 35, 32, 97, 115, 32, 115, 116,
   97, 114, 116, 32, 111, 102, 32, 108, 105, 110, 101, 32, 99, 111, 109, 109, 101, 110, 116, 46, 10, 35, 32, 32, 32, 32, 65, 100, 100, 101, 100, 32,
   70, 117, 110, 99, 116, 105, 111, 110, 83, 112, 101, 99, 105, 102, 105, 101, 114, 32, 34, 95, 115, 116, 100, 99, 97, 108, 108, 34, 46, 10, 35, 32,
   32, 32, 32, 65, 100, 100, 101, 100, 32, 84, 121, 112, 101, 81, 117, 97, 108, 105, 102, 105, 101, 114, 32, 34, 95, 95, 100, 101, 99, 108, 115, 112,
   101, 99, 40, 41, 34, 46, 10, 35, 32, 32, 32, 32, 65, 100, 100, 101, 100, 32, 84, 121, 112, 101, 83, 112, 101, 99, 105, 102, 105, 101, 114, 32, 34,
   95, 95, 97, 116, 116, 114, 105, 98, 117, 116, 101, 95, 95, 40, 41, 34, 46, 10] :=
  bytes_ofList
  ['#', '=', '=', '=', '=', '=', '=', '=', '=', '=', '=', '=', '=', '=', '=', '=', '=', '=', '=', '=', '=', '=', '=', '=', '=', '=', '=', '=', '=',
   '=', '=', '=', '=', '=', '=', '=', '=', '=', '=', '=', '=', '=', '=', '=', '=', '=', '=', '=', '=', '=', '=', '=', '=', '=', '=', '=', '=', '=',
   '=', '=', '=', '=', '=', '=', '=', '=', '=', '=', '=', '=', '=', '=', '=', '=', '=', '=', '\n', '#', '\n', '#', '\x20', '\x20', 'P', 'a', 'r', 's',
   'i', 'n', 'g', '\x20', 'E', 'x', 'p', 'r', 'e', 's', 's', 'i', 'o', 'n', '\x20', 'G', 'r', 'a', 'm', 'm', 'a', 'r', '\x20', 'o', 'f', '\x20', 'C',
   '\x20', 'f', 'o', 'r', '\x20', 'M', 'o', 'u', 's', 'e', '\x20', '1', '.', '1', '\x20', '-', '\x20', '1', '.', '5', '.', '\n', '#', '\x20', '\x20',
   'B', 'a', 's', 'e', 'd', '\x20', 'o', 'n', '\x20', 's', 't', 'a', 'n', 'd', 'a', 'r', 'd', '\x20', 'I', 'S', 'O', '/', 'I', 'E', 'C', '\x20', '9',
   '8', '9', '9', '.', '1', '9', '9', '9', ':', 'T', 'C', '2', ',', '\x20', 'w', 'i', 't', 'h', 'o', 'u', 't', '\x20', 'p', 'r', 'e', 'p', 'r', 'o',
   'c', 'e', 's', 's', 'o', 'r', '.', '\n', '#', '\x20', '\x20', 'R', 'e', 'q', 'u', 'i', 'r', 'e', 's', '\x20', 's', 'e', 'm', 'a', 'n', 't', 'i',
   'c', 's', '\x20', 'c', 'l', 'a', 's', 's', '\x20', 't', 'o', '\x20', 'p', 'r', 'o', 'c', 'e', 's', 's', '\x20', 'T', 'y', 'p', 'e', 'd', 'e', 'f',
   's', '.', '\n', '#', '\n', '#', '-', '-', '-', '-', '-', '-', '-', '-', '-', '-', '-', '-', '-', '-', '-', '-', '-', '-', '-', '-', '-', '-', '-',
   '-', '-', '-', '-', '-', '-', '-', '-', '-', '-', '-', '-', '-', '-', '-', '-', '-', '-', '-', '-', '-', '-', '-', '-', '-', '-', '-', '-', '-',
   '-', '-', '-', '-', '-', '-', '-', '-', '-', '-', '-', '-', '-', '-', '-', '-', '-', '-', '-', '-', '-', '-', '-', '\n', '#', '\n', '#', '\x20',
   '\x20', 'C', 'o', 'p', 'y', 'r', 'i', 'g', 'h', 't', '\x20', '(', 'C', ')', '\x20', '2', '0', '0', '7', ',', '\x20', '2', '0', '0', '9', ',',
   '\x20', '2', '0', '1', '0', '\x20', 'b', 'y', '\x20', 'R', 'o', 'm', 'a', 'n', '\x20', 'R', '\x20', 'R', 'e', 'd', 'z', 'i', 'e', 'j', 'o', 'w',
   's', 'k', 'i', '\x20', '(', 'w', 'w', 'w', '.', 'r', 'o', 'm', 'a', 'n', 'r', 'e', 'd', 'z', '.', 's', 'e', ')', '.', '\n', '#', '\n', '#', '\x20',
   '\x20', 'T', 'h', 'e', '\x20', 'a', 'u', 't', 'h', 'o', 'r', '\x20', 'g', 'i', 'v', 'e', 's', '\x20', 'u', 'n', 'l', 'i', 'm', 'i', 't', 'e', 'd',
   '\x20', 'p', 'e', 'r', 'm', 'i', 's', 's', 'i', 'o', 'n', '\x20', 't', 'o', '\x20', 'c', 'o', 'p', 'y', '\x20', 'a', 'n', 'd', '\x20', 'd', 'i',
   's', 't', 'r', 'i', 'b', 'u', 't', 'e', '\n', '#', '\x20', '\x20', 't', 'h', 'i', 's', '\x20', 'f', 'i', 'l', 'e', ',', '\x20', 'w', 'i', 't', 'h',
   '\x20', 'o', 'r', '\x20', 'w', 'i', 't', 'h', 'o', 'u', 't', '\x20', 'm', 'o', 'd', 'i', 'f', 'i', 'c', 'a', 't', 'i', 'o', 'n', 's', ',', '\x20',
   'a', 's', '\x20', 'l', 'o', 'n', 'g', '\x20', 'a', 's', '\x20', 't', 'h', 'i', 's', '\x20', 'n', 'o', 't', 'i', 'c', 'e', '\n', '#', '\x20',
   '\x20', 'i', 's', '\x20', 'p', 'r', 'e', 's', 'e', 'r', 'v', 'e', 'd', ',', '\x20', 'a', 'n', 'd', '\x20', 'a', 'n', 'y', '\x20', 'c', 'h', 'a',
   'n', 'g', 'e', 's', '\x20', 'a', 'r', 'e', '\x20', 'p', 'r', 'o', 'p', 'e', 'r', 'l', 'y', '\x20', 'd', 'o', 'c', 'u', 'm', 'e', 'n', 't', 'e',
   'd', '.', '\n', '#', '\n', '#', '\x20', '\x20', 'T', 'h', 'i', 's', '\x20', 'f', 'i', 'l', 'e', '\x20', 'i', 's', '\x20', 'd', 'i', 's', 't', 'r',
   'i', 'b', 'u', 't', 'e', 'd', '\x20', 'i', 'n', '\x20', 't', 'h', 'e', '\x20', 'h', 'o', 'p', 'e', '\x20', 't', 'h', 'a', 't', '\x20', 'i', 't',
   '\x20', 'w', 'i', 'l', 'l', '\x20', 'b', 'e', '\x20', 'u', 's', 'e', 'f', 'u', 'l', ',', '\n', '#', '\x20', '\x20', 'b', 'u', 't', '\x20', 'W',
   'I', 'T', 'H', 'O', 'U', 'T', '\x20', 'A', 'N', 'Y', '\x20', 'W', 'A', 'R', 'R', 'A', 'N', 'T', 'Y', ';', '\x20', 'w', 'i', 't', 'h', 'o', 'u',
   't', '\x20', 'e', 'v', 'e', 'n', '\x20', 't', 'h', 'e', '\x20', 'i', 'm', 'p', 'l', 'i', 'e', 'd', '\x20', 'w', 'a', 'r', 'r', 'a', 'n', 't', 'y',
   '\x20', 'o', 'f', '\n', '#', '\x20', '\x20', 'M', 'E', 'R', 'C', 'H', 'A', 'N', 'T', 'A', 'B', 'I', 'L', 'I', 'T', 'Y', '\x20', 'o', 'r', '\x20',
   'F', 'I', 'T', 'N', 'E', 'S', 'S', '\x20', 'F', 'O', 'R', '\x20', 'A', '\x20', 'P', 'A', 'R', 'T', 'I', 'C', 'U', 'L', 'A', 'R', '\x20', 'P', 'U',
   'R', 'P', 'O', 'S', 'E', '.', '\n', '#', '\n', '#', '-', '-', '-', '-', '-', '-', '-', '-', '-', '-', '-', '-', '-', '-', '-', '-', '-', '-', '-',
   '-', '-', '-', '-', '-', '-', '-', '-', '-', '-', '-', '-', '-', '-', '-', '-', '-', '-', '-', '-', '-', '-', '-', '-', '-', '-', '-', '-', '-',
   '-', '-', '-', '-', '-', '-', '-', '-', '-', '-', '-', '-', '-', '-', '-', '-', '-', '-', '-', '-', '-', '-', '-', '-', '-', '-', '-', '\n', '#',
   '\n', '#', '\x20', '\x20', 'L', 'a', 't', 'e', 's', 't', '\x20', 'u', 'p', 'd', 'a', 't', 'e', '\x20', '2', '0', '1', '0', '-', '1', '1', '-', '1',
   '9', '\n', '#', '\n', '#', '-', '-', '-', '-', '-', '-', '-', '-', '-', '-', '-', '-', '-', '-', '-', '-', '-', '-', '-', '-', '-', '-', '-', '-',
   '-', '-', '-', '-', '-', '-', '-', '-', '-', '-', '-', '-', '-', '-', '-', '-', '-', '-', '-', '-', '-', '-', '-', '-', '-', '-', '-', '-', '-',
   '-', '-', '-', '-', '-', '-', '-', '-', '-', '-', '-', '-', '-', '-', '-', '-', '-', '-', '-', '-', '-', '-', '\n', '#', '\n', '#', '\x20', '\x20',
   'M', 'o', 'd', 'i', 'f', 'i', 'c', 'a', 't', 'i', 'o', 'n', 's', '\x20', 't', 'o', '\x20', 't', 'h', 'e', '\x20', 's', 't', 'a', 'n', 'd', 'a',
   'r', 'd', '\x20', 'g', 'r', 'a', 'm', 'm', 'a', 'r', ':', '\n', '#', '\n', '#', '\x20', '\x20', '\x20', '\x20', 'D', 'e', 'f', 'i', 'n', 'e', 'd',
   '\x20', '#', '\x20', 'a', 's', '\x20', 's', 't', 'a', 'r', 't', '\x20', 'o', 'f', '\x20', 'l', 'i', 'n', 'e', '\x20', 'c', 'o', 'm', 'm', 'e', 'n',
   't', '.', '\n', '#', '\x20', '\x20', '\x20', '\x20', 'A', 'd', 'd', 'e', 'd', '\x20', 'F', 'u', 'n', 'c', 't', 'i', 'o', 'n', 'S', 'p', 'e', 'c',
   'i', 'f', 'i', 'e', 'r', '\x20', '"', '_', 's', 't', 'd', 'c', 'a', 'l', 'l', '"', '.', '\n', '#', '\x20', '\x20', '\x20', '\x20', 'A', 'd', 'd',
   'e', 'd', '\x20', 'T', 'y', 'p', 'e', 'Q', 'u', 'a', 'l', 'i', 'f', 'i', 'e', 'r', '\x20', '"', '_', '_', 'd', 'e', 'c', 'l', 's', 'p', 'e', 'c',
   '(', ')', '"', '.', '\n', '#', '\x20', '\x20', '\x20', '\x20', 'A', 'd', 'd', 'e', 'd', '\x20', 'T', 'y', 'p', 'e', 'S', 'p', 'e', 'c', 'i', 'f',
   'i', 'e', 'r', '\x20', '"', '_', '_', 'a', 't', 't', 'r', 'i', 'b', 'u', 't', 'e', '_', '_', '(', ')', '"', '.', '\n']

/-- `grammars/c.peg:31-56` -/
def cFile2 : List UInt8 := bytes "#    The scope of TypedefNames is not implemented.
#
#---------------------------------------------------------------------------
#
#  Implementation of typedefs.
#
#  A TypedefName is an Identifier that has been declared as such
#  by a previous typedef declaration. It can be used as TypeSpecifier
#  in DeclarationSpecifiers and SpecifierQualifierList.
#  Recognizing it as such is essential for correct parsing.
#  In other contexts, TypedefName is treated as an ordinary Identifier.
#
#  According to 6.7.2, comment 2, of the Standard, TypedefName can appear
#  in DeclarationSpecifiers or SpecifierQualifierList at most once,
#  and then as the only TypeSpecifier. To make sure that an Identifer
#  is recognized as TypedefName only in these contexts, definitions
#  of these items are changed as follows:
#
#  - TypedefName is removed as an alternative of TypeSpecifier.
#
#  - DeclarationSpecifiers and SpecifierQualifierList are redefined
#    to allow either single TypedefName or one or more TypeSpecifiers.
#
#  The semantics class, via semantic actions, maintains a table of TypedefNames.
#
#  The rule defining TypedefName as Identifier has a semantic action
"

theorem c_eq2 : cFile2 =
  [35, 32, 32, 32, 32, 84, 104, 101, 32, 115, 99, 111, 112, 101, 32, 111, 102, 32, 84, 121, 112, 101, 100, 101, 102, 78, 97, 109, 101, 115, 32, 105,
   115, 32, 110, 111, 116, 32, 105, 109, 112, 108, 101, 109, 101, 110, 116, 101, 100, 46, 10, 35, 10, 35, 45, 45, 45, 45, 45, 45, 45, 45, 45, 45, 45,
   45, 45, 45, 45, 45, 45, 45, 45, 45, 45, 45, 45, 45, 45, 45, 45, 45, 45, 45, 45, 45, 45, 45, 45, 45, 45, 45, 45, 45, 45, 45, 45, 45, 45, 45, 45, 45,
   45, 45, 45, 45, 45, 45, 45, 45, 45, 45, 45, 45, 45, 45, 45, 45, 45, 45, 45, 45, 45, 45, 45, 45, 45, 45, 45, 10, 35, 10, 35, 32, 32, 73, 109, 112,
   108, 101, 109, 101, 110, 116, 97, 116, 105, 111, 110, 32, 111, 102, 32, 116, 121, 112, 101, 100, 101, 102, 115, 46, 10, 35, 10, 35, 32, 32, 65, 32,
   84, 121, 112, 101, 100, 101, 102, 78, 97, 109, 101, 32, 105, 115, 32, 97, 110, 32, 73, 100, 101, 110, 116, 105, 102, 105, 101, 114, 32, 116, 104,
   97, 116, 32, 104, 97, 115, 32, 98, 101, 101, 110, 32, 100, 101, 99, 108, 97, 114, 101, 100, 32, 97, 115, 32, 115, 117, 99, 104, 10, 35, 32, 32, 98,
   121, 32, 97, 32, 112, 114, 101, 118, 105, 111, 117, 115, 32, 116, 121, 112, 101, 100, 101, 102, 32, 100, 101, 99, 108, 97, 114, 97, 116, 105, 111,
   110, 46, 32, 73, 116, 32, 99, 97, 110, 32, 98, 101, 32, 117, 115, 101, 100, 32, 97, 115, 32, 84, 121, 112, 101, 83, 112, 101, 99, 105, 102, 105,
   101, 114, 10, 35, 32, 32, 105, 110, 32, 68, 101, 99, 108, 97, 114, 97, 116, 105, 111, 110, 83, 112, 101, 99, 105, 102, 105, 101, 114, 115, 32, 97,
   110, 100, 32, 83, 112, 101, 99, 105, 102, 105, 101, 114, 81, 117, 97, 108, 105, 102, 105, 101, 114, 76, 105, 115, 116, 46, 10, 35, 32, 32, 82, 101,
   99, 111, 103, 110, 105, 122, 105, 110, 103, 32, 105, 116, 32, 97, 115, 32, 115, 117, 99, 104, 32, 105, 115, 32, 101, 115, 115, 101, 110, 116, 105,
   97, 108, 32, 102, 111, 114, 32, 99, 111, 114, 114, 101, 99, 116, 32, 112, 97, 114, 115, 105, 110, 103, 46, 10, 35, 32, 32, 73, 110, 32, 111, 116,
   104, 101, 114, 32, 99, 111, 110, 116, 101, 120, 116, 115, 44, 32, 84, 121, 112, 101, 100, 101, 102, 78, 97, 109, 101, 32, 105, 115, 32, 116, 114,
   101, 97, 116, 101, 100, 32, 97, 115, 32, 97, 110, 32, 111, 114, 100, 105, 110, 97, 114, 121, 32, 73, 100, 101, 110, 116, 105, 102, 105, 101, 114,
   46, 10, 35, 10, 35, 32, 32, 65, 99, 99, 111, 114, 100, 105, 110, 103, 32, 116, 111, 32, 54, 46, 55, 46, 50, 44, 32, 99, 111, 109, 109, 101, 110,
   116, 32, 50, 44, 32, 111, 102, 32, 116, 104, 101, 32, 83, 116, 97, 110, 100, 97, 114, 100, 44, 32, 84, 121, 112, 101, 100, 101, 102, 78, 97, 109,
   101, 32, 99, 97, 110, 32, 97, 112, 112, 101, 97, 114, 10, 35, 32, 32, 105, 110, 32, 68, 101, 99, 108, 97, 114, 97, 116, 105, 111, 110, 83, 112,
   101, 99, 105, 102, 105, 101, 114, 115, 32, 111, 114, 32, 83, 112, 101, 99, 105, 102, 105, 101, 114, 81, 117, 97, 108, 105, 102, 105, 101, 114, 76,
   105, 115, 116, 32, 97, 116, 32, 109, 111, 115, 116, 32, 111, 110, 99, 101, 44, 10, 35, 32, 32, 97, 110, 100, 32, 116, 104, 101, 110, 32, 97, 115,
   32, 116, 104, 101, 32, 111, 110, 108, 121, 32, 84, 121, 112, 101, 83, 112, 101, 99, 105, 102, 105, 101, 114, 46, 32, 84, 111, 32, 109, 97, 107,
   101, 32, 115, 117, 114, 101, 32, 116, 104, 97, 116, 32, 97, 110, 32, 73, 100, 101, 110, 116, 105, 102, 101, 114, 10, 35, 32, 32, 105, 115, 32, 114,
   101, 99, 111, 103, 110, 105, 122, 101, 100, 32, 97, 115, 32, 84, 121, 112, 101, 100, 101, 102, 78, 97, 109, 101, 32, 111, 110, 108, 121, 32, 105,
   110, 32, 116, 104, 101, 115, 101, 32, 99, 111, 110, 116, 101, 120, 116, 115, 44, 32, 100, 101, 102, 105, 110, 105, 116, 105, 111, 110, 115, 10, 35,
   32, 32, 111, 102, 32, 116, 104, 101, 115, 101, 32, 105, 116, 101, 109, 115, 32, 97, 114, 101, 32, 99, 104, 97, 110, 103, 101, 100, 32, 97, 115, 32,
   102, 111, 108, 108, 111, 119, 115, 58, 10, 35, 10, 35, 32, 32, 45, 32, 84, 121, 112, 101, 100, 101, 102, 78, 97, 109, 101, 32, 105, 115, 32, 114,
   101, 109, 111, 118, 101, 100, 32, 97, 115, 32, 97, 110, 32, 97, 108, 116, 101, 114, 110, 97, 116, 105, 118, 101, 32, 111, 102, 32, 84, 121, 112,
   101, 83, 112, 101, 99, 105, 102, 105, 101, 114, 46, 10, 35, 10, 35, 32, 32, 45, 32, 68, 101, 99, 108, 97, 114, 97, 116, 105, 111, 110, 83, 112,
   101, 99, 105, 102, 105, 101, 114, 115, 32, 97, 110, 100, 32, 83, 112, 101, 99, 105, 102, 105, 101, 114, 81, 117, 97, 108, 105, 102, 105, 101, 114,
   76, 105, 115, 116, 32, 97, 114, 101, 32, 114, 101, 100, 101, 102, 105, 110, 101, 100, 10, 35, 32, 32, 32, 32, 116, 111, 32, 97, 108, 108, 111, 119,
   32, 101, 105, 116, 104, 101, 114, 32, 115, 105, 110, 103, 108, 101, 32, 84, 121, 112, 101, 100, 101, 102, 78, 97, 109, 101, 32, 111, 114, 32, 111,
   110, 101, 32, 111, 114, 32, 109, 111, 114, 101, 32, 84, 121, 112, 101, 83, 112, 101, 99, 105, 102, 105, 101, 114, 115, 46, 10, 35, 10, 35, 32, 32,
   84, 104, 101, 32, 115, 101, 109, 97, 110, 116, 105, 99, 115, 32, 99, 108, 97, 115, 115, 44, 32, 118, 105, 97, 32, 115, 101, 109, 97, 110, 116, 105,
   99, 32, 97, 99, 116, 105, 111, 110, 115, 44, 32, 109, 97, 105, 110, 116, 97, 105, 110, 115, 32, 97, 32, 116, 97, 98, 108, 101, 32, 111, 102, 32,
   84, 121, 112, 101, 100, 101, 102, 78, 97, 109, 101, 115, 46, 10, 35, 10, 35, 32, 32, 84, 104, 101, 32, 114, 117, 108, 101, 32, 100, 101, 102, 105,
   110, 105, 110, 103, 32, 84, 121, 112, 101, 100, 101, 102, 78, 97, 109, 101, 32, 97, 115, 32, 73, 100, 101, 110, 116, 105, 102, 105, 101, 114, 32,
   104, 97, 115, 32, 97, 32, 115, 101, 109, 97, 110, 116, 105, 99, 32, 97, 99, 116, 105, 111, 110, 10] :=
  bytes_ofList
  ['#', '\x20', '\x20', '\x20', '\x20', 'T', 'h', 'e', '\x20', 's', 'c', 'o', 'p', 'e', '\x20', 'o', 'f', '\x20', 'T', 'y', 'p', 'e', 'd', 'e', 'f',
   'N', 'a', 'm', 'e', 's', '\x20', 'i', 's', '\x20', 'n', 'o', 't', '\x20', 'i', 'm', 'p', 'l', 'e', 'm', 'e', 'n', 't', 'e', 'd', '.', '\n', '#',
   '\n', '#', '-', '-', '-', '-', '-', '-', '-', '-', '-', '-', '-', '-', '-', '-', '-', '-', '-', '-', '-', '-', '-', '-', '-', '-', '-', '-', '-',
   '-', '-', '-', '-', '-', '-', '-', '-', '-', '-', '-', '-', '-', '-', '-', '-', '-', '-', '-', '-', '-', '-', '-', '-', '-', '-', '-', '-', '-',
   '-', '-', '-', '-', '-', '-', '-', '-', '-', '-', '-', '-', '-', '-', '-', '-', '-', '-', '-', '\n', '#', '\n', '#', '\x20', '\x20', 'I', 'm', 'p',
   'l', 'e', 'm', 'e', 'n', 't', 'a', 't', 'i', 'o', 'n', '\x20', 'o', 'f', '\x20', 't', 'y', 'p', 'e', 'd', 'e', 'f', 's', '.', '\n', '#', '\n', '#',
   '\x20', '\x20', 'A', '\x20', 'T', 'y', 'p', 'e', 'd', 'e', 'f', 'N', 'a', 'm', 'e', '\x20', 'i', 's', '\x20', 'a', 'n', '\x20', 'I', 'd', 'e', 'n',
   't', 'i', 'f', 'i', 'e', 'r', '\x20', 't', 'h', 'a', 't', '\x20', 'h', 'a', 's', '\x20', 'b', 'e', 'e', 'n', '\x20', 'd', 'e', 'c', 'l', 'a', 'r',
   'e', 'd', '\x20', 'a', 's', '\x20', 's', 'u', 'c', 'h', '\n', '#', '\x20', '\x20', 'b', 'y', '\x20', 'a', '\x20', 'p', 'r', 'e', 'v', 'i', 'o',
   'u', 's', '\x20', 't', 'y', 'p', 'e', 'd', 'e', 'f', '\x20', 'd', 'e', 'c', 'l', 'a', 'r', 'a', 't', 'i', 'o', 'n', '.', '\x20', 'I', 't', '\x20',
   'c', 'a', 'n', '\x20', 'b', 'e', '\x20', 'u', 's', 'e', 'd', '\x20', 'a', 's', '\x20', 'T', 'y', 'p', 'e', 'S', 'p', 'e', 'c', 'i', 'f', 'i', 'e',
   'r', '\n', '#', '\x20', '\x20', 'i', 'n', '\x20', 'D', 'e', 'c', 'l', 'a', 'r', 'a', 't', 'i', 'o', 'n', 'S', 'p', 'e', 'c', 'i', 'f', 'i', 'e',
   'r', 's', '\x20', 'a', 'n', 'd', '\x20', 'S', 'p', 'e', 'c', 'i', 'f', 'i', 'e', 'r', 'Q', 'u', 'a', 'l', 'i', 'f', 'i', 'e', 'r', 'L', 'i', 's',
   't', '.', '\n', '#', '\x20', '\x20', 'R', 'e', 'c', 'o', 'g', 'n', 'i', 'z', 'i', 'n', 'g', '\x20', 'i', 't', '\x20', 'a', 's', '\x20', 's', 'u',
   'c', 'h', '\x20', 'i', 's', '\x20', 'e', 's', 's', 'e', 'n', 't', 'i', 'a', 'l', '\x20', 'f', 'o', 'r', '\x20', 'c', 'o', 'r', 'r', 'e', 'c', 't',
   '\x20', 'p', 'a', 'r', 's', 'i', 'n', 'g', '.', '\n', '#', '\x20', '\x20', 'I', 'n', '\x20', 'o', 't', 'h', 'e', 'r', '\x20', 'c', 'o', 'n', 't',
   'e', 'x', 't', 's', ',', '\x20', 'T', 'y', 'p', 'e', 'd', 'e', 'f', 'N', 'a', 'm', 'e', '\x20', 'i', 's', '\x20', 't', 'r', 'e', 'a', 't', 'e',
   'd', '\x20', 'a', 's', '\x20', 'a', 'n', '\x20', 'o', 'r', 'd', 'i', 'n', 'a', 'r', 'y', '\x20', 'I', 'd', 'e', 'n', 't', 'i', 'f', 'i', 'e', 'r',
   '.', '\n', '#', '\n', '#', '\x20', '\x20', 'A', 'c', 'c', 'o', 'r', 'd', 'i', 'n', 'g', '\x20', 't', 'o', '\x20', '6', '.', '7', '.', '2', ',',
   '\x20', 'c', 'o', 'm', 'm', 'e', 'n', 't', '\x20', '2', ',', '\x20', 'o', 'f', '\x20', 't', 'h', 'e', '\x20', 'S', 't', 'a', 'n', 'd', 'a', 'r',
   'd', ',', '\x20', 'T', 'y', 'p', 'e', 'd', 'e', 'f', 'N', 'a', 'm', 'e', '\x20', 'c', 'a', 'n', '\x20', 'a', 'p', 'p', 'e', 'a', 'r', '\n', '#',
   '\x20', '\x20', 'i', 'n', '\x20', 'D', 'e', 'c', 'l', 'a', 'r', 'a', 't', 'i', 'o', 'n', 'S', 'p', 'e', 'c', 'i', 'f', 'i', 'e', 'r', 's', '\x20',
   'o', 'r', '\x20', 'S', 'p', 'e', 'c', 'i', 'f', 'i', 'e', 'r', 'Q', 'u', 'a', 'l', 'i', 'f', 'i', 'e', 'r', 'L', 'i', 's', 't', '\x20', 'a', 't',
   '\x20', 'm', 'o', 's', 't', '\x20', 'o', 'n', 'c', 'e', ',', '\n', '#', '\x20', '\x20', 'a', 'n', 'd', '\x20', 't', 'h', 'e', 'n', '\x20', 'a',
   's', '\x20', 't', 'h', 'e', '\x20', 'o', 'n', 'l', 'y', '\x20', 'T', 'y', 'p', 'e', 'S', 'p', 'e', 'c', 'i', 'f', 'i', 'e', 'r', '.', '\x20', 'T',
   'o', '\x20', 'm', 'a', 'k', 'e', '\x20', 's', 'u', 'r', 'e', '\x20', 't', 'h', 'a', 't', '\x20', 'a', 'n', '\x20', 'I', 'd', 'e', 'n', 't', 'i',
   'f', 'e', 'r', '\n', '#', '\x20', '\x20', 'i', 's', '\x20', 'r', 'e', 'c', 'o', 'g', 'n', 'i', 'z', 'e', 'd', '\x20', 'a', 's', '\x20', 'T', 'y',
   'p', 'e', 'd', 'e', 'f', 'N', 'a', 'm', 'e', '\x20', 'o', 'n', 'l', 'y', '\x20', 'i', 'n', '\x20', 't', 'h', 'e', 's', 'e', '\x20', 'c', 'o', 'n',
   't', 'e', 'x', 't', 's', ',', '\x20', 'd', 'e', 'f', 'i', 'n', 'i', 't', 'i', 'o', 'n', 's', '\n', '#', '\x20', '\x20', 'o', 'f', '\x20', 't', 'h',
   'e', 's', 'e', '\x20', 'i', 't', 'e', 'm', 's', '\x20', 'a', 'r', 'e', '\x20', 'c', 'h', 'a', 'n', 'g', 'e', 'd', '\x20', 'a', 's', '\x20', 'f',
   'o', 'l', 'l', 'o', 'w', 's', ':', '\n', '#', '\n', '#', '\x20', '\x20', '-', '\x20', 'T', 'y', 'p', 'e', 'd', 'e', 'f', 'N', 'a', 'm', 'e',
   '\x20', 'i', 's', '\x20', 'r', 'e', 'm', 'o', 'v', 'e', 'd', '\x20', 'a', 's', '\x20', 'a', 'n', '\x20', 'a', 'l', 't', 'e', 'r', 'n', 'a', 't',
   'i', 'v', 'e', '\x20', 'o', 'f', '\x20', 'T', 'y', 'p', 'e', 'S', 'p', 'e', 'c', 'i', 'f', 'i', 'e', 'r', '.', '\n', '#', '\n', '#', '\x20',
   '\x20', '-', '\x20', 'D', 'e', 'c', 'l', 'a', 'r', 'a', 't', 'i', 'o', 'n', 'S', 'p', 'e', 'c', 'i', 'f', 'i', 'e', 'r', 's', '\x20', 'a', 'n',
   'd', '\x20', 'S', 'p', 'e', 'c', 'i', 'f', 'i', 'e', 'r', 'Q', 'u', 'a', 'l', 'i', 'f', 'i', 'e', 'r', 'L', 'i', 's', 't', '\x20', 'a', 'r', 'e',
   '\x20', 'r', 'e', 'd', 'e', 'f', 'i', 'n', 'e', 'd', '\n', '#', '\x20', '\x20', '\x20', '\x20', 't', 'o', '\x20', 'a', 'l', 'l', 'o', 'w', '\x20',
   'e', 'i', 't', 'h', 'e', 'r', '\x20', 's', 'i', 'n', 'g', 'l', 'e', '\x20', 'T', 'y', 'p', 'e', 'd', 'e', 'f', 'N', 'a', 'm', 'e', '\x20', 'o',
   'r', '\x20', 'o', 'n', 'e', '\x20', 'o', 'r', '\x20', 'm', 'o', 'r', 'e', '\x20', 'T', 'y', 'p', 'e', 'S', 'p', 'e', 'c', 'i', 'f', 'i', 'e', 'r',
   's', '.', '\n', '#', '\n', '#', '\x20', '\x20', 'T', 'h', 'e', '\x20', 's', 'e', 'm', 'a', 'n', 't', 'i', 'c', 's', '\x20', 'c', 'l', 'a', 's',
   's', ',', '\x20', 'v', 'i', 'a', '\x20', 's', 'e', 'm', 'a', 'n', 't', 'i', 'c', '\x20', 'a', 'c', 't', 'i', 'o', 'n', 's', ',', '\x20', 'm', 'a',
   'i', 'n', 't', 'a', 'i', 'n', 's', '\x20', 'a', '\x20', 't', 'a', 'b', 'l', 'e', '\x20', 'o', 'f', '\x20', 'T', 'y', 'p', 'e', 'd', 'e', 'f', 'N',
   'a', 'm', 'e', 's', '.', '\n', '#', '\n', '#', '\x20', '\x20', 'T', 'h', 'e', '\x20', 'r', 'u', 'l', 'e', '\x20', 'd', 'e', 'f', 'i', 'n', 'i',
   'n', 'g', '\x20', 'T', 'y', 'p', 'e', 'd', 'e', 'f', 'N', 'a', 'm', 'e', '\x20', 'a', 's', '\x20', 'I', 'd', 'e', 'n', 't', 'i', 'f', 'i', 'e',
   'r', '\x20', 'h', 'a', 's', '\x20', 'a', '\x20', 's', 'e', 'm', 'a', 'n', 't', 'i', 'c', '\x20', 'a', 'c', 't', 'i', 'o', 'n', '\n']

/-- `grammars/c.peg:57-85` -/
def cFile3 : List UInt8 := bytes "#  that returns true iff the Identifier is in the table.
#  That means TypedefName is accepted iff it is in the table.
#
#  According to 6.7.7, comment 3, of the Standard,
#  in a Declaration whose StorageClassSpecifier is TYPEDEF,
#  each Declarator defines an Identifier to be a TypedefName.
#  These Identifiers are entered into the table as follows.
#
#  - Each Identifier has itself as semantic value.
#
#  - Each DirectDeclarator starts with either Identifier
#    or Declarator in parentheses.
#    Its semantic value is either that Identifier,
#    or the Identifier obtained as semantic value of that Declarator.
#
#  - Each Declarator has as semantic value the Identifier
#    appearing in its DirectDeclarator,
#
#  - Each InitDeclarator has as semantic value the Identifier
#    appearing in its Declarator.
#
#  - InitDeclaratorList has as semantic value
#    the list of Identifiers appearing in its InitDeclarators.
#
#  - DeclarationSpecifiers has semantic value \"typedef\"
#    if any of the specifiers is \"typedef\" or null otherwise.
#
#  - Declaration has a semantic action that enters Identifiers
#    delivered by InitDeclaratorList into typedef table
"

theorem c_eq3 : cFile3 =
  [35, 32, 32, 116, 104, 97, 116, 32, 114, 101, 116, 117, 114, 110, 115, 32, 116, 114, 117, 101, 32, 105, 102, 102, 32, 116, 104, 101, 32, 73, 100,
   101, 110, 116, 105, 102, 105, 101, 114, 32, 105, 115, 32, 105, 110, 32, 116, 104, 101, 32, 116, 97, 98, 108, 101, 46, 10, 35, 32, 32, 84, 104, 97,
   116, 32, 109, 101, 97, 110, 115, 32, 84, 121, 112, 101, 100, 101, 102, 78, 97, 109, 101, 32, 105, 115, 32, 97, 99, 99, 101, 112, 116, 101, 100, 32,
   105, 102, 102, 32, 105, 116, 32, 105, 115, 32, 105, 110, 32, 116, 104, 101, 32, 116, 97, 98, 108, 101, 46, 10, 35, 10, 35, 32, 32, 65, 99, 99, 111,
   114, 100, 105, 110, 103, 32, 116, 111, 32, 54, 46, 55, 46, 55, 44, 32, 99, 111, 109, 109, 101, 110, 116, 32, 51, 44, 32, 111, 102, 32, 116, 104,
   101, 32, 83, 116, 97, 110, 100, 97, 114, 100, 44, 10, 35, 32, 32, 105, 110, 32, 97, 32, 68, 101, 99, 108, 97, 114, 97, 116, 105, 111, 110, 32, 119,
   104, 111, 115, 101, 32, 83, 116, 111, 114, 97, 103, 101, 67, 108, 97, 115, 115, 83, 112, 101, 99, 105, 102, 105, 101, 114, 32, 105, 115, 32, 84,
   89, 80, 69, 68, 69, 70, 44, 10, 35, 32, 32, 101, 97, 99, 104, 32, 68, 101, 99, 108, 97, 114, 97, 116, 111, 114, 32, 100, 101, 102, 105, 110, 101,
   115, 32, 97, 110, 32, 73, 100, 101, 110, 116, 105, 102, 105, 101, 114, 32, 116, 111, 32, 98, 101, 32, 97, 32, 84, 121, 112, 101, 100, 101, 102, 78,
   97, 109, 101, 46, 10, 35, 32, 32, 84, 104, 101, 115, 101, 32, 73, 100, 101, 110, 116, 105, 102, 105, 101, 114, 115, 32, 97, 114, 101, 32, 101, 110,
   116, 101, 114, 101, 100, 32, 105, 110, 116, 111, 32, 116, 104, 101, 32, 116, 97, 98, 108, 101, 32, 97, 115, 32, 102, 111, 108, 108, 111, 119, 115,
   46, 10, 35, 10, 35, 32, 32, 45, 32, 69, 97, 99, 104, 32, 73, 100, 101, 110, 116, 105, 102, 105, 101, 114, 32, 104, 97, 115, 32, 105, 116, 115, 101,
   108, 102, 32, 97, 115, 32, 115, 101, 109, 97, 110, 116, 105, 99, 32, 118, 97, 108, 117, 101, 46, 10, 35, 10, 35, 32, 32, 45, 32, 69, 97, 99, 104,
   32, 68, 105, 114, 101, 99, 116, 68, 101, 99, 108, 97, 114, 97, 116, 111, 114, 32, 115, 116, 97, 114, 116, 115, 32, 119, 105, 116, 104, 32, 101,
   105, 116, 104, 101, 114, 32, 73, 100, 101, 110, 116, 105, 102, 105, 101, 114, 10, 35, 32, 32, 32, 32, 111, 114, 32, 68, 101, 99, 108, 97, 114, 97,
   116, 111, 114, 32, 105, 110, 32, 112, 97, 114, 101, 110, 116, 104, 101, 115, 101, 115, 46, 10, 35, 32, 32, 32, 32, 73, 116, 115, 32, 115, 101, 109,
   97, 110, 116, 105, 99, 32, 118, 97, 108, 117, 101, 32, 105, 115, 32, 101, 105, 116, 104, 101, 114, 32, 116, 104, 97, 116, 32, 73, 100, 101, 110,
   116, 105, 102, 105, 101, 114, 44, 10, 35, 32, 32, 32, 32, 111, 114, 32, 116, 104, 101, 32, 73, 100, 101, 110, 116, 105, 102, 105, 101, 114, 32,
   111, 98, 116, 97, 105, 110, 101, 100, 32, 97, 115, 32, 115, 101, 109, 97, 110, 116, 105, 99, 32, 118, 97, 108, 117, 101, 32, 111, 102, 32, 116,
   104, 97, 116, 32, 68, 101, 99, 108, 97, 114, 97, 116, 111, 114, 46, 10, 35, 10, 35, 32, 32, 45, 32, 69, 97, 99, 104, 32, 68, 101, 99, 108, 97, 114,
   97, 116, 111, 114, 32, 104, 97, 115, 32, 97, 115, 32, 115, 101, 109, 97, 110, 116, 105, 99, 32, 118, 97, 108, 117, 101, 32, 116, 104, 101, 32, 73,
   100, 101, 110, 116, 105, 102, 105, 101, 114, 10, 35, 32, 32, 32, 32, 97, 112, 112, 101, 97, 114, 105, 110, 103, 32, 105, 110, 32, 105, 116, 115,
   32, 68, 105, 114, 101, 99, 116, 68, 101, 99, 108, 97, 114, 97, 116, 111, 114, 44, 10, 35, 10, 35, 32, 32, 45, 32, 69, 97, 99, 104, 32, 73, 110,
   105, 116, 68, 101, 99, 108, 97, 114, 97, 116, 111, 114, 32, 104, 97, 115, 32, 97, 115, 32, 115, 101, 109, 97, 110, 116, 105, 99, 32, 118, 97, 108,
   117, 101, 32, 116, 104, 101, 32, 73, 100, 101, 110, 116, 105, 102, 105, 101, 114, 10, 35, 32, 32, 32, 32, 97, 112, 112, 101, 97, 114, 105, 110,
   103, 32, 105, 110, 32, 105, 116, 115, 32, 68, 101, 99, 108, 97, 114, 97, 116, 111, 114, 46, 10, 35, 10, 35, 32, 32, 45, 32, 73, 110, 105, 116, 68,
   101, 99, 108, 97, 114, 97, 116, 111, 114, 76, 105, 115, 116, 32, 104, 97, 115, 32, 97, 115, 32, 115, 101, 109, 97, 110, 116, 105, 99, 32, 118, 97,
   108, 117, 101, 10, 35, 32, 32, 32, 32, 116, 104, 101, 32, 108, 105, 115, 116, 32, 111, 102, 32, 73, 100, 101, 110, 116, 105, 102, 105, 101, 114,
   115, 32, 97, 112, 112, 101, 97, 114, 105, 110, 103, 32, 105, 110, 32, 105, 116, 115, 32, 73, 110, 105, 116, 68, 101, 99, 108, 97, 114, 97, 116,
   111, 114, 115, 46, 10, 35, 10, 35, 32, 32, 45, 32, 68, 101, 99, 108, 97, 114, 97, 116, 105, 111, 110, 83, 112, 101, 99, 105, 102, 105, 101, 114,
   115, 32, 104, 97, 115, 32, 115, 101, 109, 97, 110, 116, 105, 99, 32, 118, 97, 108, 117, 101, 32, 34, 116, 121, 112, 101, 100, 101, 102, 34, 10, 35,
   32, 32, 32, 32, 105, 102, 32, 97, 110, 121, 32, 111, 102, 32, 116, 104, 101, 32, 115, 112, 101, 99, 105, 102, 105, 101, 114, 115, 32, 105, 115, 32,
   34, 116, 121, 112, 101, 100, 101, 102, 34, 32, 111, 114, 32, 110, 117, 108, 108, 32, 111, 116, 104, 101, 114, 119, 105, 115, 101, 46, 10, 35, 10,
   35, 32, 32, 45, 32, 68, 101, 99, 108, 97, 114, 97, 116, 105, 111, 110, 32, 104, 97, 115, 32, 97, 32, 115, 101, 109, 97, 110, 116, 105, 99, 32, 97,
   99, 116, 105, 111, 110, 32, 116, 104, 97, 116, 32, 101, 110, 116, 101, 114, 115, 32, 73, 100, 101, 110, 116, 105, 102, 105, 101, 114, 115, 10, 35,
   32, 32, 32, 32, 100, 101, 108, 105, 118, 101, 114, 101, 100, 32, 98, 121, 32, 73, 110, 105, 116, 68, 101, 99, 108, 97, 114, 97, 116, 111, 114, 76,
   105, 115, 116, 32, 105, 110, 116, 111, 32, 116, 121, 112, 101, 100, 101, 102, 32, 116, 97, 98, 108, 101, 10] :=
  bytes_ofList
  ['#', '\x20', '\x20', 't', 'h', 'a', 't', '\x20', 'r', 'e', 't', 'u', 'r', 'n', 's', '\x20', 't', 'r', 'u', 'e', '\x20', 'i', 'f', 'f', '\x20', 't',
   'h', 'e', '\x20', 'I', 'd', 'e', 'n', 't', 'i', 'f', 'i', 'e', 'r', '\x20', 'i', 's', '\x20', 'i', 'n', '\x20', 't', 'h', 'e', '\x20', 't', 'a',
   'b', 'l', 'e', '.', '\n', '#', '\x20', '\x20', 'T', 'h', 'a', 't', '\x20', 'm', 'e', 'a', 'n', 's', '\x20', 'T', 'y', 'p', 'e', 'd', 'e', 'f', 'N',
   'a', 'm', 'e', '\x20', 'i', 's', '\x20', 'a', 'c', 'c', 'e', 'p', 't', 'e', 'd', '\x20', 'i', 'f', 'f', '\x20', 'i', 't', '\x20', 'i', 's', '\x20',
   'i', 'n', '\x20', 't', 'h', 'e', '\x20', 't', 'a', 'b', 'l', 'e', '.', '\n', '#', '\n', '#', '\x20', '\x20', 'A', 'c', 'c', 'o', 'r', 'd', 'i',
   'n', 'g', '\x20', 't', 'o', '\x20', '6', '.', '7', '.', '7', ',', '\x20', 'c', 'o', 'm', 'm', 'e', 'n', 't', '\x20', '3', ',', '\x20', 'o', 'f',
   '\x20', 't', 'h', 'e', '\x20', 'S', 't', 'a', 'n', 'd', 'a', 'r', 'd', ',', '\n', '#', '\x20', '\x20', 'i', 'n', '\x20', 'a', '\x20', 'D', 'e',
   'c', 'l', 'a', 'r', 'a', 't', 'i', 'o', 'n', '\x20', 'w', 'h', 'o', 's', 'e', '\x20', 'S', 't', 'o', 'r', 'a', 'g', 'e', 'C', 'l', 'a', 's', 's',
   'S', 'p', 'e', 'c', 'i', 'f', 'i', 'e', 'r', '\x20', 'i', 's', '\x20', 'T', 'Y', 'P', 'E', 'D', 'E', 'F', ',', '\n', '#', '\x20', '\x20', 'e', 'a',
   'c', 'h', '\x20', 'D', 'e', 'c', 'l', 'a', 'r', 'a', 't', 'o', 'r', '\x20', 'd', 'e', 'f', 'i', 'n', 'e', 's', '\x20', 'a', 'n', '\x20', 'I', 'd',
   'e', 'n', 't', 'i', 'f', 'i', 'e', 'r', '\x20', 't', 'o', '\x20', 'b', 'e', '\x20', 'a', '\x20', 'T', 'y', 'p', 'e', 'd', 'e', 'f', 'N', 'a', 'm',
   'e', '.', '\n', '#', '\x20', '\x20', 'T', 'h', 'e', 's', 'e', '\x20', 'I', 'd', 'e', 'n', 't', 'i', 'f', 'i', 'e', 'r', 's', '\x20', 'a', 'r', 'e',
   '\x20', 'e', 'n', 't', 'e', 'r', 'e', 'd', '\x20', 'i', 'n', 't', 'o', '\x20', 't', 'h', 'e', '\x20', 't', 'a', 'b', 'l', 'e', '\x20', 'a', 's',
   '\x20', 'f', 'o', 'l', 'l', 'o', 'w', 's', '.', '\n', '#', '\n', '#', '\x20', '\x20', '-', '\x20', 'E', 'a', 'c', 'h', '\x20', 'I', 'd', 'e', 'n',
   't', 'i', 'f', 'i', 'e', 'r', '\x20', 'h', 'a', 's', '\x20', 'i', 't', 's', 'e', 'l', 'f', '\x20', 'a', 's', '\x20', 's', 'e', 'm', 'a', 'n', 't',
   'i', 'c', '\x20', 'v', 'a', 'l', 'u', 'e', '.', '\n', '#', '\n', '#', '\x20', '\x20', '-', '\x20', 'E', 'a', 'c', 'h', '\x20', 'D', 'i', 'r', 'e',
   'c', 't', 'D', 'e', 'c', 'l', 'a', 'r', 'a', 't', 'o', 'r', '\x20', 's', 't', 'a', 'r', 't', 's', '\x20', 'w', 'i', 't', 'h', '\x20', 'e', 'i',
   't', 'h', 'e', 'r', '\x20', 'I', 'd', 'e', 'n', 't', 'i', 'f', 'i', 'e', 'r', '\n', '#', '\x20', '\x20', '\x20', '\x20', 'o', 'r', '\x20', 'D',
   'e', 'c', 'l', 'a', 'r', 'a', 't', 'o', 'r', '\x20', 'i', 'n', '\x20', 'p', 'a', 'r', 'e', 'n', 't', 'h', 'e', 's', 'e', 's', '.', '\n', '#',
   '\x20', '\x20', '\x20', '\x20', 'I', 't', 's', '\x20', 's', 'e', 'm', 'a', 'n', 't', 'i', 'c', '\x20', 'v', 'a', 'l', 'u', 'e', '\x20', 'i', 's',
   '\x20', 'e', 'i', 't', 'h', 'e', 'r', '\x20', 't', 'h', 'a', 't', '\x20', 'I', 'd', 'e', 'n', 't', 'i', 'f', 'i', 'e', 'r', ',', '\n', '#', '\x20',
   '\x20', '\x20', '\x20', 'o', 'r', '\x20', 't', 'h', 'e', '\x20', 'I', 'd', 'e', 'n', 't', 'i', 'f', 'i', 'e', 'r', '\x20', 'o', 'b', 't', 'a', 'i',
   'n', 'e', 'd', '\x20', 'a', 's', '\x20', 's', 'e', 'm', 'a', 'n', 't', 'i', 'c', '\x20', 'v', 'a', 'l', 'u', 'e', '\x20', 'o', 'f', '\x20', 't',
   'h', 'a', 't', '\x20', 'D', 'e', 'c', 'l', 'a', 'r', 'a', 't', 'o', 'r', '.', '\n', '#', '\n', '#', '\x20', '\x20', '-', '\x20', 'E', 'a', 'c',
   'h', '\x20', 'D', 'e', 'c', 'l', 'a', 'r', 'a', 't', 'o', 'r', '\x20', 'h', 'a', 's', '\x20', 'a', 's', '\x20', 's', 'e', 'm', 'a', 'n', 't', 'i',
   'c', '\x20', 'v', 'a', 'l', 'u', 'e', '\x20', 't', 'h', 'e', '\x20', 'I', 'd', 'e', 'n', 't', 'i', 'f', 'i', 'e', 'r', '\n', '#', '\x20', '\x20',
   '\x20', '\x20', 'a', 'p', 'p', 'e', 'a', 'r', 'i', 'n', 'g', '\x20', 'i', 'n', '\x20', 'i', 't', 's', '\x20', 'D', 'i', 'r', 'e', 'c', 't', 'D',
   'e', 'c', 'l', 'a', 'r', 'a', 't', 'o', 'r', ',', '\n', '#', '\n', '#', '\x20', '\x20', '-', '\x20', 'E', 'a', 'c', 'h', '\x20', 'I', 'n', 'i',
   't', 'D', 'e', 'c', 'l', 'a', 'r', 'a', 't', 'o', 'r', '\x20', 'h', 'a', 's', '\x20', 'a', 's', '\x20', 's', 'e', 'm', 'a', 'n', 't', 'i', 'c',
   '\x20', 'v', 'a', 'l', 'u', 'e', '\x20', 't', 'h', 'e', '\x20', 'I', 'd', 'e', 'n', 't', 'i', 'f', 'i', 'e', 'r', '\n', '#', '\x20', '\x20',
   '\x20', '\x20', 'a', 'p', 'p', 'e', 'a', 'r', 'i', 'n', 'g', '\x20', 'i', 'n', '\x20', 'i', 't', 's', '\x20', 'D', 'e', 'c', 'l', 'a', 'r', 'a',
   't', 'o', 'r', '.', '\n', '#', '\n', '#', '\x20', '\x20', '-', '\x20', 'I', 'n', 'i', 't', 'D', 'e', 'c', 'l', 'a', 'r', 'a', 't', 'o', 'r', 'L',
   'i', 's', 't', '\x20', 'h', 'a', 's', '\x20', 'a', 's', '\x20', 's', 'e', 'm', 'a', 'n', 't', 'i', 'c', '\x20', 'v', 'a', 'l', 'u', 'e', '\n', '#',
   '\x20', '\x20', '\x20', '\x20', 't', 'h', 'e', '\x20', 'l', 'i', 's', 't', '\x20', 'o', 'f', '\x20', 'I', 'd', 'e', 'n', 't', 'i', 'f', 'i', 'e',
   'r', 's', '\x20', 'a', 'p', 'p', 'e', 'a', 'r', 'i', 'n', 'g', '\x20', 'i', 'n', '\x20', 'i', 't', 's', '\x20', 'I', 'n', 'i', 't', 'D', 'e', 'c',
   'l', 'a', 'r', 'a', 't', 'o', 'r', 's', '.', '\n', '#', '\n', '#', '\x20', '\x20', '-', '\x20', 'D', 'e', 'c', 'l', 'a', 'r', 'a', 't', 'i', 'o',
   'n', 'S', 'p', 'e', 'c', 'i', 'f', 'i', 'e', 'r', 's', '\x20', 'h', 'a', 's', '\x20', 's', 'e', 'm', 'a', 'n', 't', 'i', 'c', '\x20', 'v', 'a',
   'l', 'u', 'e', '\x20', '"', 't', 'y', 'p', 'e', 'd', 'e', 'f', '"', '\n', '#', '\x20', '\x20', '\x20', '\x20', 'i', 'f', '\x20', 'a', 'n', 'y',
   '\x20', 'o', 'f', '\x20', 't', 'h', 'e', '\x20', 's', 'p', 'e', 'c', 'i', 'f', 'i', 'e', 'r', 's', '\x20', 'i', 's', '\x20', '"', 't', 'y', 'p',
   'e', 'd', 'e', 'f', '"', '\x20', 'o', 'r', '\x20', 'n', 'u', 'l', 'l', '\x20', 'o', 't', 'h', 'e', 'r', 'w', 'i', 's', 'e', '.', '\n', '#', '\n',
   '#', '\x20', '\x20', '-', '\x20', 'D', 'e', 'c', 'l', 'a', 'r', 'a', 't', 'i', 'o', 'n', '\x20', 'h', 'a', 's', '\x20', 'a', '\x20', 's', 'e', 'm',
   'a', 'n', 't', 'i', 'c', '\x20', 'a', 'c', 't', 'i', 'o', 'n', '\x20', 't', 'h', 'a', 't', '\x20', 'e', 'n', 't', 'e', 'r', 's', '\x20', 'I', 'd',
   'e', 'n', 't', 'i', 'f', 'i', 'e', 'r', 's', '\n', '#', '\x20', '\x20', '\x20', '\x20', 'd', 'e', 'l', 'i', 'v', 'e', 'r', 'e', 'd', '\x20', 'b',
   'y', '\x20', 'I', 'n', 'i', 't', 'D', 'e', 'c', 'l', 'a', 'r', 'a', 't', 'o', 'r', 'L', 'i', 's', 't', '\x20', 'i', 'n', 't', 'o', '\x20', 't',
   'y', 'p', 'e', 'd', 'e', 'f', '\x20', 't', 'a', 'b', 'l', 'e', '\n']

/-- `grammars/c.peg:86-124` -/
def cFile4 : List UInt8 := bytes "#    if DeclarationSpecifiers indicate \"typedef\".
#
#
#---------------------------------------------------------------------------
#
#  Change log
#    2009-07-13 Posted on Internet.
#    2010-11-19 Removed superfluous '?' after 'Spacing'.
#
#===========================================================================


#-------------------------------------------------------------------------
#  A.2.4  External definitions
#-------------------------------------------------------------------------

TranslationUnit <- Spacing ( ExternalDeclaration / SEMI ) * EOT

ExternalDeclaration <- FunctionDefinition / Declaration

FunctionDefinition <- DeclarationSpecifiers Declarator DeclarationList? CompoundStatement

DeclarationList <- Declaration+


#-------------------------------------------------------------------------
#  A.2.2  Declarations
#-------------------------------------------------------------------------

Declaration <- DeclarationSpecifiers InitDeclaratorList? SEMI #{}

DeclarationSpecifiers
   <- (( StorageClassSpecifier
       / TypeQualifier
       / FunctionSpecifier
       )*
       TypedefName
       ( StorageClassSpecifier
       / TypeQualifier
"

theorem c_eq4 : cFile4 =
  [35, 32, 32, 32, 32, 105, 102, 32, 68, 101, 99, 108, 97, 114, 97, 116, 105, 111, 110, 83, 112, 101, 99, 105, 102, 105, 101, 114, 115, 32, 105, 110,
   100, 105, 99, 97, 116, 101, 32, 34, 116, 121, 112, 101, 100, 101, 102, 34, 46, 10, 35, 10, 35, 10, 35, 45, 45, 45, 45, 45, 45, 45, 45, 45, 45, 45,
   45, 45, 45, 45, 45, 45, 45, 45, 45, 45, 45, 45, 45, 45, 45, 45, 45, 45, 45, 45, 45, 45, 45, 45, 45, 45, 45, 45, 45, 45, 45, 45, 45, 45, 45, 45, 45,
   45, 45, 45, 45, 45, 45, 45, 45, 45, 45, 45, 45, 45, 45, 45, 45, 45, 45, 45, 45, 45, 45, 45, 45, 45, 45, 45, 10, 35, 10, 35, 32, 32, 67, 104, 97,
   110, 103, 101, 32, 108, 111, 103, 10, 35, 32, 32, 32, 32, 50, 48, 48, 57, 45, 48, 55, 45, 49, 51, 32, 80, 111, 115, 116, 101, 100, 32, 111, 110,
   32, 73, 110, 116, 101, 114, 110, 101, 116, 46, 10, 35, 32, 32, 32, 32, 50, 48, 49, 48, 45, 49, 49, 45, 49, 57, 32, 82, 101, 109, 111, 118, 101,
   100, 32, 115, 117, 112, 101, 114, 102, 108, 117, 111, 117, 115, 32, 39, 63, 39, 32, 97, 102, 116, 101, 114, 32, 39, 83, 112, 97, 99, 105, 110, 103,
   39, 46, 10, 35, 10, 35, 61, 61, 61, 61, 61, 61, 61, 61, 61, 61, 61, 61, 61, 61, 61, 61, 61, 61, 61, 61, 61, 61, 61, 61, 61, 61, 61, 61, 61, 61, 61,
   61, 61, 61, 61, 61, 61, 61, 61, 61, 61, 61, 61, 61, 61, 61, 61, 61, 61, 61, 61, 61, 61, 61, 61, 61, 61, 61, 61, 61, 61, 61, 61, 61, 61, 61, 61, 61,
   61, 61, 61, 61, 61, 61, 61, 10, 10, 10, 35, 45, 45, 45, 45, 45, 45, 45, 45, 45, 45, 45, 45, 45, 45, 45, 45, 45, 45, 45, 45, 45, 45, 45, 45, 45, 45,
   45, 45, 45, 45, 45, 45, 45, 45, 45, 45, 45, 45, 45, 45, 45, 45, 45, 45, 45, 45, 45, 45, 45, 45, 45, 45, 45, 45, 45, 45, 45, 45, 45, 45, 45, 45, 45,
   45, 45, 45, 45, 45, 45, 45, 45, 45, 45, 10, 35, 32, 32, 65, 46, 50, 46, 52, 32, 32, 69, 120, 116, 101, 114, 110, 97, 108, 32, 100, 101, 102, 105,
   110, 105, 116, 105, 111, 110, 115, 10, 35, 45, 45, 45, 45, 45, 45, 45, 45, 45, 45, 45, 45, 45, 45, 45, 45, 45, 45, 45, 45, 45, 45, 45, 45, 45, 45,
   45, 45, 45, 45, 45, 45, 45, 45, 45, 45, 45, 45, 45, 45, 45, 45, 45, 45, 45, 45, 45, 45, 45, 45, 45, 45, 45, 45, 45, 45, 45, 45, 45, 45, 45, 45, 45,
   45, 45, 45, 45, 45, 45, 45, 45, 45, 45, 10, 10, 84, 114, 97, 110, 115, 108, 97, 116, 105, 111, 110, 85, 110, 105, 116, 32, 60, 45, 32, 83, 112, 97,
   99, 105, 110, 103, 32, 40, 32, 69, 120, 116, 101, 114, 110, 97, 108, 68, 101, 99, 108, 97, 114, 97, 116, 105, 111, 110, 32, 47, 32, 83, 69, 77, 73,
   32, 41, 32, 42, 32, 69, 79, 84, 10, 10, 69, 120, 116, 101, 114, 110, 97, 108, 68, 101, 99, 108, 97, 114, 97, 116, 105, 111, 110, 32, 60, 45, 32,
   70, 117, 110, 99, 116, 105, 111, 110, 68, 101, 102, 105, 110, 105, 116, 105, 111, 110, 32, 47, 32, 68, 101, 99, 108, 97, 114, 97, 116, 105, 111,
   110, 10, 10, 70, 117, 110, 99, 116, 105, 111, 110, 68, 101, 102, 105, 110, 105, 116, 105, 111, 110, 32, 60, 45, 32, 68, 101, 99, 108, 97, 114, 97,
   116, 105, 111, 110, 83, 112, 101, 99, 105, 102, 105, 101, 114, 115, 32, 68, 101, 99, 108, 97, 114, 97, 116, 111, 114, 32, 68, 101, 99, 108, 97,
   114, 97, 116, 105, 111, 110, 76, 105, 115, 116, 63, 32, 67, 111, 109, 112, 111, 117, 110, 100, 83, 116, 97, 116, 101, 109, 101, 110, 116, 10, 10,
   68, 101, 99, 108, 97, 114, 97, 116, 105, 111, 110, 76, 105, 115, 116, 32, 60, 45, 32, 68, 101, 99, 108, 97, 114, 97, 116, 105, 111, 110, 43, 10,
   10, 10, 35, 45, 45, 45, 45, 45, 45, 45, 45, 45, 45, 45, 45, 45, 45, 45, 45, 45, 45, 45, 45, 45, 45, 45, 45, 45, 45, 45, 45, 45, 45, 45, 45, 45, 45,
   45, 45, 45, 45, 45, 45, 45, 45, 45, 45, 45, 45, 45, 45, 45, 45, 45, 45, 45, 45, 45, 45, 45, 45, 45, 45, 45, 45, 45, 45, 45, 45, 45, 45, 45, 45, 45,
   45, 45, 10, 35, 32, 32, 65, 46, 50, 46, 50, 32, 32, 68, 101, 99, 108, 97, 114, 97, 116, 105, 111, 110, 115, 10, 35, 45, 45, 45, 45, 45, 45, 45, 45,
   45, 45, 45, 45, 45, 45, 45, 45, 45, 45, 45, 45, 45, 45, 45, 45, 45, 45, 45, 45, 45, 45, 45, 45, 45, 45, 45, 45, 45, 45, 45, 45, 45, 45, 45, 45, 45,
   45, 45, 45, 45, 45, 45, 45, 45, 45, 45, 45, 45, 45, 45, 45, 45, 45, 45, 45, 45, 45, 45, 45, 45, 45, 45, 45, 45, 10, 10, 68, 101, 99, 108, 97, 114,
   97, 116, 105, 111, 110, 32, 60, 45, 32, 68, 101, 99, 108, 97, 114, 97, 116, 105, 111, 110, 83, 112, 101, 99, 105, 102, 105, 101, 114, 115, 32, 73,
   110, 105, 116, 68, 101, 99, 108, 97, 114, 97, 116, 111, 114, 76, 105, 115, 116, 63, 32, 83, 69, 77, 73, 32, 35, 123, 125, 10, 10, 68, 101, 99, 108,
   97, 114, 97, 116, 105, 111, 110, 83, 112, 101, 99, 105, 102, 105, 101, 114, 115, 10, 32, 32, 32, 60, 45, 32, 40, 40, 32, 83, 116, 111, 114, 97,
   103, 101, 67, 108, 97, 115, 115, 83, 112, 101, 99, 105, 102, 105, 101, 114, 10, 32, 32, 32, 32, 32, 32, 32, 47, 32, 84, 121, 112, 101, 81, 117, 97,
   108, 105, 102, 105, 101, 114, 10, 32, 32, 32, 32, 32, 32, 32, 47, 32, 70, 117, 110, 99, 116, 105, 111, 110, 83, 112, 101, 99, 105, 102, 105, 101,
   114, 10, 32, 32, 32, 32, 32, 32, 32, 41, 42, 10, 32, 32, 32, 32, 32, 32, 32, 84, 121, 112, 101, 100, 101, 102, 78, 97, 109, 101, 10, 32, 32, 32,
   32, 32, 32, 32, 40, 32, 83, 116, 111, 114, 97, 103, 101, 67, 108, 97, 115, 115, 83, 112, 101, 99, 105, 102, 105, 101, 114, 10, 32, 32, 32, 32, 32,
   32, 32, 47, 32, 84, 121, 112, 101, 81, 117, 97, 108, 105, 102, 105, 101, 114, 10] :=
  bytes_ofList
  ['#', '\x20', '\x20', '\x20', '\x20', 'i', 'f', '\x20', 'D', 'e', 'c', 'l', 'a', 'r', 'a', 't', 'i', 'o', 'n', 'S', 'p', 'e', 'c', 'i', 'f', 'i',
   'e', 'r', 's', '\x20', 'i', 'n', 'd', 'i', 'c', 'a', 't', 'e', '\x20', '"', 't', 'y', 'p', 'e', 'd', 'e', 'f', '"', '.', '\n', '#', '\n', '#',
   '\n', '#', '-', '-', '-', '-', '-', '-', '-', '-', '-', '-', '-', '-', '-', '-', '-', '-', '-', '-', '-', '-', '-', '-', '-', '-', '-', '-', '-',
   '-', '-', '-', '-', '-', '-', '-', '-', '-', '-', '-', '-', '-', '-', '-', '-', '-', '-', '-', '-', '-', '-', '-', '-', '-', '-', '-', '-', '-',
   '-', '-', '-', '-', '-', '-', '-', '-', '-', '-', '-', '-', '-', '-', '-', '-', '-', '-', '-', '\n', '#', '\n', '#', '\x20', '\x20', 'C', 'h', 'a',
   'n', 'g', 'e', '\x20', 'l', 'o', 'g', '\n', '#', '\x20', '\x20', '\x20', '\x20', '2', '0', '0', '9', '-', '0', '7', '-', '1', '3', '\x20', 'P',
   'o', 's', 't', 'e', 'd', '\x20', 'o', 'n', '\x20', 'I', 'n', 't', 'e', 'r', 'n', 'e', 't', '.', '\n', '#', '\x20', '\x20', '\x20', '\x20', '2',
   '0', '1', '0', '-', '1', '1', '-', '1', '9', '\x20', 'R', 'e', 'm', 'o', 'v', 'e', 'd', '\x20', 's', 'u', 'p', 'e', 'r', 'f', 'l', 'u', 'o', 'u',
   's', '\x20', '\'', '?', '\'', '\x20', 'a', 'f', 't', 'e', 'r', '\x20', '\'', 'S', 'p', 'a', 'c', 'i', 'n', 'g', '\'', '.', '\n', '#', '\n', '#',
   '=', '=', '=', '=', '=', '=', '=', '=', '=', '=', '=', '=', '=', '=', '=', '=', '=', '=', '=', '=', '=', '=', '=', '=', '=', '=', '=', '=', '=',
   '=', '=', '=', '=', '=', '=', '=', '=', '=', '=', '=', '=', '=', '=', '=', '=', '=', '=', '=', '=', '=', '=', '=', '=', '=', '=', '=', '=', '=',
   '=', '=', '=', '=', '=', '=', '=', '=', '=', '=', '=', '=', '=', '=', '=', '=', '=', '\n', '\n', '\n', '#', '-', '-', '-', '-', '-', '-', '-', '-',
   '-', '-', '-', '-', '-', '-', '-', '-', '-', '-', '-', '-', '-', '-', '-', '-', '-', '-', '-', '-', '-', '-', '-', '-', '-', '-', '-', '-', '-',
   '-', '-', '-', '-', '-', '-', '-', '-', '-', '-', '-', '-', '-', '-', '-', '-', '-', '-', '-', '-', '-', '-', '-', '-', '-', '-', '-', '-', '-',
   '-', '-', '-', '-', '-', '-', '-', '\n', '#', '\x20', '\x20', 'A', '.', '2', '.', '4', '\x20', '\x20', 'E', 'x', 't', 'e', 'r', 'n', 'a', 'l',
   '\x20', 'd', 'e', 'f', 'i', 'n', 'i', 't', 'i', 'o', 'n', 's', '\n', '#', '-', '-', '-', '-', '-', '-', '-', '-', '-', '-', '-', '-', '-', '-',
   '-', '-', '-', '-', '-', '-', '-', '-', '-', '-', '-', '-', '-', '-', '-', '-', '-', '-', '-', '-', '-', '-', '-', '-', '-', '-', '-', '-', '-',
   '-', '-', '-', '-', '-', '-', '-', '-', '-', '-', '-', '-', '-', '-', '-', '-', '-', '-', '-', '-', '-', '-', '-', '-', '-', '-', '-', '-', '-',
   '-', '\n', '\n', 'T', 'r', 'a', 'n', 's', 'l', 'a', 't', 'i', 'o', 'n', 'U', 'n', 'i', 't', '\x20', '<', '-', '\x20', 'S', 'p', 'a', 'c', 'i', 'n',
   'g', '\x20', '(', '\x20', 'E', 'x', 't', 'e', 'r', 'n', 'a', 'l', 'D', 'e', 'c', 'l', 'a', 'r', 'a', 't', 'i', 'o', 'n', '\x20', '/', '\x20', 'S',
   'E', 'M', 'I', '\x20', ')', '\x20', '*', '\x20', 'E', 'O', 'T', '\n', '\n', 'E', 'x', 't', 'e', 'r', 'n', 'a', 'l', 'D', 'e', 'c', 'l', 'a', 'r',
   'a', 't', 'i', 'o', 'n', '\x20', '<', '-', '\x20', 'F', 'u', 'n', 'c', 't', 'i', 'o', 'n', 'D', 'e', 'f', 'i', 'n', 'i', 't', 'i', 'o', 'n',
   '\x20', '/', '\x20', 'D', 'e', 'c', 'l', 'a', 'r', 'a', 't', 'i', 'o', 'n', '\n', '\n', 'F', 'u', 'n', 'c', 't', 'i', 'o', 'n', 'D', 'e', 'f', 'i',
   'n', 'i', 't', 'i', 'o', 'n', '\x20', '<', '-', '\x20', 'D', 'e', 'c', 'l', 'a', 'r', 'a', 't', 'i', 'o', 'n', 'S', 'p', 'e', 'c', 'i', 'f', 'i',
   'e', 'r', 's', '\x20', 'D', 'e', 'c', 'l', 'a', 'r', 'a', 't', 'o', 'r', '\x20', 'D', 'e', 'c', 'l', 'a', 'r', 'a', 't', 'i', 'o', 'n', 'L', 'i',
   's', 't', '?', '\x20', 'C', 'o', 'm', 'p', 'o', 'u', 'n', 'd', 'S', 't', 'a', 't', 'e', 'm', 'e', 'n', 't', '\n', '\n', 'D', 'e', 'c', 'l', 'a',
   'r', 'a', 't', 'i', 'o', 'n', 'L', 'i', 's', 't', '\x20', '<', '-', '\x20', 'D', 'e', 'c', 'l', 'a', 'r', 'a', 't', 'i', 'o', 'n', '+', '\n', '\n',
   '\n', '#', '-', '-', '-', '-', '-', '-', '-', '-', '-', '-', '-', '-', '-', '-', '-', '-', '-', '-', '-', '-', '-', '-', '-', '-', '-', '-', '-',
   '-', '-', '-', '-', '-', '-', '-', '-', '-', '-', '-', '-', '-', '-', '-', '-', '-', '-', '-', '-', '-', '-', '-', '-', '-', '-', '-', '-', '-',
   '-', '-', '-', '-', '-', '-', '-', '-', '-', '-', '-', '-', '-', '-', '-', '-', '-', '\n', '#', '\x20', '\x20', 'A', '.', '2', '.', '2', '\x20',
   '\x20', 'D', 'e', 'c', 'l', 'a', 'r', 'a', 't', 'i', 'o', 'n', 's', '\n', '#', '-', '-', '-', '-', '-', '-', '-', '-', '-', '-', '-', '-', '-',
   '-', '-', '-', '-', '-', '-', '-', '-', '-', '-', '-', '-', '-', '-', '-', '-', '-', '-', '-', '-', '-', '-', '-', '-', '-', '-', '-', '-', '-',
   '-', '-', '-', '-', '-', '-', '-', '-', '-', '-', '-', '-', '-', '-', '-', '-', '-', '-', '-', '-', '-', '-', '-', '-', '-', '-', '-', '-', '-',
   '-', '-', '\n', '\n', 'D', 'e', 'c', 'l', 'a', 'r', 'a', 't', 'i', 'o', 'n', '\x20', '<', '-', '\x20', 'D', 'e', 'c', 'l', 'a', 'r', 'a', 't', 'i',
   'o', 'n', 'S', 'p', 'e', 'c', 'i', 'f', 'i', 'e', 'r', 's', '\x20', 'I', 'n', 'i', 't', 'D', 'e', 'c', 'l', 'a', 'r', 'a', 't', 'o', 'r', 'L', 'i',
   's', 't', '?', '\x20', 'S', 'E', 'M', 'I', '\x20', '#', '{', '}', '\n', '\n', 'D', 'e', 'c', 'l', 'a', 'r', 'a', 't', 'i', 'o', 'n', 'S', 'p', 'e',
   'c', 'i', 'f', 'i', 'e', 'r', 's', '\n', '\x20', '\x20', '\x20', '<', '-', '\x20', '(', '(', '\x20', 'S', 't', 'o', 'r', 'a', 'g', 'e', 'C', 'l',
   'a', 's', 's', 'S', 'p', 'e', 'c', 'i', 'f', 'i', 'e', 'r', '\n', '\x20', '\x20', '\x20', '\x20', '\x20', '\x20', '\x20', '/', '\x20', 'T', 'y',
   'p', 'e', 'Q', 'u', 'a', 'l', 'i', 'f', 'i', 'e', 'r', '\n', '\x20', '\x20', '\x20', '\x20', '\x20', '\x20', '\x20', '/', '\x20', 'F', 'u', 'n',
   'c', 't', 'i', 'o', 'n', 'S', 'p', 'e', 'c', 'i', 'f', 'i', 'e', 'r', '\n', '\x20', '\x20', '\x20', '\x20', '\x20', '\x20', '\x20', ')', '*', '\n',
   '\x20', '\x20', '\x20', '\x20', '\x20', '\x20', '\x20', 'T', 'y', 'p', 'e', 'd', 'e', 'f', 'N', 'a', 'm', 'e', '\n', '\x20', '\x20', '\x20',
   '\x20', '\x20', '\x20', '\x20', '(', '\x20', 'S', 't', 'o', 'r', 'a', 'g', 'e', 'C', 'l', 'a', 's', 's', 'S', 'p', 'e', 'c', 'i', 'f', 'i', 'e',
   'r', '\n', '\x20', '\x20', '\x20', '\x20', '\x20', '\x20', '\x20', '/', '\x20', 'T', 'y', 'p', 'e', 'Q', 'u', 'a', 'l', 'i', 'f', 'i', 'e', 'r',
   '\n']

/-- `grammars/c.peg:125-185` -/
def cFile5 : List UInt8 := bytes "       / FunctionSpecifier
       )*
      )     #{DeclarationSpecifiers}
    / ( StorageClassSpecifier
      / TypeSpecifier
      / TypeQualifier
      / FunctionSpecifier
      )+    #{DeclarationSpecifiers}

InitDeclaratorList <- InitDeclarator (COMMA InitDeclarator)* #{}

InitDeclarator <- Declarator (EQU Initializer)? #{}

StorageClassSpecifier
   <- TYPEDEF
    / EXTERN
    / STATIC
    / AUTO
    / REGISTER
    / ATTRIBUTE LPAR LPAR (!RPAR .)* RPAR RPAR

TypeSpecifier
   <- VOID
    / CHAR
    / SHORT
    / INT
    / LONG
    / FLOAT
    / DOUBLE
    / SIGNED
    / UNSIGNED
    / BOOL
    / COMPLEX
    / StructOrUnionSpecifier
    / EnumSpecifier

StructOrUnionSpecifier
   <- StructOrUnion
      ( Identifier? LWING StructDeclaration* RWING
      / Identifier
      )

StructOrUnion <- STRUCT / UNION

StructDeclaration <- ( SpecifierQualifierList StructDeclaratorList? )? SEMI

SpecifierQualifierList
   <- ( TypeQualifier*
        TypedefName
        TypeQualifier*
      )
    / ( TypeSpecifier
      / TypeQualifier
      )+

StructDeclaratorList <- StructDeclarator (COMMA StructDeclarator)*

StructDeclarator
   <- Declarator? COLON ConstantExpression
    / Declarator

"

theorem c_eq5 : cFile5 =
  [32, 32, 32, 32, 32, 32, 32, 47, 32, 70, 117, 110, 99, 116, 105, 111, 110, 83, 112, 101, 99, 105, 102, 105, 101, 114, 10, 32, 32, 32, 32, 32, 32,
   32, 41, 42, 10, 32, 32, 32, 32, 32, 32, 41, 32, 32, 32, 32, 32, 35, 123, 68, 101, 99, 108, 97, 114, 97, 116, 105, 111, 110, 83, 112, 101, 99, 105,
   102, 105, 101, 114, 115, 125, 10, 32, 32, 32, 32, 47, 32, 40, 32, 83, 116, 111, 114, 97, 103, 101, 67, 108, 97, 115, 115, 83, 112, 101, 99, 105,
   102, 105, 101, 114, 10, 32, 32, 32, 32, 32, 32, 47, 32, 84, 121, 112, 101, 83, 112, 101, 99, 105, 102, 105, 101, 114, 10, 32, 32, 32, 32, 32, 32,
   47, 32, 84, 121, 112, 101, 81, 117, 97, 108, 105, 102, 105, 101, 114, 10, 32, 32, 32, 32, 32, 32, 47, 32, 70, 117, 110, 99, 116, 105, 111, 110, 83,
   112, 101, 99, 105, 102, 105, 101, 114, 10, 32, 32, 32, 32, 32, 32, 41, 43, 32, 32, 32, 32, 35, 123, 68, 101, 99, 108, 97, 114, 97, 116, 105, 111,
   110, 83, 112, 101, 99, 105, 102, 105, 101, 114, 115, 125, 10, 10, 73, 110, 105, 116, 68, 101, 99, 108, 97, 114, 97, 116, 111, 114, 76, 105, 115,
   116, 32, 60, 45, 32, 73, 110, 105, 116, 68, 101, 99, 108, 97, 114, 97, 116, 111, 114, 32, 40, 67, 79, 77, 77, 65, 32, 73, 110, 105, 116, 68, 101,
   99, 108, 97, 114, 97, 116, 111, 114, 41, 42, 32, 35, 123, 125, 10, 10, 73, 110, 105, 116, 68, 101, 99, 108, 97, 114, 97, 116, 111, 114, 32, 60, 45,
   32, 68, 101, 99, 108, 97, 114, 97, 116, 111, 114, 32, 40, 69, 81, 85, 32, 73, 110, 105, 116, 105, 97, 108, 105, 122, 101, 114, 41, 63, 32, 35, 123,
   125, 10, 10, 83, 116, 111, 114, 97, 103, 101, 67, 108, 97, 115, 115, 83, 112, 101, 99, 105, 102, 105, 101, 114, 10, 32, 32, 32, 60, 45, 32, 84, 89,
   80, 69, 68, 69, 70, 10, 32, 32, 32, 32, 47, 32, 69, 88, 84, 69, 82, 78, 10, 32, 32, 32, 32, 47, 32, 83, 84, 65, 84, 73, 67, 10, 32, 32, 32, 32, 47,
   32, 65, 85, 84, 79, 10, 32, 32, 32, 32, 47, 32, 82, 69, 71, 73, 83, 84, 69, 82, 10, 32, 32, 32, 32, 47, 32, 65, 84, 84, 82, 73, 66, 85, 84, 69, 32,
   76, 80, 65, 82, 32, 76, 80, 65, 82, 32, 40, 33, 82, 80, 65, 82, 32, 46, 41, 42, 32, 82, 80, 65, 82, 32, 82, 80, 65, 82, 10, 10, 84, 121, 112, 101,
   83, 112, 101, 99, 105, 102, 105, 101, 114, 10, 32, 32, 32, 60, 45, 32, 86, 79, 73, 68, 10, 32, 32, 32, 32, 47, 32, 67, 72, 65, 82, 10, 32, 32, 32,
   32, 47, 32, 83, 72, 79, 82, 84, 10, 32, 32, 32, 32, 47, 32, 73, 78, 84, 10, 32, 32, 32, 32, 47, 32, 76, 79, 78, 71, 10, 32, 32, 32, 32, 47, 32, 70,
   76, 79, 65, 84, 10, 32, 32, 32, 32, 47, 32, 68, 79, 85, 66, 76, 69, 10, 32, 32, 32, 32, 47, 32, 83, 73, 71, 78, 69, 68, 10, 32, 32, 32, 32, 47, 32,
   85, 78, 83, 73, 71, 78, 69, 68, 10, 32, 32, 32, 32, 47, 32, 66, 79, 79, 76, 10, 32, 32, 32, 32, 47, 32, 67, 79, 77, 80, 76, 69, 88, 10, 32, 32, 32,
   32, 47, 32, 83, 116, 114, 117, 99, 116, 79, 114, 85, 110, 105, 111, 110, 83, 112, 101, 99, 105, 102, 105, 101, 114, 10, 32, 32, 32, 32, 47, 32, 69,
   110, 117, 109, 83, 112, 101, 99, 105, 102, 105, 101, 114, 10, 10, 83, 116, 114, 117, 99, 116, 79, 114, 85, 110, 105, 111, 110, 83, 112, 101, 99,
   105, 102, 105, 101, 114, 10, 32, 32, 32, 60, 45, 32, 83, 116, 114, 117, 99, 116, 79, 114, 85, 110, 105, 111, 110, 10, 32, 32, 32, 32, 32, 32, 40,
   32, 73, 100, 101, 110, 116, 105, 102, 105, 101, 114, 63, 32, 76, 87, 73, 78, 71, 32, 83, 116, 114, 117, 99, 116, 68, 101, 99, 108, 97, 114, 97,
   116, 105, 111, 110, 42, 32, 82, 87, 73, 78, 71, 10, 32, 32, 32, 32, 32, 32, 47, 32, 73, 100, 101, 110, 116, 105, 102, 105, 101, 114, 10, 32, 32,
   32, 32, 32, 32, 41, 10, 10, 83, 116, 114, 117, 99, 116, 79, 114, 85, 110, 105, 111, 110, 32, 60, 45, 32, 83, 84, 82, 85, 67, 84, 32, 47, 32, 85,
   78, 73, 79, 78, 10, 10, 83, 116, 114, 117, 99, 116, 68, 101, 99, 108, 97, 114, 97, 116, 105, 111, 110, 32, 60, 45, 32, 40, 32, 83, 112, 101, 99,
   105, 102, 105, 101, 114, 81, 117, 97, 108, 105, 102, 105, 101, 114, 76, 105, 115, 116, 32, 83, 116, 114, 117, 99, 116, 68, 101, 99, 108, 97, 114,
   97, 116, 111, 114, 76, 105, 115, 116, 63, 32, 41, 63, 32, 83, 69, 77, 73, 10, 10, 83, 112, 101, 99, 105, 102, 105, 101, 114, 81, 117, 97, 108, 105,
   102, 105, 101, 114, 76, 105, 115, 116, 10, 32, 32, 32, 60, 45, 32, 40, 32, 84, 121, 112, 101, 81, 117, 97, 108, 105, 102, 105, 101, 114, 42, 10,
   32, 32, 32, 32, 32, 32, 32, 32, 84, 121, 112, 101, 100, 101, 102, 78, 97, 109, 101, 10, 32, 32, 32, 32, 32, 32, 32, 32, 84, 121, 112, 101, 81, 117,
   97, 108, 105, 102, 105, 101, 114, 42, 10, 32, 32, 32, 32, 32, 32, 41, 10, 32, 32, 32, 32, 47, 32, 40, 32, 84, 121, 112, 101, 83, 112, 101, 99, 105,
   102, 105, 101, 114, 10, 32, 32, 32, 32, 32, 32, 47, 32, 84, 121, 112, 101, 81, 117, 97, 108, 105, 102, 105, 101, 114, 10, 32, 32, 32, 32, 32, 32,
   41, 43, 10, 10, 83, 116, 114, 117, 99, 116, 68, 101, 99, 108, 97, 114, 97, 116, 111, 114, 76, 105, 115, 116, 32, 60, 45, 32, 83, 116, 114, 117, 99,
   116, 68, 101, 99, 108, 97, 114, 97, 116, 111, 114, 32, 40, 67, 79, 77, 77, 65, 32, 83, 116, 114, 117, 99, 116, 68, 101, 99, 108, 97, 114, 97, 116,
   111, 114, 41, 42, 10, 10, 83, 116, 114, 117, 99, 116, 68, 101, 99, 108, 97, 114, 97, 116, 111, 114, 10, 32, 32, 32, 60, 45, 32, 68, 101, 99, 108,
   97, 114, 97, 116, 111, 114, 63, 32, 67, 79, 76, 79, 78, 32, 67, 111, 110, 115, 116, 97, 110, 116, 69, 120, 112, 114, 101, 115, 115, 105, 111, 110,
   10, 32, 32, 32, 32, 47, 32, 68, 101, 99, 108, 97, 114, 97, 116, 111, 114, 10, 10] :=
  bytes_ofList
  ['\x20', '\x20', '\x20', '\x20', '\x20', '\x20', '\x20', '/', '\x20', 'F', 'u', 'n', 'c', 't', 'i', 'o', 'n', 'S', 'p', 'e', 'c', 'i', 'f', 'i',
   'e', 'r', '\n', '\x20', '\x20', '\x20', '\x20', '\x20', '\x20', '\x20', ')', '*', '\n', '\x20', '\x20', '\x20', '\x20', '\x20', '\x20', ')',
   '\x20', '\x20', '\x20', '\x20', '\x20', '#', '{', 'D', 'e', 'c', 'l', 'a', 'r', 'a', 't', 'i', 'o', 'n', 'S', 'p', 'e', 'c', 'i', 'f', 'i', 'e',
   'r', 's', '}', '\n', '\x20', '\x20', '\x20', '\x20', '/', '\x20', '(', '\x20', 'S', 't', 'o', 'r', 'a', 'g', 'e', 'C', 'l', 'a', 's', 's', 'S',
   'p', 'e', 'c', 'i', 'f', 'i', 'e', 'r', '\n', '\x20', '\x20', '\x20', '\x20', '\x20', '\x20', '/', '\x20', 'T', 'y', 'p', 'e', 'S', 'p', 'e', 'c',
   'i', 'f', 'i', 'e', 'r', '\n', '\x20', '\x20', '\x20', '\x20', '\x20', '\x20', '/', '\x20', 'T', 'y', 'p', 'e', 'Q', 'u', 'a', 'l', 'i', 'f', 'i',
   'e', 'r', '\n', '\x20', '\x20', '\x20', '\x20', '\x20', '\x20', '/', '\x20', 'F', 'u', 'n', 'c', 't', 'i', 'o', 'n', 'S', 'p', 'e', 'c', 'i', 'f',
   'i', 'e', 'r', '\n', '\x20', '\x20', '\x20', '\x20', '\x20', '\x20', ')', '+', '\x20', '\x20', '\x20', '\x20', '#', '{', 'D', 'e', 'c', 'l', 'a',
   'r', 'a', 't', 'i', 'o', 'n', 'S', 'p', 'e', 'c', 'i', 'f', 'i', 'e', 'r', 's', '}', '\n', '\n', 'I', 'n', 'i', 't', 'D', 'e', 'c', 'l', 'a', 'r',
   'a', 't', 'o', 'r', 'L', 'i', 's', 't', '\x20', '<', '-', '\x20', 'I', 'n', 'i', 't', 'D', 'e', 'c', 'l', 'a', 'r', 'a', 't', 'o', 'r', '\x20',
   '(', 'C', 'O', 'M', 'M', 'A', '\x20', 'I', 'n', 'i', 't', 'D', 'e', 'c', 'l', 'a', 'r', 'a', 't', 'o', 'r', ')', '*', '\x20', '#', '{', '}', '\n',
   '\n', 'I', 'n', 'i', 't', 'D', 'e', 'c', 'l', 'a', 'r', 'a', 't', 'o', 'r', '\x20', '<', '-', '\x20', 'D', 'e', 'c', 'l', 'a', 'r', 'a', 't', 'o',
   'r', '\x20', '(', 'E', 'Q', 'U', '\x20', 'I', 'n', 'i', 't', 'i', 'a', 'l', 'i', 'z', 'e', 'r', ')', '?', '\x20', '#', '{', '}', '\n', '\n', 'S',
   't', 'o', 'r', 'a', 'g', 'e', 'C', 'l', 'a', 's', 's', 'S', 'p', 'e', 'c', 'i', 'f', 'i', 'e', 'r', '\n', '\x20', '\x20', '\x20', '<', '-', '\x20',
   'T', 'Y', 'P', 'E', 'D', 'E', 'F', '\n', '\x20', '\x20', '\x20', '\x20', '/', '\x20', 'E', 'X', 'T', 'E', 'R', 'N', '\n', '\x20', '\x20', '\x20',
   '\x20', '/', '\x20', 'S', 'T', 'A', 'T', 'I', 'C', '\n', '\x20', '\x20', '\x20', '\x20', '/', '\x20', 'A', 'U', 'T', 'O', '\n', '\x20', '\x20',
   '\x20', '\x20', '/', '\x20', 'R', 'E', 'G', 'I', 'S', 'T', 'E', 'R', '\n', '\x20', '\x20', '\x20', '\x20', '/', '\x20', 'A', 'T', 'T', 'R', 'I',
   'B', 'U', 'T', 'E', '\x20', 'L', 'P', 'A', 'R', '\x20', 'L', 'P', 'A', 'R', '\x20', '(', '!', 'R', 'P', 'A', 'R', '\x20', '.', ')', '*', '\x20',
   'R', 'P', 'A', 'R', '\x20', 'R', 'P', 'A', 'R', '\n', '\n', 'T', 'y', 'p', 'e', 'S', 'p', 'e', 'c', 'i', 'f', 'i', 'e', 'r', '\n', '\x20', '\x20',
   '\x20', '<', '-', '\x20', 'V', 'O', 'I', 'D', '\n', '\x20', '\x20', '\x20', '\x20', '/', '\x20', 'C', 'H', 'A', 'R', '\n', '\x20', '\x20', '\x20',
   '\x20', '/', '\x20', 'S', 'H', 'O', 'R', 'T', '\n', '\x20', '\x20', '\x20', '\x20', '/', '\x20', 'I', 'N', 'T', '\n', '\x20', '\x20', '\x20',
   '\x20', '/', '\x20', 'L', 'O', 'N', 'G', '\n', '\x20', '\x20', '\x20', '\x20', '/', '\x20', 'F', 'L', 'O', 'A', 'T', '\n', '\x20', '\x20', '\x20',
   '\x20', '/', '\x20', 'D', 'O', 'U', 'B', 'L', 'E', '\n', '\x20', '\x20', '\x20', '\x20', '/', '\x20', 'S', 'I', 'G', 'N', 'E', 'D', '\n', '\x20',
   '\x20', '\x20', '\x20', '/', '\x20', 'U', 'N', 'S', 'I', 'G', 'N', 'E', 'D', '\n', '\x20', '\x20', '\x20', '\x20', '/', '\x20', 'B', 'O', 'O', 'L',
   '\n', '\x20', '\x20', '\x20', '\x20', '/', '\x20', 'C', 'O', 'M', 'P', 'L', 'E', 'X', '\n', '\x20', '\x20', '\x20', '\x20', '/', '\x20', 'S', 't',
   'r', 'u', 'c', 't', 'O', 'r', 'U', 'n', 'i', 'o', 'n', 'S', 'p', 'e', 'c', 'i', 'f', 'i', 'e', 'r', '\n', '\x20', '\x20', '\x20', '\x20', '/',
   '\x20', 'E', 'n', 'u', 'm', 'S', 'p', 'e', 'c', 'i', 'f', 'i', 'e', 'r', '\n', '\n', 'S', 't', 'r', 'u', 'c', 't', 'O', 'r', 'U', 'n', 'i', 'o',
   'n', 'S', 'p', 'e', 'c', 'i', 'f', 'i', 'e', 'r', '\n', '\x20', '\x20', '\x20', '<', '-', '\x20', 'S', 't', 'r', 'u', 'c', 't', 'O', 'r', 'U', 'n',
   'i', 'o', 'n', '\n', '\x20', '\x20', '\x20', '\x20', '\x20', '\x20', '(', '\x20', 'I', 'd', 'e', 'n', 't', 'i', 'f', 'i', 'e', 'r', '?', '\x20',
   'L', 'W', 'I', 'N', 'G', '\x20', 'S', 't', 'r', 'u', 'c', 't', 'D', 'e', 'c', 'l', 'a', 'r', 'a', 't', 'i', 'o', 'n', '*', '\x20', 'R', 'W', 'I',
   'N', 'G', '\n', '\x20', '\x20', '\x20', '\x20', '\x20', '\x20', '/', '\x20', 'I', 'd', 'e', 'n', 't', 'i', 'f', 'i', 'e', 'r', '\n', '\x20',
   '\x20', '\x20', '\x20', '\x20', '\x20', ')', '\n', '\n', 'S', 't', 'r', 'u', 'c', 't', 'O', 'r', 'U', 'n', 'i', 'o', 'n', '\x20', '<', '-', '\x20',
   'S', 'T', 'R', 'U', 'C', 'T', '\x20', '/', '\x20', 'U', 'N', 'I', 'O', 'N', '\n', '\n', 'S', 't', 'r', 'u', 'c', 't', 'D', 'e', 'c', 'l', 'a', 'r',
   'a', 't', 'i', 'o', 'n', '\x20', '<', '-', '\x20', '(', '\x20', 'S', 'p', 'e', 'c', 'i', 'f', 'i', 'e', 'r', 'Q', 'u', 'a', 'l', 'i', 'f', 'i',
   'e', 'r', 'L', 'i', 's', 't', '\x20', 'S', 't', 'r', 'u', 'c', 't', 'D', 'e', 'c', 'l', 'a', 'r', 'a', 't', 'o', 'r', 'L', 'i', 's', 't', '?',
   '\x20', ')', '?', '\x20', 'S', 'E', 'M', 'I', '\n', '\n', 'S', 'p', 'e', 'c', 'i', 'f', 'i', 'e', 'r', 'Q', 'u', 'a', 'l', 'i', 'f', 'i', 'e', 'r',
   'L', 'i', 's', 't', '\n', '\x20', '\x20', '\x20', '<', '-', '\x20', '(', '\x20', 'T', 'y', 'p', 'e', 'Q', 'u', 'a', 'l', 'i', 'f', 'i', 'e', 'r',
   '*', '\n', '\x20', '\x20', '\x20', '\x20', '\x20', '\x20', '\x20', '\x20', 'T', 'y', 'p', 'e', 'd', 'e', 'f', 'N', 'a', 'm', 'e', '\n', '\x20',
   '\x20', '\x20', '\x20', '\x20', '\x20', '\x20', '\x20', 'T', 'y', 'p', 'e', 'Q', 'u', 'a', 'l', 'i', 'f', 'i', 'e', 'r', '*', '\n', '\x20', '\x20',
   '\x20', '\x20', '\x20', '\x20', ')', '\n', '\x20', '\x20', '\x20', '\x20', '/', '\x20', '(', '\x20', 'T', 'y', 'p', 'e', 'S', 'p', 'e', 'c', 'i',
   'f', 'i', 'e', 'r', '\n', '\x20', '\x20', '\x20', '\x20', '\x20', '\x20', '/', '\x20', 'T', 'y', 'p', 'e', 'Q', 'u', 'a', 'l', 'i', 'f', 'i', 'e',
   'r', '\n', '\x20', '\x20', '\x20', '\x20', '\x20', '\x20', ')', '+', '\n', '\n', 'S', 't', 'r', 'u', 'c', 't', 'D', 'e', 'c', 'l', 'a', 'r', 'a',
   't', 'o', 'r', 'L', 'i', 's', 't', '\x20', '<', '-', '\x20', 'S', 't', 'r', 'u', 'c', 't', 'D', 'e', 'c', 'l', 'a', 'r', 'a', 't', 'o', 'r',
   '\x20', '(', 'C', 'O', 'M', 'M', 'A', '\x20', 'S', 't', 'r', 'u', 'c', 't', 'D', 'e', 'c', 'l', 'a', 'r', 'a', 't', 'o', 'r', ')', '*', '\n', '\n',
   'S', 't', 'r', 'u', 'c', 't', 'D', 'e', 'c', 'l', 'a', 'r', 'a', 't', 'o', 'r', '\n', '\x20', '\x20', '\x20', '<', '-', '\x20', 'D', 'e', 'c', 'l',
   'a', 'r', 'a', 't', 'o', 'r', '?', '\x20', 'C', 'O', 'L', 'O', 'N', '\x20', 'C', 'o', 'n', 's', 't', 'a', 'n', 't', 'E', 'x', 'p', 'r', 'e', 's',
   's', 'i', 'o', 'n', '\n', '\x20', '\x20', '\x20', '\x20', '/', '\x20', 'D', 'e', 'c', 'l', 'a', 'r', 'a', 't', 'o', 'r', '\n', '\n']

/-- `grammars/c.peg:186-235` -/
def cFile6 : List UInt8 := bytes "EnumSpecifier
    <- ENUM
      ( Identifier? LWING EnumeratorList COMMA? RWING
      / Identifier
      )

EnumeratorList <- Enumerator (COMMA Enumerator)*

Enumerator <- EnumerationConstant (EQU ConstantExpression)?

TypeQualifier
   <- CONST
    / RESTRICT
    / VOLATILE
    / DECLSPEC LPAR Identifier RPAR

FunctionSpecifier <- INLINE / STDCALL

Declarator <- Pointer? DirectDeclarator #{}

DirectDeclarator
   <- ( Identifier
      / LPAR Declarator RPAR
      )
      ( LBRK TypeQualifier* AssignmentExpression? RBRK
      / LBRK STATIC TypeQualifier* AssignmentExpression RBRK
      / LBRK TypeQualifier+ STATIC AssignmentExpression RBRK
      / LBRK TypeQualifier* STAR RBRK
      / LPAR ParameterTypeList RPAR
      / LPAR IdentifierList? RPAR
      )* #{}

Pointer <- ( STAR TypeQualifier* )+

ParameterTypeList <- ParameterList (COMMA ELLIPSIS)?

ParameterList <- ParameterDeclaration (COMMA ParameterDeclaration)*

ParameterDeclaration
   <- DeclarationSpecifiers
      ( Declarator
      / AbstractDeclarator
      )?

IdentifierList <- Identifier (COMMA Identifier)*

TypeName <- SpecifierQualifierList AbstractDeclarator?

AbstractDeclarator
   <- Pointer? DirectAbstractDeclarator
"

theorem c_eq6 : cFile6 =
  [69, 110, 117, 109, 83, 112, 101, 99, 105, 102, 105, 101, 114, 10, 32, 32, 32, 32, 60, 45, 32, 69, 78, 85, 77, 10, 32, 32, 32, 32, 32, 32, 40, 32,
   73, 100, 101, 110, 116, 105, 102, 105, 101, 114, 63, 32, 76, 87, 73, 78, 71, 32, 69, 110, 117, 109, 101, 114, 97, 116, 111, 114, 76, 105, 115, 116,
   32, 67, 79, 77, 77, 65, 63, 32, 82, 87, 73, 78, 71, 10, 32, 32, 32, 32, 32, 32, 47, 32, 73, 100, 101, 110, 116, 105, 102, 105, 101, 114, 10, 32,
   32, 32, 32, 32, 32, 41, 10, 10, 69, 110, 117, 109, 101, 114, 97, 116, 111, 114, 76, 105, 115, 116, 32, 60, 45, 32, 69, 110, 117, 109, 101, 114, 97,
   116, 111, 114, 32, 40, 67, 79, 77, 77, 65, 32, 69, 110, 117, 109, 101, 114, 97, 116, 111, 114, 41, 42, 10, 10, 69, 110, 117, 109, 101, 114, 97,
   116, 111, 114, 32, 60, 45, 32, 69, 110, 117, 109, 101, 114, 97, 116, 105, 111, 110, 67, 111, 110, 115, 116, 97, 110, 116, 32, 40, 69, 81, 85, 32,
   67, 111, 110, 115, 116, 97, 110, 116, 69, 120, 112, 114, 101, 115, 115, 105, 111, 110, 41, 63, 10, 10, 84, 121, 112, 101, 81, 117, 97, 108, 105,
   102, 105, 101, 114, 10, 32, 32, 32, 60, 45, 32, 67, 79, 78, 83, 84, 10, 32, 32, 32, 32, 47, 32, 82, 69, 83, 84, 82, 73, 67, 84, 10, 32, 32, 32, 32,
   47, 32, 86, 79, 76, 65, 84, 73, 76, 69, 10, 32, 32, 32, 32, 47, 32, 68, 69, 67, 76, 83, 80, 69, 67, 32, 76, 80, 65, 82, 32, 73, 100, 101, 110, 116,
   105, 102, 105, 101, 114, 32, 82, 80, 65, 82, 10, 10, 70, 117, 110, 99, 116, 105, 111, 110, 83, 112, 101, 99, 105, 102, 105, 101, 114, 32, 60, 45,
   32, 73, 78, 76, 73, 78, 69, 32, 47, 32, 83, 84, 68, 67, 65, 76, 76, 10, 10, 68, 101, 99, 108, 97, 114, 97, 116, 111, 114, 32, 60, 45, 32, 80, 111,
   105, 110, 116, 101, 114, 63, 32, 68, 105, 114, 101, 99, 116, 68, 101, 99, 108, 97, 114, 97, 116, 111, 114, 32, 35, 123, 125, 10, 10, 68, 105, 114,
   101, 99, 116, 68, 101, 99, 108, 97, 114, 97, 116, 111, 114, 10, 32, 32, 32, 60, 45, 32, 40, 32, 73, 100, 101, 110, 116, 105, 102, 105, 101, 114,
   10, 32, 32, 32, 32, 32, 32, 47, 32, 76, 80, 65, 82, 32, 68, 101, 99, 108, 97, 114, 97, 116, 111, 114, 32, 82, 80, 65, 82, 10, 32, 32, 32, 32, 32,
   32, 41, 10, 32, 32, 32, 32, 32, 32, 40, 32, 76, 66, 82, 75, 32, 84, 121, 112, 101, 81, 117, 97, 108, 105, 102, 105, 101, 114, 42, 32, 65, 115, 115,
   105, 103, 110, 109, 101, 110, 116, 69, 120, 112, 114, 101, 115, 115, 105, 111, 110, 63, 32, 82, 66, 82, 75, 10, 32, 32, 32, 32, 32, 32, 47, 32, 76,
   66, 82, 75, 32, 83, 84, 65, 84, 73, 67, 32, 84, 121, 112, 101, 81, 117, 97, 108, 105, 102, 105, 101, 114, 42, 32, 65, 115, 115, 105, 103, 110, 109,
   101, 110, 116, 69, 120, 112, 114, 101, 115, 115, 105, 111, 110, 32, 82, 66, 82, 75, 10, 32, 32, 32, 32, 32, 32, 47, 32, 76, 66, 82, 75, 32, 84,
   121, 112, 101, 81, 117, 97, 108, 105, 102, 105, 101, 114, 43, 32, 83, 84, 65, 84, 73, 67, 32, 65, 115, 115, 105, 103, 110, 109, 101, 110, 116, 69,
   120, 112, 114, 101, 115, 115, 105, 111, 110, 32, 82, 66, 82, 75, 10, 32, 32, 32, 32, 32, 32, 47, 32, 76, 66, 82, 75, 32, 84, 121, 112, 101, 81,
   117, 97, 108, 105, 102, 105, 101, 114, 42, 32, 83, 84, 65, 82, 32, 82, 66, 82, 75, 10, 32, 32, 32, 32, 32, 32, 47, 32, 76, 80, 65, 82, 32, 80, 97,
   114, 97, 109, 101, 116, 101, 114, 84, 121, 112, 101, 76, 105, 115, 116, 32, 82, 80, 65, 82, 10, 32, 32, 32, 32, 32, 32, 47, 32, 76, 80, 65, 82, 32,
   73, 100, 101, 110, 116, 105, 102, 105, 101, 114, 76, 105, 115, 116, 63, 32, 82, 80, 65, 82, 10, 32, 32, 32, 32, 32, 32, 41, 42, 32, 35, 123, 125,
   10, 10, 80, 111, 105, 110, 116, 101, 114, 32, 60, 45, 32, 40, 32, 83, 84, 65, 82, 32, 84, 121, 112, 101, 81, 117, 97, 108, 105, 102, 105, 101, 114,
   42, 32, 41, 43, 10, 10, 80, 97, 114, 97, 109, 101, 116, 101, 114, 84, 121, 112, 101, 76, 105, 115, 116, 32, 60, 45, 32, 80, 97, 114, 97, 109, 101,
   116, 101, 114, 76, 105, 115, 116, 32, 40, 67, 79, 77, 77, 65, 32, 69, 76, 76, 73, 80, 83, 73, 83, 41, 63, 10, 10, 80, 97, 114, 97, 109, 101, 116,
   101, 114, 76, 105, 115, 116, 32, 60, 45, 32, 80, 97, 114, 97, 109, 101, 116, 101, 114, 68, 101, 99, 108, 97, 114, 97, 116, 105, 111, 110, 32, 40,
   67, 79, 77, 77, 65, 32, 80, 97, 114, 97, 109, 101, 116, 101, 114, 68, 101, 99, 108, 97, 114, 97, 116, 105, 111, 110, 41, 42, 10, 10, 80, 97, 114,
   97, 109, 101, 116, 101, 114, 68, 101, 99, 108, 97, 114, 97, 116, 105, 111, 110, 10, 32, 32, 32, 60, 45, 32, 68, 101, 99, 108, 97, 114, 97, 116,
   105, 111, 110, 83, 112, 101, 99, 105, 102, 105, 101, 114, 115, 10, 32, 32, 32, 32, 32, 32, 40, 32, 68, 101, 99, 108, 97, 114, 97, 116, 111, 114,
   10, 32, 32, 32, 32, 32, 32, 47, 32, 65, 98, 115, 116, 114, 97, 99, 116, 68, 101, 99, 108, 97, 114, 97, 116, 111, 114, 10, 32, 32, 32, 32, 32, 32,
   41, 63, 10, 10, 73, 100, 101, 110, 116, 105, 102, 105, 101, 114, 76, 105, 115, 116, 32, 60, 45, 32, 73, 100, 101, 110, 116, 105, 102, 105, 101,
   114, 32, 40, 67, 79, 77, 77, 65, 32, 73, 100, 101, 110, 116, 105, 102, 105, 101, 114, 41, 42, 10, 10, 84, 121, 112, 101, 78, 97, 109, 101, 32, 60,
   45, 32, 83, 112, 101, 99, 105, 102, 105, 101, 114, 81, 117, 97, 108, 105, 102, 105, 101, 114, 76, 105, 115, 116, 32, 65, 98, 115, 116, 114, 97, 99,
   116, 68, 101, 99, 108, 97, 114, 97, 116, 111, 114, 63, 10, 10, 65, 98, 115, 116, 114, 97, 99, 116, 68, 101, 99, 108, 97, 114, 97, 116, 111, 114,
   10, 32, 32, 32, 60, 45, 32, 80, 111, 105, 110, 116, 101, 114, 63, 32, 68, 105, 114, 101, 99, 116, 65, 98, 115, 116, 114, 97, 99, 116, 68, 101, 99,
   108, 97, 114, 97, 116, 111, 114, 10] :=
  bytes_ofList
  ['E', 'n', 'u', 'm', 'S', 'p', 'e', 'c', 'i', 'f', 'i', 'e', 'r', '\n', '\x20', '\x20', '\x20', '\x20', '<', '-', '\x20', 'E', 'N', 'U', 'M', '\n',
   '\x20', '\x20', '\x20', '\x20', '\x20', '\x20', '(', '\x20', 'I', 'd', 'e', 'n', 't', 'i', 'f', 'i', 'e', 'r', '?', '\x20', 'L', 'W', 'I', 'N',
   'G', '\x20', 'E', 'n', 'u', 'm', 'e', 'r', 'a', 't', 'o', 'r', 'L', 'i', 's', 't', '\x20', 'C', 'O', 'M', 'M', 'A', '?', '\x20', 'R', 'W', 'I',
   'N', 'G', '\n', '\x20', '\x20', '\x20', '\x20', '\x20', '\x20', '/', '\x20', 'I', 'd', 'e', 'n', 't', 'i', 'f', 'i', 'e', 'r', '\n', '\x20',
   '\x20', '\x20', '\x20', '\x20', '\x20', ')', '\n', '\n', 'E', 'n', 'u', 'm', 'e', 'r', 'a', 't', 'o', 'r', 'L', 'i', 's', 't', '\x20', '<', '-',
   '\x20', 'E', 'n', 'u', 'm', 'e', 'r', 'a', 't', 'o', 'r', '\x20', '(', 'C', 'O', 'M', 'M', 'A', '\x20', 'E', 'n', 'u', 'm', 'e', 'r', 'a', 't',
   'o', 'r', ')', '*', '\n', '\n', 'E', 'n', 'u', 'm', 'e', 'r', 'a', 't', 'o', 'r', '\x20', '<', '-', '\x20', 'E', 'n', 'u', 'm', 'e', 'r', 'a', 't',
   'i', 'o', 'n', 'C', 'o', 'n', 's', 't', 'a', 'n', 't', '\x20', '(', 'E', 'Q', 'U', '\x20', 'C', 'o', 'n', 's', 't', 'a', 'n', 't', 'E', 'x', 'p',
   'r', 'e', 's', 's', 'i', 'o', 'n', ')', '?', '\n', '\n', 'T', 'y', 'p', 'e', 'Q', 'u', 'a', 'l', 'i', 'f', 'i', 'e', 'r', '\n', '\x20', '\x20',
   '\x20', '<', '-', '\x20', 'C', 'O', 'N', 'S', 'T', '\n', '\x20', '\x20', '\x20', '\x20', '/', '\x20', 'R', 'E', 'S', 'T', 'R', 'I', 'C', 'T', '\n',
   '\x20', '\x20', '\x20', '\x20', '/', '\x20', 'V', 'O', 'L', 'A', 'T', 'I', 'L', 'E', '\n', '\x20', '\x20', '\x20', '\x20', '/', '\x20', 'D', 'E',
   'C', 'L', 'S', 'P', 'E', 'C', '\x20', 'L', 'P', 'A', 'R', '\x20', 'I', 'd', 'e', 'n', 't', 'i', 'f', 'i', 'e', 'r', '\x20', 'R', 'P', 'A', 'R',
   '\n', '\n', 'F', 'u', 'n', 'c', 't', 'i', 'o', 'n', 'S', 'p', 'e', 'c', 'i', 'f', 'i', 'e', 'r', '\x20', '<', '-', '\x20', 'I', 'N', 'L', 'I', 'N',
   'E', '\x20', '/', '\x20', 'S', 'T', 'D', 'C', 'A', 'L', 'L', '\n', '\n', 'D', 'e', 'c', 'l', 'a', 'r', 'a', 't', 'o', 'r', '\x20', '<', '-',
   '\x20', 'P', 'o', 'i', 'n', 't', 'e', 'r', '?', '\x20', 'D', 'i', 'r', 'e', 'c', 't', 'D', 'e', 'c', 'l', 'a', 'r', 'a', 't', 'o', 'r', '\x20',
   '#', '{', '}', '\n', '\n', 'D', 'i', 'r', 'e', 'c', 't', 'D', 'e', 'c', 'l', 'a', 'r', 'a', 't', 'o', 'r', '\n', '\x20', '\x20', '\x20', '<', '-',
   '\x20', '(', '\x20', 'I', 'd', 'e', 'n', 't', 'i', 'f', 'i', 'e', 'r', '\n', '\x20', '\x20', '\x20', '\x20', '\x20', '\x20', '/', '\x20', 'L', 'P',
   'A', 'R', '\x20', 'D', 'e', 'c', 'l', 'a', 'r', 'a', 't', 'o', 'r', '\x20', 'R', 'P', 'A', 'R', '\n', '\x20', '\x20', '\x20', '\x20', '\x20',
   '\x20', ')', '\n', '\x20', '\x20', '\x20', '\x20', '\x20', '\x20', '(', '\x20', 'L', 'B', 'R', 'K', '\x20', 'T', 'y', 'p', 'e', 'Q', 'u', 'a', 'l',
   'i', 'f', 'i', 'e', 'r', '*', '\x20', 'A', 's', 's', 'i', 'g', 'n', 'm', 'e', 'n', 't', 'E', 'x', 'p', 'r', 'e', 's', 's', 'i', 'o', 'n', '?',
   '\x20', 'R', 'B', 'R', 'K', '\n', '\x20', '\x20', '\x20', '\x20', '\x20', '\x20', '/', '\x20', 'L', 'B', 'R', 'K', '\x20', 'S', 'T', 'A', 'T', 'I',
   'C', '\x20', 'T', 'y', 'p', 'e', 'Q', 'u', 'a', 'l', 'i', 'f', 'i', 'e', 'r', '*', '\x20', 'A', 's', 's', 'i', 'g', 'n', 'm', 'e', 'n', 't', 'E',
   'x', 'p', 'r', 'e', 's', 's', 'i', 'o', 'n', '\x20', 'R', 'B', 'R', 'K', '\n', '\x20', '\x20', '\x20', '\x20', '\x20', '\x20', '/', '\x20', 'L',
   'B', 'R', 'K', '\x20', 'T', 'y', 'p', 'e', 'Q', 'u', 'a', 'l', 'i', 'f', 'i', 'e', 'r', '+', '\x20', 'S', 'T', 'A', 'T', 'I', 'C', '\x20', 'A',
   's', 's', 'i', 'g', 'n', 'm', 'e', 'n', 't', 'E', 'x', 'p', 'r', 'e', 's', 's', 'i', 'o', 'n', '\x20', 'R', 'B', 'R', 'K', '\n', '\x20', '\x20',
   '\x20', '\x20', '\x20', '\x20', '/', '\x20', 'L', 'B', 'R', 'K', '\x20', 'T', 'y', 'p', 'e', 'Q', 'u', 'a', 'l', 'i', 'f', 'i', 'e', 'r', '*',
   '\x20', 'S', 'T', 'A', 'R', '\x20', 'R', 'B', 'R', 'K', '\n', '\x20', '\x20', '\x20', '\x20', '\x20', '\x20', '/', '\x20', 'L', 'P', 'A', 'R',
   '\x20', 'P', 'a', 'r', 'a', 'm', 'e', 't', 'e', 'r', 'T', 'y', 'p', 'e', 'L', 'i', 's', 't', '\x20', 'R', 'P', 'A', 'R', '\n', '\x20', '\x20',
   '\x20', '\x20', '\x20', '\x20', '/', '\x20', 'L', 'P', 'A', 'R', '\x20', 'I', 'd', 'e', 'n', 't', 'i', 'f', 'i', 'e', 'r', 'L', 'i', 's', 't', '?',
   '\x20', 'R', 'P', 'A', 'R', '\n', '\x20', '\x20', '\x20', '\x20', '\x20', '\x20', ')', '*', '\x20', '#', '{', '}', '\n', '\n', 'P', 'o', 'i', 'n',
   't', 'e', 'r', '\x20', '<', '-', '\x20', '(', '\x20', 'S', 'T', 'A', 'R', '\x20', 'T', 'y', 'p', 'e', 'Q', 'u', 'a', 'l', 'i', 'f', 'i', 'e', 'r',
   '*', '\x20', ')', '+', '\n', '\n', 'P', 'a', 'r', 'a', 'm', 'e', 't', 'e', 'r', 'T', 'y', 'p', 'e', 'L', 'i', 's', 't', '\x20', '<', '-', '\x20',
   'P', 'a', 'r', 'a', 'm', 'e', 't', 'e', 'r', 'L', 'i', 's', 't', '\x20', '(', 'C', 'O', 'M', 'M', 'A', '\x20', 'E', 'L', 'L', 'I', 'P', 'S', 'I',
   'S', ')', '?', '\n', '\n', 'P', 'a', 'r', 'a', 'm', 'e', 't', 'e', 'r', 'L', 'i', 's', 't', '\x20', '<', '-', '\x20', 'P', 'a', 'r', 'a', 'm', 'e',
   't', 'e', 'r', 'D', 'e', 'c', 'l', 'a', 'r', 'a', 't', 'i', 'o', 'n', '\x20', '(', 'C', 'O', 'M', 'M', 'A', '\x20', 'P', 'a', 'r', 'a', 'm', 'e',
   't', 'e', 'r', 'D', 'e', 'c', 'l', 'a', 'r', 'a', 't', 'i', 'o', 'n', ')', '*', '\n', '\n', 'P', 'a', 'r', 'a', 'm', 'e', 't', 'e', 'r', 'D', 'e',
   'c', 'l', 'a', 'r', 'a', 't', 'i', 'o', 'n', '\n', '\x20', '\x20', '\x20', '<', '-', '\x20', 'D', 'e', 'c', 'l', 'a', 'r', 'a', 't', 'i', 'o', 'n',
   'S', 'p', 'e', 'c', 'i', 'f', 'i', 'e', 'r', 's', '\n', '\x20', '\x20', '\x20', '\x20', '\x20', '\x20', '(', '\x20', 'D', 'e', 'c', 'l', 'a', 'r',
   'a', 't', 'o', 'r', '\n', '\x20', '\x20', '\x20', '\x20', '\x20', '\x20', '/', '\x20', 'A', 'b', 's', 't', 'r', 'a', 'c', 't', 'D', 'e', 'c', 'l',
   'a', 'r', 'a', 't', 'o', 'r', '\n', '\x20', '\x20', '\x20', '\x20', '\x20', '\x20', ')', '?', '\n', '\n', 'I', 'd', 'e', 'n', 't', 'i', 'f', 'i',
   'e', 'r', 'L', 'i', 's', 't', '\x20', '<', '-', '\x20', 'I', 'd', 'e', 'n', 't', 'i', 'f', 'i', 'e', 'r', '\x20', '(', 'C', 'O', 'M', 'M', 'A',
   '\x20', 'I', 'd', 'e', 'n', 't', 'i', 'f', 'i', 'e', 'r', ')', '*', '\n', '\n', 'T', 'y', 'p', 'e', 'N', 'a', 'm', 'e', '\x20', '<', '-', '\x20',
   'S', 'p', 'e', 'c', 'i', 'f', 'i', 'e', 'r', 'Q', 'u', 'a', 'l', 'i', 'f', 'i', 'e', 'r', 'L', 'i', 's', 't', '\x20', 'A', 'b', 's', 't', 'r', 'a',
   'c', 't', 'D', 'e', 'c', 'l', 'a', 'r', 'a', 't', 'o', 'r', '?', '\n', '\n', 'A', 'b', 's', 't', 'r', 'a', 'c', 't', 'D', 'e', 'c', 'l', 'a', 'r',
   'a', 't', 'o', 'r', '\n', '\x20', '\x20', '\x20', '<', '-', '\x20', 'P', 'o', 'i', 'n', 't', 'e', 'r', '?', '\x20', 'D', 'i', 'r', 'e', 'c', 't',
   'A', 'b', 's', 't', 'r', 'a', 'c', 't', 'D', 'e', 'c', 'l', 'a', 'r', 'a', 't', 'o', 'r', '\n']

/-- `grammars/c.peg:236-283` -/
def cFile7 : List UInt8 := bytes "    / Pointer

DirectAbstractDeclarator
   <- ( LPAR AbstractDeclarator RPAR
      / LBRK (AssignmentExpression / STAR)? RBRK
      / LPAR ParameterTypeList? RPAR
      )
      ( LBRK (AssignmentExpression / STAR)? RBRK
      / LPAR ParameterTypeList? RPAR
      )*

TypedefName <-Identifier #{&TypedefName}

Initializer
   <- AssignmentExpression
    / LWING InitializerList COMMA? RWING

InitializerList <- Designation? Initializer (COMMA Designation? Initializer)*

Designation <- Designator+ EQU

Designator
   <- LBRK ConstantExpression RBRK
    / DOT Identifier


#-------------------------------------------------------------------------
#  A.2.3  Statements
#-------------------------------------------------------------------------

Statement
   <- LabeledStatement
    / CompoundStatement
    / ExpressionStatement
    / SelectionStatement
    / IterationStatement
    / JumpStatement

LabeledStatement
   <- Identifier COLON Statement
    / CASE ConstantExpression COLON Statement
    / DEFAULT COLON Statement

CompoundStatement <- LWING ( Declaration / Statement )* RWING

ExpressionStatement <- Expression? SEMI

SelectionStatement
"

theorem c_eq7 : cFile7 =
  [32, 32, 32, 32, 47, 32, 80, 111, 105, 110, 116, 101, 114, 10, 10, 68, 105, 114, 101, 99, 116, 65, 98, 115, 116, 114, 97, 99, 116, 68, 101, 99, 108,
   97, 114, 97, 116, 111, 114, 10, 32, 32, 32, 60, 45, 32, 40, 32, 76, 80, 65, 82, 32, 65, 98, 115, 116, 114, 97, 99, 116, 68, 101, 99, 108, 97, 114,
   97, 116, 111, 114, 32, 82, 80, 65, 82, 10, 32, 32, 32, 32, 32, 32, 47, 32, 76, 66, 82, 75, 32, 40, 65, 115, 115, 105, 103, 110, 109, 101, 110, 116,
   69, 120, 112, 114, 101, 115, 115, 105, 111, 110, 32, 47, 32, 83, 84, 65, 82, 41, 63, 32, 82, 66, 82, 75, 10, 32, 32, 32, 32, 32, 32, 47, 32, 76,
   80, 65, 82, 32, 80, 97, 114, 97, 109, 101, 116, 101, 114, 84, 121, 112, 101, 76, 105, 115, 116, 63, 32, 82, 80, 65, 82, 10, 32, 32, 32, 32, 32, 32,
   41, 10, 32, 32, 32, 32, 32, 32, 40, 32, 76, 66, 82, 75, 32, 40, 65, 115, 115, 105, 103, 110, 109, 101, 110, 116, 69, 120, 112, 114, 101, 115, 115,
   105, 111, 110, 32, 47, 32, 83, 84, 65, 82, 41, 63, 32, 82, 66, 82, 75, 10, 32, 32, 32, 32, 32, 32, 47, 32, 76, 80, 65, 82, 32, 80, 97, 114, 97,
   109, 101, 116, 101, 114, 84, 121, 112, 101, 76, 105, 115, 116, 63, 32, 82, 80, 65, 82, 10, 32, 32, 32, 32, 32, 32, 41, 42, 10, 10, 84, 121, 112,
   101, 100, 101, 102, 78, 97, 109, 101, 32, 60, 45, 73, 100, 101, 110, 116, 105, 102, 105, 101, 114, 32, 35, 123, 38, 84, 121, 112, 101, 100, 101,
   102, 78, 97, 109, 101, 125, 10, 10, 73, 110, 105, 116, 105, 97, 108, 105, 122, 101, 114, 10, 32, 32, 32, 60, 45, 32, 65, 115, 115, 105, 103, 110,
   109, 101, 110, 116, 69, 120, 112, 114, 101, 115, 115, 105, 111, 110, 10, 32, 32, 32, 32, 47, 32, 76, 87, 73, 78, 71, 32, 73, 110, 105, 116, 105,
   97, 108, 105, 122, 101, 114, 76, 105, 115, 116, 32, 67, 79, 77, 77, 65, 63, 32, 82, 87, 73, 78, 71, 10, 10, 73, 110, 105, 116, 105, 97, 108, 105,
   122, 101, 114, 76, 105, 115, 116, 32, 60, 45, 32, 68, 101, 115, 105, 103, 110, 97, 116, 105, 111, 110, 63, 32, 73, 110, 105, 116, 105, 97, 108,
   105, 122, 101, 114, 32, 40, 67, 79, 77, 77, 65, 32, 68, 101, 115, 105, 103, 110, 97, 116, 105, 111, 110, 63, 32, 73, 110, 105, 116, 105, 97, 108,
   105, 122, 101, 114, 41, 42, 10, 10, 68, 101, 115, 105, 103, 110, 97, 116, 105, 111, 110, 32, 60, 45, 32, 68, 101, 115, 105, 103, 110, 97, 116, 111,
   114, 43, 32, 69, 81, 85, 10, 10, 68, 101, 115, 105, 103, 110, 97, 116, 111, 114, 10, 32, 32, 32, 60, 45, 32, 76, 66, 82, 75, 32, 67, 111, 110, 115,
   116, 97, 110, 116, 69, 120, 112, 114, 101, 115, 115, 105, 111, 110, 32, 82, 66, 82, 75, 10, 32, 32, 32, 32, 47, 32, 68, 79, 84, 32, 73, 100, 101,
   110, 116, 105, 102, 105, 101, 114, 10, 10, 10, 35, 45, 45, 45, 45, 45, 45, 45, 45, 45, 45, 45, 45, 45, 45, 45, 45, 45, 45, 45, 45, 45, 45, 45, 45,
   45, 45, 45, 45, 45, 45, 45, 45, 45, 45, 45, 45, 45, 45, 45, 45, 45, 45, 45, 45, 45, 45, 45, 45, 45, 45, 45, 45, 45, 45, 45, 45, 45, 45, 45, 45, 45,
   45, 45, 45, 45, 45, 45, 45, 45, 45, 45, 45, 45, 10, 35, 32, 32, 65, 46, 50, 46, 51, 32, 32, 83, 116, 97, 116, 101, 109, 101, 110, 116, 115, 10, 35,
   45, 45, 45, 45, 45, 45, 45, 45, 45, 45, 45, 45, 45, 45, 45, 45, 45, 45, 45, 45, 45, 45, 45, 45, 45, 45, 45, 45, 45, 45, 45, 45, 45, 45, 45, 45, 45,
   45, 45, 45, 45, 45, 45, 45, 45, 45, 45, 45, 45, 45, 45, 45, 45, 45, 45, 45, 45, 45, 45, 45, 45, 45, 45, 45, 45, 45, 45, 45, 45, 45, 45, 45, 45, 10,
   10, 83, 116, 97, 116, 101, 109, 101, 110, 116, 10, 32, 32, 32, 60, 45, 32, 76, 97, 98, 101, 108, 101, 100, 83, 116, 97, 116, 101, 109, 101, 110,
   116, 10, 32, 32, 32, 32, 47, 32, 67, 111, 109, 112, 111, 117, 110, 100, 83, 116, 97, 116, 101, 109, 101, 110, 116, 10, 32, 32, 32, 32, 47, 32, 69,
   120, 112, 114, 101, 115, 115, 105, 111, 110, 83, 116, 97, 116, 101, 109, 101, 110, 116, 10, 32, 32, 32, 32, 47, 32, 83, 101, 108, 101, 99, 116,
   105, 111, 110, 83, 116, 97, 116, 101, 109, 101, 110, 116, 10, 32, 32, 32, 32, 47, 32, 73, 116, 101, 114, 97, 116, 105, 111, 110, 83, 116, 97, 116,
   101, 109, 101, 110, 116, 10, 32, 32, 32, 32, 47, 32, 74, 117, 109, 112, 83, 116, 97, 116, 101, 109, 101, 110, 116, 10, 10, 76, 97, 98, 101, 108,
   101, 100, 83, 116, 97, 116, 101, 109, 101, 110, 116, 10, 32, 32, 32, 60, 45, 32, 73, 100, 101, 110, 116, 105, 102, 105, 101, 114, 32, 67, 79, 76,
   79, 78, 32, 83, 116, 97, 116, 101, 109, 101, 110, 116, 10, 32, 32, 32, 32, 47, 32, 67, 65, 83, 69, 32, 67, 111, 110, 115, 116, 97, 110, 116, 69,
   120, 112, 114, 101, 115, 115, 105, 111, 110, 32, 67, 79, 76, 79, 78, 32, 83, 116, 97, 116, 101, 109, 101, 110, 116, 10, 32, 32, 32, 32, 47, 32, 68,
   69, 70, 65, 85, 76, 84, 32, 67, 79, 76, 79, 78, 32, 83, 116, 97, 116, 101, 109, 101, 110, 116, 10, 10, 67, 111, 109, 112, 111, 117, 110, 100, 83,
   116, 97, 116, 101, 109, 101, 110, 116, 32, 60, 45, 32, 76, 87, 73, 78, 71, 32, 40, 32, 68, 101, 99, 108, 97, 114, 97, 116, 105, 111, 110, 32, 47,
   32, 83, 116, 97, 116, 101, 109, 101, 110, 116, 32, 41, 42, 32, 82, 87, 73, 78, 71, 10, 10, 69, 120, 112, 114, 101, 115, 115, 105, 111, 110, 83,
   116, 97, 116, 101, 109, 101, 110, 116, 32, 60, 45, 32, 69, 120, 112, 114, 101, 115, 115, 105, 111, 110, 63, 32, 83, 69, 77, 73, 10, 10, 83, 101,
   108, 101, 99, 116, 105, 111, 110, 83, 116, 97, 116, 101, 109, 101, 110, 116, 10] :=
  bytes_ofList
  ['\x20', '\x20', '\x20', '\x20', '/', '\x20', 'P', 'o', 'i', 'n', 't', 'e', 'r', '\n', '\n', 'D', 'i', 'r', 'e', 'c', 't', 'A', 'b', 's', 't', 'r',
   'a', 'c', 't', 'D', 'e', 'c', 'l', 'a', 'r', 'a', 't', 'o', 'r', '\n', '\x20', '\x20', '\x20', '<', '-', '\x20', '(', '\x20', 'L', 'P', 'A', 'R',
   '\x20', 'A', 'b', 's', 't', 'r', 'a', 'c', 't', 'D', 'e', 'c', 'l', 'a', 'r', 'a', 't', 'o', 'r', '\x20', 'R', 'P', 'A', 'R', '\n', '\x20', '\x20',
   '\x20', '\x20', '\x20', '\x20', '/', '\x20', 'L', 'B', 'R', 'K', '\x20', '(', 'A', 's', 's', 'i', 'g', 'n', 'm', 'e', 'n', 't', 'E', 'x', 'p', 'r',
   'e', 's', 's', 'i', 'o', 'n', '\x20', '/', '\x20', 'S', 'T', 'A', 'R', ')', '?', '\x20', 'R', 'B', 'R', 'K', '\n', '\x20', '\x20', '\x20', '\x20',
   '\x20', '\x20', '/', '\x20', 'L', 'P', 'A', 'R', '\x20', 'P', 'a', 'r', 'a', 'm', 'e', 't', 'e', 'r', 'T', 'y', 'p', 'e', 'L', 'i', 's', 't', '?',
   '\x20', 'R', 'P', 'A', 'R', '\n', '\x20', '\x20', '\x20', '\x20', '\x20', '\x20', ')', '\n', '\x20', '\x20', '\x20', '\x20', '\x20', '\x20', '(',
   '\x20', 'L', 'B', 'R', 'K', '\x20', '(', 'A', 's', 's', 'i', 'g', 'n', 'm', 'e', 'n', 't', 'E', 'x', 'p', 'r', 'e', 's', 's', 'i', 'o', 'n',
   '\x20', '/', '\x20', 'S', 'T', 'A', 'R', ')', '?', '\x20', 'R', 'B', 'R', 'K', '\n', '\x20', '\x20', '\x20', '\x20', '\x20', '\x20', '/', '\x20',
   'L', 'P', 'A', 'R', '\x20', 'P', 'a', 'r', 'a', 'm', 'e', 't', 'e', 'r', 'T', 'y', 'p', 'e', 'L', 'i', 's', 't', '?', '\x20', 'R', 'P', 'A', 'R',
   '\n', '\x20', '\x20', '\x20', '\x20', '\x20', '\x20', ')', '*', '\n', '\n', 'T', 'y', 'p', 'e', 'd', 'e', 'f', 'N', 'a', 'm', 'e', '\x20', '<',
   '-', 'I', 'd', 'e', 'n', 't', 'i', 'f', 'i', 'e', 'r', '\x20', '#', '{', '&', 'T', 'y', 'p', 'e', 'd', 'e', 'f', 'N', 'a', 'm', 'e', '}', '\n',
   '\n', 'I', 'n', 'i', 't', 'i', 'a', 'l', 'i', 'z', 'e', 'r', '\n', '\x20', '\x20', '\x20', '<', '-', '\x20', 'A', 's', 's', 'i', 'g', 'n', 'm',
   'e', 'n', 't', 'E', 'x', 'p', 'r', 'e', 's', 's', 'i', 'o', 'n', '\n', '\x20', '\x20', '\x20', '\x20', '/', '\x20', 'L', 'W', 'I', 'N', 'G',
   '\x20', 'I', 'n', 'i', 't', 'i', 'a', 'l', 'i', 'z', 'e', 'r', 'L', 'i', 's', 't', '\x20', 'C', 'O', 'M', 'M', 'A', '?', '\x20', 'R', 'W', 'I',
   'N', 'G', '\n', '\n', 'I', 'n', 'i', 't', 'i', 'a', 'l', 'i', 'z', 'e', 'r', 'L', 'i', 's', 't', '\x20', '<', '-', '\x20', 'D', 'e', 's', 'i', 'g',
   'n', 'a', 't', 'i', 'o', 'n', '?', '\x20', 'I', 'n', 'i', 't', 'i', 'a', 'l', 'i', 'z', 'e', 'r', '\x20', '(', 'C', 'O', 'M', 'M', 'A', '\x20',
   'D', 'e', 's', 'i', 'g', 'n', 'a', 't', 'i', 'o', 'n', '?', '\x20', 'I', 'n', 'i', 't', 'i', 'a', 'l', 'i', 'z', 'e', 'r', ')', '*', '\n', '\n',
   'D', 'e', 's', 'i', 'g', 'n', 'a', 't', 'i', 'o', 'n', '\x20', '<', '-', '\x20', 'D', 'e', 's', 'i', 'g', 'n', 'a', 't', 'o', 'r', '+', '\x20',
   'E', 'Q', 'U', '\n', '\n', 'D', 'e', 's', 'i', 'g', 'n', 'a', 't', 'o', 'r', '\n', '\x20', '\x20', '\x20', '<', '-', '\x20', 'L', 'B', 'R', 'K',
   '\x20', 'C', 'o', 'n', 's', 't', 'a', 'n', 't', 'E', 'x', 'p', 'r', 'e', 's', 's', 'i', 'o', 'n', '\x20', 'R', 'B', 'R', 'K', '\n', '\x20', '\x20',
   '\x20', '\x20', '/', '\x20', 'D', 'O', 'T', '\x20', 'I', 'd', 'e', 'n', 't', 'i', 'f', 'i', 'e', 'r', '\n', '\n', '\n', '#', '-', '-', '-', '-',
   '-', '-', '-', '-', '-', '-', '-', '-', '-', '-', '-', '-', '-', '-', '-', '-', '-', '-', '-', '-', '-', '-', '-', '-', '-', '-', '-', '-', '-',
   '-', '-', '-', '-', '-', '-', '-', '-', '-', '-', '-', '-', '-', '-', '-', '-', '-', '-', '-', '-', '-', '-', '-', '-', '-', '-', '-', '-', '-',
   '-', '-', '-', '-', '-', '-', '-', '-', '-', '-', '-', '\n', '#', '\x20', '\x20', 'A', '.', '2', '.', '3', '\x20', '\x20', 'S', 't', 'a', 't', 'e',
   'm', 'e', 'n', 't', 's', '\n', '#', '-', '-', '-', '-', '-', '-', '-', '-', '-', '-', '-', '-', '-', '-', '-', '-', '-', '-', '-', '-', '-', '-',
   '-', '-', '-', '-', '-', '-', '-', '-', '-', '-', '-', '-', '-', '-', '-', '-', '-', '-', '-', '-', '-', '-', '-', '-', '-', '-', '-', '-', '-',
   '-', '-', '-', '-', '-', '-', '-', '-', '-', '-', '-', '-', '-', '-', '-', '-', '-', '-', '-', '-', '-', '-', '\n', '\n', 'S', 't', 'a', 't', 'e',
   'm', 'e', 'n', 't', '\n', '\x20', '\x20', '\x20', '<', '-', '\x20', 'L', 'a', 'b', 'e', 'l', 'e', 'd', 'S', 't', 'a', 't', 'e', 'm', 'e', 'n', 't',
   '\n', '\x20', '\x20', '\x20', '\x20', '/', '\x20', 'C', 'o', 'm', 'p', 'o', 'u', 'n', 'd', 'S', 't', 'a', 't', 'e', 'm', 'e', 'n', 't', '\n',
   '\x20', '\x20', '\x20', '\x20', '/', '\x20', 'E', 'x', 'p', 'r', 'e', 's', 's', 'i', 'o', 'n', 'S', 't', 'a', 't', 'e', 'm', 'e', 'n', 't', '\n',
   '\x20', '\x20', '\x20', '\x20', '/', '\x20', 'S', 'e', 'l', 'e', 'c', 't', 'i', 'o', 'n', 'S', 't', 'a', 't', 'e', 'm', 'e', 'n', 't', '\n',
   '\x20', '\x20', '\x20', '\x20', '/', '\x20', 'I', 't', 'e', 'r', 'a', 't', 'i', 'o', 'n', 'S', 't', 'a', 't', 'e', 'm', 'e', 'n', 't', '\n',
   '\x20', '\x20', '\x20', '\x20', '/', '\x20', 'J', 'u', 'm', 'p', 'S', 't', 'a', 't', 'e', 'm', 'e', 'n', 't', '\n', '\n', 'L', 'a', 'b', 'e', 'l',
   'e', 'd', 'S', 't', 'a', 't', 'e', 'm', 'e', 'n', 't', '\n', '\x20', '\x20', '\x20', '<', '-', '\x20', 'I', 'd', 'e', 'n', 't', 'i', 'f', 'i', 'e',
   'r', '\x20', 'C', 'O', 'L', 'O', 'N', '\x20', 'S', 't', 'a', 't', 'e', 'm', 'e', 'n', 't', '\n', '\x20', '\x20', '\x20', '\x20', '/', '\x20', 'C',
   'A', 'S', 'E', '\x20', 'C', 'o', 'n', 's', 't', 'a', 'n', 't', 'E', 'x', 'p', 'r', 'e', 's', 's', 'i', 'o', 'n', '\x20', 'C', 'O', 'L', 'O', 'N',
   '\x20', 'S', 't', 'a', 't', 'e', 'm', 'e', 'n', 't', '\n', '\x20', '\x20', '\x20', '\x20', '/', '\x20', 'D', 'E', 'F', 'A', 'U', 'L', 'T', '\x20',
   'C', 'O', 'L', 'O', 'N', '\x20', 'S', 't', 'a', 't', 'e', 'm', 'e', 'n', 't', '\n', '\n', 'C', 'o', 'm', 'p', 'o', 'u', 'n', 'd', 'S', 't', 'a',
   't', 'e', 'm', 'e', 'n', 't', '\x20', '<', '-', '\x20', 'L', 'W', 'I', 'N', 'G', '\x20', '(', '\x20', 'D', 'e', 'c', 'l', 'a', 'r', 'a', 't', 'i',
   'o', 'n', '\x20', '/', '\x20', 'S', 't', 'a', 't', 'e', 'm', 'e', 'n', 't', '\x20', ')', '*', '\x20', 'R', 'W', 'I', 'N', 'G', '\n', '\n', 'E',
   'x', 'p', 'r', 'e', 's', 's', 'i', 'o', 'n', 'S', 't', 'a', 't', 'e', 'm', 'e', 'n', 't', '\x20', '<', '-', '\x20', 'E', 'x', 'p', 'r', 'e', 's',
   's', 'i', 'o', 'n', '?', '\x20', 'S', 'E', 'M', 'I', '\n', '\n', 'S', 'e', 'l', 'e', 'c', 't', 'i', 'o', 'n', 'S', 't', 'a', 't', 'e', 'm', 'e',
   'n', 't', '\n']

/-- `grammars/c.peg:284-327` -/
def cFile8 : List UInt8 := bytes "   <- IF LPAR Expression RPAR Statement (ELSE Statement)?
    / SWITCH LPAR Expression RPAR Statement

IterationStatement
   <- WHILE LPAR Expression RPAR Statement
    / DO Statement WHILE LPAR Expression RPAR SEMI
    / FOR LPAR Expression? SEMI Expression? SEMI Expression? RPAR Statement
    / FOR LPAR Declaration Expression? SEMI Expression? RPAR Statement

JumpStatement
   <- GOTO Identifier SEMI
    / CONTINUE SEMI
    / BREAK SEMI
    / RETURN Expression? SEMI


#-------------------------------------------------------------------------
#  A.2.1  Expressions
#-------------------------------------------------------------------------

PrimaryExpression
   <- StringLiteral
    / Constant
    / Identifier
    / LPAR Expression RPAR

PostfixExpression
   <- ( PrimaryExpression
      / LPAR TypeName RPAR LWING InitializerList COMMA? RWING
      )
      ( LBRK Expression RBRK
      / LPAR ArgumentExpressionList? RPAR
      / DOT Identifier
      / PTR Identifier
      / INC
      / DEC
      )*

ArgumentExpressionList <- AssignmentExpression (COMMA AssignmentExpression)*

UnaryExpression
   <- PostfixExpression
    / INC UnaryExpression
    / DEC UnaryExpression
"

theorem c_eq8 : cFile8 =
  [32, 32, 32, 60, 45, 32, 73, 70, 32, 76, 80, 65, 82, 32, 69, 120, 112, 114, 101, 115, 115, 105, 111, 110, 32, 82, 80, 65, 82, 32, 83, 116, 97, 116,
   101, 109, 101, 110, 116, 32, 40, 69, 76, 83, 69, 32, 83, 116, 97, 116, 101, 109, 101, 110, 116, 41, 63, 10, 32, 32, 32, 32, 47, 32, 83, 87, 73, 84,
   67, 72, 32, 76, 80, 65, 82, 32, 69, 120, 112, 114, 101, 115, 115, 105, 111, 110, 32, 82, 80, 65, 82, 32, 83, 116, 97, 116, 101, 109, 101, 110, 116,
   10, 10, 73, 116, 101, 114, 97, 116, 105, 111, 110, 83, 116, 97, 116, 101, 109, 101, 110, 116, 10, 32, 32, 32, 60, 45, 32, 87, 72, 73, 76, 69, 32,
   76, 80, 65, 82, 32, 69, 120, 112, 114, 101, 115, 115, 105, 111, 110, 32, 82, 80, 65, 82, 32, 83, 116, 97, 116, 101, 109, 101, 110, 116, 10, 32, 32,
   32, 32, 47, 32, 68, 79, 32, 83, 116, 97, 116, 101, 109, 101, 110, 116, 32, 87, 72, 73, 76, 69, 32, 76, 80, 65, 82, 32, 69, 120, 112, 114, 101, 115,
   115, 105, 111, 110, 32, 82, 80, 65, 82, 32, 83, 69, 77, 73, 10, 32, 32, 32, 32, 47, 32, 70, 79, 82, 32, 76, 80, 65, 82, 32, 69, 120, 112, 114, 101,
   115, 115, 105, 111, 110, 63, 32, 83, 69, 77, 73, 32, 69, 120, 112, 114, 101, 115, 115, 105, 111, 110, 63, 32, 83, 69, 77, 73, 32, 69, 120, 112,
   114, 101, 115, 115, 105, 111, 110, 63, 32, 82, 80, 65, 82, 32, 83, 116, 97, 116, 101, 109, 101, 110, 116, 10, 32, 32, 32, 32, 47, 32, 70, 79, 82,
   32, 76, 80, 65, 82, 32, 68, 101, 99, 108, 97, 114, 97, 116, 105, 111, 110, 32, 69, 120, 112, 114, 101, 115, 115, 105, 111, 110, 63, 32, 83, 69, 77,
   73, 32, 69, 120, 112, 114, 101, 115, 115, 105, 111, 110, 63, 32, 82, 80, 65, 82, 32, 83, 116, 97, 116, 101, 109, 101, 110, 116, 10, 10, 74, 117,
   109, 112, 83, 116, 97, 116, 101, 109, 101, 110, 116, 10, 32, 32, 32, 60, 45, 32, 71, 79, 84, 79, 32, 73, 100, 101, 110, 116, 105, 102, 105, 101,
   114, 32, 83, 69, 77, 73, 10, 32, 32, 32, 32, 47, 32, 67, 79, 78, 84, 73, 78, 85, 69, 32, 83, 69, 77, 73, 10, 32, 32, 32, 32, 47, 32, 66, 82, 69,
   65, 75, 32, 83, 69, 77, 73, 10, 32, 32, 32, 32, 47, 32, 82, 69, 84, 85, 82, 78, 32, 69, 120, 112, 114, 101, 115, 115, 105, 111, 110, 63, 32, 83,
   69, 77, 73, 10, 10, 10, 35, 45, 45, 45, 45, 45, 45, 45, 45, 45, 45, 45, 45, 45, 45, 45, 45, 45, 45, 45, 45, 45, 45, 45, 45, 45, 45, 45, 45, 45, 45,
   45, 45, 45, 45, 45, 45, 45, 45, 45, 45, 45, 45, 45, 45, 45, 45, 45, 45, 45, 45, 45, 45, 45, 45, 45, 45, 45, 45, 45, 45, 45, 45, 45, 45, 45, 45, 45,
   45, 45, 45, 45, 45, 45, 10, 35, 32, 32, 65, 46, 50, 46, 49, 32, 32, 69, 120, 112, 114, 101, 115, 115, 105, 111, 110, 115, 10, 35, 45, 45, 45, 45,
   45, 45, 45, 45, 45, 45, 45, 45, 45, 45, 45, 45, 45, 45, 45, 45, 45, 45, 45, 45, 45, 45, 45, 45, 45, 45, 45, 45, 45, 45, 45, 45, 45, 45, 45, 45, 45,
   45, 45, 45, 45, 45, 45, 45, 45, 45, 45, 45, 45, 45, 45, 45, 45, 45, 45, 45, 45, 45, 45, 45, 45, 45, 45, 45, 45, 45, 45, 45, 45, 10, 10, 80, 114,
   105, 109, 97, 114, 121, 69, 120, 112, 114, 101, 115, 115, 105, 111, 110, 10, 32, 32, 32, 60, 45, 32, 83, 116, 114, 105, 110, 103, 76, 105, 116,
   101, 114, 97, 108, 10, 32, 32, 32, 32, 47, 32, 67, 111, 110, 115, 116, 97, 110, 116, 10, 32, 32, 32, 32, 47, 32, 73, 100, 101, 110, 116, 105, 102,
   105, 101, 114, 10, 32, 32, 32, 32, 47, 32, 76, 80, 65, 82, 32, 69, 120, 112, 114, 101, 115, 115, 105, 111, 110, 32, 82, 80, 65, 82, 10, 10, 80,
   111, 115, 116, 102, 105, 120, 69, 120, 112, 114, 101, 115, 115, 105, 111, 110, 10, 32, 32, 32, 60, 45, 32, 40, 32, 80, 114, 105, 109, 97, 114, 121,
   69, 120, 112, 114, 101, 115, 115, 105, 111, 110, 10, 32, 32, 32, 32, 32, 32, 47, 32, 76, 80, 65, 82, 32, 84, 121, 112, 101, 78, 97, 109, 101, 32,
   82, 80, 65, 82, 32, 76, 87, 73, 78, 71, 32, 73, 110, 105, 116, 105, 97, 108, 105, 122, 101, 114, 76, 105, 115, 116, 32, 67, 79, 77, 77, 65, 63, 32,
   82, 87, 73, 78, 71, 10, 32, 32, 32, 32, 32, 32, 41, 10, 32, 32, 32, 32, 32, 32, 40, 32, 76, 66, 82, 75, 32, 69, 120, 112, 114, 101, 115, 115, 105,
   111, 110, 32, 82, 66, 82, 75, 10, 32, 32, 32, 32, 32, 32, 47, 32, 76, 80, 65, 82, 32, 65, 114, 103, 117, 109, 101, 110, 116, 69, 120, 112, 114,
   101, 115, 115, 105, 111, 110, 76, 105, 115, 116, 63, 32, 82, 80, 65, 82, 10, 32, 32, 32, 32, 32, 32, 47, 32, 68, 79, 84, 32, 73, 100, 101, 110,
   116, 105, 102, 105, 101, 114, 10, 32, 32, 32, 32, 32, 32, 47, 32, 80, 84, 82, 32, 73, 100, 101, 110, 116, 105, 102, 105, 101, 114, 10, 32, 32, 32,
   32, 32, 32, 47, 32, 73, 78, 67, 10, 32, 32, 32, 32, 32, 32, 47, 32, 68, 69, 67, 10, 32, 32, 32, 32, 32, 32, 41, 42, 10, 10, 65, 114, 103, 117, 109,
   101, 110, 116, 69, 120, 112, 114, 101, 115, 115, 105, 111, 110, 76, 105, 115, 116, 32, 60, 45, 32, 65, 115, 115, 105, 103, 110, 109, 101, 110, 116,
   69, 120, 112, 114, 101, 115, 115, 105, 111, 110, 32, 40, 67, 79, 77, 77, 65, 32, 65, 115, 115, 105, 103, 110, 109, 101, 110, 116, 69, 120, 112,
   114, 101, 115, 115, 105, 111, 110, 41, 42, 10, 10, 85, 110, 97, 114, 121, 69, 120, 112, 114, 101, 115, 115, 105, 111, 110, 10, 32, 32, 32, 60, 45,
   32, 80, 111, 115, 116, 102, 105, 120, 69, 120, 112, 114, 101, 115, 115, 105, 111, 110, 10, 32, 32, 32, 32, 47, 32, 73, 78, 67, 32, 85, 110, 97,
   114, 121, 69, 120, 112, 114, 101, 115, 115, 105, 111, 110, 10, 32, 32, 32, 32, 47, 32, 68, 69, 67, 32, 85, 110, 97, 114, 121, 69, 120, 112, 114,
   101, 115, 115, 105, 111, 110, 10] :=
  bytes_ofList
  ['\x20', '\x20', '\x20', '<', '-', '\x20', 'I', 'F', '\x20', 'L', 'P', 'A', 'R', '\x20', 'E', 'x', 'p', 'r', 'e', 's', 's', 'i', 'o', 'n', '\x20',
   'R', 'P', 'A', 'R', '\x20', 'S', 't', 'a', 't', 'e', 'm', 'e', 'n', 't', '\x20', '(', 'E', 'L', 'S', 'E', '\x20', 'S', 't', 'a', 't', 'e', 'm',
   'e', 'n', 't', ')', '?', '\n', '\x20', '\x20', '\x20', '\x20', '/', '\x20', 'S', 'W', 'I', 'T', 'C', 'H', '\x20', 'L', 'P', 'A', 'R', '\x20', 'E',
   'x', 'p', 'r', 'e', 's', 's', 'i', 'o', 'n', '\x20', 'R', 'P', 'A', 'R', '\x20', 'S', 't', 'a', 't', 'e', 'm', 'e', 'n', 't', '\n', '\n', 'I', 't',
   'e', 'r', 'a', 't', 'i', 'o', 'n', 'S', 't', 'a', 't', 'e', 'm', 'e', 'n', 't', '\n', '\x20', '\x20', '\x20', '<', '-', '\x20', 'W', 'H', 'I', 'L',
   'E', '\x20', 'L', 'P', 'A', 'R', '\x20', 'E', 'x', 'p', 'r', 'e', 's', 's', 'i', 'o', 'n', '\x20', 'R', 'P', 'A', 'R', '\x20', 'S', 't', 'a', 't',
   'e', 'm', 'e', 'n', 't', '\n', '\x20', '\x20', '\x20', '\x20', '/', '\x20', 'D', 'O', '\x20', 'S', 't', 'a', 't', 'e', 'm', 'e', 'n', 't', '\x20',
   'W', 'H', 'I', 'L', 'E', '\x20', 'L', 'P', 'A', 'R', '\x20', 'E', 'x', 'p', 'r', 'e', 's', 's', 'i', 'o', 'n', '\x20', 'R', 'P', 'A', 'R', '\x20',
   'S', 'E', 'M', 'I', '\n', '\x20', '\x20', '\x20', '\x20', '/', '\x20', 'F', 'O', 'R', '\x20', 'L', 'P', 'A', 'R', '\x20', 'E', 'x', 'p', 'r', 'e',
   's', 's', 'i', 'o', 'n', '?', '\x20', 'S', 'E', 'M', 'I', '\x20', 'E', 'x', 'p', 'r', 'e', 's', 's', 'i', 'o', 'n', '?', '\x20', 'S', 'E', 'M',
   'I', '\x20', 'E', 'x', 'p', 'r', 'e', 's', 's', 'i', 'o', 'n', '?', '\x20', 'R', 'P', 'A', 'R', '\x20', 'S', 't', 'a', 't', 'e', 'm', 'e', 'n',
   't', '\n', '\x20', '\x20', '\x20', '\x20', '/', '\x20', 'F', 'O', 'R', '\x20', 'L', 'P', 'A', 'R', '\x20', 'D', 'e', 'c', 'l', 'a', 'r', 'a', 't',
   'i', 'o', 'n', '\x20', 'E', 'x', 'p', 'r', 'e', 's', 's', 'i', 'o', 'n', '?', '\x20', 'S', 'E', 'M', 'I', '\x20', 'E', 'x', 'p', 'r', 'e', 's',
   's', 'i', 'o', 'n', '?', '\x20', 'R', 'P', 'A', 'R', '\x20', 'S', 't', 'a', 't', 'e', 'm', 'e', 'n', 't', '\n', '\n', 'J', 'u', 'm', 'p', 'S', 't',
   'a', 't', 'e', 'm', 'e', 'n', 't', '\n', '\x20', '\x20', '\x20', '<', '-', '\x20', 'G', 'O', 'T', 'O', '\x20', 'I', 'd', 'e', 'n', 't', 'i', 'f',
   'i', 'e', 'r', '\x20', 'S', 'E', 'M', 'I', '\n', '\x20', '\x20', '\x20', '\x20', '/', '\x20', 'C', 'O', 'N', 'T', 'I', 'N', 'U', 'E', '\x20', 'S',
   'E', 'M', 'I', '\n', '\x20', '\x20', '\x20', '\x20', '/', '\x20', 'B', 'R', 'E', 'A', 'K', '\x20', 'S', 'E', 'M', 'I', '\n', '\x20', '\x20',
   '\x20', '\x20', '/', '\x20', 'R', 'E', 'T', 'U', 'R', 'N', '\x20', 'E', 'x', 'p', 'r', 'e', 's', 's', 'i', 'o', 'n', '?', '\x20', 'S', 'E', 'M',
   'I', '\n', '\n', '\n', '#', '-', '-', '-', '-', '-', '-', '-', '-', '-', '-', '-', '-', '-', '-', '-', '-', '-', '-', '-', '-', '-', '-', '-', '-',
   '-', '-', '-', '-', '-', '-', '-', '-', '-', '-', '-', '-', '-', '-', '-', '-', '-', '-', '-', '-', '-', '-', '-', '-', '-', '-', '-', '-', '-',
   '-', '-', '-', '-', '-', '-', '-', '-', '-', '-', '-', '-', '-', '-', '-', '-', '-', '-', '-', '-', '\n', '#', '\x20', '\x20', 'A', '.', '2', '.',
   '1', '\x20', '\x20', 'E', 'x', 'p', 'r', 'e', 's', 's', 'i', 'o', 'n', 's', '\n', '#', '-', '-', '-', '-', '-', '-', '-', '-', '-', '-', '-', '-',
   '-', '-', '-', '-', '-', '-', '-', '-', '-', '-', '-', '-', '-', '-', '-', '-', '-', '-', '-', '-', '-', '-', '-', '-', '-', '-', '-', '-', '-',
   '-', '-', '-', '-', '-', '-', '-', '-', '-', '-', '-', '-', '-', '-', '-', '-', '-', '-', '-', '-', '-', '-', '-', '-', '-', '-', '-', '-', '-',
   '-', '-', '-', '\n', '\n', 'P', 'r', 'i', 'm', 'a', 'r', 'y', 'E', 'x', 'p', 'r', 'e', 's', 's', 'i', 'o', 'n', '\n', '\x20', '\x20', '\x20', '<',
   '-', '\x20', 'S', 't', 'r', 'i', 'n', 'g', 'L', 'i', 't', 'e', 'r', 'a', 'l', '\n', '\x20', '\x20', '\x20', '\x20', '/', '\x20', 'C', 'o', 'n',
   's', 't', 'a', 'n', 't', '\n', '\x20', '\x20', '\x20', '\x20', '/', '\x20', 'I', 'd', 'e', 'n', 't', 'i', 'f', 'i', 'e', 'r', '\n', '\x20', '\x20',
   '\x20', '\x20', '/', '\x20', 'L', 'P', 'A', 'R', '\x20', 'E', 'x', 'p', 'r', 'e', 's', 's', 'i', 'o', 'n', '\x20', 'R', 'P', 'A', 'R', '\n', '\n',
   'P', 'o', 's', 't', 'f', 'i', 'x', 'E', 'x', 'p', 'r', 'e', 's', 's', 'i', 'o', 'n', '\n', '\x20', '\x20', '\x20', '<', '-', '\x20', '(', '\x20',
   'P', 'r', 'i', 'm', 'a', 'r', 'y', 'E', 'x', 'p', 'r', 'e', 's', 's', 'i', 'o', 'n', '\n', '\x20', '\x20', '\x20', '\x20', '\x20', '\x20', '/',
   '\x20', 'L', 'P', 'A', 'R', '\x20', 'T', 'y', 'p', 'e', 'N', 'a', 'm', 'e', '\x20', 'R', 'P', 'A', 'R', '\x20', 'L', 'W', 'I', 'N', 'G', '\x20',
   'I', 'n', 'i', 't', 'i', 'a', 'l', 'i', 'z', 'e', 'r', 'L', 'i', 's', 't', '\x20', 'C', 'O', 'M', 'M', 'A', '?', '\x20', 'R', 'W', 'I', 'N', 'G',
   '\n', '\x20', '\x20', '\x20', '\x20', '\x20', '\x20', ')', '\n', '\x20', '\x20', '\x20', '\x20', '\x20', '\x20', '(', '\x20', 'L', 'B', 'R', 'K',
   '\x20', 'E', 'x', 'p', 'r', 'e', 's', 's', 'i', 'o', 'n', '\x20', 'R', 'B', 'R', 'K', '\n', '\x20', '\x20', '\x20', '\x20', '\x20', '\x20', '/',
   '\x20', 'L', 'P', 'A', 'R', '\x20', 'A', 'r', 'g', 'u', 'm', 'e', 'n', 't', 'E', 'x', 'p', 'r', 'e', 's', 's', 'i', 'o', 'n', 'L', 'i', 's', 't',
   '?', '\x20', 'R', 'P', 'A', 'R', '\n', '\x20', '\x20', '\x20', '\x20', '\x20', '\x20', '/', '\x20', 'D', 'O', 'T', '\x20', 'I', 'd', 'e', 'n', 't',
   'i', 'f', 'i', 'e', 'r', '\n', '\x20', '\x20', '\x20', '\x20', '\x20', '\x20', '/', '\x20', 'P', 'T', 'R', '\x20', 'I', 'd', 'e', 'n', 't', 'i',
   'f', 'i', 'e', 'r', '\n', '\x20', '\x20', '\x20', '\x20', '\x20', '\x20', '/', '\x20', 'I', 'N', 'C', '\n', '\x20', '\x20', '\x20', '\x20', '\x20',
   '\x20', '/', '\x20', 'D', 'E', 'C', '\n', '\x20', '\x20', '\x20', '\x20', '\x20', '\x20', ')', '*', '\n', '\n', 'A', 'r', 'g', 'u', 'm', 'e', 'n',
   't', 'E', 'x', 'p', 'r', 'e', 's', 's', 'i', 'o', 'n', 'L', 'i', 's', 't', '\x20', '<', '-', '\x20', 'A', 's', 's', 'i', 'g', 'n', 'm', 'e', 'n',
   't', 'E', 'x', 'p', 'r', 'e', 's', 's', 'i', 'o', 'n', '\x20', '(', 'C', 'O', 'M', 'M', 'A', '\x20', 'A', 's', 's', 'i', 'g', 'n', 'm', 'e', 'n',
   't', 'E', 'x', 'p', 'r', 'e', 's', 's', 'i', 'o', 'n', ')', '*', '\n', '\n', 'U', 'n', 'a', 'r', 'y', 'E', 'x', 'p', 'r', 'e', 's', 's', 'i', 'o',
   'n', '\n', '\x20', '\x20', '\x20', '<', '-', '\x20', 'P', 'o', 's', 't', 'f', 'i', 'x', 'E', 'x', 'p', 'r', 'e', 's', 's', 'i', 'o', 'n', '\n',
   '\x20', '\x20', '\x20', '\x20', '/', '\x20', 'I', 'N', 'C', '\x20', 'U', 'n', 'a', 'r', 'y', 'E', 'x', 'p', 'r', 'e', 's', 's', 'i', 'o', 'n',
   '\n', '\x20', '\x20', '\x20', '\x20', '/', '\x20', 'D', 'E', 'C', '\x20', 'U', 'n', 'a', 'r', 'y', 'E', 'x', 'p', 'r', 'e', 's', 's', 'i', 'o',
   'n', '\n']

/-- `grammars/c.peg:328-364` -/
def cFile9 : List UInt8 := bytes "    / UnaryOperator CastExpression
    / SIZEOF (UnaryExpression / LPAR TypeName RPAR )

UnaryOperator
   <- AND
    / STAR
    / PLUS
    / MINUS
    / TILDA
    / BANG

CastExpression <- (LPAR TypeName RPAR CastExpression) / UnaryExpression

MultiplicativeExpression <- CastExpression ((STAR / DIV / MOD) CastExpression)*

AdditiveExpression <- MultiplicativeExpression ((PLUS / MINUS) MultiplicativeExpression)*

ShiftExpression <- AdditiveExpression ((LEFT / RIGHT) AdditiveExpression)*

RelationalExpression <- ShiftExpression ((LE / GE / LT / GT) ShiftExpression)*

EqualityExpression <- RelationalExpression ((EQUEQU / BANGEQU) RelationalExpression)*

ANDExpression <- EqualityExpression (AND EqualityExpression)*

ExclusiveORExpression <- ANDExpression (HAT ANDExpression)*

InclusiveORExpression <- ExclusiveORExpression (OR ExclusiveORExpression)*

LogicalANDExpression <- InclusiveORExpression (ANDAND InclusiveORExpression)*

LogicalORExpression <- LogicalANDExpression (OROR LogicalANDExpression)*

ConditionalExpression <- LogicalORExpression (QUERY Expression COLON LogicalORExpression)*

AssignmentExpression
   <- UnaryExpression AssignmentOperator AssignmentExpression
"

theorem c_eq9 : cFile9 =
  [32, 32, 32, 32, 47, 32, 85, 110, 97, 114, 121, 79, 112, 101, 114, 97, 116, 111, 114, 32, 67, 97, 115, 116, 69, 120, 112, 114, 101, 115, 115, 105,
   111, 110, 10, 32, 32, 32, 32, 47, 32, 83, 73, 90, 69, 79, 70, 32, 40, 85, 110, 97, 114, 121, 69, 120, 112, 114, 101, 115, 115, 105, 111, 110, 32,
   47, 32, 76, 80, 65, 82, 32, 84, 121, 112, 101, 78, 97, 109, 101, 32, 82, 80, 65, 82, 32, 41, 10, 10, 85, 110, 97, 114, 121, 79, 112, 101, 114, 97,
   116, 111, 114, 10, 32, 32, 32, 60, 45, 32, 65, 78, 68, 10, 32, 32, 32, 32, 47, 32, 83, 84, 65, 82, 10, 32, 32, 32, 32, 47, 32, 80, 76, 85, 83, 10,
   32, 32, 32, 32, 47, 32, 77, 73, 78, 85, 83, 10, 32, 32, 32, 32, 47, 32, 84, 73, 76, 68, 65, 10, 32, 32, 32, 32, 47, 32, 66, 65, 78, 71, 10, 10, 67,
   97, 115, 116, 69, 120, 112, 114, 101, 115, 115, 105, 111, 110, 32, 60, 45, 32, 40, 76, 80, 65, 82, 32, 84, 121, 112, 101, 78, 97, 109, 101, 32, 82,
   80, 65, 82, 32, 67, 97, 115, 116, 69, 120, 112, 114, 101, 115, 115, 105, 111, 110, 41, 32, 47, 32, 85, 110, 97, 114, 121, 69, 120, 112, 114, 101,
   115, 115, 105, 111, 110, 10, 10, 77, 117, 108, 116, 105, 112, 108, 105, 99, 97, 116, 105, 118, 101, 69, 120, 112, 114, 101, 115, 115, 105, 111,
   110, 32, 60, 45, 32, 67, 97, 115, 116, 69, 120, 112, 114, 101, 115, 115, 105, 111, 110, 32, 40, 40, 83, 84, 65, 82, 32, 47, 32, 68, 73, 86, 32, 47,
   32, 77, 79, 68, 41, 32, 67, 97, 115, 116, 69, 120, 112, 114, 101, 115, 115, 105, 111, 110, 41, 42, 10, 10, 65, 100, 100, 105, 116, 105, 118, 101,
   69, 120, 112, 114, 101, 115, 115, 105, 111, 110, 32, 60, 45, 32, 77, 117, 108, 116, 105, 112, 108, 105, 99, 97, 116, 105, 118, 101, 69, 120, 112,
   114, 101, 115, 115, 105, 111, 110, 32, 40, 40, 80, 76, 85, 83, 32, 47, 32, 77, 73, 78, 85, 83, 41, 32, 77, 117, 108, 116, 105, 112, 108, 105, 99,
   97, 116, 105, 118, 101, 69, 120, 112, 114, 101, 115, 115, 105, 111, 110, 41, 42, 10, 10, 83, 104, 105, 102, 116, 69, 120, 112, 114, 101, 115, 115,
   105, 111, 110, 32, 60, 45, 32, 65, 100, 100, 105, 116, 105, 118, 101, 69, 120, 112, 114, 101, 115, 115, 105, 111, 110, 32, 40, 40, 76, 69, 70, 84,
   32, 47, 32, 82, 73, 71, 72, 84, 41, 32, 65, 100, 100, 105, 116, 105, 118, 101, 69, 120, 112, 114, 101, 115, 115, 105, 111, 110, 41, 42, 10, 10, 82,
   101, 108, 97, 116, 105, 111, 110, 97, 108, 69, 120, 112, 114, 101, 115, 115, 105, 111, 110, 32, 60, 45, 32, 83, 104, 105, 102, 116, 69, 120, 112,
   114, 101, 115, 115, 105, 111, 110, 32, 40, 40, 76, 69, 32, 47, 32, 71, 69, 32, 47, 32, 76, 84, 32, 47, 32, 71, 84, 41, 32, 83, 104, 105, 102, 116,
   69, 120, 112, 114, 101, 115, 115, 105, 111, 110, 41, 42, 10, 10, 69, 113, 117, 97, 108, 105, 116, 121, 69, 120, 112, 114, 101, 115, 115, 105, 111,
   110, 32, 60, 45, 32, 82, 101, 108, 97, 116, 105, 111, 110, 97, 108, 69, 120, 112, 114, 101, 115, 115, 105, 111, 110, 32, 40, 40, 69, 81, 85, 69,
   81, 85, 32, 47, 32, 66, 65, 78, 71, 69, 81, 85, 41, 32, 82, 101, 108, 97, 116, 105, 111, 110, 97, 108, 69, 120, 112, 114, 101, 115, 115, 105, 111,
   110, 41, 42, 10, 10, 65, 78, 68, 69, 120, 112, 114, 101, 115, 115, 105, 111, 110, 32, 60, 45, 32, 69, 113, 117, 97, 108, 105, 116, 121, 69, 120,
   112, 114, 101, 115, 115, 105, 111, 110, 32, 40, 65, 78, 68, 32, 69, 113, 117, 97, 108, 105, 116, 121, 69, 120, 112, 114, 101, 115, 115, 105, 111,
   110, 41, 42, 10, 10, 69, 120, 99, 108, 117, 115, 105, 118, 101, 79, 82, 69, 120, 112, 114, 101, 115, 115, 105, 111, 110, 32, 60, 45, 32, 65, 78,
   68, 69, 120, 112, 114, 101, 115, 115, 105, 111, 110, 32, 40, 72, 65, 84, 32, 65, 78, 68, 69, 120, 112, 114, 101, 115, 115, 105, 111, 110, 41, 42,
   10, 10, 73, 110, 99, 108, 117, 115, 105, 118, 101, 79, 82, 69, 120, 112, 114, 101, 115, 115, 105, 111, 110, 32, 60, 45, 32, 69, 120, 99, 108, 117,
   115, 105, 118, 101, 79, 82, 69, 120, 112, 114, 101, 115, 115, 105, 111, 110, 32, 40, 79, 82, 32, 69, 120, 99, 108, 117, 115, 105, 118, 101, 79, 82,
   69, 120, 112, 114, 101, 115, 115, 105, 111, 110, 41, 42, 10, 10, 76, 111, 103, 105, 99, 97, 108, 65, 78, 68, 69, 120, 112, 114, 101, 115, 115, 105,
   111, 110, 32, 60, 45, 32, 73, 110, 99, 108, 117, 115, 105, 118, 101, 79, 82, 69, 120, 112, 114, 101, 115, 115, 105, 111, 110, 32, 40, 65, 78, 68,
   65, 78, 68, 32, 73, 110, 99, 108, 117, 115, 105, 118, 101, 79, 82, 69, 120, 112, 114, 101, 115, 115, 105, 111, 110, 41, 42, 10, 10, 76, 111, 103,
   105, 99, 97, 108, 79, 82, 69, 120, 112, 114, 101, 115, 115, 105, 111, 110, 32, 60, 45, 32, 76, 111, 103, 105, 99, 97, 108, 65, 78, 68, 69, 120,
   112, 114, 101, 115, 115, 105, 111, 110, 32, 40, 79, 82, 79, 82, 32, 76, 111, 103, 105, 99, 97, 108, 65, 78, 68, 69, 120, 112, 114, 101, 115, 115,
   105, 111, 110, 41, 42, 10, 10, 67, 111, 110, 100, 105, 116, 105, 111, 110, 97, 108, 69, 120, 112, 114, 101, 115, 115, 105, 111, 110, 32, 60, 45,
   32, 76, 111, 103, 105, 99, 97, 108, 79, 82, 69, 120, 112, 114, 101, 115, 115, 105, 111, 110, 32, 40, 81, 85, 69, 82, 89, 32, 69, 120, 112, 114,
   101, 115, 115, 105, 111, 110, 32, 67, 79, 76, 79, 78, 32, 76, 111, 103, 105, 99, 97, 108, 79, 82, 69, 120, 112, 114, 101, 115, 115, 105, 111, 110,
   41, 42, 10, 10, 65, 115, 115, 105, 103, 110, 109, 101, 110, 116, 69, 120, 112, 114, 101, 115, 115, 105, 111, 110, 10, 32, 32, 32, 60, 45, 32, 85,
   110, 97, 114, 121, 69, 120, 112, 114, 101, 115, 115, 105, 111, 110, 32, 65, 115, 115, 105, 103, 110, 109, 101, 110, 116, 79, 112, 101, 114, 97,
   116, 111, 114, 32, 65, 115, 115, 105, 103, 110, 109, 101, 110, 116, 69, 120, 112, 114, 101, 115, 115, 105, 111, 110, 10] :=
  bytes_ofList
  ['\x20', '\x20', '\x20', '\x20', '/', '\x20', 'U', 'n', 'a', 'r', 'y', 'O', 'p', 'e', 'r', 'a', 't', 'o', 'r', '\x20', 'C', 'a', 's', 't', 'E', 'x',
   'p', 'r', 'e', 's', 's', 'i', 'o', 'n', '\n', '\x20', '\x20', '\x20', '\x20', '/', '\x20', 'S', 'I', 'Z', 'E', 'O', 'F', '\x20', '(', 'U', 'n',
   'a', 'r', 'y', 'E', 'x', 'p', 'r', 'e', 's', 's', 'i', 'o', 'n', '\x20', '/', '\x20', 'L', 'P', 'A', 'R', '\x20', 'T', 'y', 'p', 'e', 'N', 'a',
   'm', 'e', '\x20', 'R', 'P', 'A', 'R', '\x20', ')', '\n', '\n', 'U', 'n', 'a', 'r', 'y', 'O', 'p', 'e', 'r', 'a', 't', 'o', 'r', '\n', '\x20',
   '\x20', '\x20', '<', '-', '\x20', 'A', 'N', 'D', '\n', '\x20', '\x20', '\x20', '\x20', '/', '\x20', 'S', 'T', 'A', 'R', '\n', '\x20', '\x20',
   '\x20', '\x20', '/', '\x20', 'P', 'L', 'U', 'S', '\n', '\x20', '\x20', '\x20', '\x20', '/', '\x20', 'M', 'I', 'N', 'U', 'S', '\n', '\x20', '\x20',
   '\x20', '\x20', '/', '\x20', 'T', 'I', 'L', 'D', 'A', '\n', '\x20', '\x20', '\x20', '\x20', '/', '\x20', 'B', 'A', 'N', 'G', '\n', '\n', 'C', 'a',
   's', 't', 'E', 'x', 'p', 'r', 'e', 's', 's', 'i', 'o', 'n', '\x20', '<', '-', '\x20', '(', 'L', 'P', 'A', 'R', '\x20', 'T', 'y', 'p', 'e', 'N',
   'a', 'm', 'e', '\x20', 'R', 'P', 'A', 'R', '\x20', 'C', 'a', 's', 't', 'E', 'x', 'p', 'r', 'e', 's', 's', 'i', 'o', 'n', ')', '\x20', '/', '\x20',
   'U', 'n', 'a', 'r', 'y', 'E', 'x', 'p', 'r', 'e', 's', 's', 'i', 'o', 'n', '\n', '\n', 'M', 'u', 'l', 't', 'i', 'p', 'l', 'i', 'c', 'a', 't', 'i',
   'v', 'e', 'E', 'x', 'p', 'r', 'e', 's', 's', 'i', 'o', 'n', '\x20', '<', '-', '\x20', 'C', 'a', 's', 't', 'E', 'x', 'p', 'r', 'e', 's', 's', 'i',
   'o', 'n', '\x20', '(', '(', 'S', 'T', 'A', 'R', '\x20', '/', '\x20', 'D', 'I', 'V', '\x20', '/', '\x20', 'M', 'O', 'D', ')', '\x20', 'C', 'a', 's',
   't', 'E', 'x', 'p', 'r', 'e', 's', 's', 'i', 'o', 'n', ')', '*', '\n', '\n', 'A', 'd', 'd', 'i', 't', 'i', 'v', 'e', 'E', 'x', 'p', 'r', 'e', 's',
   's', 'i', 'o', 'n', '\x20', '<', '-', '\x20', 'M', 'u', 'l', 't', 'i', 'p', 'l', 'i', 'c', 'a', 't', 'i', 'v', 'e', 'E', 'x', 'p', 'r', 'e', 's',
   's', 'i', 'o', 'n', '\x20', '(', '(', 'P', 'L', 'U', 'S', '\x20', '/', '\x20', 'M', 'I', 'N', 'U', 'S', ')', '\x20', 'M', 'u', 'l', 't', 'i', 'p',
   'l', 'i', 'c', 'a', 't', 'i', 'v', 'e', 'E', 'x', 'p', 'r', 'e', 's', 's', 'i', 'o', 'n', ')', '*', '\n', '\n', 'S', 'h', 'i', 'f', 't', 'E', 'x',
   'p', 'r', 'e', 's', 's', 'i', 'o', 'n', '\x20', '<', '-', '\x20', 'A', 'd', 'd', 'i', 't', 'i', 'v', 'e', 'E', 'x', 'p', 'r', 'e', 's', 's', 'i',
   'o', 'n', '\x20', '(', '(', 'L', 'E', 'F', 'T', '\x20', '/', '\x20', 'R', 'I', 'G', 'H', 'T', ')', '\x20', 'A', 'd', 'd', 'i', 't', 'i', 'v', 'e',
   'E', 'x', 'p', 'r', 'e', 's', 's', 'i', 'o', 'n', ')', '*', '\n', '\n', 'R', 'e', 'l', 'a', 't', 'i', 'o', 'n', 'a', 'l', 'E', 'x', 'p', 'r', 'e',
   's', 's', 'i', 'o', 'n', '\x20', '<', '-', '\x20', 'S', 'h', 'i', 'f', 't', 'E', 'x', 'p', 'r', 'e', 's', 's', 'i', 'o', 'n', '\x20', '(', '(',
   'L', 'E', '\x20', '/', '\x20', 'G', 'E', '\x20', '/', '\x20', 'L', 'T', '\x20', '/', '\x20', 'G', 'T', ')', '\x20', 'S', 'h', 'i', 'f', 't', 'E',
   'x', 'p', 'r', 'e', 's', 's', 'i', 'o', 'n', ')', '*', '\n', '\n', 'E', 'q', 'u', 'a', 'l', 'i', 't', 'y', 'E', 'x', 'p', 'r', 'e', 's', 's', 'i',
   'o', 'n', '\x20', '<', '-', '\x20', 'R', 'e', 'l', 'a', 't', 'i', 'o', 'n', 'a', 'l', 'E', 'x', 'p', 'r', 'e', 's', 's', 'i', 'o', 'n', '\x20',
   '(', '(', 'E', 'Q', 'U', 'E', 'Q', 'U', '\x20', '/', '\x20', 'B', 'A', 'N', 'G', 'E', 'Q', 'U', ')', '\x20', 'R', 'e', 'l', 'a', 't', 'i', 'o',
   'n', 'a', 'l', 'E', 'x', 'p', 'r', 'e', 's', 's', 'i', 'o', 'n', ')', '*', '\n', '\n', 'A', 'N', 'D', 'E', 'x', 'p', 'r', 'e', 's', 's', 'i', 'o',
   'n', '\x20', '<', '-', '\x20', 'E', 'q', 'u', 'a', 'l', 'i', 't', 'y', 'E', 'x', 'p', 'r', 'e', 's', 's', 'i', 'o', 'n', '\x20', '(', 'A', 'N',
   'D', '\x20', 'E', 'q', 'u', 'a', 'l', 'i', 't', 'y', 'E', 'x', 'p', 'r', 'e', 's', 's', 'i', 'o', 'n', ')', '*', '\n', '\n', 'E', 'x', 'c', 'l',
   'u', 's', 'i', 'v', 'e', 'O', 'R', 'E', 'x', 'p', 'r', 'e', 's', 's', 'i', 'o', 'n', '\x20', '<', '-', '\x20', 'A', 'N', 'D', 'E', 'x', 'p', 'r',
   'e', 's', 's', 'i', 'o', 'n', '\x20', '(', 'H', 'A', 'T', '\x20', 'A', 'N', 'D', 'E', 'x', 'p', 'r', 'e', 's', 's', 'i', 'o', 'n', ')', '*', '\n',
   '\n', 'I', 'n', 'c', 'l', 'u', 's', 'i', 'v', 'e', 'O', 'R', 'E', 'x', 'p', 'r', 'e', 's', 's', 'i', 'o', 'n', '\x20', '<', '-', '\x20', 'E', 'x',
   'c', 'l', 'u', 's', 'i', 'v', 'e', 'O', 'R', 'E', 'x', 'p', 'r', 'e', 's', 's', 'i', 'o', 'n', '\x20', '(', 'O', 'R', '\x20', 'E', 'x', 'c', 'l',
   'u', 's', 'i', 'v', 'e', 'O', 'R', 'E', 'x', 'p', 'r', 'e', 's', 's', 'i', 'o', 'n', ')', '*', '\n', '\n', 'L', 'o', 'g', 'i', 'c', 'a', 'l', 'A',
   'N', 'D', 'E', 'x', 'p', 'r', 'e', 's', 's', 'i', 'o', 'n', '\x20', '<', '-', '\x20', 'I', 'n', 'c', 'l', 'u', 's', 'i', 'v', 'e', 'O', 'R', 'E',
   'x', 'p', 'r', 'e', 's', 's', 'i', 'o', 'n', '\x20', '(', 'A', 'N', 'D', 'A', 'N', 'D', '\x20', 'I', 'n', 'c', 'l', 'u', 's', 'i', 'v', 'e', 'O',
   'R', 'E', 'x', 'p', 'r', 'e', 's', 's', 'i', 'o', 'n', ')', '*', '\n', '\n', 'L', 'o', 'g', 'i', 'c', 'a', 'l', 'O', 'R', 'E', 'x', 'p', 'r', 'e',
   's', 's', 'i', 'o', 'n', '\x20', '<', '-', '\x20', 'L', 'o', 'g', 'i', 'c', 'a', 'l', 'A', 'N', 'D', 'E', 'x', 'p', 'r', 'e', 's', 's', 'i', 'o',
   'n', '\x20', '(', 'O', 'R', 'O', 'R', '\x20', 'L', 'o', 'g', 'i', 'c', 'a', 'l', 'A', 'N', 'D', 'E', 'x', 'p', 'r', 'e', 's', 's', 'i', 'o', 'n',
   ')', '*', '\n', '\n', 'C', 'o', 'n', 'd', 'i', 't', 'i', 'o', 'n', 'a', 'l', 'E', 'x', 'p', 'r', 'e', 's', 's', 'i', 'o', 'n', '\x20', '<', '-',
   '\x20', 'L', 'o', 'g', 'i', 'c', 'a', 'l', 'O', 'R', 'E', 'x', 'p', 'r', 'e', 's', 's', 'i', 'o', 'n', '\x20', '(', 'Q', 'U', 'E', 'R', 'Y',
   '\x20', 'E', 'x', 'p', 'r', 'e', 's', 's', 'i', 'o', 'n', '\x20', 'C', 'O', 'L', 'O', 'N', '\x20', 'L', 'o', 'g', 'i', 'c', 'a', 'l', 'O', 'R',
   'E', 'x', 'p', 'r', 'e', 's', 's', 'i', 'o', 'n', ')', '*', '\n', '\n', 'A', 's', 's', 'i', 'g', 'n', 'm', 'e', 'n', 't', 'E', 'x', 'p', 'r', 'e',
   's', 's', 'i', 'o', 'n', '\n', '\x20', '\x20', '\x20', '<', '-', '\x20', 'U', 'n', 'a', 'r', 'y', 'E', 'x', 'p', 'r', 'e', 's', 's', 'i', 'o', 'n',
   '\x20', 'A', 's', 's', 'i', 'g', 'n', 'm', 'e', 'n', 't', 'O', 'p', 'e', 'r', 'a', 't', 'o', 'r', '\x20', 'A', 's', 's', 'i', 'g', 'n', 'm', 'e',
   'n', 't', 'E', 'x', 'p', 'r', 'e', 's', 's', 'i', 'o', 'n', '\n']

/-- `grammars/c.peg:365-413` -/
def cFile10 : List UInt8 := bytes "    / ConditionalExpression

AssignmentOperator
   <- EQU
    / STAREQU
    / DIVEQU
    / MODEQU
    / PLUSEQU
    / MINUSEQU
    / LEFTEQU
    / RIGHTEQU
    / ANDEQU
    / HATEQU
    / OREQU

Expression <- AssignmentExpression (COMMA AssignmentExpression)*

ConstantExpression <- ConditionalExpression


#-------------------------------------------------------------------------
#  A.1.1  Lexical elements
#  Tokens are: Keyword, Identifier, Constant, StringLiteral, Punctuator.
#  Tokens are separated by Spacing.
#-------------------------------------------------------------------------

Spacing
   <- ( WhiteSpace
      / LongComment
      / LineComment
      / Pragma
      )*

WhiteSpace  <- [ \\n\\r\\t]             # 7.4.1.10 [\\u000B\\u000C]

LongComment <- '/*' (!'*/'.)* '*/'   # 6.4.9

LineComment <- '//' (!'\\n' .)*       # 6.4.9

Pragma      <- '#'  (!'\\n' .)*       # Treat pragma as comment


#-------------------------------------------------------------------------
#  A.1.2  Keywords
#-------------------------------------------------------------------------

AUTO      <- 'auto'      !IdChar Spacing
BREAK     <- 'break'     !IdChar Spacing
CASE      <- 'case'      !IdChar Spacing
"

theorem c_eq10 : cFile10 =
  [32, 32, 32, 32, 47, 32, 67, 111, 110, 100, 105, 116, 105, 111, 110, 97, 108, 69, 120, 112, 114, 101, 115, 115, 105, 111, 110, 10, 10, 65, 115, 115,
   105, 103, 110, 109, 101, 110, 116, 79, 112, 101, 114, 97, 116, 111, 114, 10, 32, 32, 32, 60, 45, 32, 69, 81, 85, 10, 32, 32, 32, 32, 47, 32, 83,
   84, 65, 82, 69, 81, 85, 10, 32, 32, 32, 32, 47, 32, 68, 73, 86, 69, 81, 85, 10, 32, 32, 32, 32, 47, 32, 77, 79, 68, 69, 81, 85, 10, 32, 32, 32, 32,
   47, 32, 80, 76, 85, 83, 69, 81, 85, 10, 32, 32, 32, 32, 47, 32, 77, 73, 78, 85, 83, 69, 81, 85, 10, 32, 32, 32, 32, 47, 32, 76, 69, 70, 84, 69, 81,
   85, 10, 32, 32, 32, 32, 47, 32, 82, 73, 71, 72, 84, 69, 81, 85, 10, 32, 32, 32, 32, 47, 32, 65, 78, 68, 69, 81, 85, 10, 32, 32, 32, 32, 47, 32, 72,
   65, 84, 69, 81, 85, 10, 32, 32, 32, 32, 47, 32, 79, 82, 69, 81, 85, 10, 10, 69, 120, 112, 114, 101, 115, 115, 105, 111, 110, 32, 60, 45, 32, 65,
   115, 115, 105, 103, 110, 109, 101, 110, 116, 69, 120, 112, 114, 101, 115, 115, 105, 111, 110, 32, 40, 67, 79, 77, 77, 65, 32, 65, 115, 115, 105,
   103, 110, 109, 101, 110, 116, 69, 120, 112, 114, 101, 115, 115, 105, 111, 110, 41, 42, 10, 10, 67, 111, 110, 115, 116, 97, 110, 116, 69, 120, 112,
   114, 101, 115, 115, 105, 111, 110, 32, 60, 45, 32, 67, 111, 110, 100, 105, 116, 105, 111, 110, 97, 108, 69, 120, 112, 114, 101, 115, 115, 105, 111,
   110, 10, 10, 10, 35, 45, 45, 45, 45, 45, 45, 45, 45, 45, 45, 45, 45, 45, 45, 45, 45, 45, 45, 45, 45, 45, 45, 45, 45, 45, 45, 45, 45, 45, 45, 45,
   45, 45, 45, 45, 45, 45, 45, 45, 45, 45, 45, 45, 45, 45, 45, 45, 45, 45, 45, 45, 45, 45, 45, 45, 45, 45, 45, 45, 45, 45, 45, 45, 45, 45, 45, 45, 45,
   45, 45, 45, 45, 45, 10, 35, 32, 32, 65, 46, 49, 46, 49, 32, 32, 76, 101, 120, 105, 99, 97, 108, 32, 101, 108, 101, 109, 101, 110, 116, 115, 10, 35,
   32, 32, 84, 111, 107, 101, 110, 115, 32, 97, 114, 101, 58, 32, 75, 101, 121, 119, 111, 114, 100, 44, 32, 73, 100, 101, 110, 116, 105, 102, 105,
   101, 114, 44, 32, 67, 111, 110, 115, 116, 97, 110, 116, 44, 32, 83, 116, 114, 105, 110, 103, 76, 105, 116, 101, 114, 97, 108, 44, 32, 80, 117, 110,
   99, 116, 117, 97, 116, 111, 114, 46, 10, 35, 32, 32, 84, 111, 107, 101, 110, 115, 32, 97, 114, 101, 32, 115, 101, 112, 97, 114, 97, 116, 101, 100,
   32, 98, 121, 32, 83, 112, 97, 99, 105, 110, 103, 46, 10, 35, 45, 45, 45, 45, 45, 45, 45, 45, 45, 45, 45, 45, 45, 45, 45, 45, 45, 45, 45, 45, 45,
   45, 45, 45, 45, 45, 45, 45, 45, 45, 45, 45, 45, 45, 45, 45, 45, 45, 45, 45, 45, 45, 45, 45, 45, 45, 45, 45, 45, 45, 45, 45, 45, 45, 45, 45, 45, 45,
   45, 45, 45, 45, 45, 45, 45, 45, 45, 45, 45, 45, 45, 45, 45, 10, 10, 83, 112, 97, 99, 105, 110, 103, 10, 32, 32, 32, 60, 45, 32, 40, 32, 87, 104,
   105, 116, 101, 83, 112, 97, 99, 101, 10, 32, 32, 32, 32, 32, 32, 47, 32, 76, 111, 110, 103, 67, 111, 109, 109, 101, 110, 116, 10, 32, 32, 32, 32,
   32, 32, 47, 32, 76, 105, 110, 101, 67, 111, 109, 109, 101, 110, 116, 10, 32, 32, 32, 32, 32, 32, 47, 32, 80, 114, 97, 103, 109, 97, 10, 32, 32, 32,
   32, 32, 32, 41, 42, 10, 10, 87, 104, 105, 116, 101, 83, 112, 97, 99, 101, 32, 32, 60, 45, 32, 91, 32, 92, 110, 92, 114, 92, 116, 93, 32, 32, 32,
   32, 32, 32, 32, 32, 32, 32, 32, 32, 32, 35, 32, 55, 46, 52, 46, 49, 46, 49, 48, 32, 91, 92, 117, 48, 48, 48, 66, 92, 117, 48, 48, 48, 67, 93, 10,
   10, 76, 111, 110, 103, 67, 111, 109, 109, 101, 110, 116, 32, 60, 45, 32, 39, 47, 42, 39, 32, 40, 33, 39, 42, 47, 39, 46, 41, 42, 32, 39, 42, 47,
   39, 32, 32, 32, 35, 32, 54, 46, 52, 46, 57, 10, 10, 76, 105, 110, 101, 67, 111, 109, 109, 101, 110, 116, 32, 60, 45, 32, 39, 47, 47, 39, 32, 40,
   33, 39, 92, 110, 39, 32, 46, 41, 42, 32, 32, 32, 32, 32, 32, 32, 35, 32, 54, 46, 52, 46, 57, 10, 10, 80, 114, 97, 103, 109, 97, 32, 32, 32, 32, 32,
   32, 60, 45, 32, 39, 35, 39, 32, 32, 40, 33, 39, 92, 110, 39, 32, 46, 41, 42, 32, 32, 32, 32, 32, 32, 32, 35, 32, 84, 114, 101, 97, 116, 32, 112,
   114, 97, 103, 109, 97, 32, 97, 115, 32, 99, 111, 109, 109, 101, 110, 116, 10, 10, 10, 35, 45, 45, 45, 45, 45, 45, 45, 45, 45, 45, 45, 45, 45, 45,
   45, 45, 45, 45, 45, 45, 45, 45, 45, 45, 45, 45, 45, 45, 45, 45, 45, 45, 45, 45, 45, 45, 45, 45, 45, 45, 45, 45, 45, 45, 45, 45, 45, 45, 45, 45, 45,
   45, 45, 45, 45, 45, 45, 45, 45, 45, 45, 45, 45, 45, 45, 45, 45, 45, 45, 45, 45, 45, 45, 10, 35, 32, 32, 65, 46, 49, 46, 50, 32, 32, 75, 101, 121,
   119, 111, 114, 100, 115, 10, 35, 45, 45, 45, 45, 45, 45, 45, 45, 45, 45, 45, 45, 45, 45, 45, 45, 45, 45, 45, 45, 45, 45, 45, 45, 45, 45, 45, 45,
   45, 45, 45, 45, 45, 45, 45, 45, 45, 45, 45, 45, 45, 45, 45, 45, 45, 45, 45, 45, 45, 45, 45, 45, 45, 45, 45, 45, 45, 45, 45, 45, 45, 45, 45, 45, 45,
   45, 45, 45, 45, 45, 45, 45, 45, 10, 10, 65, 85, 84, 79, 32, 32, 32, 32, 32, 32, 60, 45, 32, 39, 97, 117, 116, 111, 39, 32, 32, 32, 32, 32, 32, 33,
   73, 100, 67, 104, 97, 114, 32, 83, 112, 97, 99, 105, 110, 103, 10, 66, 82, 69, 65, 75, 32, 32, 32, 32, 32, 60, 45, 32, 39, 98, 114, 101, 97, 107,
   39, 32, 32, 32, 32, 32, 33, 73, 100, 67, 104, 97, 114, 32, 83, 112, 97, 99, 105, 110, 103, 10, 67, 65, 83, 69, 32, 32, 32, 32, 32, 32, 60, 45, 32,
   39, 99, 97, 115, 101, 39, 32, 32, 32, 32, 32, 32, 33, 73, 100, 67, 104, 97, 114, 32, 83, 112, 97, 99, 105, 110, 103, 10] :=
  bytes_ofList
  ['\x20', '\x20', '\x20', '\x20', '/', '\x20', 'C', 'o', 'n', 'd', 'i', 't', 'i', 'o', 'n', 'a', 'l', 'E', 'x', 'p', 'r', 'e', 's', 's', 'i', 'o',
   'n', '\n', '\n', 'A', 's', 's', 'i', 'g', 'n', 'm', 'e', 'n', 't', 'O', 'p', 'e', 'r', 'a', 't', 'o', 'r', '\n', '\x20', '\x20', '\x20', '<', '-',
   '\x20', 'E', 'Q', 'U', '\n', '\x20', '\x20', '\x20', '\x20', '/', '\x20', 'S', 'T', 'A', 'R', 'E', 'Q', 'U', '\n', '\x20', '\x20', '\x20', '\x20',
   '/', '\x20', 'D', 'I', 'V', 'E', 'Q', 'U', '\n', '\x20', '\x20', '\x20', '\x20', '/', '\x20', 'M', 'O', 'D', 'E', 'Q', 'U', '\n', '\x20', '\x20',
   '\x20', '\x20', '/', '\x20', 'P', 'L', 'U', 'S', 'E', 'Q', 'U', '\n', '\x20', '\x20', '\x20', '\x20', '/', '\x20', 'M', 'I', 'N', 'U', 'S', 'E',
   'Q', 'U', '\n', '\x20', '\x20', '\x20', '\x20', '/', '\x20', 'L', 'E', 'F', 'T', 'E', 'Q', 'U', '\n', '\x20', '\x20', '\x20', '\x20', '/', '\x20',
   'R', 'I', 'G', 'H', 'T', 'E', 'Q', 'U', '\n', '\x20', '\x20', '\x20', '\x20', '/', '\x20', 'A', 'N', 'D', 'E', 'Q', 'U', '\n', '\x20', '\x20',
   '\x20', '\x20', '/', '\x20', 'H', 'A', 'T', 'E', 'Q', 'U', '\n', '\x20', '\x20', '\x20', '\x20', '/', '\x20', 'O', 'R', 'E', 'Q', 'U', '\n', '\n',
   'E', 'x', 'p', 'r', 'e', 's', 's', 'i', 'o', 'n', '\x20', '<', '-', '\x20', 'A', 's', 's', 'i', 'g', 'n', 'm', 'e', 'n', 't', 'E', 'x', 'p', 'r',
   'e', 's', 's', 'i', 'o', 'n', '\x20', '(', 'C', 'O', 'M', 'M', 'A', '\x20', 'A', 's', 's', 'i', 'g', 'n', 'm', 'e', 'n', 't', 'E', 'x', 'p', 'r',
   'e', 's', 's', 'i', 'o', 'n', ')', '*', '\n', '\n', 'C', 'o', 'n', 's', 't', 'a', 'n', 't', 'E', 'x', 'p', 'r', 'e', 's', 's', 'i', 'o', 'n',
   '\x20', '<', '-', '\x20', 'C', 'o', 'n', 'd', 'i', 't', 'i', 'o', 'n', 'a', 'l', 'E', 'x', 'p', 'r', 'e', 's', 's', 'i', 'o', 'n', '\n', '\n',
   '\n', '#', '-', '-', '-', '-', '-', '-', '-', '-', '-', '-', '-', '-', '-', '-', '-', '-', '-', '-', '-', '-', '-', '-', '-', '-', '-', '-', '-',
   '-', '-', '-', '-', '-', '-', '-', '-', '-', '-', '-', '-', '-', '-', '-', '-', '-', '-', '-', '-', '-', '-', '-', '-', '-', '-', '-', '-', '-',
   '-', '-', '-', '-', '-', '-', '-', '-', '-', '-', '-', '-', '-', '-', '-', '-', '-', '\n', '#', '\x20', '\x20', 'A', '.', '1', '.', '1', '\x20',
   '\x20', 'L', 'e', 'x', 'i', 'c', 'a', 'l', '\x20', 'e', 'l', 'e', 'm', 'e', 'n', 't', 's', '\n', '#', '\x20', '\x20', 'T', 'o', 'k', 'e', 'n', 's',
   '\x20', 'a', 'r', 'e', ':', '\x20', 'K', 'e', 'y', 'w', 'o', 'r', 'd', ',', '\x20', 'I', 'd', 'e', 'n', 't', 'i', 'f', 'i', 'e', 'r', ',', '\x20',
   'C', 'o', 'n', 's', 't', 'a', 'n', 't', ',', '\x20', 'S', 't', 'r', 'i', 'n', 'g', 'L', 'i', 't', 'e', 'r', 'a', 'l', ',', '\x20', 'P', 'u', 'n',
   'c', 't', 'u', 'a', 't', 'o', 'r', '.', '\n', '#', '\x20', '\x20', 'T', 'o', 'k', 'e', 'n', 's', '\x20', 'a', 'r', 'e', '\x20', 's', 'e', 'p', 'a',
   'r', 'a', 't', 'e', 'd', '\x20', 'b', 'y', '\x20', 'S', 'p', 'a', 'c', 'i', 'n', 'g', '.', '\n', '#', '-', '-', '-', '-', '-', '-', '-', '-', '-',
   '-', '-', '-', '-', '-', '-', '-', '-', '-', '-', '-', '-', '-', '-', '-', '-', '-', '-', '-', '-', '-', '-', '-', '-', '-', '-', '-', '-', '-',
   '-', '-', '-', '-', '-', '-', '-', '-', '-', '-', '-', '-', '-', '-', '-', '-', '-', '-', '-', '-', '-', '-', '-', '-', '-', '-', '-', '-', '-',
   '-', '-', '-', '-', '-', '-', '\n', '\n', 'S', 'p', 'a', 'c', 'i', 'n', 'g', '\n', '\x20', '\x20', '\x20', '<', '-', '\x20', '(', '\x20', 'W', 'h',
   'i', 't', 'e', 'S', 'p', 'a', 'c', 'e', '\n', '\x20', '\x20', '\x20', '\x20', '\x20', '\x20', '/', '\x20', 'L', 'o', 'n', 'g', 'C', 'o', 'm', 'm',
   'e', 'n', 't', '\n', '\x20', '\x20', '\x20', '\x20', '\x20', '\x20', '/', '\x20', 'L', 'i', 'n', 'e', 'C', 'o', 'm', 'm', 'e', 'n', 't', '\n',
   '\x20', '\x20', '\x20', '\x20', '\x20', '\x20', '/', '\x20', 'P', 'r', 'a', 'g', 'm', 'a', '\n', '\x20', '\x20', '\x20', '\x20', '\x20', '\x20',
   ')', '*', '\n', '\n', 'W', 'h', 'i', 't', 'e', 'S', 'p', 'a', 'c', 'e', '\x20', '\x20', '<', '-', '\x20', '[', '\x20', '\\', 'n', '\\', 'r', '\\',
   't', ']', '\x20', '\x20', '\x20', '\x20', '\x20', '\x20', '\x20', '\x20', '\x20', '\x20', '\x20', '\x20', '\x20', '#', '\x20', '7', '.', '4', '.',
   '1', '.', '1', '0', '\x20', '[', '\\', 'u', '0', '0', '0', 'B', '\\', 'u', '0', '0', '0', 'C', ']', '\n', '\n', 'L', 'o', 'n', 'g', 'C', 'o', 'm',
   'm', 'e', 'n', 't', '\x20', '<', '-', '\x20', '\'', '/', '*', '\'', '\x20', '(', '!', '\'', '*', '/', '\'', '.', ')', '*', '\x20', '\'', '*', '/',
   '\'', '\x20', '\x20', '\x20', '#', '\x20', '6', '.', '4', '.', '9', '\n', '\n', 'L', 'i', 'n', 'e', 'C', 'o', 'm', 'm', 'e', 'n', 't', '\x20', '<',
   '-', '\x20', '\'', '/', '/', '\'', '\x20', '(', '!', '\'', '\\', 'n', '\'', '\x20', '.', ')', '*', '\x20', '\x20', '\x20', '\x20', '\x20', '\x20',
   '\x20', '#', '\x20', '6', '.', '4', '.', '9', '\n', '\n', 'P', 'r', 'a', 'g', 'm', 'a', '\x20', '\x20', '\x20', '\x20', '\x20', '\x20', '<', '-',
   '\x20', '\'', '#', '\'', '\x20', '\x20', '(', '!', '\'', '\\', 'n', '\'', '\x20', '.', ')', '*', '\x20', '\x20', '\x20', '\x20', '\x20', '\x20',
   '\x20', '#', '\x20', 'T', 'r', 'e', 'a', 't', '\x20', 'p', 'r', 'a', 'g', 'm', 'a', '\x20', 'a', 's', '\x20', 'c', 'o', 'm', 'm', 'e', 'n', 't',
   '\n', '\n', '\n', '#', '-', '-', '-', '-', '-', '-', '-', '-', '-', '-', '-', '-', '-', '-', '-', '-', '-', '-', '-', '-', '-', '-', '-', '-', '-',
   '-', '-', '-', '-', '-', '-', '-', '-', '-', '-', '-', '-', '-', '-', '-', '-', '-', '-', '-', '-', '-', '-', '-', '-', '-', '-', '-', '-', '-',
   '-', '-', '-', '-', '-', '-', '-', '-', '-', '-', '-', '-', '-', '-', '-', '-', '-', '-', '-', '\n', '#', '\x20', '\x20', 'A', '.', '1', '.', '2',
   '\x20', '\x20', 'K', 'e', 'y', 'w', 'o', 'r', 'd', 's', '\n', '#', '-', '-', '-', '-', '-', '-', '-', '-', '-', '-', '-', '-', '-', '-', '-', '-',
   '-', '-', '-', '-', '-', '-', '-', '-', '-', '-', '-', '-', '-', '-', '-', '-', '-', '-', '-', '-', '-', '-', '-', '-', '-', '-', '-', '-', '-',
   '-', '-', '-', '-', '-', '-', '-', '-', '-', '-', '-', '-', '-', '-', '-', '-', '-', '-', '-', '-', '-', '-', '-', '-', '-', '-', '-', '-', '\n',
   '\n', 'A', 'U', 'T', 'O', '\x20', '\x20', '\x20', '\x20', '\x20', '\x20', '<', '-', '\x20', '\'', 'a', 'u', 't', 'o', '\'', '\x20', '\x20', '\x20',
   '\x20', '\x20', '\x20', '!', 'I', 'd', 'C', 'h', 'a', 'r', '\x20', 'S', 'p', 'a', 'c', 'i', 'n', 'g', '\n', 'B', 'R', 'E', 'A', 'K', '\x20',
   '\x20', '\x20', '\x20', '\x20', '<', '-', '\x20', '\'', 'b', 'r', 'e', 'a', 'k', '\'', '\x20', '\x20', '\x20', '\x20', '\x20', '!', 'I', 'd', 'C',
   'h', 'a', 'r', '\x20', 'S', 'p', 'a', 'c', 'i', 'n', 'g', '\n', 'C', 'A', 'S', 'E', '\x20', '\x20', '\x20', '\x20', '\x20', '\x20', '<', '-',
   '\x20', '\'', 'c', 'a', 's', 'e', '\'', '\x20', '\x20', '\x20', '\x20', '\x20', '\x20', '!', 'I', 'd', 'C', 'h', 'a', 'r', '\x20', 'S', 'p', 'a',
   'c', 'i', 'n', 'g', '\n']

/-- `grammars/c.peg:414-442` -/
def cFile11 : List UInt8 := bytes "CHAR      <- 'char'      !IdChar Spacing
CONST     <- 'const'     !IdChar Spacing
CONTINUE  <- 'continue'  !IdChar Spacing
DEFAULT   <- 'default'   !IdChar Spacing
DOUBLE    <- 'double'    !IdChar Spacing
DO        <- 'do'        !IdChar Spacing
ELSE      <- 'else'      !IdChar Spacing
ENUM      <- 'enum'      !IdChar Spacing
EXTERN    <- 'extern'    !IdChar Spacing
FLOAT     <- 'float'     !IdChar Spacing
FOR       <- 'for'       !IdChar Spacing
GOTO      <- 'goto'      !IdChar Spacing
IF        <- 'if'        !IdChar Spacing
INT       <- 'int'       !IdChar Spacing
INLINE    <- 'inline'    !IdChar Spacing
LONG      <- 'long'      !IdChar Spacing
REGISTER  <- 'register'  !IdChar Spacing
RESTRICT  <- 'restrict'  !IdChar Spacing
RETURN    <- 'return'    !IdChar Spacing
SHORT     <- 'short'     !IdChar Spacing
SIGNED    <- 'signed'    !IdChar Spacing
SIZEOF    <- 'sizeof'    !IdChar Spacing
STATIC    <- 'static'    !IdChar Spacing
STRUCT    <- 'struct'    !IdChar Spacing
SWITCH    <- 'switch'    !IdChar Spacing
TYPEDEF   <- 'typedef'   !IdChar Spacing
UNION     <- 'union'     !IdChar Spacing
UNSIGNED  <- 'unsigned'  !IdChar Spacing
VOID      <- 'void'      !IdChar Spacing
"

theorem c_eq11 : cFile11 =
  [67, 72, 65, 82, 32, 32, 32, 32, 32, 32, 60, 45, 32, 39, 99, 104, 97, 114, 39, 32, 32, 32, 32, 32, 32, 33, 73, 100, 67, 104, 97, 114, 32, 83, 112,
   97, 99, 105, 110, 103, 10, 67, 79, 78, 83, 84, 32, 32, 32, 32, 32, 60, 45, 32, 39, 99, 111, 110, 115, 116, 39, 32, 32, 32, 32, 32, 33, 73, 100, 67,
   104, 97, 114, 32, 83, 112, 97, 99, 105, 110, 103, 10, 67, 79, 78, 84, 73, 78, 85, 69, 32, 32, 60, 45, 32, 39, 99, 111, 110, 116, 105, 110, 117,
   101, 39, 32, 32, 33, 73, 100, 67, 104, 97, 114, 32, 83, 112, 97, 99, 105, 110, 103, 10, 68, 69, 70, 65, 85, 76, 84, 32, 32, 32, 60, 45, 32, 39,
   100, 101, 102, 97, 117, 108, 116, 39, 32, 32, 32, 33, 73, 100, 67, 104, 97, 114, 32, 83, 112, 97, 99, 105, 110, 103, 10, 68, 79, 85, 66, 76, 69,
   32, 32, 32, 32, 60, 45, 32, 39, 100, 111, 117, 98, 108, 101, 39, 32, 32, 32, 32, 33, 73, 100, 67, 104, 97, 114, 32, 83, 112, 97, 99, 105, 110, 103,
   10, 68, 79, 32, 32, 32, 32, 32, 32, 32, 32, 60, 45, 32, 39, 100, 111, 39, 32, 32, 32, 32, 32, 32, 32, 32, 33, 73, 100, 67, 104, 97, 114, 32, 83,
   112, 97, 99, 105, 110, 103, 10, 69, 76, 83, 69, 32, 32, 32, 32, 32, 32, 60, 45, 32, 39, 101, 108, 115, 101, 39, 32, 32, 32, 32, 32, 32, 33, 73,
   100, 67, 104, 97, 114, 32, 83, 112, 97, 99, 105, 110, 103, 10, 69, 78, 85, 77, 32, 32, 32, 32, 32, 32, 60, 45, 32, 39, 101, 110, 117, 109, 39, 32,
   32, 32, 32, 32, 32, 33, 73, 100, 67, 104, 97, 114, 32, 83, 112, 97, 99, 105, 110, 103, 10, 69, 88, 84, 69, 82, 78, 32, 32, 32, 32, 60, 45, 32, 39,
   101, 120, 116, 101, 114, 110, 39, 32, 32, 32, 32, 33, 73, 100, 67, 104, 97, 114, 32, 83, 112, 97, 99, 105, 110, 103, 10, 70, 76, 79, 65, 84, 32,
   32, 32, 32, 32, 60, 45, 32, 39, 102, 108, 111, 97, 116, 39, 32, 32, 32, 32, 32, 33, 73, 100, 67, 104, 97, 114, 32, 83, 112, 97, 99, 105, 110, 103,
   10, 70, 79, 82, 32, 32, 32, 32, 32, 32, 32, 60, 45, 32, 39, 102, 111, 114, 39, 32, 32, 32, 32, 32, 32, 32, 33, 73, 100, 67, 104, 97, 114, 32, 83,
   112, 97, 99, 105, 110, 103, 10, 71, 79, 84, 79, 32, 32, 32, 32, 32, 32, 60, 45, 32, 39, 103, 111, 116, 111, 39, 32, 32, 32, 32, 32, 32, 33, 73,
   100, 67, 104, 97, 114, 32, 83, 112, 97, 99, 105, 110, 103, 10, 73, 70, 32, 32, 32, 32, 32, 32, 32, 32, 60, 45, 32, 39, 105, 102, 39, 32, 32, 32,
   32, 32, 32, 32, 32, 33, 73, 100, 67, 104, 97, 114, 32, 83, 112, 97, 99, 105, 110, 103, 10, 73, 78, 84, 32, 32, 32, 32, 32, 32, 32, 60, 45, 32, 39,
   105, 110, 116, 39, 32, 32, 32, 32, 32, 32, 32, 33, 73, 100, 67, 104, 97, 114, 32, 83, 112, 97, 99, 105, 110, 103, 10, 73, 78, 76, 73, 78, 69, 32,
   32, 32, 32, 60, 45, 32, 39, 105, 110, 108, 105, 110, 101, 39, 32, 32, 32, 32, 33, 73, 100, 67, 104, 97, 114, 32, 83, 112, 97, 99, 105, 110, 103,
   10, 76, 79, 78, 71, 32, 32, 32, 32, 32, 32, 60, 45, 32, 39, 108, 111, 110, 103, 39, 32, 32, 32, 32, 32, 32, 33, 73, 100, 67, 104, 97, 114, 32, 83,
   112, 97, 99, 105, 110, 103, 10, 82, 69, 71, 73, 83, 84, 69, 82, 32, 32, 60, 45, 32, 39, 114, 101, 103, 105, 115, 116, 101, 114, 39, 32, 32, 33, 73,
   100, 67, 104, 97, 114, 32, 83, 112, 97, 99, 105, 110, 103, 10, 82, 69, 83, 84, 82, 73, 67, 84, 32, 32, 60, 45, 32, 39, 114, 101, 115, 116, 114,
   105, 99, 116, 39, 32, 32, 33, 73, 100, 67, 104, 97, 114, 32, 83, 112, 97, 99, 105, 110, 103, 10, 82, 69, 84, 85, 82, 78, 32, 32, 32, 32, 60, 45,
   32, 39, 114, 101, 116, 117, 114, 110, 39, 32, 32, 32, 32, 33, 73, 100, 67, 104, 97, 114, 32, 83, 112, 97, 99, 105, 110, 103, 10, 83, 72, 79, 82,
   84, 32, 32, 32, 32, 32, 60, 45, 32, 39, 115, 104, 111, 114, 116, 39, 32, 32, 32, 32, 32, 33, 73, 100, 67, 104, 97, 114, 32, 83, 112, 97, 99, 105,
   110, 103, 10, 83, 73, 71, 78, 69, 68, 32, 32, 32, 32, 60, 45, 32, 39, 115, 105, 103, 110, 101, 100, 39, 32, 32, 32, 32, 33, 73, 100, 67, 104, 97,
   114, 32, 83, 112, 97, 99, 105, 110, 103, 10, 83, 73, 90, 69, 79, 70, 32, 32, 32, 32, 60, 45, 32, 39, 115, 105, 122, 101, 111, 102, 39, 32, 32, 32,
   32, 33, 73, 100, 67, 104, 97, 114, 32, 83, 112, 97, 99, 105, 110, 103, 10, 83, 84, 65, 84, 73, 67, 32, 32, 32, 32, 60, 45, 32, 39, 115, 116, 97,
   116, 105, 99, 39, 32, 32, 32, 32, 33, 73, 100, 67, 104, 97, 114, 32, 83, 112, 97, 99, 105, 110, 103, 10, 83, 84, 82, 85, 67, 84, 32, 32, 32, 32,
   60, 45, 32, 39, 115, 116, 114, 117, 99, 116, 39, 32, 32, 32, 32, 33, 73, 100, 67, 104, 97, 114, 32, 83, 112, 97, 99, 105, 110, 103, 10, 83, 87, 73,
   84, 67, 72, 32, 32, 32, 32, 60, 45, 32, 39, 115, 119, 105, 116, 99, 104, 39, 32, 32, 32, 32, 33, 73, 100, 67, 104, 97, 114, 32, 83, 112, 97, 99,
   105, 110, 103, 10, 84, 89, 80, 69, 68, 69, 70, 32, 32, 32, 60, 45, 32, 39, 116, 121, 112, 101, 100, 101, 102, 39, 32, 32, 32, 33, 73, 100, 67, 104,
   97, 114, 32, 83, 112, 97, 99, 105, 110, 103, 10, 85, 78, 73, 79, 78, 32, 32, 32, 32, 32, 60, 45, 32, 39, 117, 110, 105, 111, 110, 39, 32, 32, 32,
   32, 32, 33, 73, 100, 67, 104, 97, 114, 32, 83, 112, 97, 99, 105, 110, 103, 10, 85, 78, 83, 73, 71, 78, 69, 68, 32, 32, 60, 45, 32, 39, 117, 110,
   115, 105, 103, 110, 101, 100, 39, 32, 32, 33, 73, 100, 67, 104, 97, 114, 32, 83, 112, 97, 99, 105, 110, 103, 10, 86, 79, 73, 68, 32, 32, 32, 32,
   32, 32, 60, 45, 32, 39, 118, 111, 105, 100, 39, 32, 32, 32, 32, 32, 32, 33, 73, 100, 67, 104, 97, 114, 32, 83, 112, 97, 99, 105, 110, 103, 10] :=
  bytes_ofList
  ['C', 'H', 'A', 'R', '\x20', '\x20', '\x20', '\x20', '\x20', '\x20', '<', '-', '\x20', '\'', 'c', 'h', 'a', 'r', '\'', '\x20', '\x20', '\x20',
   '\x20', '\x20', '\x20', '!', 'I', 'd', 'C', 'h', 'a', 'r', '\x20', 'S', 'p', 'a', 'c', 'i', 'n', 'g', '\n', 'C', 'O', 'N', 'S', 'T', '\x20',
   '\x20', '\x20', '\x20', '\x20', '<', '-', '\x20', '\'', 'c', 'o', 'n', 's', 't', '\'', '\x20', '\x20', '\x20', '\x20', '\x20', '!', 'I', 'd', 'C',
   'h', 'a', 'r', '\x20', 'S', 'p', 'a', 'c', 'i', 'n', 'g', '\n', 'C', 'O', 'N', 'T', 'I', 'N', 'U', 'E', '\x20', '\x20', '<', '-', '\x20', '\'',
   'c', 'o', 'n', 't', 'i', 'n', 'u', 'e', '\'', '\x20', '\x20', '!', 'I', 'd', 'C', 'h', 'a', 'r', '\x20', 'S', 'p', 'a', 'c', 'i', 'n', 'g', '\n',
   'D', 'E', 'F', 'A', 'U', 'L', 'T', '\x20', '\x20', '\x20', '<', '-', '\x20', '\'', 'd', 'e', 'f', 'a', 'u', 'l', 't', '\'', '\x20', '\x20', '\x20',
   '!', 'I', 'd', 'C', 'h', 'a', 'r', '\x20', 'S', 'p', 'a', 'c', 'i', 'n', 'g', '\n', 'D', 'O', 'U', 'B', 'L', 'E', '\x20', '\x20', '\x20', '\x20',
   '<', '-', '\x20', '\'', 'd', 'o', 'u', 'b', 'l', 'e', '\'', '\x20', '\x20', '\x20', '\x20', '!', 'I', 'd', 'C', 'h', 'a', 'r', '\x20', 'S', 'p',
   'a', 'c', 'i', 'n', 'g', '\n', 'D', 'O', '\x20', '\x20', '\x20', '\x20', '\x20', '\x20', '\x20', '\x20', '<', '-', '\x20', '\'', 'd', 'o', '\'',
   '\x20', '\x20', '\x20', '\x20', '\x20', '\x20', '\x20', '\x20', '!', 'I', 'd', 'C', 'h', 'a', 'r', '\x20', 'S', 'p', 'a', 'c', 'i', 'n', 'g', '\n',
   'E', 'L', 'S', 'E', '\x20', '\x20', '\x20', '\x20', '\x20', '\x20', '<', '-', '\x20', '\'', 'e', 'l', 's', 'e', '\'', '\x20', '\x20', '\x20',
   '\x20', '\x20', '\x20', '!', 'I', 'd', 'C', 'h', 'a', 'r', '\x20', 'S', 'p', 'a', 'c', 'i', 'n', 'g', '\n', 'E', 'N', 'U', 'M', '\x20', '\x20',
   '\x20', '\x20', '\x20', '\x20', '<', '-', '\x20', '\'', 'e', 'n', 'u', 'm', '\'', '\x20', '\x20', '\x20', '\x20', '\x20', '\x20', '!', 'I', 'd',
   'C', 'h', 'a', 'r', '\x20', 'S', 'p', 'a', 'c', 'i', 'n', 'g', '\n', 'E', 'X', 'T', 'E', 'R', 'N', '\x20', '\x20', '\x20', '\x20', '<', '-',
   '\x20', '\'', 'e', 'x', 't', 'e', 'r', 'n', '\'', '\x20', '\x20', '\x20', '\x20', '!', 'I', 'd', 'C', 'h', 'a', 'r', '\x20', 'S', 'p', 'a', 'c',
   'i', 'n', 'g', '\n', 'F', 'L', 'O', 'A', 'T', '\x20', '\x20', '\x20', '\x20', '\x20', '<', '-', '\x20', '\'', 'f', 'l', 'o', 'a', 't', '\'',
   '\x20', '\x20', '\x20', '\x20', '\x20', '!', 'I', 'd', 'C', 'h', 'a', 'r', '\x20', 'S', 'p', 'a', 'c', 'i', 'n', 'g', '\n', 'F', 'O', 'R', '\x20',
   '\x20', '\x20', '\x20', '\x20', '\x20', '\x20', '<', '-', '\x20', '\'', 'f', 'o', 'r', '\'', '\x20', '\x20', '\x20', '\x20', '\x20', '\x20',
   '\x20', '!', 'I', 'd', 'C', 'h', 'a', 'r', '\x20', 'S', 'p', 'a', 'c', 'i', 'n', 'g', '\n', 'G', 'O', 'T', 'O', '\x20', '\x20', '\x20', '\x20',
   '\x20', '\x20', '<', '-', '\x20', '\'', 'g', 'o', 't', 'o', '\'', '\x20', '\x20', '\x20', '\x20', '\x20', '\x20', '!', 'I', 'd', 'C', 'h', 'a',
   'r', '\x20', 'S', 'p', 'a', 'c', 'i', 'n', 'g', '\n', 'I', 'F', '\x20', '\x20', '\x20', '\x20', '\x20', '\x20', '\x20', '\x20', '<', '-', '\x20',
   '\'', 'i', 'f', '\'', '\x20', '\x20', '\x20', '\x20', '\x20', '\x20', '\x20', '\x20', '!', 'I', 'd', 'C', 'h', 'a', 'r', '\x20', 'S', 'p', 'a',
   'c', 'i', 'n', 'g', '\n', 'I', 'N', 'T', '\x20', '\x20', '\x20', '\x20', '\x20', '\x20', '\x20', '<', '-', '\x20', '\'', 'i', 'n', 't', '\'',
   '\x20', '\x20', '\x20', '\x20', '\x20', '\x20', '\x20', '!', 'I', 'd', 'C', 'h', 'a', 'r', '\x20', 'S', 'p', 'a', 'c', 'i', 'n', 'g', '\n', 'I',
   'N', 'L', 'I', 'N', 'E', '\x20', '\x20', '\x20', '\x20', '<', '-', '\x20', '\'', 'i', 'n', 'l', 'i', 'n', 'e', '\'', '\x20', '\x20', '\x20',
   '\x20', '!', 'I', 'd', 'C', 'h', 'a', 'r', '\x20', 'S', 'p', 'a', 'c', 'i', 'n', 'g', '\n', 'L', 'O', 'N', 'G', '\x20', '\x20', '\x20', '\x20',
   '\x20', '\x20', '<', '-', '\x20', '\'', 'l', 'o', 'n', 'g', '\'', '\x20', '\x20', '\x20', '\x20', '\x20', '\x20', '!', 'I', 'd', 'C', 'h', 'a',
   'r', '\x20', 'S', 'p', 'a', 'c', 'i', 'n', 'g', '\n', 'R', 'E', 'G', 'I', 'S', 'T', 'E', 'R', '\x20', '\x20', '<', '-', '\x20', '\'', 'r', 'e',
   'g', 'i', 's', 't', 'e', 'r', '\'', '\x20', '\x20', '!', 'I', 'd', 'C', 'h', 'a', 'r', '\x20', 'S', 'p', 'a', 'c', 'i', 'n', 'g', '\n', 'R', 'E',
   'S', 'T', 'R', 'I', 'C', 'T', '\x20', '\x20', '<', '-', '\x20', '\'', 'r', 'e', 's', 't', 'r', 'i', 'c', 't', '\'', '\x20', '\x20', '!', 'I', 'd',
   'C', 'h', 'a', 'r', '\x20', 'S', 'p', 'a', 'c', 'i', 'n', 'g', '\n', 'R', 'E', 'T', 'U', 'R', 'N', '\x20', '\x20', '\x20', '\x20', '<', '-',
   '\x20', '\'', 'r', 'e', 't', 'u', 'r', 'n', '\'', '\x20', '\x20', '\x20', '\x20', '!', 'I', 'd', 'C', 'h', 'a', 'r', '\x20', 'S', 'p', 'a', 'c',
   'i', 'n', 'g', '\n', 'S', 'H', 'O', 'R', 'T', '\x20', '\x20', '\x20', '\x20', '\x20', '<', '-', '\x20', '\'', 's', 'h', 'o', 'r', 't', '\'',
   '\x20', '\x20', '\x20', '\x20', '\x20', '!', 'I', 'd', 'C', 'h', 'a', 'r', '\x20', 'S', 'p', 'a', 'c', 'i', 'n', 'g', '\n', 'S', 'I', 'G', 'N',
   'E', 'D', '\x20', '\x20', '\x20', '\x20', '<', '-', '\x20', '\'', 's', 'i', 'g', 'n', 'e', 'd', '\'', '\x20', '\x20', '\x20', '\x20', '!', 'I',
   'd', 'C', 'h', 'a', 'r', '\x20', 'S', 'p', 'a', 'c', 'i', 'n', 'g', '\n', 'S', 'I', 'Z', 'E', 'O', 'F', '\x20', '\x20', '\x20', '\x20', '<', '-',
   '\x20', '\'', 's', 'i', 'z', 'e', 'o', 'f', '\'', '\x20', '\x20', '\x20', '\x20', '!', 'I', 'd', 'C', 'h', 'a', 'r', '\x20', 'S', 'p', 'a', 'c',
   'i', 'n', 'g', '\n', 'S', 'T', 'A', 'T', 'I', 'C', '\x20', '\x20', '\x20', '\x20', '<', '-', '\x20', '\'', 's', 't', 'a', 't', 'i', 'c', '\'',
   '\x20', '\x20', '\x20', '\x20', '!', 'I', 'd', 'C', 'h', 'a', 'r', '\x20', 'S', 'p', 'a', 'c', 'i', 'n', 'g', '\n', 'S', 'T', 'R', 'U', 'C', 'T',
   '\x20', '\x20', '\x20', '\x20', '<', '-', '\x20', '\'', 's', 't', 'r', 'u', 'c', 't', '\'', '\x20', '\x20', '\x20', '\x20', '!', 'I', 'd', 'C',
   'h', 'a', 'r', '\x20', 'S', 'p', 'a', 'c', 'i', 'n', 'g', '\n', 'S', 'W', 'I', 'T', 'C', 'H', '\x20', '\x20', '\x20', '\x20', '<', '-', '\x20',
   '\'', 's', 'w', 'i', 't', 'c', 'h', '\'', '\x20', '\x20', '\x20', '\x20', '!', 'I', 'd', 'C', 'h', 'a', 'r', '\x20', 'S', 'p', 'a', 'c', 'i', 'n',
   'g', '\n', 'T', 'Y', 'P', 'E', 'D', 'E', 'F', '\x20', '\x20', '\x20', '<', '-', '\x20', '\'', 't', 'y', 'p', 'e', 'd', 'e', 'f', '\'', '\x20',
   '\x20', '\x20', '!', 'I', 'd', 'C', 'h', 'a', 'r', '\x20', 'S', 'p', 'a', 'c', 'i', 'n', 'g', '\n', 'U', 'N', 'I', 'O', 'N', '\x20', '\x20',
   '\x20', '\x20', '\x20', '<', '-', '\x20', '\'', 'u', 'n', 'i', 'o', 'n', '\'', '\x20', '\x20', '\x20', '\x20', '\x20', '!', 'I', 'd', 'C', 'h',
   'a', 'r', '\x20', 'S', 'p', 'a', 'c', 'i', 'n', 'g', '\n', 'U', 'N', 'S', 'I', 'G', 'N', 'E', 'D', '\x20', '\x20', '<', '-', '\x20', '\'', 'u',
   'n', 's', 'i', 'g', 'n', 'e', 'd', '\'', '\x20', '\x20', '!', 'I', 'd', 'C', 'h', 'a', 'r', '\x20', 'S', 'p', 'a', 'c', 'i', 'n', 'g', '\n', 'V',
   'O', 'I', 'D', '\x20', '\x20', '\x20', '\x20', '\x20', '\x20', '<', '-', '\x20', '\'', 'v', 'o', 'i', 'd', '\'', '\x20', '\x20', '\x20', '\x20',
   '\x20', '\x20', '!', 'I', 'd', 'C', 'h', 'a', 'r', '\x20', 'S', 'p', 'a', 'c', 'i', 'n', 'g', '\n']

/-- `grammars/c.peg:443-498` -/
def cFile12 : List UInt8 := bytes "VOLATILE  <- 'volatile'  !IdChar Spacing
WHILE     <- 'while'     !IdChar Spacing
BOOL      <- '_Bool'     !IdChar Spacing
COMPLEX   <- '_Complex'  !IdChar Spacing
STDCALL   <- '_stdcall'  !IdChar Spacing
DECLSPEC  <- '__declspec' !IdChar Spacing
ATTRIBUTE <- '__attribute__' !IdChar Spacing

Keyword
   <- ( 'auto'
      / 'break'
      / 'case'
      / 'char'
      / 'const'
      / 'continue'
      / 'default'
      / 'double'
      / 'do'
      / 'else'
      / 'enum'
      / 'extern'
      / 'float'
      / 'for'
      / 'goto'
      / 'if'
      / 'int'
      / 'inline'
      / 'long'
      / 'register'
      / 'restrict'
      / 'return'
      / 'short'
      / 'signed'
      / 'sizeof'
      / 'static'
      / 'struct'
      / 'switch'
      / 'typedef'
      / 'union'
      / 'unsigned'
      / 'void'
      / 'volatile'
      / 'while'
      / '_Bool'
      / '_Complex'
      / '_Imaginary'
      / '_stdcall'
      / '__declspec'
      / '__attribute__'
      )
    !IdChar


#-------------------------------------------------------------------------
#  A.1.3  Identifiers
#  The standard does not explicitly state that identifiers must be
"

theorem c_eq12 : cFile12 =
  [86, 79, 76, 65, 84, 73, 76, 69, 32, 32, 60, 45, 32, 39, 118, 111, 108, 97, 116, 105, 108, 101, 39, 32, 32, 33, 73, 100, 67, 104, 97, 114, 32, 83,
   112, 97, 99, 105, 110, 103, 10, 87, 72, 73, 76, 69, 32, 32, 32, 32, 32, 60, 45, 32, 39, 119, 104, 105, 108, 101, 39, 32, 32, 32, 32, 32, 33, 73,
   100, 67, 104, 97, 114, 32, 83, 112, 97, 99, 105, 110, 103, 10, 66, 79, 79, 76, 32, 32, 32, 32, 32, 32, 60, 45, 32, 39, 95, 66, 111, 111, 108, 39,
   32, 32, 32, 32, 32, 33, 73, 100, 67, 104, 97, 114, 32, 83, 112, 97, 99, 105, 110, 103, 10, 67, 79, 77, 80, 76, 69, 88, 32, 32, 32, 60, 45, 32, 39,
   95, 67, 111, 109, 112, 108, 101, 120, 39, 32, 32, 33, 73, 100, 67, 104, 97, 114, 32, 83, 112, 97, 99, 105, 110, 103, 10, 83, 84, 68, 67, 65, 76,
   76, 32, 32, 32, 60, 45, 32, 39, 95, 115, 116, 100, 99, 97, 108, 108, 39, 32, 32, 33, 73, 100, 67, 104, 97, 114, 32, 83, 112, 97, 99, 105, 110, 103,
   10, 68, 69, 67, 76, 83, 80, 69, 67, 32, 32, 60, 45, 32, 39, 95, 95, 100, 101, 99, 108, 115, 112, 101, 99, 39, 32, 33, 73, 100, 67, 104, 97, 114,
   32, 83, 112, 97, 99, 105, 110, 103, 10, 65, 84, 84, 82, 73, 66, 85, 84, 69, 32, 60, 45, 32, 39, 95, 95, 97, 116, 116, 114, 105, 98, 117, 116, 101,
   95, 95, 39, 32, 33, 73, 100, 67, 104, 97, 114, 32, 83, 112, 97, 99, 105, 110, 103, 10, 10, 75, 101, 121, 119, 111, 114, 100, 10, 32, 32, 32, 60,
   45, 32, 40, 32, 39, 97, 117, 116, 111, 39, 10, 32, 32, 32, 32, 32, 32, 47, 32, 39, 98, 114, 101, 97, 107, 39, 10, 32, 32, 32, 32, 32, 32, 47, 32,
   39, 99, 97, 115, 101, 39, 10, 32, 32, 32, 32, 32, 32, 47, 32, 39, 99, 104, 97, 114, 39, 10, 32, 32, 32, 32, 32, 32, 47, 32, 39, 99, 111, 110, 115,
   116, 39, 10, 32, 32, 32, 32, 32, 32, 47, 32, 39, 99, 111, 110, 116, 105, 110, 117, 101, 39, 10, 32, 32, 32, 32, 32, 32, 47, 32, 39, 100, 101, 102,
   97, 117, 108, 116, 39, 10, 32, 32, 32, 32, 32, 32, 47, 32, 39, 100, 111, 117, 98, 108, 101, 39, 10, 32, 32, 32, 32, 32, 32, 47, 32, 39, 100, 111,
   39, 10, 32, 32, 32, 32, 32, 32, 47, 32, 39, 101, 108, 115, 101, 39, 10, 32, 32, 32, 32, 32, 32, 47, 32, 39, 101, 110, 117, 109, 39, 10, 32, 32, 32,
   32, 32, 32, 47, 32, 39, 101, 120, 116, 101, 114, 110, 39, 10, 32, 32, 32, 32, 32, 32, 47, 32, 39, 102, 108, 111, 97, 116, 39, 10, 32, 32, 32, 32,
   32, 32, 47, 32, 39, 102, 111, 114, 39, 10, 32, 32, 32, 32, 32, 32, 47, 32, 39, 103, 111, 116, 111, 39, 10, 32, 32, 32, 32, 32, 32, 47, 32, 39, 105,
   102, 39, 10, 32, 32, 32, 32, 32, 32, 47, 32, 39, 105, 110, 116, 39, 10, 32, 32, 32, 32, 32, 32, 47, 32, 39, 105, 110, 108, 105, 110, 101, 39, 10,
   32, 32, 32, 32, 32, 32, 47, 32, 39, 108, 111, 110, 103, 39, 10, 32, 32, 32, 32, 32, 32, 47, 32, 39, 114, 101, 103, 105, 115, 116, 101, 114, 39, 10,
   32, 32, 32, 32, 32, 32, 47, 32, 39, 114, 101, 115, 116, 114, 105, 99, 116, 39, 10, 32, 32, 32, 32, 32, 32, 47, 32, 39, 114, 101, 116, 117, 114,
   110, 39, 10, 32, 32, 32, 32, 32, 32, 47, 32, 39, 115, 104, 111, 114, 116, 39, 10, 32, 32, 32, 32, 32, 32, 47, 32, 39, 115, 105, 103, 110, 101, 100,
   39, 10, 32, 32, 32, 32, 32, 32, 47, 32, 39, 115, 105, 122, 101, 111, 102, 39, 10, 32, 32, 32, 32, 32, 32, 47, 32, 39, 115, 116, 97, 116, 105, 99,
   39, 10, 32, 32, 32, 32, 32, 32, 47, 32, 39, 115, 116, 114, 117, 99, 116, 39, 10, 32, 32, 32, 32, 32, 32, 47, 32, 39, 115, 119, 105, 116, 99, 104,
   39, 10, 32, 32, 32, 32, 32, 32, 47, 32, 39, 116, 121, 112, 101, 100, 101, 102, 39, 10, 32, 32, 32, 32, 32, 32, 47, 32, 39, 117, 110, 105, 111, 110,
   39, 10, 32, 32, 32, 32, 32, 32, 47, 32, 39, 117, 110, 115, 105, 103, 110, 101, 100, 39, 10, 32, 32, 32, 32, 32, 32, 47, 32, 39, 118, 111, 105, 100,
   39, 10, 32, 32, 32, 32, 32, 32, 47, 32, 39, 118, 111, 108, 97, 116, 105, 108, 101, 39, 10, 32, 32, 32, 32, 32, 32, 47, 32, 39, 119, 104, 105, 108,
   101, 39, 10, 32, 32, 32, 32, 32, 32, 47, 32, 39, 95, 66, 111, 111, 108, 39, 10, 32, 32, 32, 32, 32, 32, 47, 32, 39, 95, 67, 111, 109, 112, 108,
   101, 120, 39, 10, 32, 32, 32, 32, 32, 32, 47, 32, 39, 95, 73, 109, 97, 103, 105, 110, 97, 114, 121, 39, 10, 32, 32, 32, 32, 32, 32, 47, 32, 39, 95,
   115, 116, 100, 99, 97, 108, 108, 39, 10, 32, 32, 32, 32, 32, 32, 47, 32, 39, 95, 95, 100, 101, 99, 108, 115, 112, 101, 99, 39, 10, 32, 32, 32, 32,
   32, 32, 47, 32, 39, 95, 95, 97, 116, 116, 114, 105, 98, 117, 116, 101, 95, 95, 39, 10, 32, 32, 32, 32, 32, 32, 41, 10, 32, 32, 32, 32, 33, 73, 100,
   67, 104, 97, 114, 10, 10, 10, 35, 45, 45, 45, 45, 45, 45, 45, 45, 45, 45, 45, 45, 45, 45, 45, 45, 45, 45, 45, 45, 45, 45, 45, 45, 45, 45, 45, 45,
   45, 45, 45, 45, 45, 45, 45, 45, 45, 45, 45, 45, 45, 45, 45, 45, 45, 45, 45, 45, 45, 45, 45, 45, 45, 45, 45, 45, 45, 45, 45, 45, 45, 45, 45, 45, 45,
   45, 45, 45, 45, 45, 45, 45, 45, 10, 35, 32, 32, 65, 46, 49, 46, 51, 32, 32, 73, 100, 101, 110, 116, 105, 102, 105, 101, 114, 115, 10, 35, 32, 32,
   84, 104, 101, 32, 115, 116, 97, 110, 100, 97, 114, 100, 32, 100, 111, 101, 115, 32, 110, 111, 116, 32, 101, 120, 112, 108, 105, 99, 105, 116, 108,
   121, 32, 115, 116, 97, 116, 101, 32, 116, 104, 97, 116, 32, 105, 100, 101, 110, 116, 105, 102, 105, 101, 114, 115, 32, 109, 117, 115, 116, 32, 98,
   101, 10] :=
  bytes_ofList
  ['V', 'O', 'L', 'A', 'T', 'I', 'L', 'E', '\x20', '\x20', '<', '-', '\x20', '\'', 'v', 'o', 'l', 'a', 't', 'i', 'l', 'e', '\'', '\x20', '\x20', '!',
   'I', 'd', 'C', 'h', 'a', 'r', '\x20', 'S', 'p', 'a', 'c', 'i', 'n', 'g', '\n', 'W', 'H', 'I', 'L', 'E', '\x20', '\x20', '\x20', '\x20', '\x20',
   '<', '-', '\x20', '\'', 'w', 'h', 'i', 'l', 'e', '\'', '\x20', '\x20', '\x20', '\x20', '\x20', '!', 'I', 'd', 'C', 'h', 'a', 'r', '\x20', 'S', 'p',
   'a', 'c', 'i', 'n', 'g', '\n', 'B', 'O', 'O', 'L', '\x20', '\x20', '\x20', '\x20', '\x20', '\x20', '<', '-', '\x20', '\'', '_', 'B', 'o', 'o', 'l',
   '\'', '\x20', '\x20', '\x20', '\x20', '\x20', '!', 'I', 'd', 'C', 'h', 'a', 'r', '\x20', 'S', 'p', 'a', 'c', 'i', 'n', 'g', '\n', 'C', 'O', 'M',
   'P', 'L', 'E', 'X', '\x20', '\x20', '\x20', '<', '-', '\x20', '\'', '_', 'C', 'o', 'm', 'p', 'l', 'e', 'x', '\'', '\x20', '\x20', '!', 'I', 'd',
   'C', 'h', 'a', 'r', '\x20', 'S', 'p', 'a', 'c', 'i', 'n', 'g', '\n', 'S', 'T', 'D', 'C', 'A', 'L', 'L', '\x20', '\x20', '\x20', '<', '-', '\x20',
   '\'', '_', 's', 't', 'd', 'c', 'a', 'l', 'l', '\'', '\x20', '\x20', '!', 'I', 'd', 'C', 'h', 'a', 'r', '\x20', 'S', 'p', 'a', 'c', 'i', 'n', 'g',
   '\n', 'D', 'E', 'C', 'L', 'S', 'P', 'E', 'C', '\x20', '\x20', '<', '-', '\x20', '\'', '_', '_', 'd', 'e', 'c', 'l', 's', 'p', 'e', 'c', '\'',
   '\x20', '!', 'I', 'd', 'C', 'h', 'a', 'r', '\x20', 'S', 'p', 'a', 'c', 'i', 'n', 'g', '\n', 'A', 'T', 'T', 'R', 'I', 'B', 'U', 'T', 'E', '\x20',
   '<', '-', '\x20', '\'', '_', '_', 'a', 't', 't', 'r', 'i', 'b', 'u', 't', 'e', '_', '_', '\'', '\x20', '!', 'I', 'd', 'C', 'h', 'a', 'r', '\x20',
   'S', 'p', 'a', 'c', 'i', 'n', 'g', '\n', '\n', 'K', 'e', 'y', 'w', 'o', 'r', 'd', '\n', '\x20', '\x20', '\x20', '<', '-', '\x20', '(', '\x20',
   '\'', 'a', 'u', 't', 'o', '\'', '\n', '\x20', '\x20', '\x20', '\x20', '\x20', '\x20', '/', '\x20', '\'', 'b', 'r', 'e', 'a', 'k', '\'', '\n',
   '\x20', '\x20', '\x20', '\x20', '\x20', '\x20', '/', '\x20', '\'', 'c', 'a', 's', 'e', '\'', '\n', '\x20', '\x20', '\x20', '\x20', '\x20', '\x20',
   '/', '\x20', '\'', 'c', 'h', 'a', 'r', '\'', '\n', '\x20', '\x20', '\x20', '\x20', '\x20', '\x20', '/', '\x20', '\'', 'c', 'o', 'n', 's', 't',
   '\'', '\n', '\x20', '\x20', '\x20', '\x20', '\x20', '\x20', '/', '\x20', '\'', 'c', 'o', 'n', 't', 'i', 'n', 'u', 'e', '\'', '\n', '\x20', '\x20',
   '\x20', '\x20', '\x20', '\x20', '/', '\x20', '\'', 'd', 'e', 'f', 'a', 'u', 'l', 't', '\'', '\n', '\x20', '\x20', '\x20', '\x20', '\x20', '\x20',
   '/', '\x20', '\'', 'd', 'o', 'u', 'b', 'l', 'e', '\'', '\n', '\x20', '\x20', '\x20', '\x20', '\x20', '\x20', '/', '\x20', '\'', 'd', 'o', '\'',
   '\n', '\x20', '\x20', '\x20', '\x20', '\x20', '\x20', '/', '\x20', '\'', 'e', 'l', 's', 'e', '\'', '\n', '\x20', '\x20', '\x20', '\x20', '\x20',
   '\x20', '/', '\x20', '\'', 'e', 'n', 'u', 'm', '\'', '\n', '\x20', '\x20', '\x20', '\x20', '\x20', '\x20', '/', '\x20', '\'', 'e', 'x', 't', 'e',
   'r', 'n', '\'', '\n', '\x20', '\x20', '\x20', '\x20', '\x20', '\x20', '/', '\x20', '\'', 'f', 'l', 'o', 'a', 't', '\'', '\n', '\x20', '\x20',
   '\x20', '\x20', '\x20', '\x20', '/', '\x20', '\'', 'f', 'o', 'r', '\'', '\n', '\x20', '\x20', '\x20', '\x20', '\x20', '\x20', '/', '\x20', '\'',
   'g', 'o', 't', 'o', '\'', '\n', '\x20', '\x20', '\x20', '\x20', '\x20', '\x20', '/', '\x20', '\'', 'i', 'f', '\'', '\n', '\x20', '\x20', '\x20',
   '\x20', '\x20', '\x20', '/', '\x20', '\'', 'i', 'n', 't', '\'', '\n', '\x20', '\x20', '\x20', '\x20', '\x20', '\x20', '/', '\x20', '\'', 'i', 'n',
   'l', 'i', 'n', 'e', '\'', '\n', '\x20', '\x20', '\x20', '\x20', '\x20', '\x20', '/', '\x20', '\'', 'l', 'o', 'n', 'g', '\'', '\n', '\x20', '\x20',
   '\x20', '\x20', '\x20', '\x20', '/', '\x20', '\'', 'r', 'e', 'g', 'i', 's', 't', 'e', 'r', '\'', '\n', '\x20', '\x20', '\x20', '\x20', '\x20',
   '\x20', '/', '\x20', '\'', 'r', 'e', 's', 't', 'r', 'i', 'c', 't', '\'', '\n', '\x20', '\x20', '\x20', '\x20', '\x20', '\x20', '/', '\x20', '\'',
   'r', 'e', 't', 'u', 'r', 'n', '\'', '\n', '\x20', '\x20', '\x20', '\x20', '\x20', '\x20', '/', '\x20', '\'', 's', 'h', 'o', 'r', 't', '\'', '\n',
   '\x20', '\x20', '\x20', '\x20', '\x20', '\x20', '/', '\x20', '\'', 's', 'i', 'g', 'n', 'e', 'd', '\'', '\n', '\x20', '\x20', '\x20', '\x20',
   '\x20', '\x20', '/', '\x20', '\'', 's', 'i', 'z', 'e', 'o', 'f', '\'', '\n', '\x20', '\x20', '\x20', '\x20', '\x20', '\x20', '/', '\x20', '\'',
   's', 't', 'a', 't', 'i', 'c', '\'', '\n', '\x20', '\x20', '\x20', '\x20', '\x20', '\x20', '/', '\x20', '\'', 's', 't', 'r', 'u', 'c', 't', '\'',
   '\n', '\x20', '\x20', '\x20', '\x20', '\x20', '\x20', '/', '\x20', '\'', 's', 'w', 'i', 't', 'c', 'h', '\'', '\n', '\x20', '\x20', '\x20', '\x20',
   '\x20', '\x20', '/', '\x20', '\'', 't', 'y', 'p', 'e', 'd', 'e', 'f', '\'', '\n', '\x20', '\x20', '\x20', '\x20', '\x20', '\x20', '/', '\x20',
   '\'', 'u', 'n', 'i', 'o', 'n', '\'', '\n', '\x20', '\x20', '\x20', '\x20', '\x20', '\x20', '/', '\x20', '\'', 'u', 'n', 's', 'i', 'g', 'n', 'e',
   'd', '\'', '\n', '\x20', '\x20', '\x20', '\x20', '\x20', '\x20', '/', '\x20', '\'', 'v', 'o', 'i', 'd', '\'', '\n', '\x20', '\x20', '\x20', '\x20',
   '\x20', '\x20', '/', '\x20', '\'', 'v', 'o', 'l', 'a', 't', 'i', 'l', 'e', '\'', '\n', '\x20', '\x20', '\x20', '\x20', '\x20', '\x20', '/', '\x20',
   '\'', 'w', 'h', 'i', 'l', 'e', '\'', '\n', '\x20', '\x20', '\x20', '\x20', '\x20', '\x20', '/', '\x20', '\'', '_', 'B', 'o', 'o', 'l', '\'', '\n',
   '\x20', '\x20', '\x20', '\x20', '\x20', '\x20', '/', '\x20', '\'', '_', 'C', 'o', 'm', 'p', 'l', 'e', 'x', '\'', '\n', '\x20', '\x20', '\x20',
   '\x20', '\x20', '\x20', '/', '\x20', '\'', '_', 'I', 'm', 'a', 'g', 'i', 'n', 'a', 'r', 'y', '\'', '\n', '\x20', '\x20', '\x20', '\x20', '\x20',
   '\x20', '/', '\x20', '\'', '_', 's', 't', 'd', 'c', 'a', 'l', 'l', '\'', '\n', '\x20', '\x20', '\x20', '\x20', '\x20', '\x20', '/', '\x20', '\'',
   '_', '_', 'd', 'e', 'c', 'l', 's', 'p', 'e', 'c', '\'', '\n', '\x20', '\x20', '\x20', '\x20', '\x20', '\x20', '/', '\x20', '\'', '_', '_', 'a',
   't', 't', 'r', 'i', 'b', 'u', 't', 'e', '_', '_', '\'', '\n', '\x20', '\x20', '\x20', '\x20', '\x20', '\x20', ')', '\n', '\x20', '\x20', '\x20',
   '\x20', '!', 'I', 'd', 'C', 'h', 'a', 'r', '\n', '\n', '\n', '#', '-', '-', '-', '-', '-', '-', '-', '-', '-', '-', '-', '-', '-', '-', '-', '-',
   '-', '-', '-', '-', '-', '-', '-', '-', '-', '-', '-', '-', '-', '-', '-', '-', '-', '-', '-', '-', '-', '-', '-', '-', '-', '-', '-', '-', '-',
   '-', '-', '-', '-', '-', '-', '-', '-', '-', '-', '-', '-', '-', '-', '-', '-', '-', '-', '-', '-', '-', '-', '-', '-', '-', '-', '-', '-', '\n',
   '#', '\x20', '\x20', 'A', '.', '1', '.', '3', '\x20', '\x20', 'I', 'd', 'e', 'n', 't', 'i', 'f', 'i', 'e', 'r', 's', '\n', '#', '\x20', '\x20',
   'T', 'h', 'e', '\x20', 's', 't', 'a', 'n', 'd', 'a', 'r', 'd', '\x20', 'd', 'o', 'e', 's', '\x20', 'n', 'o', 't', '\x20', 'e', 'x', 'p', 'l', 'i',
   'c', 'i', 't', 'l', 'y', '\x20', 's', 't', 'a', 't', 'e', '\x20', 't', 'h', 'a', 't', '\x20', 'i', 'd', 'e', 'n', 't', 'i', 'f', 'i', 'e', 'r',
   's', '\x20', 'm', 'u', 's', 't', '\x20', 'b', 'e', '\n']

/-- `grammars/c.peg:499-548` -/
def cFile13 : List UInt8 := bytes "#  distinct from keywords, but it seems so.
#-------------------------------------------------------------------------

Identifier <- !Keyword IdNondigit IdChar* Spacing #{}

IdNondigit
   <- [a-z] / [A-Z] / [_]
    / UniversalCharacter

IdChar
   <- [a-z] / [A-Z] / [0-9] / [_]
    / UniversalCharacter


#-------------------------------------------------------------------------
#  A.1.4  Universal character names
#-------------------------------------------------------------------------

UniversalCharacter
   <- '\\\\u' HexQuad
    / '\\\\U' HexQuad HexQuad

HexQuad <- HexDigit HexDigit HexDigit HexDigit


#-------------------------------------------------------------------------
#  A.1.5  Constants
#-------------------------------------------------------------------------

Constant
   <- FloatConstant
    / IntegerConstant       # Note: can be a prefix of Float Constant!
    / EnumerationConstant
    / CharacterConstant

IntegerConstant
   <- ( DecimalConstant
      / HexConstant
      / OctalConstant
      )
    IntegerSuffix? Spacing

DecimalConstant <- [1-9][0-9]*

OctalConstant   <- '0' [0-7]*

HexConstant     <- HexPrefix HexDigit+

HexPrefix       <- '0x' / '0X'

"

theorem c_eq13 : cFile13 =
  [35, 32, 32, 100, 105, 115, 116, 105, 110, 99, 116, 32, 102, 114, 111, 109, 32, 107, 101, 121, 119, 111, 114, 100, 115, 44, 32, 98, 117, 116, 32,
   105, 116, 32, 115, 101, 101, 109, 115, 32, 115, 111, 46, 10, 35, 45, 45, 45, 45, 45, 45, 45, 45, 45, 45, 45, 45, 45, 45, 45, 45, 45, 45, 45, 45,
   45, 45, 45, 45, 45, 45, 45, 45, 45, 45, 45, 45, 45, 45, 45, 45, 45, 45, 45, 45, 45, 45, 45, 45, 45, 45, 45, 45, 45, 45, 45, 45, 45, 45, 45, 45, 45,
   45, 45, 45, 45, 45, 45, 45, 45, 45, 45, 45, 45, 45, 45, 45, 45, 10, 10, 73, 100, 101, 110, 116, 105, 102, 105, 101, 114, 32, 60, 45, 32, 33, 75,
   101, 121, 119, 111, 114, 100, 32, 73, 100, 78, 111, 110, 100, 105, 103, 105, 116, 32, 73, 100, 67, 104, 97, 114, 42, 32, 83, 112, 97, 99, 105, 110,
   103, 32, 35, 123, 125, 10, 10, 73, 100, 78, 111, 110, 100, 105, 103, 105, 116, 10, 32, 32, 32, 60, 45, 32, 91, 97, 45, 122, 93, 32, 47, 32, 91, 65,
   45, 90, 93, 32, 47, 32, 91, 95, 93, 10, 32, 32, 32, 32, 47, 32, 85, 110, 105, 118, 101, 114, 115, 97, 108, 67, 104, 97, 114, 97, 99, 116, 101, 114,
   10, 10, 73, 100, 67, 104, 97, 114, 10, 32, 32, 32, 60, 45, 32, 91, 97, 45, 122, 93, 32, 47, 32, 91, 65, 45, 90, 93, 32, 47, 32, 91, 48, 45, 57, 93,
   32, 47, 32, 91, 95, 93, 10, 32, 32, 32, 32, 47, 32, 85, 110, 105, 118, 101, 114, 115, 97, 108, 67, 104, 97, 114, 97, 99, 116, 101, 114, 10, 10, 10,
   35, 45, 45, 45, 45, 45, 45, 45, 45, 45, 45, 45, 45, 45, 45, 45, 45, 45, 45, 45, 45, 45, 45, 45, 45, 45, 45, 45, 45, 45, 45, 45, 45, 45, 45, 45, 45,
   45, 45, 45, 45, 45, 45, 45, 45, 45, 45, 45, 45, 45, 45, 45, 45, 45, 45, 45, 45, 45, 45, 45, 45, 45, 45, 45, 45, 45, 45, 45, 45, 45, 45, 45, 45, 45,
   10, 35, 32, 32, 65, 46, 49, 46, 52, 32, 32, 85, 110, 105, 118, 101, 114, 115, 97, 108, 32, 99, 104, 97, 114, 97, 99, 116, 101, 114, 32, 110, 97,
   109, 101, 115, 10, 35, 45, 45, 45, 45, 45, 45, 45, 45, 45, 45, 45, 45, 45, 45, 45, 45, 45, 45, 45, 45, 45, 45, 45, 45, 45, 45, 45, 45, 45, 45, 45,
   45, 45, 45, 45, 45, 45, 45, 45, 45, 45, 45, 45, 45, 45, 45, 45, 45, 45, 45, 45, 45, 45, 45, 45, 45, 45, 45, 45, 45, 45, 45, 45, 45, 45, 45, 45, 45,
   45, 45, 45, 45, 45, 10, 10, 85, 110, 105, 118, 101, 114, 115, 97, 108, 67, 104, 97, 114, 97, 99, 116, 101, 114, 10, 32, 32, 32, 60, 45, 32, 39, 92,
   92, 117, 39, 32, 72, 101, 120, 81, 117, 97, 100, 10, 32, 32, 32, 32, 47, 32, 39, 92, 92, 85, 39, 32, 72, 101, 120, 81, 117, 97, 100, 32, 72, 101,
   120, 81, 117, 97, 100, 10, 10, 72, 101, 120, 81, 117, 97, 100, 32, 60, 45, 32, 72, 101, 120, 68, 105, 103, 105, 116, 32, 72, 101, 120, 68, 105,
   103, 105, 116, 32, 72, 101, 120, 68, 105, 103, 105, 116, 32, 72, 101, 120, 68, 105, 103, 105, 116, 10, 10, 10, 35, 45, 45, 45, 45, 45, 45, 45, 45,
   45, 45, 45, 45, 45, 45, 45, 45, 45, 45, 45, 45, 45, 45, 45, 45, 45, 45, 45, 45, 45, 45, 45, 45, 45, 45, 45, 45, 45, 45, 45, 45, 45, 45, 45, 45, 45,
   45, 45, 45, 45, 45, 45, 45, 45, 45, 45, 45, 45, 45, 45, 45, 45, 45, 45, 45, 45, 45, 45, 45, 45, 45, 45, 45, 45, 10, 35, 32, 32, 65, 46, 49, 46, 53,
   32, 32, 67, 111, 110, 115, 116, 97, 110, 116, 115, 10, 35, 45, 45, 45, 45, 45, 45, 45, 45, 45, 45, 45, 45, 45, 45, 45, 45, 45, 45, 45, 45, 45, 45,
   45, 45, 45, 45, 45, 45, 45, 45, 45, 45, 45, 45, 45, 45, 45, 45, 45, 45, 45, 45, 45, 45, 45, 45, 45, 45, 45, 45, 45, 45, 45, 45, 45, 45, 45, 45, 45,
   45, 45, 45, 45, 45, 45, 45, 45, 45, 45, 45, 45, 45, 45, 10, 10, 67, 111, 110, 115, 116, 97, 110, 116, 10, 32, 32, 32, 60, 45, 32, 70, 108, 111, 97,
   116, 67, 111, 110, 115, 116, 97, 110, 116, 10, 32, 32, 32, 32, 47, 32, 73, 110, 116, 101, 103, 101, 114, 67, 111, 110, 115, 116, 97, 110, 116, 32,
   32, 32, 32, 32, 32, 32, 35, 32, 78, 111, 116, 101, 58, 32, 99, 97, 110, 32, 98, 101, 32, 97, 32, 112, 114, 101, 102, 105, 120, 32, 111, 102, 32,
   70, 108, 111, 97, 116, 32, 67, 111, 110, 115, 116, 97, 110, 116, 33, 10, 32, 32, 32, 32, 47, 32, 69, 110, 117, 109, 101, 114, 97, 116, 105, 111,
   110, 67, 111, 110, 115, 116, 97, 110, 116, 10, 32, 32, 32, 32, 47, 32, 67, 104, 97, 114, 97, 99, 116, 101, 114, 67, 111, 110, 115, 116, 97, 110,
   116, 10, 10, 73, 110, 116, 101, 103, 101, 114, 67, 111, 110, 115, 116, 97, 110, 116, 10, 32, 32, 32, 60, 45, 32, 40, 32, 68, 101, 99, 105, 109, 97,
   108, 67, 111, 110, 115, 116, 97, 110, 116, 10, 32, 32, 32, 32, 32, 32, 47, 32, 72, 101, 120, 67, 111, 110, 115, 116, 97, 110, 116, 10, 32, 32, 32,
   32, 32, 32, 47, 32, 79, 99, 116, 97, 108, 67, 111, 110, 115, 116, 97, 110, 116, 10, 32, 32, 32, 32, 32, 32, 41, 10, 32, 32, 32, 32, 73, 110, 116,
   101, 103, 101, 114, 83, 117, 102, 102, 105, 120, 63, 32, 83, 112, 97, 99, 105, 110, 103, 10, 10, 68, 101, 99, 105, 109, 97, 108, 67, 111, 110, 115,
   116, 97, 110, 116, 32, 60, 45, 32, 91, 49, 45, 57, 93, 91, 48, 45, 57, 93, 42, 10, 10, 79, 99, 116, 97, 108, 67, 111, 110, 115, 116, 97, 110, 116,
   32, 32, 32, 60, 45, 32, 39, 48, 39, 32, 91, 48, 45, 55, 93, 42, 10, 10, 72, 101, 120, 67, 111, 110, 115, 116, 97, 110, 116, 32, 32, 32, 32, 32, 60,
   45, 32, 72, 101, 120, 80, 114, 101, 102, 105, 120, 32, 72, 101, 120, 68, 105, 103, 105, 116, 43, 10, 10, 72, 101, 120, 80, 114, 101, 102, 105, 120,
   32, 32, 32, 32, 32, 32, 32, 60, 45, 32, 39, 48, 120, 39, 32, 47, 32, 39, 48, 88, 39, 10, 10] :=
  bytes_ofList
  ['#', '\x20', '\x20', 'd', 'i', 's', 't', 'i', 'n', 'c', 't', '\x20', 'f', 'r', 'o', 'm', '\x20', 'k', 'e', 'y', 'w', 'o', 'r', 'd', 's', ',',
   '\x20', 'b', 'u', 't', '\x20', 'i', 't', '\x20', 's', 'e', 'e', 'm', 's', '\x20', 's', 'o', '.', '\n', '#', '-', '-', '-', '-', '-', '-', '-', '-',
   '-', '-', '-', '-', '-', '-', '-', '-', '-', '-', '-', '-', '-', '-', '-', '-', '-', '-', '-', '-', '-', '-', '-', '-', '-', '-', '-', '-', '-',
   '-', '-', '-', '-', '-', '-', '-', '-', '-', '-', '-', '-', '-', '-', '-', '-', '-', '-', '-', '-', '-', '-', '-', '-', '-', '-', '-', '-', '-',
   '-', '-', '-', '-', '-', '-', '-', '\n', '\n', 'I', 'd', 'e', 'n', 't', 'i', 'f', 'i', 'e', 'r', '\x20', '<', '-', '\x20', '!', 'K', 'e', 'y', 'w',
   'o', 'r', 'd', '\x20', 'I', 'd', 'N', 'o', 'n', 'd', 'i', 'g', 'i', 't', '\x20', 'I', 'd', 'C', 'h', 'a', 'r', '*', '\x20', 'S', 'p', 'a', 'c',
   'i', 'n', 'g', '\x20', '#', '{', '}', '\n', '\n', 'I', 'd', 'N', 'o', 'n', 'd', 'i', 'g', 'i', 't', '\n', '\x20', '\x20', '\x20', '<', '-', '\x20',
   '[', 'a', '-', 'z', ']', '\x20', '/', '\x20', '[', 'A', '-', 'Z', ']', '\x20', '/', '\x20', '[', '_', ']', '\n', '\x20', '\x20', '\x20', '\x20',
   '/', '\x20', 'U', 'n', 'i', 'v', 'e', 'r', 's', 'a', 'l', 'C', 'h', 'a', 'r', 'a', 'c', 't', 'e', 'r', '\n', '\n', 'I', 'd', 'C', 'h', 'a', 'r',
   '\n', '\x20', '\x20', '\x20', '<', '-', '\x20', '[', 'a', '-', 'z', ']', '\x20', '/', '\x20', '[', 'A', '-', 'Z', ']', '\x20', '/', '\x20', '[',
   '0', '-', '9', ']', '\x20', '/', '\x20', '[', '_', ']', '\n', '\x20', '\x20', '\x20', '\x20', '/', '\x20', 'U', 'n', 'i', 'v', 'e', 'r', 's', 'a',
   'l', 'C', 'h', 'a', 'r', 'a', 'c', 't', 'e', 'r', '\n', '\n', '\n', '#', '-', '-', '-', '-', '-', '-', '-', '-', '-', '-', '-', '-', '-', '-', '-',
   '-', '-', '-', '-', '-', '-', '-', '-', '-', '-', '-', '-', '-', '-', '-', '-', '-', '-', '-', '-', '-', '-', '-', '-', '-', '-', '-', '-', '-',
   '-', '-', '-', '-', '-', '-', '-', '-', '-', '-', '-', '-', '-', '-', '-', '-', '-', '-', '-', '-', '-', '-', '-', '-', '-', '-', '-', '-', '-',
   '\n', '#', '\x20', '\x20', 'A', '.', '1', '.', '4', '\x20', '\x20', 'U', 'n', 'i', 'v', 'e', 'r', 's', 'a', 'l', '\x20', 'c', 'h', 'a', 'r', 'a',
   'c', 't', 'e', 'r', '\x20', 'n', 'a', 'm', 'e', 's', '\n', '#', '-', '-', '-', '-', '-', '-', '-', '-', '-', '-', '-', '-', '-', '-', '-', '-',
   '-', '-', '-', '-', '-', '-', '-', '-', '-', '-', '-', '-', '-', '-', '-', '-', '-', '-', '-', '-', '-', '-', '-', '-', '-', '-', '-', '-', '-',
   '-', '-', '-', '-', '-', '-', '-', '-', '-', '-', '-', '-', '-', '-', '-', '-', '-', '-', '-', '-', '-', '-', '-', '-', '-', '-', '-', '-', '\n',
   '\n', 'U', 'n', 'i', 'v', 'e', 'r', 's', 'a', 'l', 'C', 'h', 'a', 'r', 'a', 'c', 't', 'e', 'r', '\n', '\x20', '\x20', '\x20', '<', '-', '\x20',
   '\'', '\\', '\\', 'u', '\'', '\x20', 'H', 'e', 'x', 'Q', 'u', 'a', 'd', '\n', '\x20', '\x20', '\x20', '\x20', '/', '\x20', '\'', '\\', '\\', 'U',
   '\'', '\x20', 'H', 'e', 'x', 'Q', 'u', 'a', 'd', '\x20', 'H', 'e', 'x', 'Q', 'u', 'a', 'd', '\n', '\n', 'H', 'e', 'x', 'Q', 'u', 'a', 'd', '\x20',
   '<', '-', '\x20', 'H', 'e', 'x', 'D', 'i', 'g', 'i', 't', '\x20', 'H', 'e', 'x', 'D', 'i', 'g', 'i', 't', '\x20', 'H', 'e', 'x', 'D', 'i', 'g',
   'i', 't', '\x20', 'H', 'e', 'x', 'D', 'i', 'g', 'i', 't', '\n', '\n', '\n', '#', '-', '-', '-', '-', '-', '-', '-', '-', '-', '-', '-', '-', '-',
   '-', '-', '-', '-', '-', '-', '-', '-', '-', '-', '-', '-', '-', '-', '-', '-', '-', '-', '-', '-', '-', '-', '-', '-', '-', '-', '-', '-', '-',
   '-', '-', '-', '-', '-', '-', '-', '-', '-', '-', '-', '-', '-', '-', '-', '-', '-', '-', '-', '-', '-', '-', '-', '-', '-', '-', '-', '-', '-',
   '-', '-', '\n', '#', '\x20', '\x20', 'A', '.', '1', '.', '5', '\x20', '\x20', 'C', 'o', 'n', 's', 't', 'a', 'n', 't', 's', '\n', '#', '-', '-',
   '-', '-', '-', '-', '-', '-', '-', '-', '-', '-', '-', '-', '-', '-', '-', '-', '-', '-', '-', '-', '-', '-', '-', '-', '-', '-', '-', '-', '-',
   '-', '-', '-', '-', '-', '-', '-', '-', '-', '-', '-', '-', '-', '-', '-', '-', '-', '-', '-', '-', '-', '-', '-', '-', '-', '-', '-', '-', '-',
   '-', '-', '-', '-', '-', '-', '-', '-', '-', '-', '-', '-', '-', '\n', '\n', 'C', 'o', 'n', 's', 't', 'a', 'n', 't', '\n', '\x20', '\x20', '\x20',
   '<', '-', '\x20', 'F', 'l', 'o', 'a', 't', 'C', 'o', 'n', 's', 't', 'a', 'n', 't', '\n', '\x20', '\x20', '\x20', '\x20', '/', '\x20', 'I', 'n',
   't', 'e', 'g', 'e', 'r', 'C', 'o', 'n', 's', 't', 'a', 'n', 't', '\x20', '\x20', '\x20', '\x20', '\x20', '\x20', '\x20', '#', '\x20', 'N', 'o',
   't', 'e', ':', '\x20', 'c', 'a', 'n', '\x20', 'b', 'e', '\x20', 'a', '\x20', 'p', 'r', 'e', 'f', 'i', 'x', '\x20', 'o', 'f', '\x20', 'F', 'l', 'o',
   'a', 't', '\x20', 'C', 'o', 'n', 's', 't', 'a', 'n', 't', '!', '\n', '\x20', '\x20', '\x20', '\x20', '/', '\x20', 'E', 'n', 'u', 'm', 'e', 'r',
   'a', 't', 'i', 'o', 'n', 'C', 'o', 'n', 's', 't', 'a', 'n', 't', '\n', '\x20', '\x20', '\x20', '\x20', '/', '\x20', 'C', 'h', 'a', 'r', 'a', 'c',
   't', 'e', 'r', 'C', 'o', 'n', 's', 't', 'a', 'n', 't', '\n', '\n', 'I', 'n', 't', 'e', 'g', 'e', 'r', 'C', 'o', 'n', 's', 't', 'a', 'n', 't', '\n',
   '\x20', '\x20', '\x20', '<', '-', '\x20', '(', '\x20', 'D', 'e', 'c', 'i', 'm', 'a', 'l', 'C', 'o', 'n', 's', 't', 'a', 'n', 't', '\n', '\x20',
   '\x20', '\x20', '\x20', '\x20', '\x20', '/', '\x20', 'H', 'e', 'x', 'C', 'o', 'n', 's', 't', 'a', 'n', 't', '\n', '\x20', '\x20', '\x20', '\x20',
   '\x20', '\x20', '/', '\x20', 'O', 'c', 't', 'a', 'l', 'C', 'o', 'n', 's', 't', 'a', 'n', 't', '\n', '\x20', '\x20', '\x20', '\x20', '\x20', '\x20',
   ')', '\n', '\x20', '\x20', '\x20', '\x20', 'I', 'n', 't', 'e', 'g', 'e', 'r', 'S', 'u', 'f', 'f', 'i', 'x', '?', '\x20', 'S', 'p', 'a', 'c', 'i',
   'n', 'g', '\n', '\n', 'D', 'e', 'c', 'i', 'm', 'a', 'l', 'C', 'o', 'n', 's', 't', 'a', 'n', 't', '\x20', '<', '-', '\x20', '[', '1', '-', '9', ']',
   '[', '0', '-', '9', ']', '*', '\n', '\n', 'O', 'c', 't', 'a', 'l', 'C', 'o', 'n', 's', 't', 'a', 'n', 't', '\x20', '\x20', '\x20', '<', '-',
   '\x20', '\'', '0', '\'', '\x20', '[', '0', '-', '7', ']', '*', '\n', '\n', 'H', 'e', 'x', 'C', 'o', 'n', 's', 't', 'a', 'n', 't', '\x20', '\x20',
   '\x20', '\x20', '\x20', '<', '-', '\x20', 'H', 'e', 'x', 'P', 'r', 'e', 'f', 'i', 'x', '\x20', 'H', 'e', 'x', 'D', 'i', 'g', 'i', 't', '+', '\n',
   '\n', 'H', 'e', 'x', 'P', 'r', 'e', 'f', 'i', 'x', '\x20', '\x20', '\x20', '\x20', '\x20', '\x20', '\x20', '<', '-', '\x20', '\'', '0', 'x', '\'',
   '\x20', '/', '\x20', '\'', '0', 'X', '\'', '\n', '\n']

/-- `grammars/c.peg:549-613` -/
def cFile14 : List UInt8 := bytes "HexDigit        <- [a-f] / [A-F] / [0-9]

IntegerSuffix
   <- [uU] Lsuffix?
    / Lsuffix [uU]?

Lsuffix
   <- 'll'
    / 'LL'
    / [lL]

FloatConstant
   <- ( DecimalFloatConstant
      / HexFloatConstant
      )
    FloatSuffix? Spacing

DecimalFloatConstant
   <- Fraction Exponent?
    / [0-9]+ Exponent

HexFloatConstant
   <- HexPrefix HexFraction BinaryExponent?
    / HexPrefix HexDigit+ BinaryExponent

Fraction
   <- [0-9]* '.' [0-9]+
    / [0-9]+ '.'

HexFraction
   <- HexDigit* '.' HexDigit+
    / HexDigit+ '.'

Exponent <- [eE][+\\-]? [0-9]+

BinaryExponent <- [pP][+\\-]? [0-9]+

FloatSuffix <- [flFL]

EnumerationConstant <- Identifier

CharacterConstant <- 'L'? ['] Char* ['] Spacing

Char <- Escape / !['\\n\\\\] .

Escape
   <- SimpleEscape
    / OctalEscape
    / HexEscape
    / UniversalCharacter

SimpleEscape <- '\\\\' ['\\\"?\\\\%abfnrtv]
OctalEscape  <- '\\\\' [0-7][0-7]?[0-7]?
HexEscape    <- '\\\\x' HexDigit+


#-------------------------------------------------------------------------
#  A.1.6  String Literals
#-------------------------------------------------------------------------

StringLiteral <- 'L'? ([\"] StringChar* [\"] Spacing)+

StringChar <- Escape / ![\\\"\\n\\\\] .


"

theorem c_eq14 : cFile14 =
  [72, 101, 120, 68, 105, 103, 105, 116, 32, 32, 32, 32, 32, 32, 32, 32, 60, 45, 32, 91, 97, 45, 102, 93, 32, 47, 32, 91, 65, 45, 70, 93, 32, 47, 32,
   91, 48, 45, 57, 93, 10, 10, 73, 110, 116, 101, 103, 101, 114, 83, 117, 102, 102, 105, 120, 10, 32, 32, 32, 60, 45, 32, 91, 117, 85, 93, 32, 76,
   115, 117, 102, 102, 105, 120, 63, 10, 32, 32, 32, 32, 47, 32, 76, 115, 117, 102, 102, 105, 120, 32, 91, 117, 85, 93, 63, 10, 10, 76, 115, 117, 102,
   102, 105, 120, 10, 32, 32, 32, 60, 45, 32, 39, 108, 108, 39, 10, 32, 32, 32, 32, 47, 32, 39, 76, 76, 39, 10, 32, 32, 32, 32, 47, 32, 91, 108, 76,
   93, 10, 10, 70, 108, 111, 97, 116, 67, 111, 110, 115, 116, 97, 110, 116, 10, 32, 32, 32, 60, 45, 32, 40, 32, 68, 101, 99, 105, 109, 97, 108, 70,
   108, 111, 97, 116, 67, 111, 110, 115, 116, 97, 110, 116, 10, 32, 32, 32, 32, 32, 32, 47, 32, 72, 101, 120, 70, 108, 111, 97, 116, 67, 111, 110,
   115, 116, 97, 110, 116, 10, 32, 32, 32, 32, 32, 32, 41, 10, 32, 32, 32, 32, 70, 108, 111, 97, 116, 83, 117, 102, 102, 105, 120, 63, 32, 83, 112,
   97, 99, 105, 110, 103, 10, 10, 68, 101, 99, 105, 109, 97, 108, 70, 108, 111, 97, 116, 67, 111, 110, 115, 116, 97, 110, 116, 10, 32, 32, 32, 60, 45,
   32, 70, 114, 97, 99, 116, 105, 111, 110, 32, 69, 120, 112, 111, 110, 101, 110, 116, 63, 10, 32, 32, 32, 32, 47, 32, 91, 48, 45, 57, 93, 43, 32, 69,
   120, 112, 111, 110, 101, 110, 116, 10, 10, 72, 101, 120, 70, 108, 111, 97, 116, 67, 111, 110, 115, 116, 97, 110, 116, 10, 32, 32, 32, 60, 45, 32,
   72, 101, 120, 80, 114, 101, 102, 105, 120, 32, 72, 101, 120, 70, 114, 97, 99, 116, 105, 111, 110, 32, 66, 105, 110, 97, 114, 121, 69, 120, 112,
   111, 110, 101, 110, 116, 63, 10, 32, 32, 32, 32, 47, 32, 72, 101, 120, 80, 114, 101, 102, 105, 120, 32, 72, 101, 120, 68, 105, 103, 105, 116, 43,
   32, 66, 105, 110, 97, 114, 121, 69, 120, 112, 111, 110, 101, 110, 116, 10, 10, 70, 114, 97, 99, 116, 105, 111, 110, 10, 32, 32, 32, 60, 45, 32, 91,
   48, 45, 57, 93, 42, 32, 39, 46, 39, 32, 91, 48, 45, 57, 93, 43, 10, 32, 32, 32, 32, 47, 32, 91, 48, 45, 57, 93, 43, 32, 39, 46, 39, 10, 10, 72,
   101, 120, 70, 114, 97, 99, 116, 105, 111, 110, 10, 32, 32, 32, 60, 45, 32, 72, 101, 120, 68, 105, 103, 105, 116, 42, 32, 39, 46, 39, 32, 72, 101,
   120, 68, 105, 103, 105, 116, 43, 10, 32, 32, 32, 32, 47, 32, 72, 101, 120, 68, 105, 103, 105, 116, 43, 32, 39, 46, 39, 10, 10, 69, 120, 112, 111,
   110, 101, 110, 116, 32, 60, 45, 32, 91, 101, 69, 93, 91, 43, 92, 45, 93, 63, 32, 91, 48, 45, 57, 93, 43, 10, 10, 66, 105, 110, 97, 114, 121, 69,
   120, 112, 111, 110, 101, 110, 116, 32, 60, 45, 32, 91, 112, 80, 93, 91, 43, 92, 45, 93, 63, 32, 91, 48, 45, 57, 93, 43, 10, 10, 70, 108, 111, 97,
   116, 83, 117, 102, 102, 105, 120, 32, 60, 45, 32, 91, 102, 108, 70, 76, 93, 10, 10, 69, 110, 117, 109, 101, 114, 97, 116, 105, 111, 110, 67, 111,
   110, 115, 116, 97, 110, 116, 32, 60, 45, 32, 73, 100, 101, 110, 116, 105, 102, 105, 101, 114, 10, 10, 67, 104, 97, 114, 97, 99, 116, 101, 114, 67,
   111, 110, 115, 116, 97, 110, 116, 32, 60, 45, 32, 39, 76, 39, 63, 32, 91, 39, 93, 32, 67, 104, 97, 114, 42, 32, 91, 39, 93, 32, 83, 112, 97, 99,
   105, 110, 103, 10, 10, 67, 104, 97, 114, 32, 60, 45, 32, 69, 115, 99, 97, 112, 101, 32, 47, 32, 33, 91, 39, 92, 110, 92, 92, 93, 32, 46, 10, 10,
   69, 115, 99, 97, 112, 101, 10, 32, 32, 32, 60, 45, 32, 83, 105, 109, 112, 108, 101, 69, 115, 99, 97, 112, 101, 10, 32, 32, 32, 32, 47, 32, 79, 99,
   116, 97, 108, 69, 115, 99, 97, 112, 101, 10, 32, 32, 32, 32, 47, 32, 72, 101, 120, 69, 115, 99, 97, 112, 101, 10, 32, 32, 32, 32, 47, 32, 85, 110,
   105, 118, 101, 114, 115, 97, 108, 67, 104, 97, 114, 97, 99, 116, 101, 114, 10, 10, 83, 105, 109, 112, 108, 101, 69, 115, 99, 97, 112, 101, 32, 60,
   45, 32, 39, 92, 92, 39, 32, 91, 39, 92, 34, 63, 92, 92, 37, 97, 98, 102, 110, 114, 116, 118, 93, 10, 79, 99, 116, 97, 108, 69, 115, 99, 97, 112,
   101, 32, 32, 60, 45, 32, 39, 92, 92, 39, 32, 91, 48, 45, 55, 93, 91, 48, 45, 55, 93, 63, 91, 48, 45, 55, 93, 63, 10, 72, 101, 120, 69, 115, 99, 97,
   112, 101, 32, 32, 32, 32, 60, 45, 32, 39, 92, 92, 120, 39, 32, 72, 101, 120, 68, 105, 103, 105, 116, 43, 10, 10, 10, 35, 45, 45, 45, 45, 45, 45,
   45, 45, 45, 45, 45, 45, 45, 45, 45, 45, 45, 45, 45, 45, 45, 45, 45, 45, 45, 45, 45, 45, 45, 45, 45, 45, 45, 45, 45, 45, 45, 45, 45, 45, 45, 45, 45,
   45, 45, 45, 45, 45, 45, 45, 45, 45, 45, 45, 45, 45, 45, 45, 45, 45, 45, 45, 45, 45, 45, 45, 45, 45, 45, 45, 45, 45, 45, 10, 35, 32, 32, 65, 46, 49,
   46, 54, 32, 32, 83, 116, 114, 105, 110, 103, 32, 76, 105, 116, 101, 114, 97, 108, 115, 10, 35, 45, 45, 45, 45, 45, 45, 45, 45, 45, 45, 45, 45, 45,
   45, 45, 45, 45, 45, 45, 45, 45, 45, 45, 45, 45, 45, 45, 45, 45, 45, 45, 45, 45, 45, 45, 45, 45, 45, 45, 45, 45, 45, 45, 45, 45, 45, 45, 45, 45, 45,
   45, 45, 45, 45, 45, 45, 45, 45, 45, 45, 45, 45, 45, 45, 45, 45, 45, 45, 45, 45, 45, 45, 45, 10, 10, 83, 116, 114, 105, 110, 103, 76, 105, 116, 101,
   114, 97, 108, 32, 60, 45, 32, 39, 76, 39, 63, 32, 40, 91, 34, 93, 32, 83, 116, 114, 105, 110, 103, 67, 104, 97, 114, 42, 32, 91, 34, 93, 32, 83,
   112, 97, 99, 105, 110, 103, 41, 43, 10, 10, 83, 116, 114, 105, 110, 103, 67, 104, 97, 114, 32, 60, 45, 32, 69, 115, 99, 97, 112, 101, 32, 47, 32,
   33, 91, 92, 34, 92, 110, 92, 92, 93, 32, 46, 10, 10, 10] :=
  bytes_ofList
  ['H', 'e', 'x', 'D', 'i', 'g', 'i', 't', '\x20', '\x20', '\x20', '\x20', '\x20', '\x20', '\x20', '\x20', '<', '-', '\x20', '[', 'a', '-', 'f', ']',
   '\x20', '/', '\x20', '[', 'A', '-', 'F', ']', '\x20', '/', '\x20', '[', '0', '-', '9', ']', '\n', '\n', 'I', 'n', 't', 'e', 'g', 'e', 'r', 'S',
   'u', 'f', 'f', 'i', 'x', '\n', '\x20', '\x20', '\x20', '<', '-', '\x20', '[', 'u', 'U', ']', '\x20', 'L', 's', 'u', 'f', 'f', 'i', 'x', '?', '\n',
   '\x20', '\x20', '\x20', '\x20', '/', '\x20', 'L', 's', 'u', 'f', 'f', 'i', 'x', '\x20', '[', 'u', 'U', ']', '?', '\n', '\n', 'L', 's', 'u', 'f',
   'f', 'i', 'x', '\n', '\x20', '\x20', '\x20', '<', '-', '\x20', '\'', 'l', 'l', '\'', '\n', '\x20', '\x20', '\x20', '\x20', '/', '\x20', '\'', 'L',
   'L', '\'', '\n', '\x20', '\x20', '\x20', '\x20', '/', '\x20', '[', 'l', 'L', ']', '\n', '\n', 'F', 'l', 'o', 'a', 't', 'C', 'o', 'n', 's', 't',
   'a', 'n', 't', '\n', '\x20', '\x20', '\x20', '<', '-', '\x20', '(', '\x20', 'D', 'e', 'c', 'i', 'm', 'a', 'l', 'F', 'l', 'o', 'a', 't', 'C', 'o',
   'n', 's', 't', 'a', 'n', 't', '\n', '\x20', '\x20', '\x20', '\x20', '\x20', '\x20', '/', '\x20', 'H', 'e', 'x', 'F', 'l', 'o', 'a', 't', 'C', 'o',
   'n', 's', 't', 'a', 'n', 't', '\n', '\x20', '\x20', '\x20', '\x20', '\x20', '\x20', ')', '\n', '\x20', '\x20', '\x20', '\x20', 'F', 'l', 'o', 'a',
   't', 'S', 'u', 'f', 'f', 'i', 'x', '?', '\x20', 'S', 'p', 'a', 'c', 'i', 'n', 'g', '\n', '\n', 'D', 'e', 'c', 'i', 'm', 'a', 'l', 'F', 'l', 'o',
   'a', 't', 'C', 'o', 'n', 's', 't', 'a', 'n', 't', '\n', '\x20', '\x20', '\x20', '<', '-', '\x20', 'F', 'r', 'a', 'c', 't', 'i', 'o', 'n', '\x20',
   'E', 'x', 'p', 'o', 'n', 'e', 'n', 't', '?', '\n', '\x20', '\x20', '\x20', '\x20', '/', '\x20', '[', '0', '-', '9', ']', '+', '\x20', 'E', 'x',
   'p', 'o', 'n', 'e', 'n', 't', '\n', '\n', 'H', 'e', 'x', 'F', 'l', 'o', 'a', 't', 'C', 'o', 'n', 's', 't', 'a', 'n', 't', '\n', '\x20', '\x20',
   '\x20', '<', '-', '\x20', 'H', 'e', 'x', 'P', 'r', 'e', 'f', 'i', 'x', '\x20', 'H', 'e', 'x', 'F', 'r', 'a', 'c', 't', 'i', 'o', 'n', '\x20', 'B',
   'i', 'n', 'a', 'r', 'y', 'E', 'x', 'p', 'o', 'n', 'e', 'n', 't', '?', '\n', '\x20', '\x20', '\x20', '\x20', '/', '\x20', 'H', 'e', 'x', 'P', 'r',
   'e', 'f', 'i', 'x', '\x20', 'H', 'e', 'x', 'D', 'i', 'g', 'i', 't', '+', '\x20', 'B', 'i', 'n', 'a', 'r', 'y', 'E', 'x', 'p', 'o', 'n', 'e', 'n',
   't', '\n', '\n', 'F', 'r', 'a', 'c', 't', 'i', 'o', 'n', '\n', '\x20', '\x20', '\x20', '<', '-', '\x20', '[', '0', '-', '9', ']', '*', '\x20',
   '\'', '.', '\'', '\x20', '[', '0', '-', '9', ']', '+', '\n', '\x20', '\x20', '\x20', '\x20', '/', '\x20', '[', '0', '-', '9', ']', '+', '\x20',
   '\'', '.', '\'', '\n', '\n', 'H', 'e', 'x', 'F', 'r', 'a', 'c', 't', 'i', 'o', 'n', '\n', '\x20', '\x20', '\x20', '<', '-', '\x20', 'H', 'e', 'x',
   'D', 'i', 'g', 'i', 't', '*', '\x20', '\'', '.', '\'', '\x20', 'H', 'e', 'x', 'D', 'i', 'g', 'i', 't', '+', '\n', '\x20', '\x20', '\x20', '\x20',
   '/', '\x20', 'H', 'e', 'x', 'D', 'i', 'g', 'i', 't', '+', '\x20', '\'', '.', '\'', '\n', '\n', 'E', 'x', 'p', 'o', 'n', 'e', 'n', 't', '\x20', '<',
   '-', '\x20', '[', 'e', 'E', ']', '[', '+', '\\', '-', ']', '?', '\x20', '[', '0', '-', '9', ']', '+', '\n', '\n', 'B', 'i', 'n', 'a', 'r', 'y',
   'E', 'x', 'p', 'o', 'n', 'e', 'n', 't', '\x20', '<', '-', '\x20', '[', 'p', 'P', ']', '[', '+', '\\', '-', ']', '?', '\x20', '[', '0', '-', '9',
   ']', '+', '\n', '\n', 'F', 'l', 'o', 'a', 't', 'S', 'u', 'f', 'f', 'i', 'x', '\x20', '<', '-', '\x20', '[', 'f', 'l', 'F', 'L', ']', '\n', '\n',
   'E', 'n', 'u', 'm', 'e', 'r', 'a', 't', 'i', 'o', 'n', 'C', 'o', 'n', 's', 't', 'a', 'n', 't', '\x20', '<', '-', '\x20', 'I', 'd', 'e', 'n', 't',
   'i', 'f', 'i', 'e', 'r', '\n', '\n', 'C', 'h', 'a', 'r', 'a', 'c', 't', 'e', 'r', 'C', 'o', 'n', 's', 't', 'a', 'n', 't', '\x20', '<', '-', '\x20',
   '\'', 'L', '\'', '?', '\x20', '[', '\'', ']', '\x20', 'C', 'h', 'a', 'r', '*', '\x20', '[', '\'', ']', '\x20', 'S', 'p', 'a', 'c', 'i', 'n', 'g',
   '\n', '\n', 'C', 'h', 'a', 'r', '\x20', '<', '-', '\x20', 'E', 's', 'c', 'a', 'p', 'e', '\x20', '/', '\x20', '!', '[', '\'', '\\', 'n', '\\', '\\',
   ']', '\x20', '.', '\n', '\n', 'E', 's', 'c', 'a', 'p', 'e', '\n', '\x20', '\x20', '\x20', '<', '-', '\x20', 'S', 'i', 'm', 'p', 'l', 'e', 'E', 's',
   'c', 'a', 'p', 'e', '\n', '\x20', '\x20', '\x20', '\x20', '/', '\x20', 'O', 'c', 't', 'a', 'l', 'E', 's', 'c', 'a', 'p', 'e', '\n', '\x20', '\x20',
   '\x20', '\x20', '/', '\x20', 'H', 'e', 'x', 'E', 's', 'c', 'a', 'p', 'e', '\n', '\x20', '\x20', '\x20', '\x20', '/', '\x20', 'U', 'n', 'i', 'v',
   'e', 'r', 's', 'a', 'l', 'C', 'h', 'a', 'r', 'a', 'c', 't', 'e', 'r', '\n', '\n', 'S', 'i', 'm', 'p', 'l', 'e', 'E', 's', 'c', 'a', 'p', 'e',
   '\x20', '<', '-', '\x20', '\'', '\\', '\\', '\'', '\x20', '[', '\'', '\\', '"', '?', '\\', '\\', '%', 'a', 'b', 'f', 'n', 'r', 't', 'v', ']', '\n',
   'O', 'c', 't', 'a', 'l', 'E', 's', 'c', 'a', 'p', 'e', '\x20', '\x20', '<', '-', '\x20', '\'', '\\', '\\', '\'', '\x20', '[', '0', '-', '7', ']',
   '[', '0', '-', '7', ']', '?', '[', '0', '-', '7', ']', '?', '\n', 'H', 'e', 'x', 'E', 's', 'c', 'a', 'p', 'e', '\x20', '\x20', '\x20', '\x20', '<',
   '-', '\x20', '\'', '\\', '\\', 'x', '\'', '\x20', 'H', 'e', 'x', 'D', 'i', 'g', 'i', 't', '+', '\n', '\n', '\n', '#', '-', '-', '-', '-', '-', '-',
   '-', '-', '-', '-', '-', '-', '-', '-', '-', '-', '-', '-', '-', '-', '-', '-', '-', '-', '-', '-', '-', '-', '-', '-', '-', '-', '-', '-', '-',
   '-', '-', '-', '-', '-', '-', '-', '-', '-', '-', '-', '-', '-', '-', '-', '-', '-', '-', '-', '-', '-', '-', '-', '-', '-', '-', '-', '-', '-',
   '-', '-', '-', '-', '-', '-', '-', '-', '-', '\n', '#', '\x20', '\x20', 'A', '.', '1', '.', '6', '\x20', '\x20', 'S', 't', 'r', 'i', 'n', 'g',
   '\x20', 'L', 'i', 't', 'e', 'r', 'a', 'l', 's', '\n', '#', '-', '-', '-', '-', '-', '-', '-', '-', '-', '-', '-', '-', '-', '-', '-', '-', '-',
   '-', '-', '-', '-', '-', '-', '-', '-', '-', '-', '-', '-', '-', '-', '-', '-', '-', '-', '-', '-', '-', '-', '-', '-', '-', '-', '-', '-', '-',
   '-', '-', '-', '-', '-', '-', '-', '-', '-', '-', '-', '-', '-', '-', '-', '-', '-', '-', '-', '-', '-', '-', '-', '-', '-', '-', '-', '\n', '\n',
   'S', 't', 'r', 'i', 'n', 'g', 'L', 'i', 't', 'e', 'r', 'a', 'l', '\x20', '<', '-', '\x20', '\'', 'L', '\'', '?', '\x20', '(', '[', '"', ']',
   '\x20', 'S', 't', 'r', 'i', 'n', 'g', 'C', 'h', 'a', 'r', '*', '\x20', '[', '"', ']', '\x20', 'S', 'p', 'a', 'c', 'i', 'n', 'g', ')', '+', '\n',
   '\n', 'S', 't', 'r', 'i', 'n', 'g', 'C', 'h', 'a', 'r', '\x20', '<', '-', '\x20', 'E', 's', 'c', 'a', 'p', 'e', '\x20', '/', '\x20', '!', '[',
   '\\', '"', '\\', 'n', '\\', '\\', ']', '\x20', '.', '\n', '\n', '\n']

/-- `grammars/c.peg:614-647` -/
def cFile15 : List UInt8 := bytes "#-------------------------------------------------------------------------
#  A.1.7  Punctuators
#-------------------------------------------------------------------------

LBRK      <-  '['         Spacing
RBRK      <-  ']'         Spacing
LPAR      <-  '('         Spacing
RPAR      <-  ')'         Spacing
LWING     <-  '{'         Spacing
RWING     <-  '}'         Spacing
DOT       <-  '.'         Spacing
PTR       <-  '->'        Spacing
INC       <-  '++'        Spacing
DEC       <-  '--'        Spacing
AND       <-  '&'  ![&]   Spacing
STAR      <-  '*'  ![=]   Spacing
PLUS      <-  '+'  ![+=]  Spacing
MINUS     <-  '-'  ![\\-=>] Spacing
TILDA     <-  '~'         Spacing
BANG      <-  '!'  ![=]   Spacing
DIV       <-  '/'  ![=]   Spacing
MOD       <-  '%'  ![=>]  Spacing
LEFT      <-  '<<' ![=]   Spacing
RIGHT     <-  '>>' ![=]   Spacing
LT        <-  '<'  ![=]   Spacing
GT        <-  '>'  ![=]   Spacing
LE        <-  '<='        Spacing
GE        <-  '>='        Spacing
EQUEQU    <-  '=='        Spacing
BANGEQU   <-  '!='        Spacing
HAT       <-  '^'  ![=]   Spacing
OR        <-  '|'  ![=]   Spacing
ANDAND    <-  '&&'        Spacing
OROR      <-  '||'        Spacing
"

theorem c_eq15 : cFile15 =
  [35, 45, 45, 45, 45, 45, 45, 45, 45, 45, 45, 45, 45, 45, 45, 45, 45, 45, 45, 45, 45, 45, 45, 45, 45, 45, 45, 45, 45, 45, 45, 45, 45, 45, 45, 45, 45,
   45, 45, 45, 45, 45, 45, 45, 45, 45, 45, 45, 45, 45, 45, 45, 45, 45, 45, 45, 45, 45, 45, 45, 45, 45, 45, 45, 45, 45, 45, 45, 45, 45, 45, 45, 45, 45,
   10, 35, 32, 32, 65, 46, 49, 46, 55, 32, 32, 80, 117, 110, 99, 116, 117, 97, 116, 111, 114, 115, 10, 35, 45, 45, 45, 45, 45, 45, 45, 45, 45, 45, 45,
   45, 45, 45, 45, 45, 45, 45, 45, 45, 45, 45, 45, 45, 45, 45, 45, 45, 45, 45, 45, 45, 45, 45, 45, 45, 45, 45, 45, 45, 45, 45, 45, 45, 45, 45, 45, 45,
   45, 45, 45, 45, 45, 45, 45, 45, 45, 45, 45, 45, 45, 45, 45, 45, 45, 45, 45, 45, 45, 45, 45, 45, 45, 10, 10, 76, 66, 82, 75, 32, 32, 32, 32, 32, 32,
   60, 45, 32, 32, 39, 91, 39, 32, 32, 32, 32, 32, 32, 32, 32, 32, 83, 112, 97, 99, 105, 110, 103, 10, 82, 66, 82, 75, 32, 32, 32, 32, 32, 32, 60, 45,
   32, 32, 39, 93, 39, 32, 32, 32, 32, 32, 32, 32, 32, 32, 83, 112, 97, 99, 105, 110, 103, 10, 76, 80, 65, 82, 32, 32, 32, 32, 32, 32, 60, 45, 32, 32,
   39, 40, 39, 32, 32, 32, 32, 32, 32, 32, 32, 32, 83, 112, 97, 99, 105, 110, 103, 10, 82, 80, 65, 82, 32, 32, 32, 32, 32, 32, 60, 45, 32, 32, 39, 41,
   39, 32, 32, 32, 32, 32, 32, 32, 32, 32, 83, 112, 97, 99, 105, 110, 103, 10, 76, 87, 73, 78, 71, 32, 32, 32, 32, 32, 60, 45, 32, 32, 39, 123, 39,
   32, 32, 32, 32, 32, 32, 32, 32, 32, 83, 112, 97, 99, 105, 110, 103, 10, 82, 87, 73, 78, 71, 32, 32, 32, 32, 32, 60, 45, 32, 32, 39, 125, 39, 32,
   32, 32, 32, 32, 32, 32, 32, 32, 83, 112, 97, 99, 105, 110, 103, 10, 68, 79, 84, 32, 32, 32, 32, 32, 32, 32, 60, 45, 32, 32, 39, 46, 39, 32, 32, 32,
   32, 32, 32, 32, 32, 32, 83, 112, 97, 99, 105, 110, 103, 10, 80, 84, 82, 32, 32, 32, 32, 32, 32, 32, 60, 45, 32, 32, 39, 45, 62, 39, 32, 32, 32, 32,
   32, 32, 32, 32, 83, 112, 97, 99, 105, 110, 103, 10, 73, 78, 67, 32, 32, 32, 32, 32, 32, 32, 60, 45, 32, 32, 39, 43, 43, 39, 32, 32, 32, 32, 32, 32,
   32, 32, 83, 112, 97, 99, 105, 110, 103, 10, 68, 69, 67, 32, 32, 32, 32, 32, 32, 32, 60, 45, 32, 32, 39, 45, 45, 39, 32, 32, 32, 32, 32, 32, 32, 32,
   83, 112, 97, 99, 105, 110, 103, 10, 65, 78, 68, 32, 32, 32, 32, 32, 32, 32, 60, 45, 32, 32, 39, 38, 39, 32, 32, 33, 91, 38, 93, 32, 32, 32, 83,
   112, 97, 99, 105, 110, 103, 10, 83, 84, 65, 82, 32, 32, 32, 32, 32, 32, 60, 45, 32, 32, 39, 42, 39, 32, 32, 33, 91, 61, 93, 32, 32, 32, 83, 112,
   97, 99, 105, 110, 103, 10, 80, 76, 85, 83, 32, 32, 32, 32, 32, 32, 60, 45, 32, 32, 39, 43, 39, 32, 32, 33, 91, 43, 61, 93, 32, 32, 83, 112, 97, 99,
   105, 110, 103, 10, 77, 73, 78, 85, 83, 32, 32, 32, 32, 32, 60, 45, 32, 32, 39, 45, 39, 32, 32, 33, 91, 92, 45, 61, 62, 93, 32, 83, 112, 97, 99,
   105, 110, 103, 10, 84, 73, 76, 68, 65, 32, 32, 32, 32, 32, 60, 45, 32, 32, 39, 126, 39, 32, 32, 32, 32, 32, 32, 32, 32, 32, 83, 112, 97, 99, 105,
   110, 103, 10, 66, 65, 78, 71, 32, 32, 32, 32, 32, 32, 60, 45, 32, 32, 39, 33, 39, 32, 32, 33, 91, 61, 93, 32, 32, 32, 83, 112, 97, 99, 105, 110,
   103, 10, 68, 73, 86, 32, 32, 32, 32, 32, 32, 32, 60, 45, 32, 32, 39, 47, 39, 32, 32, 33, 91, 61, 93, 32, 32, 32, 83, 112, 97, 99, 105, 110, 103,
   10, 77, 79, 68, 32, 32, 32, 32, 32, 32, 32, 60, 45, 32, 32, 39, 37, 39, 32, 32, 33, 91, 61, 62, 93, 32, 32, 83, 112, 97, 99, 105, 110, 103, 10, 76,
   69, 70, 84, 32, 32, 32, 32, 32, 32, 60, 45, 32, 32, 39, 60, 60, 39, 32, 33, 91, 61, 93, 32, 32, 32, 83, 112, 97, 99, 105, 110, 103, 10, 82, 73, 71,
   72, 84, 32, 32, 32, 32, 32, 60, 45, 32, 32, 39, 62, 62, 39, 32, 33, 91, 61, 93, 32, 32, 32, 83, 112, 97, 99, 105, 110, 103, 10, 76, 84, 32, 32, 32,
   32, 32, 32, 32, 32, 60, 45, 32, 32, 39, 60, 39, 32, 32, 33, 91, 61, 93, 32, 32, 32, 83, 112, 97, 99, 105, 110, 103, 10, 71, 84, 32, 32, 32, 32, 32,
   32, 32, 32, 60, 45, 32, 32, 39, 62, 39, 32, 32, 33, 91, 61, 93, 32, 32, 32, 83, 112, 97, 99, 105, 110, 103, 10, 76, 69, 32, 32, 32, 32, 32, 32, 32,
   32, 60, 45, 32, 32, 39, 60, 61, 39, 32, 32, 32, 32, 32, 32, 32, 32, 83, 112, 97, 99, 105, 110, 103, 10, 71, 69, 32, 32, 32, 32, 32, 32, 32, 32, 60,
   45, 32, 32, 39, 62, 61, 39, 32, 32, 32, 32, 32, 32, 32, 32, 83, 112, 97, 99, 105, 110, 103, 10, 69, 81, 85, 69, 81, 85, 32, 32, 32, 32, 60, 45, 32,
   32, 39, 61, 61, 39, 32, 32, 32, 32, 32, 32, 32, 32, 83, 112, 97, 99, 105, 110, 103, 10, 66, 65, 78, 71, 69, 81, 85, 32, 32, 32, 60, 45, 32, 32, 39,
   33, 61, 39, 32, 32, 32, 32, 32, 32, 32, 32, 83, 112, 97, 99, 105, 110, 103, 10, 72, 65, 84, 32, 32, 32, 32, 32, 32, 32, 60, 45, 32, 32, 39, 94, 39,
   32, 32, 33, 91, 61, 93, 32, 32, 32, 83, 112, 97, 99, 105, 110, 103, 10, 79, 82, 32, 32, 32, 32, 32, 32, 32, 32, 60, 45, 32, 32, 39, 124, 39, 32,
   32, 33, 91, 61, 93, 32, 32, 32, 83, 112, 97, 99, 105, 110, 103, 10, 65, 78, 68, 65, 78, 68, 32, 32, 32, 32, 60, 45, 32, 32, 39, 38, 38, 39, 32, 32,
   32, 32, 32, 32, 32, 32, 83, 112, 97, 99, 105, 110, 103, 10, 79, 82, 79, 82, 32, 32, 32, 32, 32, 32, 60, 45, 32, 32, 39, 124, 124, 39, 32, 32, 32,
   32, 32, 32, 32, 32, 83, 112, 97, 99, 105, 110, 103, 10] :=
  bytes_ofList
  ['#', '-', '-', '-', '-', '-', '-', '-', '-', '-', '-', '-', '-', '-', '-', '-', '-', '-', '-', '-', '-', '-', '-', '-', '-', '-', '-', '-', '-',
   '-', '-', '-', '-', '-', '-', '-', '-', '-', '-', '-', '-', '-', '-', '-', '-', '-', '-', '-', '-', '-', '-', '-', '-', '-', '-', '-', '-', '-',
   '-', '-', '-', '-', '-', '-', '-', '-', '-', '-', '-', '-', '-', '-', '-', '-', '\n', '#', '\x20', '\x20', 'A', '.', '1', '.', '7', '\x20', '\x20',
   'P', 'u', 'n', 'c', 't', 'u', 'a', 't', 'o', 'r', 's', '\n', '#', '-', '-', '-', '-', '-', '-', '-', '-', '-', '-', '-', '-', '-', '-', '-', '-',
   '-', '-', '-', '-', '-', '-', '-', '-', '-', '-', '-', '-', '-', '-', '-', '-', '-', '-', '-', '-', '-', '-', '-', '-', '-', '-', '-', '-', '-',
   '-', '-', '-', '-', '-', '-', '-', '-', '-', '-', '-', '-', '-', '-', '-', '-', '-', '-', '-', '-', '-', '-', '-', '-', '-', '-', '-', '-', '\n',
   '\n', 'L', 'B', 'R', 'K', '\x20', '\x20', '\x20', '\x20', '\x20', '\x20', '<', '-', '\x20', '\x20', '\'', '[', '\'', '\x20', '\x20', '\x20',
   '\x20', '\x20', '\x20', '\x20', '\x20', '\x20', 'S', 'p', 'a', 'c', 'i', 'n', 'g', '\n', 'R', 'B', 'R', 'K', '\x20', '\x20', '\x20', '\x20',
   '\x20', '\x20', '<', '-', '\x20', '\x20', '\'', ']', '\'', '\x20', '\x20', '\x20', '\x20', '\x20', '\x20', '\x20', '\x20', '\x20', 'S', 'p', 'a',
   'c', 'i', 'n', 'g', '\n', 'L', 'P', 'A', 'R', '\x20', '\x20', '\x20', '\x20', '\x20', '\x20', '<', '-', '\x20', '\x20', '\'', '(', '\'', '\x20',
   '\x20', '\x20', '\x20', '\x20', '\x20', '\x20', '\x20', '\x20', 'S', 'p', 'a', 'c', 'i', 'n', 'g', '\n', 'R', 'P', 'A', 'R', '\x20', '\x20',
   '\x20', '\x20', '\x20', '\x20', '<', '-', '\x20', '\x20', '\'', ')', '\'', '\x20', '\x20', '\x20', '\x20', '\x20', '\x20', '\x20', '\x20', '\x20',
   'S', 'p', 'a', 'c', 'i', 'n', 'g', '\n', 'L', 'W', 'I', 'N', 'G', '\x20', '\x20', '\x20', '\x20', '\x20', '<', '-', '\x20', '\x20', '\'', '{',
   '\'', '\x20', '\x20', '\x20', '\x20', '\x20', '\x20', '\x20', '\x20', '\x20', 'S', 'p', 'a', 'c', 'i', 'n', 'g', '\n', 'R', 'W', 'I', 'N', 'G',
   '\x20', '\x20', '\x20', '\x20', '\x20', '<', '-', '\x20', '\x20', '\'', '}', '\'', '\x20', '\x20', '\x20', '\x20', '\x20', '\x20', '\x20', '\x20',
   '\x20', 'S', 'p', 'a', 'c', 'i', 'n', 'g', '\n', 'D', 'O', 'T', '\x20', '\x20', '\x20', '\x20', '\x20', '\x20', '\x20', '<', '-', '\x20', '\x20',
   '\'', '.', '\'', '\x20', '\x20', '\x20', '\x20', '\x20', '\x20', '\x20', '\x20', '\x20', 'S', 'p', 'a', 'c', 'i', 'n', 'g', '\n', 'P', 'T', 'R',
   '\x20', '\x20', '\x20', '\x20', '\x20', '\x20', '\x20', '<', '-', '\x20', '\x20', '\'', '-', '>', '\'', '\x20', '\x20', '\x20', '\x20', '\x20',
   '\x20', '\x20', '\x20', 'S', 'p', 'a', 'c', 'i', 'n', 'g', '\n', 'I', 'N', 'C', '\x20', '\x20', '\x20', '\x20', '\x20', '\x20', '\x20', '<', '-',
   '\x20', '\x20', '\'', '+', '+', '\'', '\x20', '\x20', '\x20', '\x20', '\x20', '\x20', '\x20', '\x20', 'S', 'p', 'a', 'c', 'i', 'n', 'g', '\n', 'D',
   'E', 'C', '\x20', '\x20', '\x20', '\x20', '\x20', '\x20', '\x20', '<', '-', '\x20', '\x20', '\'', '-', '-', '\'', '\x20', '\x20', '\x20', '\x20',
   '\x20', '\x20', '\x20', '\x20', 'S', 'p', 'a', 'c', 'i', 'n', 'g', '\n', 'A', 'N', 'D', '\x20', '\x20', '\x20', '\x20', '\x20', '\x20', '\x20',
   '<', '-', '\x20', '\x20', '\'', '&', '\'', '\x20', '\x20', '!', '[', '&', ']', '\x20', '\x20', '\x20', 'S', 'p', 'a', 'c', 'i', 'n', 'g', '\n',
   'S', 'T', 'A', 'R', '\x20', '\x20', '\x20', '\x20', '\x20', '\x20', '<', '-', '\x20', '\x20', '\'', '*', '\'', '\x20', '\x20', '!', '[', '=', ']',
   '\x20', '\x20', '\x20', 'S', 'p', 'a', 'c', 'i', 'n', 'g', '\n', 'P', 'L', 'U', 'S', '\x20', '\x20', '\x20', '\x20', '\x20', '\x20', '<', '-',
   '\x20', '\x20', '\'', '+', '\'', '\x20', '\x20', '!', '[', '+', '=', ']', '\x20', '\x20', 'S', 'p', 'a', 'c', 'i', 'n', 'g', '\n', 'M', 'I', 'N',
   'U', 'S', '\x20', '\x20', '\x20', '\x20', '\x20', '<', '-', '\x20', '\x20', '\'', '-', '\'', '\x20', '\x20', '!', '[', '\\', '-', '=', '>', ']',
   '\x20', 'S', 'p', 'a', 'c', 'i', 'n', 'g', '\n', 'T', 'I', 'L', 'D', 'A', '\x20', '\x20', '\x20', '\x20', '\x20', '<', '-', '\x20', '\x20', '\'',
   '~', '\'', '\x20', '\x20', '\x20', '\x20', '\x20', '\x20', '\x20', '\x20', '\x20', 'S', 'p', 'a', 'c', 'i', 'n', 'g', '\n', 'B', 'A', 'N', 'G',
   '\x20', '\x20', '\x20', '\x20', '\x20', '\x20', '<', '-', '\x20', '\x20', '\'', '!', '\'', '\x20', '\x20', '!', '[', '=', ']', '\x20', '\x20',
   '\x20', 'S', 'p', 'a', 'c', 'i', 'n', 'g', '\n', 'D', 'I', 'V', '\x20', '\x20', '\x20', '\x20', '\x20', '\x20', '\x20', '<', '-', '\x20', '\x20',
   '\'', '/', '\'', '\x20', '\x20', '!', '[', '=', ']', '\x20', '\x20', '\x20', 'S', 'p', 'a', 'c', 'i', 'n', 'g', '\n', 'M', 'O', 'D', '\x20',
   '\x20', '\x20', '\x20', '\x20', '\x20', '\x20', '<', '-', '\x20', '\x20', '\'', '%', '\'', '\x20', '\x20', '!', '[', '=', '>', ']', '\x20', '\x20',
   'S', 'p', 'a', 'c', 'i', 'n', 'g', '\n', 'L', 'E', 'F', 'T', '\x20', '\x20', '\x20', '\x20', '\x20', '\x20', '<', '-', '\x20', '\x20', '\'', '<',
   '<', '\'', '\x20', '!', '[', '=', ']', '\x20', '\x20', '\x20', 'S', 'p', 'a', 'c', 'i', 'n', 'g', '\n', 'R', 'I', 'G', 'H', 'T', '\x20', '\x20',
   '\x20', '\x20', '\x20', '<', '-', '\x20', '\x20', '\'', '>', '>', '\'', '\x20', '!', '[', '=', ']', '\x20', '\x20', '\x20', 'S', 'p', 'a', 'c',
   'i', 'n', 'g', '\n', 'L', 'T', '\x20', '\x20', '\x20', '\x20', '\x20', '\x20', '\x20', '\x20', '<', '-', '\x20', '\x20', '\'', '<', '\'', '\x20',
   '\x20', '!', '[', '=', ']', '\x20', '\x20', '\x20', 'S', 'p', 'a', 'c', 'i', 'n', 'g', '\n', 'G', 'T', '\x20', '\x20', '\x20', '\x20', '\x20',
   '\x20', '\x20', '\x20', '<', '-', '\x20', '\x20', '\'', '>', '\'', '\x20', '\x20', '!', '[', '=', ']', '\x20', '\x20', '\x20', 'S', 'p', 'a', 'c',
   'i', 'n', 'g', '\n', 'L', 'E', '\x20', '\x20', '\x20', '\x20', '\x20', '\x20', '\x20', '\x20', '<', '-', '\x20', '\x20', '\'', '<', '=', '\'',
   '\x20', '\x20', '\x20', '\x20', '\x20', '\x20', '\x20', '\x20', 'S', 'p', 'a', 'c', 'i', 'n', 'g', '\n', 'G', 'E', '\x20', '\x20', '\x20', '\x20',
   '\x20', '\x20', '\x20', '\x20', '<', '-', '\x20', '\x20', '\'', '>', '=', '\'', '\x20', '\x20', '\x20', '\x20', '\x20', '\x20', '\x20', '\x20',
   'S', 'p', 'a', 'c', 'i', 'n', 'g', '\n', 'E', 'Q', 'U', 'E', 'Q', 'U', '\x20', '\x20', '\x20', '\x20', '<', '-', '\x20', '\x20', '\'', '=', '=',
   '\'', '\x20', '\x20', '\x20', '\x20', '\x20', '\x20', '\x20', '\x20', 'S', 'p', 'a', 'c', 'i', 'n', 'g', '\n', 'B', 'A', 'N', 'G', 'E', 'Q', 'U',
   '\x20', '\x20', '\x20', '<', '-', '\x20', '\x20', '\'', '!', '=', '\'', '\x20', '\x20', '\x20', '\x20', '\x20', '\x20', '\x20', '\x20', 'S', 'p',
   'a', 'c', 'i', 'n', 'g', '\n', 'H', 'A', 'T', '\x20', '\x20', '\x20', '\x20', '\x20', '\x20', '\x20', '<', '-', '\x20', '\x20', '\'', '^', '\'',
   '\x20', '\x20', '!', '[', '=', ']', '\x20', '\x20', '\x20', 'S', 'p', 'a', 'c', 'i', 'n', 'g', '\n', 'O', 'R', '\x20', '\x20', '\x20', '\x20',
   '\x20', '\x20', '\x20', '\x20', '<', '-', '\x20', '\x20', '\'', '|', '\'', '\x20', '\x20', '!', '[', '=', ']', '\x20', '\x20', '\x20', 'S', 'p',
   'a', 'c', 'i', 'n', 'g', '\n', 'A', 'N', 'D', 'A', 'N', 'D', '\x20', '\x20', '\x20', '\x20', '<', '-', '\x20', '\x20', '\'', '&', '&', '\'',
   '\x20', '\x20', '\x20', '\x20', '\x20', '\x20', '\x20', '\x20', 'S', 'p', 'a', 'c', 'i', 'n', 'g', '\n', 'O', 'R', 'O', 'R', '\x20', '\x20',
   '\x20', '\x20', '\x20', '\x20', '<', '-', '\x20', '\x20', '\'', '|', '|', '\'', '\x20', '\x20', '\x20', '\x20', '\x20', '\x20', '\x20', '\x20',
   'S', 'p', 'a', 'c', 'i', 'n', 'g', '\n']

/-- `grammars/c.peg:648-666` -/
def cFile16 : List UInt8 := bytes "QUERY     <-  '?'         Spacing
COLON     <-  ':'  ![>]   Spacing
SEMI      <-  ';'         Spacing
ELLIPSIS  <-  '...'       Spacing
EQU       <-  '='  !\"=\"   Spacing
STAREQU   <-  '*='        Spacing
DIVEQU    <-  '/='        Spacing
MODEQU    <-  '%='        Spacing
PLUSEQU   <-  '+='        Spacing
MINUSEQU  <-  '-='        Spacing
LEFTEQU   <-  '<<='       Spacing
RIGHTEQU  <-  '>>='       Spacing
ANDEQU    <-  '&='        Spacing
HATEQU    <-  '^='        Spacing
OREQU     <-  '|='        Spacing
COMMA     <-  ','         Spacing

EOT       <-  !.

"

theorem c_eq16 : cFile16 =
  [81, 85, 69, 82, 89, 32, 32, 32, 32, 32, 60, 45, 32, 32, 39, 63, 39, 32, 32, 32, 32, 32, 32, 32, 32, 32, 83, 112, 97, 99, 105, 110, 103, 10, 67, 79,
   76, 79, 78, 32, 32, 32, 32, 32, 60, 45, 32, 32, 39, 58, 39, 32, 32, 33, 91, 62, 93, 32, 32, 32, 83, 112, 97, 99, 105, 110, 103, 10, 83, 69, 77, 73,
   32, 32, 32, 32, 32, 32, 60, 45, 32, 32, 39, 59, 39, 32, 32, 32, 32, 32, 32, 32, 32, 32, 83, 112, 97, 99, 105, 110, 103, 10, 69, 76, 76, 73, 80, 83,
   73, 83, 32, 32, 60, 45, 32, 32, 39, 46, 46, 46, 39, 32, 32, 32, 32, 32, 32, 32, 83, 112, 97, 99, 105, 110, 103, 10, 69, 81, 85, 32, 32, 32, 32, 32,
   32, 32, 60, 45, 32, 32, 39, 61, 39, 32, 32, 33, 34, 61, 34, 32, 32, 32, 83, 112, 97, 99, 105, 110, 103, 10, 83, 84, 65, 82, 69, 81, 85, 32, 32, 32,
   60, 45, 32, 32, 39, 42, 61, 39, 32, 32, 32, 32, 32, 32, 32, 32, 83, 112, 97, 99, 105, 110, 103, 10, 68, 73, 86, 69, 81, 85, 32, 32, 32, 32, 60, 45,
   32, 32, 39, 47, 61, 39, 32, 32, 32, 32, 32, 32, 32, 32, 83, 112, 97, 99, 105, 110, 103, 10, 77, 79, 68, 69, 81, 85, 32, 32, 32, 32, 60, 45, 32, 32,
   39, 37, 61, 39, 32, 32, 32, 32, 32, 32, 32, 32, 83, 112, 97, 99, 105, 110, 103, 10, 80, 76, 85, 83, 69, 81, 85, 32, 32, 32, 60, 45, 32, 32, 39, 43,
   61, 39, 32, 32, 32, 32, 32, 32, 32, 32, 83, 112, 97, 99, 105, 110, 103, 10, 77, 73, 78, 85, 83, 69, 81, 85, 32, 32, 60, 45, 32, 32, 39, 45, 61, 39,
   32, 32, 32, 32, 32, 32, 32, 32, 83, 112, 97, 99, 105, 110, 103, 10, 76, 69, 70, 84, 69, 81, 85, 32, 32, 32, 60, 45, 32, 32, 39, 60, 60, 61, 39, 32,
   32, 32, 32, 32, 32, 32, 83, 112, 97, 99, 105, 110, 103, 10, 82, 73, 71, 72, 84, 69, 81, 85, 32, 32, 60, 45, 32, 32, 39, 62, 62, 61, 39, 32, 32, 32,
   32, 32, 32, 32, 83, 112, 97, 99, 105, 110, 103, 10, 65, 78, 68, 69, 81, 85, 32, 32, 32, 32, 60, 45, 32, 32, 39, 38, 61, 39, 32, 32, 32, 32, 32, 32,
   32, 32, 83, 112, 97, 99, 105, 110, 103, 10, 72, 65, 84, 69, 81, 85, 32, 32, 32, 32, 60, 45, 32, 32, 39, 94, 61, 39, 32, 32, 32, 32, 32, 32, 32, 32,
   83, 112, 97, 99, 105, 110, 103, 10, 79, 82, 69, 81, 85, 32, 32, 32, 32, 32, 60, 45, 32, 32, 39, 124, 61, 39, 32, 32, 32, 32, 32, 32, 32, 32, 83,
   112, 97, 99, 105, 110, 103, 10, 67, 79, 77, 77, 65, 32, 32, 32, 32, 32, 60, 45, 32, 32, 39, 44, 39, 32, 32, 32, 32, 32, 32, 32, 32, 32, 83, 112,
   97, 99, 105, 110, 103, 10, 10, 69, 79, 84, 32, 32, 32, 32, 32, 32, 32, 60, 45, 32, 32, 33, 46, 10, 10] :=
  bytes_ofList
  ['Q', 'U', 'E', 'R', 'Y', '\x20', '\x20', '\x20', '\x20', '\x20', '<', '-', '\x20', '\x20', '\'', '?', '\'', '\x20', '\x20', '\x20', '\x20', '\x20',
   '\x20', '\x20', '\x20', '\x20', 'S', 'p', 'a', 'c', 'i', 'n', 'g', '\n', 'C', 'O', 'L', 'O', 'N', '\x20', '\x20', '\x20', '\x20', '\x20', '<', '-',
   '\x20', '\x20', '\'', ':', '\'', '\x20', '\x20', '!', '[', '>', ']', '\x20', '\x20', '\x20', 'S', 'p', 'a', 'c', 'i', 'n', 'g', '\n', 'S', 'E',
   'M', 'I', '\x20', '\x20', '\x20', '\x20', '\x20', '\x20', '<', '-', '\x20', '\x20', '\'', ';', '\'', '\x20', '\x20', '\x20', '\x20', '\x20',
   '\x20', '\x20', '\x20', '\x20', 'S', 'p', 'a', 'c', 'i', 'n', 'g', '\n', 'E', 'L', 'L', 'I', 'P', 'S', 'I', 'S', '\x20', '\x20', '<', '-', '\x20',
   '\x20', '\'', '.', '.', '.', '\'', '\x20', '\x20', '\x20', '\x20', '\x20', '\x20', '\x20', 'S', 'p', 'a', 'c', 'i', 'n', 'g', '\n', 'E', 'Q', 'U',
   '\x20', '\x20', '\x20', '\x20', '\x20', '\x20', '\x20', '<', '-', '\x20', '\x20', '\'', '=', '\'', '\x20', '\x20', '!', '"', '=', '"', '\x20',
   '\x20', '\x20', 'S', 'p', 'a', 'c', 'i', 'n', 'g', '\n', 'S', 'T', 'A', 'R', 'E', 'Q', 'U', '\x20', '\x20', '\x20', '<', '-', '\x20', '\x20', '\'',
   '*', '=', '\'', '\x20', '\x20', '\x20', '\x20', '\x20', '\x20', '\x20', '\x20', 'S', 'p', 'a', 'c', 'i', 'n', 'g', '\n', 'D', 'I', 'V', 'E', 'Q',
   'U', '\x20', '\x20', '\x20', '\x20', '<', '-', '\x20', '\x20', '\'', '/', '=', '\'', '\x20', '\x20', '\x20', '\x20', '\x20', '\x20', '\x20',
   '\x20', 'S', 'p', 'a', 'c', 'i', 'n', 'g', '\n', 'M', 'O', 'D', 'E', 'Q', 'U', '\x20', '\x20', '\x20', '\x20', '<', '-', '\x20', '\x20', '\'', '%',
   '=', '\'', '\x20', '\x20', '\x20', '\x20', '\x20', '\x20', '\x20', '\x20', 'S', 'p', 'a', 'c', 'i', 'n', 'g', '\n', 'P', 'L', 'U', 'S', 'E', 'Q',
   'U', '\x20', '\x20', '\x20', '<', '-', '\x20', '\x20', '\'', '+', '=', '\'', '\x20', '\x20', '\x20', '\x20', '\x20', '\x20', '\x20', '\x20', 'S',
   'p', 'a', 'c', 'i', 'n', 'g', '\n', 'M', 'I', 'N', 'U', 'S', 'E', 'Q', 'U', '\x20', '\x20', '<', '-', '\x20', '\x20', '\'', '-', '=', '\'', '\x20',
   '\x20', '\x20', '\x20', '\x20', '\x20', '\x20', '\x20', 'S', 'p', 'a', 'c', 'i', 'n', 'g', '\n', 'L', 'E', 'F', 'T', 'E', 'Q', 'U', '\x20', '\x20',
   '\x20', '<', '-', '\x20', '\x20', '\'', '<', '<', '=', '\'', '\x20', '\x20', '\x20', '\x20', '\x20', '\x20', '\x20', 'S', 'p', 'a', 'c', 'i', 'n',
   'g', '\n', 'R', 'I', 'G', 'H', 'T', 'E', 'Q', 'U', '\x20', '\x20', '<', '-', '\x20', '\x20', '\'', '>', '>', '=', '\'', '\x20', '\x20', '\x20',
   '\x20', '\x20', '\x20', '\x20', 'S', 'p', 'a', 'c', 'i', 'n', 'g', '\n', 'A', 'N', 'D', 'E', 'Q', 'U', '\x20', '\x20', '\x20', '\x20', '<', '-',
   '\x20', '\x20', '\'', '&', '=', '\'', '\x20', '\x20', '\x20', '\x20', '\x20', '\x20', '\x20', '\x20', 'S', 'p', 'a', 'c', 'i', 'n', 'g', '\n', 'H',
   'A', 'T', 'E', 'Q', 'U', '\x20', '\x20', '\x20', '\x20', '<', '-', '\x20', '\x20', '\'', '^', '=', '\'', '\x20', '\x20', '\x20', '\x20', '\x20',
   '\x20', '\x20', '\x20', 'S', 'p', 'a', 'c', 'i', 'n', 'g', '\n', 'O', 'R', 'E', 'Q', 'U', '\x20', '\x20', '\x20', '\x20', '\x20', '<', '-', '\x20',
   '\x20', '\'', '|', '=', '\'', '\x20', '\x20', '\x20', '\x20', '\x20', '\x20', '\x20', '\x20', 'S', 'p', 'a', 'c', 'i', 'n', 'g', '\n', 'C', 'O',
   'M', 'M', 'A', '\x20', '\x20', '\x20', '\x20', '\x20', '<', '-', '\x20', '\x20', '\'', ',', '\'', '\x20', '\x20', '\x20', '\x20', '\x20', '\x20',
   '\x20', '\x20', '\x20', 'S', 'p', 'a', 'c', 'i', 'n', 'g', '\n', '\n', 'E', 'O', 'T', '\x20', '\x20', '\x20', '\x20', '\x20', '\x20', '\x20', '<',
   '-', '\x20', '\x20', '!', '.', '\n', '\n']

/-- `grammars/c.peg`, the whole file. -/
def cFile : List UInt8 :=
  cFile1 ++ (cFile2 ++ (cFile3 ++ (cFile4 ++ (cFile5 ++ (cFile6 ++ (cFile7 ++ (cFile8 ++ (cFile9 ++ (cFile10 ++ (cFile11 ++ (cFile12 ++ (cFile13 ++
    (cFile14 ++ (cFile15 ++ (cFile16)))))))))))))))

/-- The definitions of `grammars/c.peg`. -/
def cGram : Gram := [
  (bytes "TranslationUnit", .one (.cons .none (.ident (bytes "Spacing")) .none (.cons .none (.paren (.alt (.cons .none (.ident (bytes
    "ExternalDeclaration")) .none .nil) (.one (.cons .none (.ident (bytes "SEMI")) .none .nil)))) .star (.cons .none (.ident (bytes "EOT")) .none
    .nil)))),
  (bytes "ExternalDeclaration", .alt (.cons .none (.ident (bytes "FunctionDefinition")) .none .nil) (.one (.cons .none (.ident (bytes "Declaration"))
    .none .nil))),
  (bytes "FunctionDefinition", .one (.cons .none (.ident (bytes "DeclarationSpecifiers")) .none (.cons .none (.ident (bytes "Declarator")) .none
    (.cons .none (.ident (bytes "DeclarationList")) .opt (.cons .none (.ident (bytes "CompoundStatement")) .none .nil))))),
  (bytes "DeclarationList", .one (.cons .none (.ident (bytes "Declaration")) .plus .nil)),
  (bytes "Declaration", .one (.cons .none (.ident (bytes "DeclarationSpecifiers")) .none (.cons .none (.ident (bytes "InitDeclaratorList")) .opt
    (.cons .none (.ident (bytes "SEMI")) .none .nil)))),
  (bytes "DeclarationSpecifiers", .alt (.cons .none (.paren (.one (.cons .none (.paren (.alt (.cons .none (.ident (bytes "StorageClassSpecifier"))
    .none .nil) (.alt (.cons .none (.ident (bytes "TypeQualifier")) .none .nil) (.one (.cons .none (.ident (bytes "FunctionSpecifier")) .none
    .nil))))) .star (.cons .none (.ident (bytes "TypedefName")) .none (.cons .none (.paren (.alt (.cons .none (.ident (bytes "StorageClassSpecifier"))
    .none .nil) (.alt (.cons .none (.ident (bytes "TypeQualifier")) .none .nil) (.one (.cons .none (.ident (bytes "FunctionSpecifier")) .none
    .nil))))) .star .nil))))) .none .nil) (.one (.cons .none (.paren (.alt (.cons .none (.ident (bytes "StorageClassSpecifier")) .none .nil) (.alt
    (.cons .none (.ident (bytes "TypeSpecifier")) .none .nil) (.alt (.cons .none (.ident (bytes "TypeQualifier")) .none .nil) (.one (.cons .none
    (.ident (bytes "FunctionSpecifier")) .none .nil)))))) .plus .nil))),
  (bytes "InitDeclaratorList", .one (.cons .none (.ident (bytes "InitDeclarator")) .none (.cons .none (.paren (.one (.cons .none (.ident (bytes
    "COMMA")) .none (.cons .none (.ident (bytes "InitDeclarator")) .none .nil)))) .star .nil))),
  (bytes "InitDeclarator", .one (.cons .none (.ident (bytes "Declarator")) .none (.cons .none (.paren (.one (.cons .none (.ident (bytes "EQU")) .none
    (.cons .none (.ident (bytes "Initializer")) .none .nil)))) .opt .nil))),
  (bytes "StorageClassSpecifier", .alt (.cons .none (.ident (bytes "TYPEDEF")) .none .nil) (.alt (.cons .none (.ident (bytes "EXTERN")) .none .nil)
    (.alt (.cons .none (.ident (bytes "STATIC")) .none .nil) (.alt (.cons .none (.ident (bytes "AUTO")) .none .nil) (.alt (.cons .none (.ident (bytes
    "REGISTER")) .none .nil) (.one (.cons .none (.ident (bytes "ATTRIBUTE")) .none (.cons .none (.ident (bytes "LPAR")) .none (.cons .none (.ident
    (bytes "LPAR")) .none (.cons .none (.paren (.one (.cons .not (.ident (bytes "RPAR")) .none (.cons .none .dot .none .nil)))) .star (.cons .none
    (.ident (bytes "RPAR")) .none (.cons .none (.ident (bytes "RPAR")) .none .nil)))))))))))),
  (bytes "TypeSpecifier", .alt (.cons .none (.ident (bytes "VOID")) .none .nil) (.alt (.cons .none (.ident (bytes "CHAR")) .none .nil) (.alt (.cons
    .none (.ident (bytes "SHORT")) .none .nil) (.alt (.cons .none (.ident (bytes "INT")) .none .nil) (.alt (.cons .none (.ident (bytes "LONG")) .none
    .nil) (.alt (.cons .none (.ident (bytes "FLOAT")) .none .nil) (.alt (.cons .none (.ident (bytes "DOUBLE")) .none .nil) (.alt (.cons .none (.ident
    (bytes "SIGNED")) .none .nil) (.alt (.cons .none (.ident (bytes "UNSIGNED")) .none .nil) (.alt (.cons .none (.ident (bytes "BOOL")) .none .nil)
    (.alt (.cons .none (.ident (bytes "COMPLEX")) .none .nil) (.alt (.cons .none (.ident (bytes "StructOrUnionSpecifier")) .none .nil) (.one (.cons
    .none (.ident (bytes "EnumSpecifier")) .none .nil)))))))))))))),
  (bytes "StructOrUnionSpecifier", .one (.cons .none (.ident (bytes "StructOrUnion")) .none (.cons .none (.paren (.alt (.cons .none (.ident (bytes
    "Identifier")) .opt (.cons .none (.ident (bytes "LWING")) .none (.cons .none (.ident (bytes "StructDeclaration")) .star (.cons .none (.ident
    (bytes "RWING")) .none .nil)))) (.one (.cons .none (.ident (bytes "Identifier")) .none .nil)))) .none .nil))),
  (bytes "StructOrUnion", .alt (.cons .none (.ident (bytes "STRUCT")) .none .nil) (.one (.cons .none (.ident (bytes "UNION")) .none .nil))),
  (bytes "StructDeclaration", .one (.cons .none (.paren (.one (.cons .none (.ident (bytes "SpecifierQualifierList")) .none (.cons .none (.ident (bytes
    "StructDeclaratorList")) .opt .nil)))) .opt (.cons .none (.ident (bytes "SEMI")) .none .nil))),
  (bytes "SpecifierQualifierList", .alt (.cons .none (.paren (.one (.cons .none (.ident (bytes "TypeQualifier")) .star (.cons .none (.ident (bytes
    "TypedefName")) .none (.cons .none (.ident (bytes "TypeQualifier")) .star .nil))))) .none .nil) (.one (.cons .none (.paren (.alt (.cons .none
    (.ident (bytes "TypeSpecifier")) .none .nil) (.one (.cons .none (.ident (bytes "TypeQualifier")) .none .nil)))) .plus .nil))),
  (bytes "StructDeclaratorList", .one (.cons .none (.ident (bytes "StructDeclarator")) .none (.cons .none (.paren (.one (.cons .none (.ident (bytes
    "COMMA")) .none (.cons .none (.ident (bytes "StructDeclarator")) .none .nil)))) .star .nil))),
  (bytes "StructDeclarator", .alt (.cons .none (.ident (bytes "Declarator")) .opt (.cons .none (.ident (bytes "COLON")) .none (.cons .none (.ident
    (bytes "ConstantExpression")) .none .nil))) (.one (.cons .none (.ident (bytes "Declarator")) .none .nil))),
  (bytes "EnumSpecifier", .one (.cons .none (.ident (bytes "ENUM")) .none (.cons .none (.paren (.alt (.cons .none (.ident (bytes "Identifier")) .opt
    (.cons .none (.ident (bytes "LWING")) .none (.cons .none (.ident (bytes "EnumeratorList")) .none (.cons .none (.ident (bytes "COMMA")) .opt (.cons
    .none (.ident (bytes "RWING")) .none .nil))))) (.one (.cons .none (.ident (bytes "Identifier")) .none .nil)))) .none .nil))),
  (bytes "EnumeratorList", .one (.cons .none (.ident (bytes "Enumerator")) .none (.cons .none (.paren (.one (.cons .none (.ident (bytes "COMMA"))
    .none (.cons .none (.ident (bytes "Enumerator")) .none .nil)))) .star .nil))),
  (bytes "Enumerator", .one (.cons .none (.ident (bytes "EnumerationConstant")) .none (.cons .none (.paren (.one (.cons .none (.ident (bytes "EQU"))
    .none (.cons .none (.ident (bytes "ConstantExpression")) .none .nil)))) .opt .nil))),
  (bytes "TypeQualifier", .alt (.cons .none (.ident (bytes "CONST")) .none .nil) (.alt (.cons .none (.ident (bytes "RESTRICT")) .none .nil) (.alt
    (.cons .none (.ident (bytes "VOLATILE")) .none .nil) (.one (.cons .none (.ident (bytes "DECLSPEC")) .none (.cons .none (.ident (bytes "LPAR"))
    .none (.cons .none (.ident (bytes "Identifier")) .none (.cons .none (.ident (bytes "RPAR")) .none .nil)))))))),
  (bytes "FunctionSpecifier", .alt (.cons .none (.ident (bytes "INLINE")) .none .nil) (.one (.cons .none (.ident (bytes "STDCALL")) .none .nil))),
  (bytes "Declarator", .one (.cons .none (.ident (bytes "Pointer")) .opt (.cons .none (.ident (bytes "DirectDeclarator")) .none .nil))),
  (bytes "DirectDeclarator", .one (.cons .none (.paren (.alt (.cons .none (.ident (bytes "Identifier")) .none .nil) (.one (.cons .none (.ident (bytes
    "LPAR")) .none (.cons .none (.ident (bytes "Declarator")) .none (.cons .none (.ident (bytes "RPAR")) .none .nil)))))) .none (.cons .none (.paren
    (.alt (.cons .none (.ident (bytes "LBRK")) .none (.cons .none (.ident (bytes "TypeQualifier")) .star (.cons .none (.ident (bytes
    "AssignmentExpression")) .opt (.cons .none (.ident (bytes "RBRK")) .none .nil)))) (.alt (.cons .none (.ident (bytes "LBRK")) .none (.cons .none
    (.ident (bytes "STATIC")) .none (.cons .none (.ident (bytes "TypeQualifier")) .star (.cons .none (.ident (bytes "AssignmentExpression")) .none
    (.cons .none (.ident (bytes "RBRK")) .none .nil))))) (.alt (.cons .none (.ident (bytes "LBRK")) .none (.cons .none (.ident (bytes
    "TypeQualifier")) .plus (.cons .none (.ident (bytes "STATIC")) .none (.cons .none (.ident (bytes "AssignmentExpression")) .none (.cons .none
    (.ident (bytes "RBRK")) .none .nil))))) (.alt (.cons .none (.ident (bytes "LBRK")) .none (.cons .none (.ident (bytes "TypeQualifier")) .star
    (.cons .none (.ident (bytes "STAR")) .none (.cons .none (.ident (bytes "RBRK")) .none .nil)))) (.alt (.cons .none (.ident (bytes "LPAR")) .none
    (.cons .none (.ident (bytes "ParameterTypeList")) .none (.cons .none (.ident (bytes "RPAR")) .none .nil))) (.one (.cons .none (.ident (bytes
    "LPAR")) .none (.cons .none (.ident (bytes "IdentifierList")) .opt (.cons .none (.ident (bytes "RPAR")) .none .nil)))))))))) .star .nil))),
  (bytes "Pointer", .one (.cons .none (.paren (.one (.cons .none (.ident (bytes "STAR")) .none (.cons .none (.ident (bytes "TypeQualifier")) .star
    .nil)))) .plus .nil)),
  (bytes "ParameterTypeList", .one (.cons .none (.ident (bytes "ParameterList")) .none (.cons .none (.paren (.one (.cons .none (.ident (bytes
    "COMMA")) .none (.cons .none (.ident (bytes "ELLIPSIS")) .none .nil)))) .opt .nil))),
  (bytes "ParameterList", .one (.cons .none (.ident (bytes "ParameterDeclaration")) .none (.cons .none (.paren (.one (.cons .none (.ident (bytes
    "COMMA")) .none (.cons .none (.ident (bytes "ParameterDeclaration")) .none .nil)))) .star .nil))),
  (bytes "ParameterDeclaration", .one (.cons .none (.ident (bytes "DeclarationSpecifiers")) .none (.cons .none (.paren (.alt (.cons .none (.ident
    (bytes "Declarator")) .none .nil) (.one (.cons .none (.ident (bytes "AbstractDeclarator")) .none .nil)))) .opt .nil))),
  (bytes "IdentifierList", .one (.cons .none (.ident (bytes "Identifier")) .none (.cons .none (.paren (.one (.cons .none (.ident (bytes "COMMA"))
    .none (.cons .none (.ident (bytes "Identifier")) .none .nil)))) .star .nil))),
  (bytes "TypeName", .one (.cons .none (.ident (bytes "SpecifierQualifierList")) .none (.cons .none (.ident (bytes "AbstractDeclarator")) .opt .nil))),
  (bytes "AbstractDeclarator", .alt (.cons .none (.ident (bytes "Pointer")) .opt (.cons .none (.ident (bytes "DirectAbstractDeclarator")) .none .nil))
    (.one (.cons .none (.ident (bytes "Pointer")) .none .nil))),
  (bytes "DirectAbstractDeclarator", .one (.cons .none (.paren (.alt (.cons .none (.ident (bytes "LPAR")) .none (.cons .none (.ident (bytes
    "AbstractDeclarator")) .none (.cons .none (.ident (bytes "RPAR")) .none .nil))) (.alt (.cons .none (.ident (bytes "LBRK")) .none (.cons .none
    (.paren (.alt (.cons .none (.ident (bytes "AssignmentExpression")) .none .nil) (.one (.cons .none (.ident (bytes "STAR")) .none .nil)))) .opt
    (.cons .none (.ident (bytes "RBRK")) .none .nil))) (.one (.cons .none (.ident (bytes "LPAR")) .none (.cons .none (.ident (bytes
    "ParameterTypeList")) .opt (.cons .none (.ident (bytes "RPAR")) .none .nil))))))) .none (.cons .none (.paren (.alt (.cons .none (.ident (bytes
    "LBRK")) .none (.cons .none (.paren (.alt (.cons .none (.ident (bytes "AssignmentExpression")) .none .nil) (.one (.cons .none (.ident (bytes
    "STAR")) .none .nil)))) .opt (.cons .none (.ident (bytes "RBRK")) .none .nil))) (.one (.cons .none (.ident (bytes "LPAR")) .none (.cons .none
    (.ident (bytes "ParameterTypeList")) .opt (.cons .none (.ident (bytes "RPAR")) .none .nil)))))) .star .nil))),
  (bytes "TypedefName", .one (.cons .none (.ident (bytes "Identifier")) .none .nil)),
  (bytes "Initializer", .alt (.cons .none (.ident (bytes "AssignmentExpression")) .none .nil) (.one (.cons .none (.ident (bytes "LWING")) .none (.cons
    .none (.ident (bytes "InitializerList")) .none (.cons .none (.ident (bytes "COMMA")) .opt (.cons .none (.ident (bytes "RWING")) .none .nil)))))),
  (bytes "InitializerList", .one (.cons .none (.ident (bytes "Designation")) .opt (.cons .none (.ident (bytes "Initializer")) .none (.cons .none
    (.paren (.one (.cons .none (.ident (bytes "COMMA")) .none (.cons .none (.ident (bytes "Designation")) .opt (.cons .none (.ident (bytes
    "Initializer")) .none .nil))))) .star .nil)))),
  (bytes "Designation", .one (.cons .none (.ident (bytes "Designator")) .plus (.cons .none (.ident (bytes "EQU")) .none .nil))),
  (bytes "Designator", .alt (.cons .none (.ident (bytes "LBRK")) .none (.cons .none (.ident (bytes "ConstantExpression")) .none (.cons .none (.ident
    (bytes "RBRK")) .none .nil))) (.one (.cons .none (.ident (bytes "DOT")) .none (.cons .none (.ident (bytes "Identifier")) .none .nil)))),
  (bytes "Statement", .alt (.cons .none (.ident (bytes "LabeledStatement")) .none .nil) (.alt (.cons .none (.ident (bytes "CompoundStatement")) .none
    .nil) (.alt (.cons .none (.ident (bytes "ExpressionStatement")) .none .nil) (.alt (.cons .none (.ident (bytes "SelectionStatement")) .none .nil)
    (.alt (.cons .none (.ident (bytes "IterationStatement")) .none .nil) (.one (.cons .none (.ident (bytes "JumpStatement")) .none .nil))))))),
  (bytes "LabeledStatement", .alt (.cons .none (.ident (bytes "Identifier")) .none (.cons .none (.ident (bytes "COLON")) .none (.cons .none (.ident
    (bytes "Statement")) .none .nil))) (.alt (.cons .none (.ident (bytes "CASE")) .none (.cons .none (.ident (bytes "ConstantExpression")) .none
    (.cons .none (.ident (bytes "COLON")) .none (.cons .none (.ident (bytes "Statement")) .none .nil)))) (.one (.cons .none (.ident (bytes "DEFAULT"))
    .none (.cons .none (.ident (bytes "COLON")) .none (.cons .none (.ident (bytes "Statement")) .none .nil)))))),
  (bytes "CompoundStatement", .one (.cons .none (.ident (bytes "LWING")) .none (.cons .none (.paren (.alt (.cons .none (.ident (bytes "Declaration"))
    .none .nil) (.one (.cons .none (.ident (bytes "Statement")) .none .nil)))) .star (.cons .none (.ident (bytes "RWING")) .none .nil)))),
  (bytes "ExpressionStatement", .one (.cons .none (.ident (bytes "Expression")) .opt (.cons .none (.ident (bytes "SEMI")) .none .nil))),
  (bytes "SelectionStatement", .alt (.cons .none (.ident (bytes "IF")) .none (.cons .none (.ident (bytes "LPAR")) .none (.cons .none (.ident (bytes
    "Expression")) .none (.cons .none (.ident (bytes "RPAR")) .none (.cons .none (.ident (bytes "Statement")) .none (.cons .none (.paren (.one (.cons
    .none (.ident (bytes "ELSE")) .none (.cons .none (.ident (bytes "Statement")) .none .nil)))) .opt .nil)))))) (.one (.cons .none (.ident (bytes
    "SWITCH")) .none (.cons .none (.ident (bytes "LPAR")) .none (.cons .none (.ident (bytes "Expression")) .none (.cons .none (.ident (bytes "RPAR"))
    .none (.cons .none (.ident (bytes "Statement")) .none .nil))))))),
  (bytes "IterationStatement", .alt (.cons .none (.ident (bytes "WHILE")) .none (.cons .none (.ident (bytes "LPAR")) .none (.cons .none (.ident (bytes
    "Expression")) .none (.cons .none (.ident (bytes "RPAR")) .none (.cons .none (.ident (bytes "Statement")) .none .nil))))) (.alt (.cons .none
    (.ident (bytes "DO")) .none (.cons .none (.ident (bytes "Statement")) .none (.cons .none (.ident (bytes "WHILE")) .none (.cons .none (.ident
    (bytes "LPAR")) .none (.cons .none (.ident (bytes "Expression")) .none (.cons .none (.ident (bytes "RPAR")) .none (.cons .none (.ident (bytes
    "SEMI")) .none .nil))))))) (.alt (.cons .none (.ident (bytes "FOR")) .none (.cons .none (.ident (bytes "LPAR")) .none (.cons .none (.ident (bytes
    "Expression")) .opt (.cons .none (.ident (bytes "SEMI")) .none (.cons .none (.ident (bytes "Expression")) .opt (.cons .none (.ident (bytes
    "SEMI")) .none (.cons .none (.ident (bytes "Expression")) .opt (.cons .none (.ident (bytes "RPAR")) .none (.cons .none (.ident (bytes
    "Statement")) .none .nil))))))))) (.one (.cons .none (.ident (bytes "FOR")) .none (.cons .none (.ident (bytes "LPAR")) .none (.cons .none (.ident
    (bytes "Declaration")) .none (.cons .none (.ident (bytes "Expression")) .opt (.cons .none (.ident (bytes "SEMI")) .none (.cons .none (.ident
    (bytes "Expression")) .opt (.cons .none (.ident (bytes "RPAR")) .none (.cons .none (.ident (bytes "Statement")) .none .nil)))))))))))),
  (bytes "JumpStatement", .alt (.cons .none (.ident (bytes "GOTO")) .none (.cons .none (.ident (bytes "Identifier")) .none (.cons .none (.ident (bytes
    "SEMI")) .none .nil))) (.alt (.cons .none (.ident (bytes "CONTINUE")) .none (.cons .none (.ident (bytes "SEMI")) .none .nil)) (.alt (.cons .none
    (.ident (bytes "BREAK")) .none (.cons .none (.ident (bytes "SEMI")) .none .nil)) (.one (.cons .none (.ident (bytes "RETURN")) .none (.cons .none
    (.ident (bytes "Expression")) .opt (.cons .none (.ident (bytes "SEMI")) .none .nil))))))),
  (bytes "PrimaryExpression", .alt (.cons .none (.ident (bytes "StringLiteral")) .none .nil) (.alt (.cons .none (.ident (bytes "Constant")) .none
    .nil) (.alt (.cons .none (.ident (bytes "Identifier")) .none .nil) (.one (.cons .none (.ident (bytes "LPAR")) .none (.cons .none (.ident (bytes
    "Expression")) .none (.cons .none (.ident (bytes "RPAR")) .none .nil))))))),
  (bytes "PostfixExpression", .one (.cons .none (.paren (.alt (.cons .none (.ident (bytes "PrimaryExpression")) .none .nil) (.one (.cons .none (.ident
    (bytes "LPAR")) .none (.cons .none (.ident (bytes "TypeName")) .none (.cons .none (.ident (bytes "RPAR")) .none (.cons .none (.ident (bytes
    "LWING")) .none (.cons .none (.ident (bytes "InitializerList")) .none (.cons .none (.ident (bytes "COMMA")) .opt (.cons .none (.ident (bytes
    "RWING")) .none .nil)))))))))) .none (.cons .none (.paren (.alt (.cons .none (.ident (bytes "LBRK")) .none (.cons .none (.ident (bytes
    "Expression")) .none (.cons .none (.ident (bytes "RBRK")) .none .nil))) (.alt (.cons .none (.ident (bytes "LPAR")) .none (.cons .none (.ident
    (bytes "ArgumentExpressionList")) .opt (.cons .none (.ident (bytes "RPAR")) .none .nil))) (.alt (.cons .none (.ident (bytes "DOT")) .none (.cons
    .none (.ident (bytes "Identifier")) .none .nil)) (.alt (.cons .none (.ident (bytes "PTR")) .none (.cons .none (.ident (bytes "Identifier")) .none
    .nil)) (.alt (.cons .none (.ident (bytes "INC")) .none .nil) (.one (.cons .none (.ident (bytes "DEC")) .none .nil)))))))) .star .nil))),
  (bytes "ArgumentExpressionList", .one (.cons .none (.ident (bytes "AssignmentExpression")) .none (.cons .none (.paren (.one (.cons .none (.ident
    (bytes "COMMA")) .none (.cons .none (.ident (bytes "AssignmentExpression")) .none .nil)))) .star .nil))),
  (bytes "UnaryExpression", .alt (.cons .none (.ident (bytes "PostfixExpression")) .none .nil) (.alt (.cons .none (.ident (bytes "INC")) .none (.cons
    .none (.ident (bytes "UnaryExpression")) .none .nil)) (.alt (.cons .none (.ident (bytes "DEC")) .none (.cons .none (.ident (bytes
    "UnaryExpression")) .none .nil)) (.alt (.cons .none (.ident (bytes "UnaryOperator")) .none (.cons .none (.ident (bytes "CastExpression")) .none
    .nil)) (.one (.cons .none (.ident (bytes "SIZEOF")) .none (.cons .none (.paren (.alt (.cons .none (.ident (bytes "UnaryExpression")) .none .nil)
    (.one (.cons .none (.ident (bytes "LPAR")) .none (.cons .none (.ident (bytes "TypeName")) .none (.cons .none (.ident (bytes "RPAR")) .none
    .nil)))))) .none .nil))))))),
  (bytes "UnaryOperator", .alt (.cons .none (.ident (bytes "AND")) .none .nil) (.alt (.cons .none (.ident (bytes "STAR")) .none .nil) (.alt (.cons
    .none (.ident (bytes "PLUS")) .none .nil) (.alt (.cons .none (.ident (bytes "MINUS")) .none .nil) (.alt (.cons .none (.ident (bytes "TILDA"))
    .none .nil) (.one (.cons .none (.ident (bytes "BANG")) .none .nil))))))),
  (bytes "CastExpression", .alt (.cons .none (.paren (.one (.cons .none (.ident (bytes "LPAR")) .none (.cons .none (.ident (bytes "TypeName")) .none
    (.cons .none (.ident (bytes "RPAR")) .none (.cons .none (.ident (bytes "CastExpression")) .none .nil)))))) .none .nil) (.one (.cons .none (.ident
    (bytes "UnaryExpression")) .none .nil))),
  (bytes "MultiplicativeExpression", .one (.cons .none (.ident (bytes "CastExpression")) .none (.cons .none (.paren (.one (.cons .none (.paren (.alt
    (.cons .none (.ident (bytes "STAR")) .none .nil) (.alt (.cons .none (.ident (bytes "DIV")) .none .nil) (.one (.cons .none (.ident (bytes "MOD"))
    .none .nil))))) .none (.cons .none (.ident (bytes "CastExpression")) .none .nil)))) .star .nil))),
  (bytes "AdditiveExpression", .one (.cons .none (.ident (bytes "MultiplicativeExpression")) .none (.cons .none (.paren (.one (.cons .none (.paren
    (.alt (.cons .none (.ident (bytes "PLUS")) .none .nil) (.one (.cons .none (.ident (bytes "MINUS")) .none .nil)))) .none (.cons .none (.ident
    (bytes "MultiplicativeExpression")) .none .nil)))) .star .nil))),
  (bytes "ShiftExpression", .one (.cons .none (.ident (bytes "AdditiveExpression")) .none (.cons .none (.paren (.one (.cons .none (.paren (.alt (.cons
    .none (.ident (bytes "LEFT")) .none .nil) (.one (.cons .none (.ident (bytes "RIGHT")) .none .nil)))) .none (.cons .none (.ident (bytes
    "AdditiveExpression")) .none .nil)))) .star .nil))),
  (bytes "RelationalExpression", .one (.cons .none (.ident (bytes "ShiftExpression")) .none (.cons .none (.paren (.one (.cons .none (.paren (.alt
    (.cons .none (.ident (bytes "LE")) .none .nil) (.alt (.cons .none (.ident (bytes "GE")) .none .nil) (.alt (.cons .none (.ident (bytes "LT")) .none
    .nil) (.one (.cons .none (.ident (bytes "GT")) .none .nil)))))) .none (.cons .none (.ident (bytes "ShiftExpression")) .none .nil)))) .star .nil))),
  (bytes "EqualityExpression", .one (.cons .none (.ident (bytes "RelationalExpression")) .none (.cons .none (.paren (.one (.cons .none (.paren (.alt
    (.cons .none (.ident (bytes "EQUEQU")) .none .nil) (.one (.cons .none (.ident (bytes "BANGEQU")) .none .nil)))) .none (.cons .none (.ident (bytes
    "RelationalExpression")) .none .nil)))) .star .nil))),
  (bytes "ANDExpression", .one (.cons .none (.ident (bytes "EqualityExpression")) .none (.cons .none (.paren (.one (.cons .none (.ident (bytes "AND"))
    .none (.cons .none (.ident (bytes "EqualityExpression")) .none .nil)))) .star .nil))),
  (bytes "ExclusiveORExpression", .one (.cons .none (.ident (bytes "ANDExpression")) .none (.cons .none (.paren (.one (.cons .none (.ident (bytes
    "HAT")) .none (.cons .none (.ident (bytes "ANDExpression")) .none .nil)))) .star .nil))),
  (bytes "InclusiveORExpression", .one (.cons .none (.ident (bytes "ExclusiveORExpression")) .none (.cons .none (.paren (.one (.cons .none (.ident
    (bytes "OR")) .none (.cons .none (.ident (bytes "ExclusiveORExpression")) .none .nil)))) .star .nil))),
  (bytes "LogicalANDExpression", .one (.cons .none (.ident (bytes "InclusiveORExpression")) .none (.cons .none (.paren (.one (.cons .none (.ident
    (bytes "ANDAND")) .none (.cons .none (.ident (bytes "InclusiveORExpression")) .none .nil)))) .star .nil))),
  (bytes "LogicalORExpression", .one (.cons .none (.ident (bytes "LogicalANDExpression")) .none (.cons .none (.paren (.one (.cons .none (.ident (bytes
    "OROR")) .none (.cons .none (.ident (bytes "LogicalANDExpression")) .none .nil)))) .star .nil))),
  (bytes "ConditionalExpression", .one (.cons .none (.ident (bytes "LogicalORExpression")) .none (.cons .none (.paren (.one (.cons .none (.ident
    (bytes "QUERY")) .none (.cons .none (.ident (bytes "Expression")) .none (.cons .none (.ident (bytes "COLON")) .none (.cons .none (.ident (bytes
    "LogicalORExpression")) .none .nil)))))) .star .nil))),
  (bytes "AssignmentExpression", .alt (.cons .none (.ident (bytes "UnaryExpression")) .none (.cons .none (.ident (bytes "AssignmentOperator")) .none
    (.cons .none (.ident (bytes "AssignmentExpression")) .none .nil))) (.one (.cons .none (.ident (bytes "ConditionalExpression")) .none .nil))),
  (bytes "AssignmentOperator", .alt (.cons .none (.ident (bytes "EQU")) .none .nil) (.alt (.cons .none (.ident (bytes "STAREQU")) .none .nil) (.alt
    (.cons .none (.ident (bytes "DIVEQU")) .none .nil) (.alt (.cons .none (.ident (bytes "MODEQU")) .none .nil) (.alt (.cons .none (.ident (bytes
    "PLUSEQU")) .none .nil) (.alt (.cons .none (.ident (bytes "MINUSEQU")) .none .nil) (.alt (.cons .none (.ident (bytes "LEFTEQU")) .none .nil) (.alt
    (.cons .none (.ident (bytes "RIGHTEQU")) .none .nil) (.alt (.cons .none (.ident (bytes "ANDEQU")) .none .nil) (.alt (.cons .none (.ident (bytes
    "HATEQU")) .none .nil) (.one (.cons .none (.ident (bytes "OREQU")) .none .nil)))))))))))),
  (bytes "Expression", .one (.cons .none (.ident (bytes "AssignmentExpression")) .none (.cons .none (.paren (.one (.cons .none (.ident (bytes
    "COMMA")) .none (.cons .none (.ident (bytes "AssignmentExpression")) .none .nil)))) .star .nil))),
  (bytes "ConstantExpression", .one (.cons .none (.ident (bytes "ConditionalExpression")) .none .nil)),
  (bytes "Spacing", .one (.cons .none (.paren (.alt (.cons .none (.ident (bytes "WhiteSpace")) .none .nil) (.alt (.cons .none (.ident (bytes
    "LongComment")) .none .nil) (.alt (.cons .none (.ident (bytes "LineComment")) .none .nil) (.one (.cons .none (.ident (bytes "Pragma")) .none
    .nil)))))) .star .nil)),
  (bytes "WhiteSpace", .one (.cons .none (.cls false [.one 32, .one 10, .one 13, .one 9]) .none .nil)),
  (bytes "LongComment", .one (.cons .none (.lit [47, 42]) .none (.cons .none (.paren (.one (.cons .not (.lit [42, 47]) .none (.cons .none .dot .none
    .nil)))) .star (.cons .none (.lit [42, 47]) .none .nil)))),
  (bytes "LineComment", .one (.cons .none (.lit [47, 47]) .none (.cons .none (.paren (.one (.cons .not (.lit [10]) .none (.cons .none .dot .none
    .nil)))) .star .nil))),
  (bytes "Pragma", .one (.cons .none (.lit [35]) .none (.cons .none (.paren (.one (.cons .not (.lit [10]) .none (.cons .none .dot .none .nil)))) .star
    .nil))),
  (bytes "AUTO", .one (.cons .none (.lit [97, 117, 116, 111]) .none (.cons .not (.ident (bytes "IdChar")) .none (.cons .none (.ident (bytes
    "Spacing")) .none .nil)))),
  (bytes "BREAK", .one (.cons .none (.lit [98, 114, 101, 97, 107]) .none (.cons .not (.ident (bytes "IdChar")) .none (.cons .none (.ident (bytes
    "Spacing")) .none .nil)))),
  (bytes "CASE", .one (.cons .none (.lit [99, 97, 115, 101]) .none (.cons .not (.ident (bytes "IdChar")) .none (.cons .none (.ident (bytes "Spacing"))
    .none .nil)))),
  (bytes "CHAR", .one (.cons .none (.lit [99, 104, 97, 114]) .none (.cons .not (.ident (bytes "IdChar")) .none (.cons .none (.ident (bytes "Spacing"))
    .none .nil)))),
  (bytes "CONST", .one (.cons .none (.lit [99, 111, 110, 115, 116]) .none (.cons .not (.ident (bytes "IdChar")) .none (.cons .none (.ident (bytes
    "Spacing")) .none .nil)))),
  (bytes "CONTINUE", .one (.cons .none (.lit [99, 111, 110, 116, 105, 110, 117, 101]) .none (.cons .not (.ident (bytes "IdChar")) .none (.cons .none
    (.ident (bytes "Spacing")) .none .nil)))),
  (bytes "DEFAULT", .one (.cons .none (.lit [100, 101, 102, 97, 117, 108, 116]) .none (.cons .not (.ident (bytes "IdChar")) .none (.cons .none (.ident
    (bytes "Spacing")) .none .nil)))),
  (bytes "DOUBLE", .one (.cons .none (.lit [100, 111, 117, 98, 108, 101]) .none (.cons .not (.ident (bytes "IdChar")) .none (.cons .none (.ident
    (bytes "Spacing")) .none .nil)))),
  (bytes "DO", .one (.cons .none (.lit [100, 111]) .none (.cons .not (.ident (bytes "IdChar")) .none (.cons .none (.ident (bytes "Spacing")) .none
    .nil)))),
  (bytes "ELSE", .one (.cons .none (.lit [101, 108, 115, 101]) .none (.cons .not (.ident (bytes "IdChar")) .none (.cons .none (.ident (bytes
    "Spacing")) .none .nil)))),
  (bytes "ENUM", .one (.cons .none (.lit [101, 110, 117, 109]) .none (.cons .not (.ident (bytes "IdChar")) .none (.cons .none (.ident (bytes
    "Spacing")) .none .nil)))),
  (bytes "EXTERN", .one (.cons .none (.lit [101, 120, 116, 101, 114, 110]) .none (.cons .not (.ident (bytes "IdChar")) .none (.cons .none (.ident
    (bytes "Spacing")) .none .nil)))),
  (bytes "FLOAT", .one (.cons .none (.lit [102, 108, 111, 97, 116]) .none (.cons .not (.ident (bytes "IdChar")) .none (.cons .none (.ident (bytes
    "Spacing")) .none .nil)))),
  (bytes "FOR", .one (.cons .none (.lit [102, 111, 114]) .none (.cons .not (.ident (bytes "IdChar")) .none (.cons .none (.ident (bytes "Spacing"))
    .none .nil)))),
  (bytes "GOTO", .one (.cons .none (.lit [103, 111, 116, 111]) .none (.cons .not (.ident (bytes "IdChar")) .none (.cons .none (.ident (bytes
    "Spacing")) .none .nil)))),
  (bytes "IF", .one (.cons .none (.lit [105, 102]) .none (.cons .not (.ident (bytes "IdChar")) .none (.cons .none (.ident (bytes "Spacing")) .none
    .nil)))),
  (bytes "INT", .one (.cons .none (.lit [105, 110, 116]) .none (.cons .not (.ident (bytes "IdChar")) .none (.cons .none (.ident (bytes "Spacing"))
    .none .nil)))),
  (bytes "INLINE", .one (.cons .none (.lit [105, 110, 108, 105, 110, 101]) .none (.cons .not (.ident (bytes "IdChar")) .none (.cons .none (.ident
    (bytes "Spacing")) .none .nil)))),
  (bytes "LONG", .one (.cons .none (.lit [108, 111, 110, 103]) .none (.cons .not (.ident (bytes "IdChar")) .none (.cons .none (.ident (bytes
    "Spacing")) .none .nil)))),
  (bytes "REGISTER", .one (.cons .none (.lit [114, 101, 103, 105, 115, 116, 101, 114]) .none (.cons .not (.ident (bytes "IdChar")) .none (.cons .none
    (.ident (bytes "Spacing")) .none .nil)))),
  (bytes "RESTRICT", .one (.cons .none (.lit [114, 101, 115, 116, 114, 105, 99, 116]) .none (.cons .not (.ident (bytes "IdChar")) .none (.cons .none
    (.ident (bytes "Spacing")) .none .nil)))),
  (bytes "RETURN", .one (.cons .none (.lit [114, 101, 116, 117, 114, 110]) .none (.cons .not (.ident (bytes "IdChar")) .none (.cons .none (.ident
    (bytes "Spacing")) .none .nil)))),
  (bytes "SHORT", .one (.cons .none (.lit [115, 104, 111, 114, 116]) .none (.cons .not (.ident (bytes "IdChar")) .none (.cons .none (.ident (bytes
    "Spacing")) .none .nil)))),
  (bytes "SIGNED", .one (.cons .none (.lit [115, 105, 103, 110, 101, 100]) .none (.cons .not (.ident (bytes "IdChar")) .none (.cons .none (.ident
    (bytes "Spacing")) .none .nil)))),
  (bytes "SIZEOF", .one (.cons .none (.lit [115, 105, 122, 101, 111, 102]) .none (.cons .not (.ident (bytes "IdChar")) .none (.cons .none (.ident
    (bytes "Spacing")) .none .nil)))),
  (bytes "STATIC", .one (.cons .none (.lit [115, 116, 97, 116, 105, 99]) .none (.cons .not (.ident (bytes "IdChar")) .none (.cons .none (.ident (bytes
    "Spacing")) .none .nil)))),
  (bytes "STRUCT", .one (.cons .none (.lit [115, 116, 114, 117, 99, 116]) .none (.cons .not (.ident (bytes "IdChar")) .none (.cons .none (.ident
    (bytes "Spacing")) .none .nil)))),
  (bytes "SWITCH", .one (.cons .none (.lit [115, 119, 105, 116, 99, 104]) .none (.cons .not (.ident (bytes "IdChar")) .none (.cons .none (.ident
    (bytes "Spacing")) .none .nil)))),
  (bytes "TYPEDEF", .one (.cons .none (.lit [116, 121, 112, 101, 100, 101, 102]) .none (.cons .not (.ident (bytes "IdChar")) .none (.cons .none
    (.ident (bytes "Spacing")) .none .nil)))),
  (bytes "UNION", .one (.cons .none (.lit [117, 110, 105, 111, 110]) .none (.cons .not (.ident (bytes "IdChar")) .none (.cons .none (.ident (bytes
    "Spacing")) .none .nil)))),
  (bytes "UNSIGNED", .one (.cons .none (.lit [117, 110, 115, 105, 103, 110, 101, 100]) .none (.cons .not (.ident (bytes "IdChar")) .none (.cons .none
    (.ident (bytes "Spacing")) .none .nil)))),
  (bytes "VOID", .one (.cons .none (.lit [118, 111, 105, 100]) .none (.cons .not (.ident (bytes "IdChar")) .none (.cons .none (.ident (bytes
    "Spacing")) .none .nil)))),
  (bytes "VOLATILE", .one (.cons .none (.lit [118, 111, 108, 97, 116, 105, 108, 101]) .none (.cons .not (.ident (bytes "IdChar")) .none (.cons .none
    (.ident (bytes "Spacing")) .none .nil)))),
  (bytes "WHILE", .one (.cons .none (.lit [119, 104, 105, 108, 101]) .none (.cons .not (.ident (bytes "IdChar")) .none (.cons .none (.ident (bytes
    "Spacing")) .none .nil)))),
  (bytes "BOOL", .one (.cons .none (.lit [95, 66, 111, 111, 108]) .none (.cons .not (.ident (bytes "IdChar")) .none (.cons .none (.ident (bytes
    "Spacing")) .none .nil)))),
  (bytes "COMPLEX", .one (.cons .none (.lit [95, 67, 111, 109, 112, 108, 101, 120]) .none (.cons .not (.ident (bytes "IdChar")) .none (.cons .none
    (.ident (bytes "Spacing")) .none .nil)))),
  (bytes "STDCALL", .one (.cons .none (.lit [95, 115, 116, 100, 99, 97, 108, 108]) .none (.cons .not (.ident (bytes "IdChar")) .none (.cons .none
    (.ident (bytes "Spacing")) .none .nil)))),
  (bytes "DECLSPEC", .one (.cons .none (.lit [95, 95, 100, 101, 99, 108, 115, 112, 101, 99]) .none (.cons .not (.ident (bytes "IdChar")) .none (.cons
    .none (.ident (bytes "Spacing")) .none .nil)))),
  (bytes "ATTRIBUTE", .one (.cons .none (.lit [95, 95, 97, 116, 116, 114, 105, 98, 117, 116, 101, 95, 95]) .none (.cons .not (.ident (bytes "IdChar"))
    .none (.cons .none (.ident (bytes "Spacing")) .none .nil)))),
  (bytes "Keyword", .one (.cons .none (.paren (.alt (.cons .none (.lit [97, 117, 116, 111]) .none .nil) (.alt (.cons .none (.lit [98, 114, 101, 97,
    107]) .none .nil) (.alt (.cons .none (.lit [99, 97, 115, 101]) .none .nil) (.alt (.cons .none (.lit [99, 104, 97, 114]) .none .nil) (.alt (.cons
    .none (.lit [99, 111, 110, 115, 116]) .none .nil) (.alt (.cons .none (.lit [99, 111, 110, 116, 105, 110, 117, 101]) .none .nil) (.alt (.cons .none
    (.lit [100, 101, 102, 97, 117, 108, 116]) .none .nil) (.alt (.cons .none (.lit [100, 111, 117, 98, 108, 101]) .none .nil) (.alt (.cons .none (.lit
    [100, 111]) .none .nil) (.alt (.cons .none (.lit [101, 108, 115, 101]) .none .nil) (.alt (.cons .none (.lit [101, 110, 117, 109]) .none .nil)
    (.alt (.cons .none (.lit [101, 120, 116, 101, 114, 110]) .none .nil) (.alt (.cons .none (.lit [102, 108, 111, 97, 116]) .none .nil) (.alt (.cons
    .none (.lit [102, 111, 114]) .none .nil) (.alt (.cons .none (.lit [103, 111, 116, 111]) .none .nil) (.alt (.cons .none (.lit [105, 102]) .none
    .nil) (.alt (.cons .none (.lit [105, 110, 116]) .none .nil) (.alt (.cons .none (.lit [105, 110, 108, 105, 110, 101]) .none .nil) (.alt (.cons
    .none (.lit [108, 111, 110, 103]) .none .nil) (.alt (.cons .none (.lit [114, 101, 103, 105, 115, 116, 101, 114]) .none .nil) (.alt (.cons .none
    (.lit [114, 101, 115, 116, 114, 105, 99, 116]) .none .nil) (.alt (.cons .none (.lit [114, 101, 116, 117, 114, 110]) .none .nil) (.alt (.cons .none
    (.lit [115, 104, 111, 114, 116]) .none .nil) (.alt (.cons .none (.lit [115, 105, 103, 110, 101, 100]) .none .nil) (.alt (.cons .none (.lit [115,
    105, 122, 101, 111, 102]) .none .nil) (.alt (.cons .none (.lit [115, 116, 97, 116, 105, 99]) .none .nil) (.alt (.cons .none (.lit [115, 116, 114,
    117, 99, 116]) .none .nil) (.alt (.cons .none (.lit [115, 119, 105, 116, 99, 104]) .none .nil) (.alt (.cons .none (.lit [116, 121, 112, 101, 100,
    101, 102]) .none .nil) (.alt (.cons .none (.lit [117, 110, 105, 111, 110]) .none .nil) (.alt (.cons .none (.lit [117, 110, 115, 105, 103, 110,
    101, 100]) .none .nil) (.alt (.cons .none (.lit [118, 111, 105, 100]) .none .nil) (.alt (.cons .none (.lit [118, 111, 108, 97, 116, 105, 108,
    101]) .none .nil) (.alt (.cons .none (.lit [119, 104, 105, 108, 101]) .none .nil) (.alt (.cons .none (.lit [95, 66, 111, 111, 108]) .none .nil)
    (.alt (.cons .none (.lit [95, 67, 111, 109, 112, 108, 101, 120]) .none .nil) (.alt (.cons .none (.lit [95, 73, 109, 97, 103, 105, 110, 97, 114,
    121]) .none .nil) (.alt (.cons .none (.lit [95, 115, 116, 100, 99, 97, 108, 108]) .none .nil) (.alt (.cons .none (.lit [95, 95, 100, 101, 99, 108,
    115, 112, 101, 99]) .none .nil) (.one (.cons .none (.lit [95, 95, 97, 116, 116, 114, 105, 98, 117, 116, 101, 95, 95]) .none
    .nil)))))))))))))))))))))))))))))))))))))))))) .none (.cons .not (.ident (bytes "IdChar")) .none .nil))),
  (bytes "Identifier", .one (.cons .not (.ident (bytes "Keyword")) .none (.cons .none (.ident (bytes "IdNondigit")) .none (.cons .none (.ident (bytes
    "IdChar")) .star (.cons .none (.ident (bytes "Spacing")) .none .nil))))),
  (bytes "IdNondigit", .alt (.cons .none (.cls false [.range 97 122]) .none .nil) (.alt (.cons .none (.cls false [.range 65 90]) .none .nil) (.alt
    (.cons .none (.cls false [.one 95]) .none .nil) (.one (.cons .none (.ident (bytes "UniversalCharacter")) .none .nil))))),
  (bytes "IdChar", .alt (.cons .none (.cls false [.range 97 122]) .none .nil) (.alt (.cons .none (.cls false [.range 65 90]) .none .nil) (.alt (.cons
    .none (.cls false [.range 48 57]) .none .nil) (.alt (.cons .none (.cls false [.one 95]) .none .nil) (.one (.cons .none (.ident (bytes
    "UniversalCharacter")) .none .nil)))))),
  (bytes "UniversalCharacter", .alt (.cons .none (.lit [92, 117]) .none (.cons .none (.ident (bytes "HexQuad")) .none .nil)) (.one (.cons .none (.lit
    [92, 85]) .none (.cons .none (.ident (bytes "HexQuad")) .none (.cons .none (.ident (bytes "HexQuad")) .none .nil))))),
  (bytes "HexQuad", .one (.cons .none (.ident (bytes "HexDigit")) .none (.cons .none (.ident (bytes "HexDigit")) .none (.cons .none (.ident (bytes
    "HexDigit")) .none (.cons .none (.ident (bytes "HexDigit")) .none .nil))))),
  (bytes "Constant", .alt (.cons .none (.ident (bytes "FloatConstant")) .none .nil) (.alt (.cons .none (.ident (bytes "IntegerConstant")) .none .nil)
    (.alt (.cons .none (.ident (bytes "EnumerationConstant")) .none .nil) (.one (.cons .none (.ident (bytes "CharacterConstant")) .none .nil))))),
  (bytes "IntegerConstant", .one (.cons .none (.paren (.alt (.cons .none (.ident (bytes "DecimalConstant")) .none .nil) (.alt (.cons .none (.ident
    (bytes "HexConstant")) .none .nil) (.one (.cons .none (.ident (bytes "OctalConstant")) .none .nil))))) .none (.cons .none (.ident (bytes
    "IntegerSuffix")) .opt (.cons .none (.ident (bytes "Spacing")) .none .nil)))),
  (bytes "DecimalConstant", .one (.cons .none (.cls false [.range 49 57]) .none (.cons .none (.cls false [.range 48 57]) .star .nil))),
  (bytes "OctalConstant", .one (.cons .none (.lit [48]) .none (.cons .none (.cls false [.range 48 55]) .star .nil))),
  (bytes "HexConstant", .one (.cons .none (.ident (bytes "HexPrefix")) .none (.cons .none (.ident (bytes "HexDigit")) .plus .nil))),
  (bytes "HexPrefix", .alt (.cons .none (.lit [48, 120]) .none .nil) (.one (.cons .none (.lit [48, 88]) .none .nil))),
  (bytes "HexDigit", .alt (.cons .none (.cls false [.range 97 102]) .none .nil) (.alt (.cons .none (.cls false [.range 65 70]) .none .nil) (.one
    (.cons .none (.cls false [.range 48 57]) .none .nil)))),
  (bytes "IntegerSuffix", .alt (.cons .none (.cls false [.one 117, .one 85]) .none (.cons .none (.ident (bytes "Lsuffix")) .opt .nil)) (.one (.cons
    .none (.ident (bytes "Lsuffix")) .none (.cons .none (.cls false [.one 117, .one 85]) .opt .nil)))),
  (bytes "Lsuffix", .alt (.cons .none (.lit [108, 108]) .none .nil) (.alt (.cons .none (.lit [76, 76]) .none .nil) (.one (.cons .none (.cls false
    [.one 108, .one 76]) .none .nil)))),
  (bytes "FloatConstant", .one (.cons .none (.paren (.alt (.cons .none (.ident (bytes "DecimalFloatConstant")) .none .nil) (.one (.cons .none (.ident
    (bytes "HexFloatConstant")) .none .nil)))) .none (.cons .none (.ident (bytes "FloatSuffix")) .opt (.cons .none (.ident (bytes "Spacing")) .none
    .nil)))),
  (bytes "DecimalFloatConstant", .alt (.cons .none (.ident (bytes "Fraction")) .none (.cons .none (.ident (bytes "Exponent")) .opt .nil)) (.one (.cons
    .none (.cls false [.range 48 57]) .plus (.cons .none (.ident (bytes "Exponent")) .none .nil)))),
  (bytes "HexFloatConstant", .alt (.cons .none (.ident (bytes "HexPrefix")) .none (.cons .none (.ident (bytes "HexFraction")) .none (.cons .none
    (.ident (bytes "BinaryExponent")) .opt .nil))) (.one (.cons .none (.ident (bytes "HexPrefix")) .none (.cons .none (.ident (bytes "HexDigit"))
    .plus (.cons .none (.ident (bytes "BinaryExponent")) .none .nil))))),
  (bytes "Fraction", .alt (.cons .none (.cls false [.range 48 57]) .star (.cons .none (.lit [46]) .none (.cons .none (.cls false [.range 48 57]) .plus
    .nil))) (.one (.cons .none (.cls false [.range 48 57]) .plus (.cons .none (.lit [46]) .none .nil)))),
  (bytes "HexFraction", .alt (.cons .none (.ident (bytes "HexDigit")) .star (.cons .none (.lit [46]) .none (.cons .none (.ident (bytes "HexDigit"))
    .plus .nil))) (.one (.cons .none (.ident (bytes "HexDigit")) .plus (.cons .none (.lit [46]) .none .nil)))),
  (bytes "Exponent", .one (.cons .none (.cls false [.one 101, .one 69]) .none (.cons .none (.cls false [.one 43, .one 45]) .opt (.cons .none (.cls
    false [.range 48 57]) .plus .nil)))),
  (bytes "BinaryExponent", .one (.cons .none (.cls false [.one 112, .one 80]) .none (.cons .none (.cls false [.one 43, .one 45]) .opt (.cons .none
    (.cls false [.range 48 57]) .plus .nil)))),
  (bytes "FloatSuffix", .one (.cons .none (.cls false [.one 102, .one 108, .one 70, .one 76]) .none .nil)),
  (bytes "EnumerationConstant", .one (.cons .none (.ident (bytes "Identifier")) .none .nil)),
  (bytes "CharacterConstant", .one (.cons .none (.lit [76]) .opt (.cons .none (.cls false [.one 39]) .none (.cons .none (.ident (bytes "Char")) .star
    (.cons .none (.cls false [.one 39]) .none (.cons .none (.ident (bytes "Spacing")) .none .nil)))))),
  (bytes "Char", .alt (.cons .none (.ident (bytes "Escape")) .none .nil) (.one (.cons .not (.cls false [.one 39, .one 10, .one 92]) .none (.cons .none
    .dot .none .nil)))),
  (bytes "Escape", .alt (.cons .none (.ident (bytes "SimpleEscape")) .none .nil) (.alt (.cons .none (.ident (bytes "OctalEscape")) .none .nil) (.alt
    (.cons .none (.ident (bytes "HexEscape")) .none .nil) (.one (.cons .none (.ident (bytes "UniversalCharacter")) .none .nil))))),
  (bytes "SimpleEscape", .one (.cons .none (.lit [92]) .none (.cons .none (.cls false [.one 39, .one 34, .one 63, .one 92, .one 37, .one 97, .one 98,
    .one 102, .one 110, .one 114, .one 116, .one 118]) .none .nil))),
  (bytes "OctalEscape", .one (.cons .none (.lit [92]) .none (.cons .none (.cls false [.range 48 55]) .none (.cons .none (.cls false [.range 48 55])
    .opt (.cons .none (.cls false [.range 48 55]) .opt .nil))))),
  (bytes "HexEscape", .one (.cons .none (.lit [92, 120]) .none (.cons .none (.ident (bytes "HexDigit")) .plus .nil))),
  (bytes "StringLiteral", .one (.cons .none (.lit [76]) .opt (.cons .none (.paren (.one (.cons .none (.cls false [.one 34]) .none (.cons .none (.ident
    (bytes "StringChar")) .star (.cons .none (.cls false [.one 34]) .none (.cons .none (.ident (bytes "Spacing")) .none .nil)))))) .plus .nil))),
  (bytes "StringChar", .alt (.cons .none (.ident (bytes "Escape")) .none .nil) (.one (.cons .not (.cls false [.one 34, .one 10, .one 92]) .none (.cons
    .none .dot .none .nil)))),
  (bytes "LBRK", .one (.cons .none (.lit [91]) .none (.cons .none (.ident (bytes "Spacing")) .none .nil))),
  (bytes "RBRK", .one (.cons .none (.lit [93]) .none (.cons .none (.ident (bytes "Spacing")) .none .nil))),
  (bytes "LPAR", .one (.cons .none (.lit [40]) .none (.cons .none (.ident (bytes "Spacing")) .none .nil))),
  (bytes "RPAR", .one (.cons .none (.lit [41]) .none (.cons .none (.ident (bytes "Spacing")) .none .nil))),
  (bytes "LWING", .one (.cons .none (.lit [123]) .none (.cons .none (.ident (bytes "Spacing")) .none .nil))),
  (bytes "RWING", .one (.cons .none (.lit [125]) .none (.cons .none (.ident (bytes "Spacing")) .none .nil))),
  (bytes "DOT", .one (.cons .none (.lit [46]) .none (.cons .none (.ident (bytes "Spacing")) .none .nil))),
  (bytes "PTR", .one (.cons .none (.lit [45, 62]) .none (.cons .none (.ident (bytes "Spacing")) .none .nil))),
  (bytes "INC", .one (.cons .none (.lit [43, 43]) .none (.cons .none (.ident (bytes "Spacing")) .none .nil))),
  (bytes "DEC", .one (.cons .none (.lit [45, 45]) .none (.cons .none (.ident (bytes "Spacing")) .none .nil))),
  (bytes "AND", .one (.cons .none (.lit [38]) .none (.cons .not (.cls false [.one 38]) .none (.cons .none (.ident (bytes "Spacing")) .none .nil)))),
  (bytes "STAR", .one (.cons .none (.lit [42]) .none (.cons .not (.cls false [.one 61]) .none (.cons .none (.ident (bytes "Spacing")) .none .nil)))),
  (bytes "PLUS", .one (.cons .none (.lit [43]) .none (.cons .not (.cls false [.one 43, .one 61]) .none (.cons .none (.ident (bytes "Spacing")) .none
    .nil)))),
  (bytes "MINUS", .one (.cons .none (.lit [45]) .none (.cons .not (.cls false [.one 45, .one 61, .one 62]) .none (.cons .none (.ident (bytes
    "Spacing")) .none .nil)))),
  (bytes "TILDA", .one (.cons .none (.lit [126]) .none (.cons .none (.ident (bytes "Spacing")) .none .nil))),
  (bytes "BANG", .one (.cons .none (.lit [33]) .none (.cons .not (.cls false [.one 61]) .none (.cons .none (.ident (bytes "Spacing")) .none .nil)))),
  (bytes "DIV", .one (.cons .none (.lit [47]) .none (.cons .not (.cls false [.one 61]) .none (.cons .none (.ident (bytes "Spacing")) .none .nil)))),
  (bytes "MOD", .one (.cons .none (.lit [37]) .none (.cons .not (.cls false [.one 61, .one 62]) .none (.cons .none (.ident (bytes "Spacing")) .none
    .nil)))),
  (bytes "LEFT", .one (.cons .none (.lit [60, 60]) .none (.cons .not (.cls false [.one 61]) .none (.cons .none (.ident (bytes "Spacing")) .none
    .nil)))),
  (bytes "RIGHT", .one (.cons .none (.lit [62, 62]) .none (.cons .not (.cls false [.one 61]) .none (.cons .none (.ident (bytes "Spacing")) .none
    .nil)))),
  (bytes "LT", .one (.cons .none (.lit [60]) .none (.cons .not (.cls false [.one 61]) .none (.cons .none (.ident (bytes "Spacing")) .none .nil)))),
  (bytes "GT", .one (.cons .none (.lit [62]) .none (.cons .not (.cls false [.one 61]) .none (.cons .none (.ident (bytes "Spacing")) .none .nil)))),
  (bytes "LE", .one (.cons .none (.lit [60, 61]) .none (.cons .none (.ident (bytes "Spacing")) .none .nil))),
  (bytes "GE", .one (.cons .none (.lit [62, 61]) .none (.cons .none (.ident (bytes "Spacing")) .none .nil))),
  (bytes "EQUEQU", .one (.cons .none (.lit [61, 61]) .none (.cons .none (.ident (bytes "Spacing")) .none .nil))),
  (bytes "BANGEQU", .one (.cons .none (.lit [33, 61]) .none (.cons .none (.ident (bytes "Spacing")) .none .nil))),
  (bytes "HAT", .one (.cons .none (.lit [94]) .none (.cons .not (.cls false [.one 61]) .none (.cons .none (.ident (bytes "Spacing")) .none .nil)))),
  (bytes "OR", .one (.cons .none (.lit [124]) .none (.cons .not (.cls false [.one 61]) .none (.cons .none (.ident (bytes "Spacing")) .none .nil)))),
  (bytes "ANDAND", .one (.cons .none (.lit [38, 38]) .none (.cons .none (.ident (bytes "Spacing")) .none .nil))),
  (bytes "OROR", .one (.cons .none (.lit [124, 124]) .none (.cons .none (.ident (bytes "Spacing")) .none .nil))),
  (bytes "QUERY", .one (.cons .none (.lit [63]) .none (.cons .none (.ident (bytes "Spacing")) .none .nil))),
  (bytes "COLON", .one (.cons .none (.lit [58]) .none (.cons .not (.cls false [.one 62]) .none (.cons .none (.ident (bytes "Spacing")) .none .nil)))),
  (bytes "SEMI", .one (.cons .none (.lit [59]) .none (.cons .none (.ident (bytes "Spacing")) .none .nil))),
  (bytes "ELLIPSIS", .one (.cons .none (.lit [46, 46, 46]) .none (.cons .none (.ident (bytes "Spacing")) .none .nil))),
  (bytes "EQU", .one (.cons .none (.lit [61]) .none (.cons .not (.lit [61]) .none (.cons .none (.ident (bytes "Spacing")) .none .nil)))),
  (bytes "STAREQU", .one (.cons .none (.lit [42, 61]) .none (.cons .none (.ident (bytes "Spacing")) .none .nil))),
  (bytes "DIVEQU", .one (.cons .none (.lit [47, 61]) .none (.cons .none (.ident (bytes "Spacing")) .none .nil))),
  (bytes "MODEQU", .one (.cons .none (.lit [37, 61]) .none (.cons .none (.ident (bytes "Spacing")) .none .nil))),
  (bytes "PLUSEQU", .one (.cons .none (.lit [43, 61]) .none (.cons .none (.ident (bytes "Spacing")) .none .nil))),
  (bytes "MINUSEQU", .one (.cons .none (.lit [45, 61]) .none (.cons .none (.ident (bytes "Spacing")) .none .nil))),
  (bytes "LEFTEQU", .one (.cons .none (.lit [60, 60, 61]) .none (.cons .none (.ident (bytes "Spacing")) .none .nil))),
  (bytes "RIGHTEQU", .one (.cons .none (.lit [62, 62, 61]) .none (.cons .none (.ident (bytes "Spacing")) .none .nil))),
  (bytes "ANDEQU", .one (.cons .none (.lit [38, 61]) .none (.cons .none (.ident (bytes "Spacing")) .none .nil))),
  (bytes "HATEQU", .one (.cons .none (.lit [94, 61]) .none (.cons .none (.ident (bytes "Spacing")) .none .nil))),
  (bytes "OREQU", .one (.cons .none (.lit [124, 61]) .none (.cons .none (.ident (bytes "Spacing")) .none .nil))),
  (bytes "COMMA", .one (.cons .none (.lit [44]) .none (.cons .none (.ident (bytes "Spacing")) .none .nil))),
  (bytes "EOT", .one (.cons .not .dot .none .nil))]

/-- The file writes the definitions. -/
theorem c_text : TopS (.gram cGram) cFile := by
  rw [cFile, c_eq1, c_eq2, c_eq3, c_eq4, c_eq5, c_eq6, c_eq7, c_eq8, c_eq9, c_eq10, c_eq11, c_eq12, c_eq13, c_eq14, c_eq15, c_eq16]
  exact topGramB_sound (by decide +kernel)

end Gpeg.Re
