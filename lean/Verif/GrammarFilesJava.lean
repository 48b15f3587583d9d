import Verif.GrammarFiles
/-!
# The grammar file `grammars/java.peg`
-/
namespace Gpeg.Re

set_option maxRecDepth 100000


/-- `grammars/java.peg:1-28` -/
def javaFile1 : List UInt8 := bytes "#===========================================================================
#
#  Parsing Expression Grammar for Java 1.7 for Mouse 1.1 - 1.5.
#  Based on Chapters 3 and 18 of Java Language Specification, Third Edition,
#  at http://java.sun.com/docs/books/jls/third_edition/html/j3TOC.html,
#  and description of Java SE 7 enhancements in
#  http://download.java.net/jdk7/docs/technotes/guides/language/enhancements.html.
#
#---------------------------------------------------------------------------
#
#  Copyright (C) 2006, 2009, 2010, 2011
#  by Roman R Redziejowski(www.romanredz.se).
#
#  The author gives unlimited permission to copy and distribute
#  this file, with or without modifications, as long as this notice
#  is preserved, and any changes are properly documented.
#
#  This file is distributed in the hope that it will be useful,
#  but WITHOUT ANY WARRANTY; without even the implied warranty of
#  MERCHANTABILITY or FITNESS FOR A PARTICULAR PURPOSE.
#
#---------------------------------------------------------------------------
#
#  Latest update 2011-07-21
#
#---------------------------------------------------------------------------
#
#  Change log
"

theorem java_eq1 : javaFile1 =
  [35, 61, 61, 61, 61, 61, 61, 61, 61, 61, 61, 61, 61, 61, 61, 61, 61, 61, 61, 61, 61, 61, 61, 61, 61, 61, 61, 61, 61, 61, 61, 61, 61, 61, 61, 61, 61,
   61, 61, 61, 61, 61, 61, 61, 61, 61, 61, 61, 61, 61, 61, 61, 61, 61, 61, 61, 61, 61, 61, 61, 61, 61, 61, 61, 61, 61, 61, 61, 61, 61, 61, 61, 61, 61,
   61, 61, 10, 35, 10, 35, 32, 32, 80, 97, 114, 115, 105, 110, 103, 32, 69, 120, 112, 114, 101, 115, 115, 105, 111, 110, 32, 71, 114, 97, 109, 109,
   97, 114, 32, 102, 111, 114, 32, 74, 97, 118, 97, 32, 49, 46, 55, 32, 102, 111, 114, 32, 77, 111, 117, 115, 101, 32, 49, 46, 49, 32, 45, 32, 49, 46,
   53, 46, 10, 35, 32, 32, 66, 97, 115, 101, 100, 32, 111, 110, 32, 67, 104, 97, 112, 116, 101, 114, 115, 32, 51, 32, 97, 110, 100, 32, 49, 56, 32,
   111, 102, 32, 74, 97, 118, 97, 32, 76, 97, 110, 103, 117, 97, 103, 101, 32, 83, 112, 101, 99, 105, 102, 105, 99, 97, 116, 105, 111, 110, 44, 32,
   84, 104, 105, 114, 100, 32, 69, 100, 105, 116, 105, 111, 110, 44, 10, 35, 32, 32, 97, 116, 32, 104, 116, 116, 112, 58, 47, 47, 106, 97, 118, 97,
   46, 115, 117, 110, 46, 99, 111, 109, 47, 100, 111, 99, 115, 47, 98, 111, 111, 107, 115, 47, 106, 108, 115, 47, 116, 104, 105, 114, 100, 95, 101,
   100, 105, 116, 105, 111, 110, 47, 104, 116, 109, 108, 47, 106, 51, 84, 79, 67, 46, 104, 116, 109, 108, 44, 10, 35, 32, 32, 97, 110, 100, 32, 100,
   101, 115, 99, 114, 105, 112, 116, 105, 111, 110, 32, 111, 102, 32, 74, 97, 118, 97, 32, 83, 69, 32, 55, 32, 101, 110, 104, 97, 110, 99, 101, 109,
   101, 110, 116, 115, 32, 105, 110, 10, 35, 32, 32, 104, 116, 116, 112, 58, 47, 47, 100, 111, 119, 110, 108, 111, 97, 100, 46, 106, 97, 118, 97, 46,
   110, 101, 116, 47, 106, 100, 107, 55, 47, 100, 111, 99, 115, 47, 116, 101, 99, 104, 110, 111, 116, 101, 115, 47, 103, 117, 105, 100, 101, 115, 47,
   108, 97, 110, 103, 117, 97, 103, 101, 47, 101, 110, 104, 97, 110, 99, 101, 109, 101, 110, 116, 115, 46, 104, 116, 109, 108, 46, 10, 35, 10, 35, 45,
   45, 45, 45, 45, 45, 45, 45, 45, 45, 45, 45, 45, 45, 45, 45, 45, 45, 45, 45, 45, 45, 45, 45, 45, 45, 45, 45, 45, 45, 45, 45, 45, 45, 45, 45, 45, 45,
   45, 45, 45, 45, 45, 45, 45, 45, 45, 45, 45, 45, 45, 45, 45, 45, 45, 45, 45, 45, 45, 45, 45, 45, 45, 45, 45, 45, 45, 45, 45, 45, 45, 45, 45, 45, 45,
   10, 35, 10, 35, 32, 32, 67, 111, 112, 121, 114, 105, 103, 104, 116, 32, 40, 67, 41, 32, 50, 48, 48, 54, 44, 32, 50, 48, 48, 57, 44, 32, 50, 48, 49,
   48, 44, 32, 50, 48, 49, 49, 10, 35, 32, 32, 98, 121, 32, 82, 111, 109, 97, 110, 32, 82, 32, 82, 101, 100, 122, 105, 101, 106, 111, 119, 115, 107,
   105, 40, 119, 119, 119, 46, 114, 111, 109, 97, 110, 114, 101, 100, 122, 46, 115, 101, 41, 46, 10, 35, 10, 35, 32, 32, 84, 104, 101, 32, 97, 117,
   116, 104, 111, 114, 32, 103, 105, 118, 101, 115, 32, 117, 110, 108, 105, 109, 105, 116, 101, 100, 32, 112, 101, 114, 109, 105, 115, 115, 105, 111,
   110, 32, 116, 111, 32, 99, 111, 112, 121, 32, 97, 110, 100, 32, 100, 105, 115, 116, 114, 105, 98, 117, 116, 101, 10, 35, 32, 32, 116, 104, 105,
   115, 32, 102, 105, 108, 101, 44, 32, 119, 105, 116, 104, 32, 111, 114, 32, 119, 105, 116, 104, 111, 117, 116, 32, 109, 111, 100, 105, 102, 105, 99,
   97, 116, 105, 111, 110, 115, 44, 32, 97, 115, 32, 108, 111, 110, 103, 32, 97, 115, 32, 116, 104, 105, 115, 32, 110, 111, 116, 105, 99, 101, 10, 35,
   32, 32, 105, 115, 32, 112, 114, 101, 115, 101, 114, 118, 101, 100, 44, 32, 97, 110, 100, 32, 97, 110, 121, 32, 99, 104, 97, 110, 103, 101, 115, 32,
   97, 114, 101, 32, 112, 114, 111, 112, 101, 114, 108, 121, 32, 100, 111, 99, 117, 109, 101, 110, 116, 101, 100, 46, 10, 35, 10, 35, 32, 32, 84, 104,
   105, 115, 32, 102, 105, 108, 101, 32, 105, 115, 32, 100, 105, 115, 116, 114, 105, 98, 117, 116, 101, 100, 32, 105, 110, 32, 116, 104, 101, 32, 104,
   111, 112, 101, 32, 116, 104, 97, 116, 32, 105, 116, 32, 119, 105, 108, 108, 32, 98, 101, 32, 117, 115, 101, 102, 117, 108, 44, 10, 35, 32, 32, 98,
   117, 116, 32, 87, 73, 84, 72, 79, 85, 84, 32, 65, 78, 89, 32, 87, 65, 82, 82, 65, 78, 84, 89, 59, 32, 119, 105, 116, 104, 111, 117, 116, 32, 101,
   118, 101, 110, 32, 116, 104, 101, 32, 105, 109, 112, 108, 105, 101, 100, 32, 119, 97, 114, 114, 97, 110, 116, 121, 32, 111, 102, 10, 35, 32, 32,
   77, 69, 82, 67, 72, 65, 78, 84, 65, 66, 73, 76, 73, 84, 89, 32, 111, 114, 32, 70, 73, 84, 78, 69, 83, 83, 32, 70, 79, 82, 32, 65, 32, 80, 65, 82,
   84, 73, 67, 85, 76, 65, 82, 32, 80, 85, 82, 80, 79, 83, 69, 46, 10, 35, 10, 35, 45, 45, 45, 45, 45, 45, 45, 45, 45, 45, 45, 45, 45, 45, 45, 45, 45,
   45, 45, 45, 45, 45, 45, 45, 45, 45, 45, 45, 45, 45, 45, 45, 45, 45, 45, 45, 45, 45, 45, 45, 45, 45, 45, 45, 45, 45, 45, 45, 45, 45, 45, 45, 45, 45,
   45, 45, 45, 45, 45, 45, 45, 45, 45, 45, 45, 45, 45, 45, 45, 45, 45, 45, 45, 45, 45, 10, 35, 10, 35, 32, 32, 76, 97, 116, 101, 115, 116, 32, 117,
   112, 100, 97, 116, 101, 32, 50, 48, 49, 49, 45, 48, 55, 45, 50, 49, 10, 35, 10, 35, 45, 45, 45, 45, 45, 45, 45, 45, 45, 45, 45, 45, 45, 45, 45, 45,
   45, 45, 45, 45, 45, 45, 45, 45, 45, 45, 45, 45, 45, 45, 45, 45, 45, 45, 45, 45, 45, 45, 45, 45, 45, 45, 45, 45, 45, 45, 45, 45, 45, 45, 45, 45, 45,
   45, 45, 45, 45, 45, 45, 45, 45, 45, 45, 45, 45, 45, 45, 45, 45, 45, 45, 45, 45, 45, 45, 10, 35, 10, 35, 32, 32, 67, 104, 97, 110, 103, 101, 32,
   108, 111, 103, 10] :=
  bytes_ofList
  ['#', '=', '=', '=', '=', '=', '=', '=', '=', '=', '=', '=', '=', '=', '=', '=', '=', '=', '=', '=', '=', '=', '=', '=', '=', '=', '=', '=', '=',
   '=', '=', '=', '=', '=', '=', '=', '=', '=', '=', '=', '=', '=', '=', '=', '=', '=', '=', '=', '=', '=', '=', '=', '=', '=', '=', '=', '=', '=',
   '=', '=', '=', '=', '=', '=', '=', '=', '=', '=', '=', '=', '=', '=', '=', '=', '=', '=', '\n', '#', '\n', '#', '\x20', '\x20', 'P', 'a', 'r', 's',
   'i', 'n', 'g', '\x20', 'E', 'x', 'p', 'r', 'e', 's', 's', 'i', 'o', 'n', '\x20', 'G', 'r', 'a', 'm', 'm', 'a', 'r', '\x20', 'f', 'o', 'r', '\x20',
   'J', 'a', 'v', 'a', '\x20', '1', '.', '7', '\x20', 'f', 'o', 'r', '\x20', 'M', 'o', 'u', 's', 'e', '\x20', '1', '.', '1', '\x20', '-', '\x20', '1',
   '.', '5', '.', '\n', '#', '\x20', '\x20', 'B', 'a', 's', 'e', 'd', '\x20', 'o', 'n', '\x20', 'C', 'h', 'a', 'p', 't', 'e', 'r', 's', '\x20', '3',
   '\x20', 'a', 'n', 'd', '\x20', '1', '8', '\x20', 'o', 'f', '\x20', 'J', 'a', 'v', 'a', '\x20', 'L', 'a', 'n', 'g', 'u', 'a', 'g', 'e', '\x20', 'S',
   'p', 'e', 'c', 'i', 'f', 'i', 'c', 'a', 't', 'i', 'o', 'n', ',', '\x20', 'T', 'h', 'i', 'r', 'd', '\x20', 'E', 'd', 'i', 't', 'i', 'o', 'n', ',',
   '\n', '#', '\x20', '\x20', 'a', 't', '\x20', 'h', 't', 't', 'p', ':', '/', '/', 'j', 'a', 'v', 'a', '.', 's', 'u', 'n', '.', 'c', 'o', 'm', '/',
   'd', 'o', 'c', 's', '/', 'b', 'o', 'o', 'k', 's', '/', 'j', 'l', 's', '/', 't', 'h', 'i', 'r', 'd', '_', 'e', 'd', 'i', 't', 'i', 'o', 'n', '/',
   'h', 't', 'm', 'l', '/', 'j', '3', 'T', 'O', 'C', '.', 'h', 't', 'm', 'l', ',', '\n', '#', '\x20', '\x20', 'a', 'n', 'd', '\x20', 'd', 'e', 's',
   'c', 'r', 'i', 'p', 't', 'i', 'o', 'n', '\x20', 'o', 'f', '\x20', 'J', 'a', 'v', 'a', '\x20', 'S', 'E', '\x20', '7', '\x20', 'e', 'n', 'h', 'a',
   'n', 'c', 'e', 'm', 'e', 'n', 't', 's', '\x20', 'i', 'n', '\n', '#', '\x20', '\x20', 'h', 't', 't', 'p', ':', '/', '/', 'd', 'o', 'w', 'n', 'l',
   'o', 'a', 'd', '.', 'j', 'a', 'v', 'a', '.', 'n', 'e', 't', '/', 'j', 'd', 'k', '7', '/', 'd', 'o', 'c', 's', '/', 't', 'e', 'c', 'h', 'n', 'o',
   't', 'e', 's', '/', 'g', 'u', 'i', 'd', 'e', 's', '/', 'l', 'a', 'n', 'g', 'u', 'a', 'g', 'e', '/', 'e', 'n', 'h', 'a', 'n', 'c', 'e', 'm', 'e',
   'n', 't', 's', '.', 'h', 't', 'm', 'l', '.', '\n', '#', '\n', '#', '-', '-', '-', '-', '-', '-', '-', '-', '-', '-', '-', '-', '-', '-', '-', '-',
   '-', '-', '-', '-', '-', '-', '-', '-', '-', '-', '-', '-', '-', '-', '-', '-', '-', '-', '-', '-', '-', '-', '-', '-', '-', '-', '-', '-', '-',
   '-', '-', '-', '-', '-', '-', '-', '-', '-', '-', '-', '-', '-', '-', '-', '-', '-', '-', '-', '-', '-', '-', '-', '-', '-', '-', '-', '-', '-',
   '-', '\n', '#', '\n', '#', '\x20', '\x20', 'C', 'o', 'p', 'y', 'r', 'i', 'g', 'h', 't', '\x20', '(', 'C', ')', '\x20', '2', '0', '0', '6', ',',
   '\x20', '2', '0', '0', '9', ',', '\x20', '2', '0', '1', '0', ',', '\x20', '2', '0', '1', '1', '\n', '#', '\x20', '\x20', 'b', 'y', '\x20', 'R',
   'o', 'm', 'a', 'n', '\x20', 'R', '\x20', 'R', 'e', 'd', 'z', 'i', 'e', 'j', 'o', 'w', 's', 'k', 'i', '(', 'w', 'w', 'w', '.', 'r', 'o', 'm', 'a',
   'n', 'r', 'e', 'd', 'z', '.', 's', 'e', ')', '.', '\n', '#', '\n', '#', '\x20', '\x20', 'T', 'h', 'e', '\x20', 'a', 'u', 't', 'h', 'o', 'r',
   '\x20', 'g', 'i', 'v', 'e', 's', '\x20', 'u', 'n', 'l', 'i', 'm', 'i', 't', 'e', 'd', '\x20', 'p', 'e', 'r', 'm', 'i', 's', 's', 'i', 'o', 'n',
   '\x20', 't', 'o', '\x20', 'c', 'o', 'p', 'y', '\x20', 'a', 'n', 'd', '\x20', 'd', 'i', 's', 't', 'r', 'i', 'b', 'u', 't', 'e', '\n', '#', '\x20',
   '\x20', 't', 'h', 'i', 's', '\x20', 'f', 'i', 'l', 'e', ',', '\x20', 'w', 'i', 't', 'h', '\x20', 'o', 'r', '\x20', 'w', 'i', 't', 'h', 'o', 'u',
   't', '\x20', 'm', 'o', 'd', 'i', 'f', 'i', 'c', 'a', 't', 'i', 'o', 'n', 's', ',', '\x20', 'a', 's', '\x20', 'l', 'o', 'n', 'g', '\x20', 'a', 's',
   '\x20', 't', 'h', 'i', 's', '\x20', 'n', 'o', 't', 'i', 'c', 'e', '\n', '#', '\x20', '\x20', 'i', 's', '\x20', 'p', 'r', 'e', 's', 'e', 'r', 'v',
   'e', 'd', ',', '\x20', 'a', 'n', 'd', '\x20', 'a', 'n', 'y', '\x20', 'c', 'h', 'a', 'n', 'g', 'e', 's', '\x20', 'a', 'r', 'e', '\x20', 'p', 'r',
   'o', 'p', 'e', 'r', 'l', 'y', '\x20', 'd', 'o', 'c', 'u', 'm', 'e', 'n', 't', 'e', 'd', '.', '\n', '#', '\n', '#', '\x20', '\x20', 'T', 'h', 'i',
   's', '\x20', 'f', 'i', 'l', 'e', '\x20', 'i', 's', '\x20', 'd', 'i', 's', 't', 'r', 'i', 'b', 'u', 't', 'e', 'd', '\x20', 'i', 'n', '\x20', 't',
   'h', 'e', '\x20', 'h', 'o', 'p', 'e', '\x20', 't', 'h', 'a', 't', '\x20', 'i', 't', '\x20', 'w', 'i', 'l', 'l', '\x20', 'b', 'e', '\x20', 'u', 's',
   'e', 'f', 'u', 'l', ',', '\n', '#', '\x20', '\x20', 'b', 'u', 't', '\x20', 'W', 'I', 'T', 'H', 'O', 'U', 'T', '\x20', 'A', 'N', 'Y', '\x20', 'W',
   'A', 'R', 'R', 'A', 'N', 'T', 'Y', ';', '\x20', 'w', 'i', 't', 'h', 'o', 'u', 't', '\x20', 'e', 'v', 'e', 'n', '\x20', 't', 'h', 'e', '\x20', 'i',
   'm', 'p', 'l', 'i', 'e', 'd', '\x20', 'w', 'a', 'r', 'r', 'a', 'n', 't', 'y', '\x20', 'o', 'f', '\n', '#', '\x20', '\x20', 'M', 'E', 'R', 'C', 'H',
   'A', 'N', 'T', 'A', 'B', 'I', 'L', 'I', 'T', 'Y', '\x20', 'o', 'r', '\x20', 'F', 'I', 'T', 'N', 'E', 'S', 'S', '\x20', 'F', 'O', 'R', '\x20', 'A',
   '\x20', 'P', 'A', 'R', 'T', 'I', 'C', 'U', 'L', 'A', 'R', '\x20', 'P', 'U', 'R', 'P', 'O', 'S', 'E', '.', '\n', '#', '\n', '#', '-', '-', '-', '-',
   '-', '-', '-', '-', '-', '-', '-', '-', '-', '-', '-', '-', '-', '-', '-', '-', '-', '-', '-', '-', '-', '-', '-', '-', '-', '-', '-', '-', '-',
   '-', '-', '-', '-', '-', '-', '-', '-', '-', '-', '-', '-', '-', '-', '-', '-', '-', '-', '-', '-', '-', '-', '-', '-', '-', '-', '-', '-', '-',
   '-', '-', '-', '-', '-', '-', '-', '-', '-', '-', '-', '-', '-', '\n', '#', '\n', '#', '\x20', '\x20', 'L', 'a', 't', 'e', 's', 't', '\x20', 'u',
   'p', 'd', 'a', 't', 'e', '\x20', '2', '0', '1', '1', '-', '0', '7', '-', '2', '1', '\n', '#', '\n', '#', '-', '-', '-', '-', '-', '-', '-', '-',
   '-', '-', '-', '-', '-', '-', '-', '-', '-', '-', '-', '-', '-', '-', '-', '-', '-', '-', '-', '-', '-', '-', '-', '-', '-', '-', '-', '-', '-',
   '-', '-', '-', '-', '-', '-', '-', '-', '-', '-', '-', '-', '-', '-', '-', '-', '-', '-', '-', '-', '-', '-', '-', '-', '-', '-', '-', '-', '-',
   '-', '-', '-', '-', '-', '-', '-', '-', '-', '\n', '#', '\n', '#', '\x20', '\x20', 'C', 'h', 'a', 'n', 'g', 'e', '\x20', 'l', 'o', 'g', '\n']

/-- `grammars/java.peg:29-47` -/
def javaFile2 : List UInt8 := bytes "#    2006-12-06 Posted on Internet.
#    2009-04-04 Modified to conform to Mouse syntax:
#               Underscore removed from names
#               \\f in Space replaced by Unicode for FormFeed.
#    2009-07-10 Unused rule THREADSAFE removed.
#    2009-07-10 Copying and distribution conditions relaxed by the author.
#    2010-07-01 Updated Mouse version in the comment.
#    2010-09-15 Updated comment on Java release.
#    2010-09-18 Updated list of reserved words (\"keywords\") according to
#               JLS 3.9: added \"const\" and \"goto\", removed \"threadsafe\".
#    2010-09-18 Removed superfluous \"?\" everywhere after \"Spacing\".
#    2010-10-05 Removed erroneous \"TypeArguments?\" from \"EnumConstant\".
#               See JLS 8.9, JLS 18.1.
#               NB. \"Annotations\" are optional, but not shown as such in JLS.
#    2010-10-20 Corrected \"FormalParameterList\" according to JLS 8.4.1.
#               NB. \"VariableModifiers\" in \"FormalParameter\" and \"LastFormalParameter\"
#               are optional, but not shown as such in JLS.
#    2010-10-20 Corrected \"Annotation\" according to JLS 9.7.
#               Is incorrect in JLS 18.1 (does not allow list of value pairs).
"

theorem java_eq2 : javaFile2 =
  [35, 32, 32, 32, 32, 50, 48, 48, 54, 45, 49, 50, 45, 48, 54, 32, 80, 111, 115, 116, 101, 100, 32, 111, 110, 32, 73, 110, 116, 101, 114, 110, 101,
   116, 46, 10, 35, 32, 32, 32, 32, 50, 48, 48, 57, 45, 48, 52, 45, 48, 52, 32, 77, 111, 100, 105, 102, 105, 101, 100, 32, 116, 111, 32, 99, 111, 110,
   102, 111, 114, 109, 32, 116, 111, 32, 77, 111, 117, 115, 101, 32, 115, 121, 110, 116, 97, 120, 58, 10, 35, 32, 32, 32, 32, 32, 32, 32, 32, 32, 32,
   32, 32, 32, 32, 32, 85, 110, 100, 101, 114, 115, 99, 111, 114, 101, 32, 114, 101, 109, 111, 118, 101, 100, 32, 102, 114, 111, 109, 32, 110, 97,
   109, 101, 115, 10, 35, 32, 32, 32, 32, 32, 32, 32, 32, 32, 32, 32, 32, 32, 32, 32, 92, 102, 32, 105, 110, 32, 83, 112, 97, 99, 101, 32, 114, 101,
   112, 108, 97, 99, 101, 100, 32, 98, 121, 32, 85, 110, 105, 99, 111, 100, 101, 32, 102, 111, 114, 32, 70, 111, 114, 109, 70, 101, 101, 100, 46, 10,
   35, 32, 32, 32, 32, 50, 48, 48, 57, 45, 48, 55, 45, 49, 48, 32, 85, 110, 117, 115, 101, 100, 32, 114, 117, 108, 101, 32, 84, 72, 82, 69, 65, 68,
   83, 65, 70, 69, 32, 114, 101, 109, 111, 118, 101, 100, 46, 10, 35, 32, 32, 32, 32, 50, 48, 48, 57, 45, 48, 55, 45, 49, 48, 32, 67, 111, 112, 121,
   105, 110, 103, 32, 97, 110, 100, 32, 100, 105, 115, 116, 114, 105, 98, 117, 116, 105, 111, 110, 32, 99, 111, 110, 100, 105, 116, 105, 111, 110,
   115, 32, 114, 101, 108, 97, 120, 101, 100, 32, 98, 121, 32, 116, 104, 101, 32, 97, 117, 116, 104, 111, 114, 46, 10, 35, 32, 32, 32, 32, 50, 48, 49,
   48, 45, 48, 55, 45, 48, 49, 32, 85, 112, 100, 97, 116, 101, 100, 32, 77, 111, 117, 115, 101, 32, 118, 101, 114, 115, 105, 111, 110, 32, 105, 110,
   32, 116, 104, 101, 32, 99, 111, 109, 109, 101, 110, 116, 46, 10, 35, 32, 32, 32, 32, 50, 48, 49, 48, 45, 48, 57, 45, 49, 53, 32, 85, 112, 100, 97,
   116, 101, 100, 32, 99, 111, 109, 109, 101, 110, 116, 32, 111, 110, 32, 74, 97, 118, 97, 32, 114, 101, 108, 101, 97, 115, 101, 46, 10, 35, 32, 32,
   32, 32, 50, 48, 49, 48, 45, 48, 57, 45, 49, 56, 32, 85, 112, 100, 97, 116, 101, 100, 32, 108, 105, 115, 116, 32, 111, 102, 32, 114, 101, 115, 101,
   114, 118, 101, 100, 32, 119, 111, 114, 100, 115, 32, 40, 34, 107, 101, 121, 119, 111, 114, 100, 115, 34, 41, 32, 97, 99, 99, 111, 114, 100, 105,
   110, 103, 32, 116, 111, 10, 35, 32, 32, 32, 32, 32, 32, 32, 32, 32, 32, 32, 32, 32, 32, 32, 74, 76, 83, 32, 51, 46, 57, 58, 32, 97, 100, 100, 101,
   100, 32, 34, 99, 111, 110, 115, 116, 34, 32, 97, 110, 100, 32, 34, 103, 111, 116, 111, 34, 44, 32, 114, 101, 109, 111, 118, 101, 100, 32, 34, 116,
   104, 114, 101, 97, 100, 115, 97, 102, 101, 34, 46, 10, 35, 32, 32, 32, 32, 50, 48, 49, 48, 45, 48, 57, 45, 49, 56, 32, 82, 101, 109, 111, 118, 101,
   100, 32, 115, 117, 112, 101, 114, 102, 108, 117, 111, 117, 115, 32, 34, 63, 34, 32, 101, 118, 101, 114, 121, 119, 104, 101, 114, 101, 32, 97, 102,
   116, 101, 114, 32, 34, 83, 112, 97, 99, 105, 110, 103, 34, 46, 10, 35, 32, 32, 32, 32, 50, 48, 49, 48, 45, 49, 48, 45, 48, 53, 32, 82, 101, 109,
   111, 118, 101, 100, 32, 101, 114, 114, 111, 110, 101, 111, 117, 115, 32, 34, 84, 121, 112, 101, 65, 114, 103, 117, 109, 101, 110, 116, 115, 63, 34,
   32, 102, 114, 111, 109, 32, 34, 69, 110, 117, 109, 67, 111, 110, 115, 116, 97, 110, 116, 34, 46, 10, 35, 32, 32, 32, 32, 32, 32, 32, 32, 32, 32,
   32, 32, 32, 32, 32, 83, 101, 101, 32, 74, 76, 83, 32, 56, 46, 57, 44, 32, 74, 76, 83, 32, 49, 56, 46, 49, 46, 10, 35, 32, 32, 32, 32, 32, 32, 32,
   32, 32, 32, 32, 32, 32, 32, 32, 78, 66, 46, 32, 34, 65, 110, 110, 111, 116, 97, 116, 105, 111, 110, 115, 34, 32, 97, 114, 101, 32, 111, 112, 116,
   105, 111, 110, 97, 108, 44, 32, 98, 117, 116, 32, 110, 111, 116, 32, 115, 104, 111, 119, 110, 32, 97, 115, 32, 115, 117, 99, 104, 32, 105, 110, 32,
   74, 76, 83, 46, 10, 35, 32, 32, 32, 32, 50, 48, 49, 48, 45, 49, 48, 45, 50, 48, 32, 67, 111, 114, 114, 101, 99, 116, 101, 100, 32, 34, 70, 111,
   114, 109, 97, 108, 80, 97, 114, 97, 109, 101, 116, 101, 114, 76, 105, 115, 116, 34, 32, 97, 99, 99, 111, 114, 100, 105, 110, 103, 32, 116, 111, 32,
   74, 76, 83, 32, 56, 46, 52, 46, 49, 46, 10, 35, 32, 32, 32, 32, 32, 32, 32, 32, 32, 32, 32, 32, 32, 32, 32, 78, 66, 46, 32, 34, 86, 97, 114, 105,
   97, 98, 108, 101, 77, 111, 100, 105, 102, 105, 101, 114, 115, 34, 32, 105, 110, 32, 34, 70, 111, 114, 109, 97, 108, 80, 97, 114, 97, 109, 101, 116,
   101, 114, 34, 32, 97, 110, 100, 32, 34, 76, 97, 115, 116, 70, 111, 114, 109, 97, 108, 80, 97, 114, 97, 109, 101, 116, 101, 114, 34, 10, 35, 32, 32,
   32, 32, 32, 32, 32, 32, 32, 32, 32, 32, 32, 32, 32, 97, 114, 101, 32, 111, 112, 116, 105, 111, 110, 97, 108, 44, 32, 98, 117, 116, 32, 110, 111,
   116, 32, 115, 104, 111, 119, 110, 32, 97, 115, 32, 115, 117, 99, 104, 32, 105, 110, 32, 74, 76, 83, 46, 10, 35, 32, 32, 32, 32, 50, 48, 49, 48, 45,
   49, 48, 45, 50, 48, 32, 67, 111, 114, 114, 101, 99, 116, 101, 100, 32, 34, 65, 110, 110, 111, 116, 97, 116, 105, 111, 110, 34, 32, 97, 99, 99, 111,
   114, 100, 105, 110, 103, 32, 116, 111, 32, 74, 76, 83, 32, 57, 46, 55, 46, 10, 35, 32, 32, 32, 32, 32, 32, 32, 32, 32, 32, 32, 32, 32, 32, 32, 73,
   115, 32, 105, 110, 99, 111, 114, 114, 101, 99, 116, 32, 105, 110, 32, 74, 76, 83, 32, 49, 56, 46, 49, 32, 40, 100, 111, 101, 115, 32, 110, 111,
   116, 32, 97, 108, 108, 111, 119, 32, 108, 105, 115, 116, 32, 111, 102, 32, 118, 97, 108, 117, 101, 32, 112, 97, 105, 114, 115, 41, 46, 10] :=
  bytes_ofList
  ['#', '\x20', '\x20', '\x20', '\x20', '2', '0', '0', '6', '-', '1', '2', '-', '0', '6', '\x20', 'P', 'o', 's', 't', 'e', 'd', '\x20', 'o', 'n',
   '\x20', 'I', 'n', 't', 'e', 'r', 'n', 'e', 't', '.', '\n', '#', '\x20', '\x20', '\x20', '\x20', '2', '0', '0', '9', '-', '0', '4', '-', '0', '4',
   '\x20', 'M', 'o', 'd', 'i', 'f', 'i', 'e', 'd', '\x20', 't', 'o', '\x20', 'c', 'o', 'n', 'f', 'o', 'r', 'm', '\x20', 't', 'o', '\x20', 'M', 'o',
   'u', 's', 'e', '\x20', 's', 'y', 'n', 't', 'a', 'x', ':', '\n', '#', '\x20', '\x20', '\x20', '\x20', '\x20', '\x20', '\x20', '\x20', '\x20',
   '\x20', '\x20', '\x20', '\x20', '\x20', '\x20', 'U', 'n', 'd', 'e', 'r', 's', 'c', 'o', 'r', 'e', '\x20', 'r', 'e', 'm', 'o', 'v', 'e', 'd',
   '\x20', 'f', 'r', 'o', 'm', '\x20', 'n', 'a', 'm', 'e', 's', '\n', '#', '\x20', '\x20', '\x20', '\x20', '\x20', '\x20', '\x20', '\x20', '\x20',
   '\x20', '\x20', '\x20', '\x20', '\x20', '\x20', '\\', 'f', '\x20', 'i', 'n', '\x20', 'S', 'p', 'a', 'c', 'e', '\x20', 'r', 'e', 'p', 'l', 'a', 'c',
   'e', 'd', '\x20', 'b', 'y', '\x20', 'U', 'n', 'i', 'c', 'o', 'd', 'e', '\x20', 'f', 'o', 'r', '\x20', 'F', 'o', 'r', 'm', 'F', 'e', 'e', 'd', '.',
   '\n', '#', '\x20', '\x20', '\x20', '\x20', '2', '0', '0', '9', '-', '0', '7', '-', '1', '0', '\x20', 'U', 'n', 'u', 's', 'e', 'd', '\x20', 'r',
   'u', 'l', 'e', '\x20', 'T', 'H', 'R', 'E', 'A', 'D', 'S', 'A', 'F', 'E', '\x20', 'r', 'e', 'm', 'o', 'v', 'e', 'd', '.', '\n', '#', '\x20', '\x20',
   '\x20', '\x20', '2', '0', '0', '9', '-', '0', '7', '-', '1', '0', '\x20', 'C', 'o', 'p', 'y', 'i', 'n', 'g', '\x20', 'a', 'n', 'd', '\x20', 'd',
   'i', 's', 't', 'r', 'i', 'b', 'u', 't', 'i', 'o', 'n', '\x20', 'c', 'o', 'n', 'd', 'i', 't', 'i', 'o', 'n', 's', '\x20', 'r', 'e', 'l', 'a', 'x',
   'e', 'd', '\x20', 'b', 'y', '\x20', 't', 'h', 'e', '\x20', 'a', 'u', 't', 'h', 'o', 'r', '.', '\n', '#', '\x20', '\x20', '\x20', '\x20', '2', '0',
   '1', '0', '-', '0', '7', '-', '0', '1', '\x20', 'U', 'p', 'd', 'a', 't', 'e', 'd', '\x20', 'M', 'o', 'u', 's', 'e', '\x20', 'v', 'e', 'r', 's',
   'i', 'o', 'n', '\x20', 'i', 'n', '\x20', 't', 'h', 'e', '\x20', 'c', 'o', 'm', 'm', 'e', 'n', 't', '.', '\n', '#', '\x20', '\x20', '\x20', '\x20',
   '2', '0', '1', '0', '-', '0', '9', '-', '1', '5', '\x20', 'U', 'p', 'd', 'a', 't', 'e', 'd', '\x20', 'c', 'o', 'm', 'm', 'e', 'n', 't', '\x20',
   'o', 'n', '\x20', 'J', 'a', 'v', 'a', '\x20', 'r', 'e', 'l', 'e', 'a', 's', 'e', '.', '\n', '#', '\x20', '\x20', '\x20', '\x20', '2', '0', '1',
   '0', '-', '0', '9', '-', '1', '8', '\x20', 'U', 'p', 'd', 'a', 't', 'e', 'd', '\x20', 'l', 'i', 's', 't', '\x20', 'o', 'f', '\x20', 'r', 'e', 's',
   'e', 'r', 'v', 'e', 'd', '\x20', 'w', 'o', 'r', 'd', 's', '\x20', '(', '"', 'k', 'e', 'y', 'w', 'o', 'r', 'd', 's', '"', ')', '\x20', 'a', 'c',
   'c', 'o', 'r', 'd', 'i', 'n', 'g', '\x20', 't', 'o', '\n', '#', '\x20', '\x20', '\x20', '\x20', '\x20', '\x20', '\x20', '\x20', '\x20', '\x20',
   '\x20', '\x20', '\x20', '\x20', '\x20', 'J', 'L', 'S', '\x20', '3', '.', '9', ':', '\x20', 'a', 'd', 'd', 'e', 'd', '\x20', '"', 'c', 'o', 'n',
   's', 't', '"', '\x20', 'a', 'n', 'd', '\x20', '"', 'g', 'o', 't', 'o', '"', ',', '\x20', 'r', 'e', 'm', 'o', 'v', 'e', 'd', '\x20', '"', 't', 'h',
   'r', 'e', 'a', 'd', 's', 'a', 'f', 'e', '"', '.', '\n', '#', '\x20', '\x20', '\x20', '\x20', '2', '0', '1', '0', '-', '0', '9', '-', '1', '8',
   '\x20', 'R', 'e', 'm', 'o', 'v', 'e', 'd', '\x20', 's', 'u', 'p', 'e', 'r', 'f', 'l', 'u', 'o', 'u', 's', '\x20', '"', '?', '"', '\x20', 'e', 'v',
   'e', 'r', 'y', 'w', 'h', 'e', 'r', 'e', '\x20', 'a', 'f', 't', 'e', 'r', '\x20', '"', 'S', 'p', 'a', 'c', 'i', 'n', 'g', '"', '.', '\n', '#',
   '\x20', '\x20', '\x20', '\x20', '2', '0', '1', '0', '-', '1', '0', '-', '0', '5', '\x20', 'R', 'e', 'm', 'o', 'v', 'e', 'd', '\x20', 'e', 'r', 'r',
   'o', 'n', 'e', 'o', 'u', 's', '\x20', '"', 'T', 'y', 'p', 'e', 'A', 'r', 'g', 'u', 'm', 'e', 'n', 't', 's', '?', '"', '\x20', 'f', 'r', 'o', 'm',
   '\x20', '"', 'E', 'n', 'u', 'm', 'C', 'o', 'n', 's', 't', 'a', 'n', 't', '"', '.', '\n', '#', '\x20', '\x20', '\x20', '\x20', '\x20', '\x20',
   '\x20', '\x20', '\x20', '\x20', '\x20', '\x20', '\x20', '\x20', '\x20', 'S', 'e', 'e', '\x20', 'J', 'L', 'S', '\x20', '8', '.', '9', ',', '\x20',
   'J', 'L', 'S', '\x20', '1', '8', '.', '1', '.', '\n', '#', '\x20', '\x20', '\x20', '\x20', '\x20', '\x20', '\x20', '\x20', '\x20', '\x20', '\x20',
   '\x20', '\x20', '\x20', '\x20', 'N', 'B', '.', '\x20', '"', 'A', 'n', 'n', 'o', 't', 'a', 't', 'i', 'o', 'n', 's', '"', '\x20', 'a', 'r', 'e',
   '\x20', 'o', 'p', 't', 'i', 'o', 'n', 'a', 'l', ',', '\x20', 'b', 'u', 't', '\x20', 'n', 'o', 't', '\x20', 's', 'h', 'o', 'w', 'n', '\x20', 'a',
   's', '\x20', 's', 'u', 'c', 'h', '\x20', 'i', 'n', '\x20', 'J', 'L', 'S', '.', '\n', '#', '\x20', '\x20', '\x20', '\x20', '2', '0', '1', '0', '-',
   '1', '0', '-', '2', '0', '\x20', 'C', 'o', 'r', 'r', 'e', 'c', 't', 'e', 'd', '\x20', '"', 'F', 'o', 'r', 'm', 'a', 'l', 'P', 'a', 'r', 'a', 'm',
   'e', 't', 'e', 'r', 'L', 'i', 's', 't', '"', '\x20', 'a', 'c', 'c', 'o', 'r', 'd', 'i', 'n', 'g', '\x20', 't', 'o', '\x20', 'J', 'L', 'S', '\x20',
   '8', '.', '4', '.', '1', '.', '\n', '#', '\x20', '\x20', '\x20', '\x20', '\x20', '\x20', '\x20', '\x20', '\x20', '\x20', '\x20', '\x20', '\x20',
   '\x20', '\x20', 'N', 'B', '.', '\x20', '"', 'V', 'a', 'r', 'i', 'a', 'b', 'l', 'e', 'M', 'o', 'd', 'i', 'f', 'i', 'e', 'r', 's', '"', '\x20', 'i',
   'n', '\x20', '"', 'F', 'o', 'r', 'm', 'a', 'l', 'P', 'a', 'r', 'a', 'm', 'e', 't', 'e', 'r', '"', '\x20', 'a', 'n', 'd', '\x20', '"', 'L', 'a',
   's', 't', 'F', 'o', 'r', 'm', 'a', 'l', 'P', 'a', 'r', 'a', 'm', 'e', 't', 'e', 'r', '"', '\n', '#', '\x20', '\x20', '\x20', '\x20', '\x20',
   '\x20', '\x20', '\x20', '\x20', '\x20', '\x20', '\x20', '\x20', '\x20', '\x20', 'a', 'r', 'e', '\x20', 'o', 'p', 't', 'i', 'o', 'n', 'a', 'l', ',',
   '\x20', 'b', 'u', 't', '\x20', 'n', 'o', 't', '\x20', 's', 'h', 'o', 'w', 'n', '\x20', 'a', 's', '\x20', 's', 'u', 'c', 'h', '\x20', 'i', 'n',
   '\x20', 'J', 'L', 'S', '.', '\n', '#', '\x20', '\x20', '\x20', '\x20', '2', '0', '1', '0', '-', '1', '0', '-', '2', '0', '\x20', 'C', 'o', 'r',
   'r', 'e', 'c', 't', 'e', 'd', '\x20', '"', 'A', 'n', 'n', 'o', 't', 'a', 't', 'i', 'o', 'n', '"', '\x20', 'a', 'c', 'c', 'o', 'r', 'd', 'i', 'n',
   'g', '\x20', 't', 'o', '\x20', 'J', 'L', 'S', '\x20', '9', '.', '7', '.', '\n', '#', '\x20', '\x20', '\x20', '\x20', '\x20', '\x20', '\x20',
   '\x20', '\x20', '\x20', '\x20', '\x20', '\x20', '\x20', '\x20', 'I', 's', '\x20', 'i', 'n', 'c', 'o', 'r', 'r', 'e', 'c', 't', '\x20', 'i', 'n',
   '\x20', 'J', 'L', 'S', '\x20', '1', '8', '.', '1', '\x20', '(', 'd', 'o', 'e', 's', '\x20', 'n', 'o', 't', '\x20', 'a', 'l', 'l', 'o', 'w', '\x20',
   'l', 'i', 's', 't', '\x20', 'o', 'f', '\x20', 'v', 'a', 'l', 'u', 'e', '\x20', 'p', 'a', 'i', 'r', 's', ')', '.', '\n']

/-- `grammars/java.peg:48-64` -/
def javaFile3 : List UInt8 := bytes "#    2010-10-20 Corrected \"LocalVariableDeclarationStatement\".
#               Is incorrect in JLS 18.1: only FINAL allowed as \"VariableModifier\".
#               Is incorrect in JLS 14.4: \"VariableModifiers\" not shown as optional.
#    2010-10-20 Corrected \"AnnotationTypeElementRest\": added SEMI as last alternative.
#               See JLS 9.6. NB. Missing in JLS 18.1.
#    2010-10-20 Moved \"Identifier\" from \"AnnotationTypeElementRest\" to
#               \"AnnotationMethodRest\". Was incorrect in JLS 18.1.
#    2010-10-21 Inverted order of alternatives in \"HexSignificand\".
#    2010-10-24 Corrected previous correction: moved SEMI from
#               \"AnnotationTypeElementRest\" to \"AnnotationTypeElementDeclaration\".
#    2010-10-25 Repeated \"u\" allowed in UnicodeEscape (JLS 3.3).
#               Line terminators not allowed in StringLiteral (JLS 3.10.5).
#               (Found thanks to Java PEG for Parboiled, which in turn credits
#               Reinier Zwitserloot for finding it.)
#    2011-07-19 Added SEMI after \"VariableDeclarators\" in \"MemberDecl\" (JLS 8.3).
#    2011-07-21 Corrected \"ArrayInitializer\" to allow for \"{,}\" (JLS 10.6).
#
"

theorem java_eq3 : javaFile3 =
  [35, 32, 32, 32, 32, 50, 48, 49, 48, 45, 49, 48, 45, 50, 48, 32, 67, 111, 114, 114, 101, 99, 116, 101, 100, 32, 34, 76, 111, 99, 97, 108, 86, 97,
   114, 105, 97, 98, 108, 101, 68, 101, 99, 108, 97, 114, 97, 116, 105, 111, 110, 83, 116, 97, 116, 101, 109, 101, 110, 116, 34, 46, 10, 35, 32, 32,
   32, 32, 32, 32, 32, 32, 32, 32, 32, 32, 32, 32, 32, 73, 115, 32, 105, 110, 99, 111, 114, 114, 101, 99, 116, 32, 105, 110, 32, 74, 76, 83, 32, 49,
   56, 46, 49, 58, 32, 111, 110, 108, 121, 32, 70, 73, 78, 65, 76, 32, 97, 108, 108, 111, 119, 101, 100, 32, 97, 115, 32, 34, 86, 97, 114, 105, 97,
   98, 108, 101, 77, 111, 100, 105, 102, 105, 101, 114, 34, 46, 10, 35, 32, 32, 32, 32, 32, 32, 32, 32, 32, 32, 32, 32, 32, 32, 32, 73, 115, 32, 105,
   110, 99, 111, 114, 114, 101, 99, 116, 32, 105, 110, 32, 74, 76, 83, 32, 49, 52, 46, 52, 58, 32, 34, 86, 97, 114, 105, 97, 98, 108, 101, 77, 111,
   100, 105, 102, 105, 101, 114, 115, 34, 32, 110, 111, 116, 32, 115, 104, 111, 119, 110, 32, 97, 115, 32, 111, 112, 116, 105, 111, 110, 97, 108, 46,
   10, 35, 32, 32, 32, 32, 50, 48, 49, 48, 45, 49, 48, 45, 50, 48, 32, 67, 111, 114, 114, 101, 99, 116, 101, 100, 32, 34, 65, 110, 110, 111, 116, 97,
   116, 105, 111, 110, 84, 121, 112, 101, 69, 108, 101, 109, 101, 110, 116, 82, 101, 115, 116, 34, 58, 32, 97, 100, 100, 101, 100, 32, 83, 69, 77, 73,
   32, 97, 115, 32, 108, 97, 115, 116, 32, 97, 108, 116, 101, 114, 110, 97, 116, 105, 118, 101, 46, 10, 35, 32, 32, 32, 32, 32, 32, 32, 32, 32, 32,
   32, 32, 32, 32, 32, 83, 101, 101, 32, 74, 76, 83, 32, 57, 46, 54, 46, 32, 78, 66, 46, 32, 77, 105, 115, 115, 105, 110, 103, 32, 105, 110, 32, 74,
   76, 83, 32, 49, 56, 46, 49, 46, 10, 35, 32, 32, 32, 32, 50, 48, 49, 48, 45, 49, 48, 45, 50, 48, 32, 77, 111, 118, 101, 100, 32, 34, 73, 100, 101,
   110, 116, 105, 102, 105, 101, 114, 34, 32, 102, 114, 111, 109, 32, 34, 65, 110, 110, 111, 116, 97, 116, 105, 111, 110, 84, 121, 112, 101, 69, 108,
   101, 109, 101, 110, 116, 82, 101, 115, 116, 34, 32, 116, 111, 10, 35, 32, 32, 32, 32, 32, 32, 32, 32, 32, 32, 32, 32, 32, 32, 32, 34, 65, 110, 110,
   111, 116, 97, 116, 105, 111, 110, 77, 101, 116, 104, 111, 100, 82, 101, 115, 116, 34, 46, 32, 87, 97, 115, 32, 105, 110, 99, 111, 114, 114, 101,
   99, 116, 32, 105, 110, 32, 74, 76, 83, 32, 49, 56, 46, 49, 46, 10, 35, 32, 32, 32, 32, 50, 48, 49, 48, 45, 49, 48, 45, 50, 49, 32, 73, 110, 118,
   101, 114, 116, 101, 100, 32, 111, 114, 100, 101, 114, 32, 111, 102, 32, 97, 108, 116, 101, 114, 110, 97, 116, 105, 118, 101, 115, 32, 105, 110, 32,
   34, 72, 101, 120, 83, 105, 103, 110, 105, 102, 105, 99, 97, 110, 100, 34, 46, 10, 35, 32, 32, 32, 32, 50, 48, 49, 48, 45, 49, 48, 45, 50, 52, 32,
   67, 111, 114, 114, 101, 99, 116, 101, 100, 32, 112, 114, 101, 118, 105, 111, 117, 115, 32, 99, 111, 114, 114, 101, 99, 116, 105, 111, 110, 58, 32,
   109, 111, 118, 101, 100, 32, 83, 69, 77, 73, 32, 102, 114, 111, 109, 10, 35, 32, 32, 32, 32, 32, 32, 32, 32, 32, 32, 32, 32, 32, 32, 32, 34, 65,
   110, 110, 111, 116, 97, 116, 105, 111, 110, 84, 121, 112, 101, 69, 108, 101, 109, 101, 110, 116, 82, 101, 115, 116, 34, 32, 116, 111, 32, 34, 65,
   110, 110, 111, 116, 97, 116, 105, 111, 110, 84, 121, 112, 101, 69, 108, 101, 109, 101, 110, 116, 68, 101, 99, 108, 97, 114, 97, 116, 105, 111, 110,
   34, 46, 10, 35, 32, 32, 32, 32, 50, 48, 49, 48, 45, 49, 48, 45, 50, 53, 32, 82, 101, 112, 101, 97, 116, 101, 100, 32, 34, 117, 34, 32, 97, 108,
   108, 111, 119, 101, 100, 32, 105, 110, 32, 85, 110, 105, 99, 111, 100, 101, 69, 115, 99, 97, 112, 101, 32, 40, 74, 76, 83, 32, 51, 46, 51, 41, 46,
   10, 35, 32, 32, 32, 32, 32, 32, 32, 32, 32, 32, 32, 32, 32, 32, 32, 76, 105, 110, 101, 32, 116, 101, 114, 109, 105, 110, 97, 116, 111, 114, 115,
   32, 110, 111, 116, 32, 97, 108, 108, 111, 119, 101, 100, 32, 105, 110, 32, 83, 116, 114, 105, 110, 103, 76, 105, 116, 101, 114, 97, 108, 32, 40,
   74, 76, 83, 32, 51, 46, 49, 48, 46, 53, 41, 46, 10, 35, 32, 32, 32, 32, 32, 32, 32, 32, 32, 32, 32, 32, 32, 32, 32, 40, 70, 111, 117, 110, 100, 32,
   116, 104, 97, 110, 107, 115, 32, 116, 111, 32, 74, 97, 118, 97, 32, 80, 69, 71, 32, 102, 111, 114, 32, 80, 97, 114, 98, 111, 105, 108, 101, 100,
   44, 32, 119, 104, 105, 99, 104, 32, 105, 110, 32, 116, 117, 114, 110, 32, 99, 114, 101, 100, 105, 116, 115, 10, 35, 32, 32, 32, 32, 32, 32, 32, 32,
   32, 32, 32, 32, 32, 32, 32, 82, 101, 105, 110, 105, 101, 114, 32, 90, 119, 105, 116, 115, 101, 114, 108, 111, 111, 116, 32, 102, 111, 114, 32, 102,
   105, 110, 100, 105, 110, 103, 32, 105, 116, 46, 41, 10, 35, 32, 32, 32, 32, 50, 48, 49, 49, 45, 48, 55, 45, 49, 57, 32, 65, 100, 100, 101, 100, 32,
   83, 69, 77, 73, 32, 97, 102, 116, 101, 114, 32, 34, 86, 97, 114, 105, 97, 98, 108, 101, 68, 101, 99, 108, 97, 114, 97, 116, 111, 114, 115, 34, 32,
   105, 110, 32, 34, 77, 101, 109, 98, 101, 114, 68, 101, 99, 108, 34, 32, 40, 74, 76, 83, 32, 56, 46, 51, 41, 46, 10, 35, 32, 32, 32, 32, 50, 48, 49,
   49, 45, 48, 55, 45, 50, 49, 32, 67, 111, 114, 114, 101, 99, 116, 101, 100, 32, 34, 65, 114, 114, 97, 121, 73, 110, 105, 116, 105, 97, 108, 105,
   122, 101, 114, 34, 32, 116, 111, 32, 97, 108, 108, 111, 119, 32, 102, 111, 114, 32, 34, 123, 44, 125, 34, 32, 40, 74, 76, 83, 32, 49, 48, 46, 54,
   41, 46, 10, 35, 10] :=
  bytes_ofList
  ['#', '\x20', '\x20', '\x20', '\x20', '2', '0', '1', '0', '-', '1', '0', '-', '2', '0', '\x20', 'C', 'o', 'r', 'r', 'e', 'c', 't', 'e', 'd', '\x20',
   '"', 'L', 'o', 'c', 'a', 'l', 'V', 'a', 'r', 'i', 'a', 'b', 'l', 'e', 'D', 'e', 'c', 'l', 'a', 'r', 'a', 't', 'i', 'o', 'n', 'S', 't', 'a', 't',
   'e', 'm', 'e', 'n', 't', '"', '.', '\n', '#', '\x20', '\x20', '\x20', '\x20', '\x20', '\x20', '\x20', '\x20', '\x20', '\x20', '\x20', '\x20',
   '\x20', '\x20', '\x20', 'I', 's', '\x20', 'i', 'n', 'c', 'o', 'r', 'r', 'e', 'c', 't', '\x20', 'i', 'n', '\x20', 'J', 'L', 'S', '\x20', '1', '8',
   '.', '1', ':', '\x20', 'o', 'n', 'l', 'y', '\x20', 'F', 'I', 'N', 'A', 'L', '\x20', 'a', 'l', 'l', 'o', 'w', 'e', 'd', '\x20', 'a', 's', '\x20',
   '"', 'V', 'a', 'r', 'i', 'a', 'b', 'l', 'e', 'M', 'o', 'd', 'i', 'f', 'i', 'e', 'r', '"', '.', '\n', '#', '\x20', '\x20', '\x20', '\x20', '\x20',
   '\x20', '\x20', '\x20', '\x20', '\x20', '\x20', '\x20', '\x20', '\x20', '\x20', 'I', 's', '\x20', 'i', 'n', 'c', 'o', 'r', 'r', 'e', 'c', 't',
   '\x20', 'i', 'n', '\x20', 'J', 'L', 'S', '\x20', '1', '4', '.', '4', ':', '\x20', '"', 'V', 'a', 'r', 'i', 'a', 'b', 'l', 'e', 'M', 'o', 'd', 'i',
   'f', 'i', 'e', 'r', 's', '"', '\x20', 'n', 'o', 't', '\x20', 's', 'h', 'o', 'w', 'n', '\x20', 'a', 's', '\x20', 'o', 'p', 't', 'i', 'o', 'n', 'a',
   'l', '.', '\n', '#', '\x20', '\x20', '\x20', '\x20', '2', '0', '1', '0', '-', '1', '0', '-', '2', '0', '\x20', 'C', 'o', 'r', 'r', 'e', 'c', 't',
   'e', 'd', '\x20', '"', 'A', 'n', 'n', 'o', 't', 'a', 't', 'i', 'o', 'n', 'T', 'y', 'p', 'e', 'E', 'l', 'e', 'm', 'e', 'n', 't', 'R', 'e', 's', 't',
   '"', ':', '\x20', 'a', 'd', 'd', 'e', 'd', '\x20', 'S', 'E', 'M', 'I', '\x20', 'a', 's', '\x20', 'l', 'a', 's', 't', '\x20', 'a', 'l', 't', 'e',
   'r', 'n', 'a', 't', 'i', 'v', 'e', '.', '\n', '#', '\x20', '\x20', '\x20', '\x20', '\x20', '\x20', '\x20', '\x20', '\x20', '\x20', '\x20', '\x20',
   '\x20', '\x20', '\x20', 'S', 'e', 'e', '\x20', 'J', 'L', 'S', '\x20', '9', '.', '6', '.', '\x20', 'N', 'B', '.', '\x20', 'M', 'i', 's', 's', 'i',
   'n', 'g', '\x20', 'i', 'n', '\x20', 'J', 'L', 'S', '\x20', '1', '8', '.', '1', '.', '\n', '#', '\x20', '\x20', '\x20', '\x20', '2', '0', '1', '0',
   '-', '1', '0', '-', '2', '0', '\x20', 'M', 'o', 'v', 'e', 'd', '\x20', '"', 'I', 'd', 'e', 'n', 't', 'i', 'f', 'i', 'e', 'r', '"', '\x20', 'f',
   'r', 'o', 'm', '\x20', '"', 'A', 'n', 'n', 'o', 't', 'a', 't', 'i', 'o', 'n', 'T', 'y', 'p', 'e', 'E', 'l', 'e', 'm', 'e', 'n', 't', 'R', 'e', 's',
   't', '"', '\x20', 't', 'o', '\n', '#', '\x20', '\x20', '\x20', '\x20', '\x20', '\x20', '\x20', '\x20', '\x20', '\x20', '\x20', '\x20', '\x20',
   '\x20', '\x20', '"', 'A', 'n', 'n', 'o', 't', 'a', 't', 'i', 'o', 'n', 'M', 'e', 't', 'h', 'o', 'd', 'R', 'e', 's', 't', '"', '.', '\x20', 'W',
   'a', 's', '\x20', 'i', 'n', 'c', 'o', 'r', 'r', 'e', 'c', 't', '\x20', 'i', 'n', '\x20', 'J', 'L', 'S', '\x20', '1', '8', '.', '1', '.', '\n', '#',
   '\x20', '\x20', '\x20', '\x20', '2', '0', '1', '0', '-', '1', '0', '-', '2', '1', '\x20', 'I', 'n', 'v', 'e', 'r', 't', 'e', 'd', '\x20', 'o', 'r',
   'd', 'e', 'r', '\x20', 'o', 'f', '\x20', 'a', 'l', 't', 'e', 'r', 'n', 'a', 't', 'i', 'v', 'e', 's', '\x20', 'i', 'n', '\x20', '"', 'H', 'e', 'x',
   'S', 'i', 'g', 'n', 'i', 'f', 'i', 'c', 'a', 'n', 'd', '"', '.', '\n', '#', '\x20', '\x20', '\x20', '\x20', '2', '0', '1', '0', '-', '1', '0', '-',
   '2', '4', '\x20', 'C', 'o', 'r', 'r', 'e', 'c', 't', 'e', 'd', '\x20', 'p', 'r', 'e', 'v', 'i', 'o', 'u', 's', '\x20', 'c', 'o', 'r', 'r', 'e',
   'c', 't', 'i', 'o', 'n', ':', '\x20', 'm', 'o', 'v', 'e', 'd', '\x20', 'S', 'E', 'M', 'I', '\x20', 'f', 'r', 'o', 'm', '\n', '#', '\x20', '\x20',
   '\x20', '\x20', '\x20', '\x20', '\x20', '\x20', '\x20', '\x20', '\x20', '\x20', '\x20', '\x20', '\x20', '"', 'A', 'n', 'n', 'o', 't', 'a', 't',
   'i', 'o', 'n', 'T', 'y', 'p', 'e', 'E', 'l', 'e', 'm', 'e', 'n', 't', 'R', 'e', 's', 't', '"', '\x20', 't', 'o', '\x20', '"', 'A', 'n', 'n', 'o',
   't', 'a', 't', 'i', 'o', 'n', 'T', 'y', 'p', 'e', 'E', 'l', 'e', 'm', 'e', 'n', 't', 'D', 'e', 'c', 'l', 'a', 'r', 'a', 't', 'i', 'o', 'n', '"',
   '.', '\n', '#', '\x20', '\x20', '\x20', '\x20', '2', '0', '1', '0', '-', '1', '0', '-', '2', '5', '\x20', 'R', 'e', 'p', 'e', 'a', 't', 'e', 'd',
   '\x20', '"', 'u', '"', '\x20', 'a', 'l', 'l', 'o', 'w', 'e', 'd', '\x20', 'i', 'n', '\x20', 'U', 'n', 'i', 'c', 'o', 'd', 'e', 'E', 's', 'c', 'a',
   'p', 'e', '\x20', '(', 'J', 'L', 'S', '\x20', '3', '.', '3', ')', '.', '\n', '#', '\x20', '\x20', '\x20', '\x20', '\x20', '\x20', '\x20', '\x20',
   '\x20', '\x20', '\x20', '\x20', '\x20', '\x20', '\x20', 'L', 'i', 'n', 'e', '\x20', 't', 'e', 'r', 'm', 'i', 'n', 'a', 't', 'o', 'r', 's', '\x20',
   'n', 'o', 't', '\x20', 'a', 'l', 'l', 'o', 'w', 'e', 'd', '\x20', 'i', 'n', '\x20', 'S', 't', 'r', 'i', 'n', 'g', 'L', 'i', 't', 'e', 'r', 'a',
   'l', '\x20', '(', 'J', 'L', 'S', '\x20', '3', '.', '1', '0', '.', '5', ')', '.', '\n', '#', '\x20', '\x20', '\x20', '\x20', '\x20', '\x20', '\x20',
   '\x20', '\x20', '\x20', '\x20', '\x20', '\x20', '\x20', '\x20', '(', 'F', 'o', 'u', 'n', 'd', '\x20', 't', 'h', 'a', 'n', 'k', 's', '\x20', 't',
   'o', '\x20', 'J', 'a', 'v', 'a', '\x20', 'P', 'E', 'G', '\x20', 'f', 'o', 'r', '\x20', 'P', 'a', 'r', 'b', 'o', 'i', 'l', 'e', 'd', ',', '\x20',
   'w', 'h', 'i', 'c', 'h', '\x20', 'i', 'n', '\x20', 't', 'u', 'r', 'n', '\x20', 'c', 'r', 'e', 'd', 'i', 't', 's', '\n', '#', '\x20', '\x20',
   '\x20', '\x20', '\x20', '\x20', '\x20', '\x20', '\x20', '\x20', '\x20', '\x20', '\x20', '\x20', '\x20', 'R', 'e', 'i', 'n', 'i', 'e', 'r', '\x20',
   'Z', 'w', 'i', 't', 's', 'e', 'r', 'l', 'o', 'o', 't', '\x20', 'f', 'o', 'r', '\x20', 'f', 'i', 'n', 'd', 'i', 'n', 'g', '\x20', 'i', 't', '.',
   ')', '\n', '#', '\x20', '\x20', '\x20', '\x20', '2', '0', '1', '1', '-', '0', '7', '-', '1', '9', '\x20', 'A', 'd', 'd', 'e', 'd', '\x20', 'S',
   'E', 'M', 'I', '\x20', 'a', 'f', 't', 'e', 'r', '\x20', '"', 'V', 'a', 'r', 'i', 'a', 'b', 'l', 'e', 'D', 'e', 'c', 'l', 'a', 'r', 'a', 't', 'o',
   'r', 's', '"', '\x20', 'i', 'n', '\x20', '"', 'M', 'e', 'm', 'b', 'e', 'r', 'D', 'e', 'c', 'l', '"', '\x20', '(', 'J', 'L', 'S', '\x20', '8', '.',
   '3', ')', '.', '\n', '#', '\x20', '\x20', '\x20', '\x20', '2', '0', '1', '1', '-', '0', '7', '-', '2', '1', '\x20', 'C', 'o', 'r', 'r', 'e', 'c',
   't', 'e', 'd', '\x20', '"', 'A', 'r', 'r', 'a', 'y', 'I', 'n', 'i', 't', 'i', 'a', 'l', 'i', 'z', 'e', 'r', '"', '\x20', 't', 'o', '\x20', 'a',
   'l', 'l', 'o', 'w', '\x20', 'f', 'o', 'r', '\x20', '"', '{', ',', '}', '"', '\x20', '(', 'J', 'L', 'S', '\x20', '1', '0', '.', '6', ')', '.', '\n',
   '#', '\n']

/-- `grammars/java.peg:65-86` -/
def javaFile4 : List UInt8 := bytes "#---------------------------------------------------------------------------
#
#  Changes for Java 1.7
#    2011-07-18 Implemented Binary Literals: added \"BinaryNumeral\".
#    2011-07-19 Implemented Underscores in Numerical Literals:
#               Added \"Digits\" and \"HexDigits\". Removed \"Digit\".
#               Modified \"DecimalNumeral\", \"HexNumeral\", \"BinaryNumeral\",
#               \"OctalNumeral\", \"DecimalFloat\", \"Exponent\",
#               \"HexSignificand\", and \"BinaryExponent\".
#    2011-07-20 Implemented Type Inference for Generic Instance Creation:
#               Added \"Diamond\".
#               Modified \"ClassCreatorRest\" by adding \"Diamond?\".
#    2011-07-20 Implemented try-with-resources Statement:
#               Added try-with-resources as an alternative of \"Statement\".
#               Added \"Resource\". (Based on comments to JavacParser).
#    2011-07-20 Implemented catching of multiple exceptions:
#               Modified \"Catch\" to allow multiple exception types.
#               Based on a pure guess.
#
#===========================================================================

#-------------------------------------------------------------------------
"

theorem java_eq4 : javaFile4 =
  [35, 45, 45, 45, 45, 45, 45, 45, 45, 45, 45, 45, 45, 45, 45, 45, 45, 45, 45, 45, 45, 45, 45, 45, 45, 45, 45, 45, 45, 45, 45, 45, 45, 45, 45, 45, 45,
   45, 45, 45, 45, 45, 45, 45, 45, 45, 45, 45, 45, 45, 45, 45, 45, 45, 45, 45, 45, 45, 45, 45, 45, 45, 45, 45, 45, 45, 45, 45, 45, 45, 45, 45, 45, 45,
   45, 45, 10, 35, 10, 35, 32, 32, 67, 104, 97, 110, 103, 101, 115, 32, 102, 111, 114, 32, 74, 97, 118, 97, 32, 49, 46, 55, 10, 35, 32, 32, 32, 32,
   50, 48, 49, 49, 45, 48, 55, 45, 49, 56, 32, 73, 109, 112, 108, 101, 109, 101, 110, 116, 101, 100, 32, 66, 105, 110, 97, 114, 121, 32, 76, 105, 116,
   101, 114, 97, 108, 115, 58, 32, 97, 100, 100, 101, 100, 32, 34, 66, 105, 110, 97, 114, 121, 78, 117, 109, 101, 114, 97, 108, 34, 46, 10, 35, 32,
   32, 32, 32, 50, 48, 49, 49, 45, 48, 55, 45, 49, 57, 32, 73, 109, 112, 108, 101, 109, 101, 110, 116, 101, 100, 32, 85, 110, 100, 101, 114, 115, 99,
   111, 114, 101, 115, 32, 105, 110, 32, 78, 117, 109, 101, 114, 105, 99, 97, 108, 32, 76, 105, 116, 101, 114, 97, 108, 115, 58, 10, 35, 32, 32, 32,
   32, 32, 32, 32, 32, 32, 32, 32, 32, 32, 32, 32, 65, 100, 100, 101, 100, 32, 34, 68, 105, 103, 105, 116, 115, 34, 32, 97, 110, 100, 32, 34, 72, 101,
   120, 68, 105, 103, 105, 116, 115, 34, 46, 32, 82, 101, 109, 111, 118, 101, 100, 32, 34, 68, 105, 103, 105, 116, 34, 46, 10, 35, 32, 32, 32, 32, 32,
   32, 32, 32, 32, 32, 32, 32, 32, 32, 32, 77, 111, 100, 105, 102, 105, 101, 100, 32, 34, 68, 101, 99, 105, 109, 97, 108, 78, 117, 109, 101, 114, 97,
   108, 34, 44, 32, 34, 72, 101, 120, 78, 117, 109, 101, 114, 97, 108, 34, 44, 32, 34, 66, 105, 110, 97, 114, 121, 78, 117, 109, 101, 114, 97, 108,
   34, 44, 10, 35, 32, 32, 32, 32, 32, 32, 32, 32, 32, 32, 32, 32, 32, 32, 32, 34, 79, 99, 116, 97, 108, 78, 117, 109, 101, 114, 97, 108, 34, 44, 32,
   34, 68, 101, 99, 105, 109, 97, 108, 70, 108, 111, 97, 116, 34, 44, 32, 34, 69, 120, 112, 111, 110, 101, 110, 116, 34, 44, 10, 35, 32, 32, 32, 32,
   32, 32, 32, 32, 32, 32, 32, 32, 32, 32, 32, 34, 72, 101, 120, 83, 105, 103, 110, 105, 102, 105, 99, 97, 110, 100, 34, 44, 32, 97, 110, 100, 32, 34,
   66, 105, 110, 97, 114, 121, 69, 120, 112, 111, 110, 101, 110, 116, 34, 46, 10, 35, 32, 32, 32, 32, 50, 48, 49, 49, 45, 48, 55, 45, 50, 48, 32, 73,
   109, 112, 108, 101, 109, 101, 110, 116, 101, 100, 32, 84, 121, 112, 101, 32, 73, 110, 102, 101, 114, 101, 110, 99, 101, 32, 102, 111, 114, 32, 71,
   101, 110, 101, 114, 105, 99, 32, 73, 110, 115, 116, 97, 110, 99, 101, 32, 67, 114, 101, 97, 116, 105, 111, 110, 58, 10, 35, 32, 32, 32, 32, 32, 32,
   32, 32, 32, 32, 32, 32, 32, 32, 32, 65, 100, 100, 101, 100, 32, 34, 68, 105, 97, 109, 111, 110, 100, 34, 46, 10, 35, 32, 32, 32, 32, 32, 32, 32,
   32, 32, 32, 32, 32, 32, 32, 32, 77, 111, 100, 105, 102, 105, 101, 100, 32, 34, 67, 108, 97, 115, 115, 67, 114, 101, 97, 116, 111, 114, 82, 101,
   115, 116, 34, 32, 98, 121, 32, 97, 100, 100, 105, 110, 103, 32, 34, 68, 105, 97, 109, 111, 110, 100, 63, 34, 46, 10, 35, 32, 32, 32, 32, 50, 48,
   49, 49, 45, 48, 55, 45, 50, 48, 32, 73, 109, 112, 108, 101, 109, 101, 110, 116, 101, 100, 32, 116, 114, 121, 45, 119, 105, 116, 104, 45, 114, 101,
   115, 111, 117, 114, 99, 101, 115, 32, 83, 116, 97, 116, 101, 109, 101, 110, 116, 58, 10, 35, 32, 32, 32, 32, 32, 32, 32, 32, 32, 32, 32, 32, 32,
   32, 32, 65, 100, 100, 101, 100, 32, 116, 114, 121, 45, 119, 105, 116, 104, 45, 114, 101, 115, 111, 117, 114, 99, 101, 115, 32, 97, 115, 32, 97,
   110, 32, 97, 108, 116, 101, 114, 110, 97, 116, 105, 118, 101, 32, 111, 102, 32, 34, 83, 116, 97, 116, 101, 109, 101, 110, 116, 34, 46, 10, 35, 32,
   32, 32, 32, 32, 32, 32, 32, 32, 32, 32, 32, 32, 32, 32, 65, 100, 100, 101, 100, 32, 34, 82, 101, 115, 111, 117, 114, 99, 101, 34, 46, 32, 40, 66,
   97, 115, 101, 100, 32, 111, 110, 32, 99, 111, 109, 109, 101, 110, 116, 115, 32, 116, 111, 32, 74, 97, 118, 97, 99, 80, 97, 114, 115, 101, 114, 41,
   46, 10, 35, 32, 32, 32, 32, 50, 48, 49, 49, 45, 48, 55, 45, 50, 48, 32, 73, 109, 112, 108, 101, 109, 101, 110, 116, 101, 100, 32, 99, 97, 116, 99,
   104, 105, 110, 103, 32, 111, 102, 32, 109, 117, 108, 116, 105, 112, 108, 101, 32, 101, 120, 99, 101, 112, 116, 105, 111, 110, 115, 58, 10, 35, 32,
   32, 32, 32, 32, 32, 32, 32, 32, 32, 32, 32, 32, 32, 32, 77, 111, 100, 105, 102, 105, 101, 100, 32, 34, 67, 97, 116, 99, 104, 34, 32, 116, 111, 32,
   97, 108, 108, 111, 119, 32, 109, 117, 108, 116, 105, 112, 108, 101, 32, 101, 120, 99, 101, 112, 116, 105, 111, 110, 32, 116, 121, 112, 101, 115,
   46, 10, 35, 32, 32, 32, 32, 32, 32, 32, 32, 32, 32, 32, 32, 32, 32, 32, 66, 97, 115, 101, 100, 32, 111, 110, 32, 97, 32, 112, 117, 114, 101, 32,
   103, 117, 101, 115, 115, 46, 10, 35, 10, 35, 61, 61, 61, 61, 61, 61, 61, 61, 61, 61, 61, 61, 61, 61, 61, 61, 61, 61, 61, 61, 61, 61, 61, 61, 61,
   61, 61, 61, 61, 61, 61, 61, 61, 61, 61, 61, 61, 61, 61, 61, 61, 61, 61, 61, 61, 61, 61, 61, 61, 61, 61, 61, 61, 61, 61, 61, 61, 61, 61, 61, 61, 61,
   61, 61, 61, 61, 61, 61, 61, 61, 61, 61, 61, 61, 61, 10, 10, 35, 45, 45, 45, 45, 45, 45, 45, 45, 45, 45, 45, 45, 45, 45, 45, 45, 45, 45, 45, 45, 45,
   45, 45, 45, 45, 45, 45, 45, 45, 45, 45, 45, 45, 45, 45, 45, 45, 45, 45, 45, 45, 45, 45, 45, 45, 45, 45, 45, 45, 45, 45, 45, 45, 45, 45, 45, 45, 45,
   45, 45, 45, 45, 45, 45, 45, 45, 45, 45, 45, 45, 45, 45, 45, 10] :=
  bytes_ofList
  ['#', '-', '-', '-', '-', '-', '-', '-', '-', '-', '-', '-', '-', '-', '-', '-', '-', '-', '-', '-', '-', '-', '-', '-', '-', '-', '-', '-', '-',
   '-', '-', '-', '-', '-', '-', '-', '-', '-', '-', '-', '-', '-', '-', '-', '-', '-', '-', '-', '-', '-', '-', '-', '-', '-', '-', '-', '-', '-',
   '-', '-', '-', '-', '-', '-', '-', '-', '-', '-', '-', '-', '-', '-', '-', '-', '-', '-', '\n', '#', '\n', '#', '\x20', '\x20', 'C', 'h', 'a', 'n',
   'g', 'e', 's', '\x20', 'f', 'o', 'r', '\x20', 'J', 'a', 'v', 'a', '\x20', '1', '.', '7', '\n', '#', '\x20', '\x20', '\x20', '\x20', '2', '0', '1',
   '1', '-', '0', '7', '-', '1', '8', '\x20', 'I', 'm', 'p', 'l', 'e', 'm', 'e', 'n', 't', 'e', 'd', '\x20', 'B', 'i', 'n', 'a', 'r', 'y', '\x20',
   'L', 'i', 't', 'e', 'r', 'a', 'l', 's', ':', '\x20', 'a', 'd', 'd', 'e', 'd', '\x20', '"', 'B', 'i', 'n', 'a', 'r', 'y', 'N', 'u', 'm', 'e', 'r',
   'a', 'l', '"', '.', '\n', '#', '\x20', '\x20', '\x20', '\x20', '2', '0', '1', '1', '-', '0', '7', '-', '1', '9', '\x20', 'I', 'm', 'p', 'l', 'e',
   'm', 'e', 'n', 't', 'e', 'd', '\x20', 'U', 'n', 'd', 'e', 'r', 's', 'c', 'o', 'r', 'e', 's', '\x20', 'i', 'n', '\x20', 'N', 'u', 'm', 'e', 'r',
   'i', 'c', 'a', 'l', '\x20', 'L', 'i', 't', 'e', 'r', 'a', 'l', 's', ':', '\n', '#', '\x20', '\x20', '\x20', '\x20', '\x20', '\x20', '\x20', '\x20',
   '\x20', '\x20', '\x20', '\x20', '\x20', '\x20', '\x20', 'A', 'd', 'd', 'e', 'd', '\x20', '"', 'D', 'i', 'g', 'i', 't', 's', '"', '\x20', 'a', 'n',
   'd', '\x20', '"', 'H', 'e', 'x', 'D', 'i', 'g', 'i', 't', 's', '"', '.', '\x20', 'R', 'e', 'm', 'o', 'v', 'e', 'd', '\x20', '"', 'D', 'i', 'g',
   'i', 't', '"', '.', '\n', '#', '\x20', '\x20', '\x20', '\x20', '\x20', '\x20', '\x20', '\x20', '\x20', '\x20', '\x20', '\x20', '\x20', '\x20',
   '\x20', 'M', 'o', 'd', 'i', 'f', 'i', 'e', 'd', '\x20', '"', 'D', 'e', 'c', 'i', 'm', 'a', 'l', 'N', 'u', 'm', 'e', 'r', 'a', 'l', '"', ',',
   '\x20', '"', 'H', 'e', 'x', 'N', 'u', 'm', 'e', 'r', 'a', 'l', '"', ',', '\x20', '"', 'B', 'i', 'n', 'a', 'r', 'y', 'N', 'u', 'm', 'e', 'r', 'a',
   'l', '"', ',', '\n', '#', '\x20', '\x20', '\x20', '\x20', '\x20', '\x20', '\x20', '\x20', '\x20', '\x20', '\x20', '\x20', '\x20', '\x20', '\x20',
   '"', 'O', 'c', 't', 'a', 'l', 'N', 'u', 'm', 'e', 'r', 'a', 'l', '"', ',', '\x20', '"', 'D', 'e', 'c', 'i', 'm', 'a', 'l', 'F', 'l', 'o', 'a', 't',
   '"', ',', '\x20', '"', 'E', 'x', 'p', 'o', 'n', 'e', 'n', 't', '"', ',', '\n', '#', '\x20', '\x20', '\x20', '\x20', '\x20', '\x20', '\x20', '\x20',
   '\x20', '\x20', '\x20', '\x20', '\x20', '\x20', '\x20', '"', 'H', 'e', 'x', 'S', 'i', 'g', 'n', 'i', 'f', 'i', 'c', 'a', 'n', 'd', '"', ',',
   '\x20', 'a', 'n', 'd', '\x20', '"', 'B', 'i', 'n', 'a', 'r', 'y', 'E', 'x', 'p', 'o', 'n', 'e', 'n', 't', '"', '.', '\n', '#', '\x20', '\x20',
   '\x20', '\x20', '2', '0', '1', '1', '-', '0', '7', '-', '2', '0', '\x20', 'I', 'm', 'p', 'l', 'e', 'm', 'e', 'n', 't', 'e', 'd', '\x20', 'T', 'y',
   'p', 'e', '\x20', 'I', 'n', 'f', 'e', 'r', 'e', 'n', 'c', 'e', '\x20', 'f', 'o', 'r', '\x20', 'G', 'e', 'n', 'e', 'r', 'i', 'c', '\x20', 'I', 'n',
   's', 't', 'a', 'n', 'c', 'e', '\x20', 'C', 'r', 'e', 'a', 't', 'i', 'o', 'n', ':', '\n', '#', '\x20', '\x20', '\x20', '\x20', '\x20', '\x20',
   '\x20', '\x20', '\x20', '\x20', '\x20', '\x20', '\x20', '\x20', '\x20', 'A', 'd', 'd', 'e', 'd', '\x20', '"', 'D', 'i', 'a', 'm', 'o', 'n', 'd',
   '"', '.', '\n', '#', '\x20', '\x20', '\x20', '\x20', '\x20', '\x20', '\x20', '\x20', '\x20', '\x20', '\x20', '\x20', '\x20', '\x20', '\x20', 'M',
   'o', 'd', 'i', 'f', 'i', 'e', 'd', '\x20', '"', 'C', 'l', 'a', 's', 's', 'C', 'r', 'e', 'a', 't', 'o', 'r', 'R', 'e', 's', 't', '"', '\x20', 'b',
   'y', '\x20', 'a', 'd', 'd', 'i', 'n', 'g', '\x20', '"', 'D', 'i', 'a', 'm', 'o', 'n', 'd', '?', '"', '.', '\n', '#', '\x20', '\x20', '\x20',
   '\x20', '2', '0', '1', '1', '-', '0', '7', '-', '2', '0', '\x20', 'I', 'm', 'p', 'l', 'e', 'm', 'e', 'n', 't', 'e', 'd', '\x20', 't', 'r', 'y',
   '-', 'w', 'i', 't', 'h', '-', 'r', 'e', 's', 'o', 'u', 'r', 'c', 'e', 's', '\x20', 'S', 't', 'a', 't', 'e', 'm', 'e', 'n', 't', ':', '\n', '#',
   '\x20', '\x20', '\x20', '\x20', '\x20', '\x20', '\x20', '\x20', '\x20', '\x20', '\x20', '\x20', '\x20', '\x20', '\x20', 'A', 'd', 'd', 'e', 'd',
   '\x20', 't', 'r', 'y', '-', 'w', 'i', 't', 'h', '-', 'r', 'e', 's', 'o', 'u', 'r', 'c', 'e', 's', '\x20', 'a', 's', '\x20', 'a', 'n', '\x20', 'a',
   'l', 't', 'e', 'r', 'n', 'a', 't', 'i', 'v', 'e', '\x20', 'o', 'f', '\x20', '"', 'S', 't', 'a', 't', 'e', 'm', 'e', 'n', 't', '"', '.', '\n', '#',
   '\x20', '\x20', '\x20', '\x20', '\x20', '\x20', '\x20', '\x20', '\x20', '\x20', '\x20', '\x20', '\x20', '\x20', '\x20', 'A', 'd', 'd', 'e', 'd',
   '\x20', '"', 'R', 'e', 's', 'o', 'u', 'r', 'c', 'e', '"', '.', '\x20', '(', 'B', 'a', 's', 'e', 'd', '\x20', 'o', 'n', '\x20', 'c', 'o', 'm', 'm',
   'e', 'n', 't', 's', '\x20', 't', 'o', '\x20', 'J', 'a', 'v', 'a', 'c', 'P', 'a', 'r', 's', 'e', 'r', ')', '.', '\n', '#', '\x20', '\x20', '\x20',
   '\x20', '2', '0', '1', '1', '-', '0', '7', '-', '2', '0', '\x20', 'I', 'm', 'p', 'l', 'e', 'm', 'e', 'n', 't', 'e', 'd', '\x20', 'c', 'a', 't',
   'c', 'h', 'i', 'n', 'g', '\x20', 'o', 'f', '\x20', 'm', 'u', 'l', 't', 'i', 'p', 'l', 'e', '\x20', 'e', 'x', 'c', 'e', 'p', 't', 'i', 'o', 'n',
   's', ':', '\n', '#', '\x20', '\x20', '\x20', '\x20', '\x20', '\x20', '\x20', '\x20', '\x20', '\x20', '\x20', '\x20', '\x20', '\x20', '\x20', 'M',
   'o', 'd', 'i', 'f', 'i', 'e', 'd', '\x20', '"', 'C', 'a', 't', 'c', 'h', '"', '\x20', 't', 'o', '\x20', 'a', 'l', 'l', 'o', 'w', '\x20', 'm', 'u',
   'l', 't', 'i', 'p', 'l', 'e', '\x20', 'e', 'x', 'c', 'e', 'p', 't', 'i', 'o', 'n', '\x20', 't', 'y', 'p', 'e', 's', '.', '\n', '#', '\x20', '\x20',
   '\x20', '\x20', '\x20', '\x20', '\x20', '\x20', '\x20', '\x20', '\x20', '\x20', '\x20', '\x20', '\x20', 'B', 'a', 's', 'e', 'd', '\x20', 'o', 'n',
   '\x20', 'a', '\x20', 'p', 'u', 'r', 'e', '\x20', 'g', 'u', 'e', 's', 's', '.', '\n', '#', '\n', '#', '=', '=', '=', '=', '=', '=', '=', '=', '=',
   '=', '=', '=', '=', '=', '=', '=', '=', '=', '=', '=', '=', '=', '=', '=', '=', '=', '=', '=', '=', '=', '=', '=', '=', '=', '=', '=', '=', '=',
   '=', '=', '=', '=', '=', '=', '=', '=', '=', '=', '=', '=', '=', '=', '=', '=', '=', '=', '=', '=', '=', '=', '=', '=', '=', '=', '=', '=', '=',
   '=', '=', '=', '=', '=', '=', '=', '=', '\n', '\n', '#', '-', '-', '-', '-', '-', '-', '-', '-', '-', '-', '-', '-', '-', '-', '-', '-', '-', '-',
   '-', '-', '-', '-', '-', '-', '-', '-', '-', '-', '-', '-', '-', '-', '-', '-', '-', '-', '-', '-', '-', '-', '-', '-', '-', '-', '-', '-', '-',
   '-', '-', '-', '-', '-', '-', '-', '-', '-', '-', '-', '-', '-', '-', '-', '-', '-', '-', '-', '-', '-', '-', '-', '-', '-', '-', '\n']

/-- `grammars/java.peg:87-115` -/
def javaFile5 : List UInt8 := bytes "#  Compilation Unit
#-------------------------------------------------------------------------

CompilationUnit <- Spacing PackageDeclaration? ImportDeclaration* TypeDeclaration* EOT
PackageDeclaration <- Annotation* PACKAGE QualifiedIdentifier SEMI
ImportDeclaration <- IMPORT STATIC? QualifiedIdentifier (DOT STAR)? SEMI

TypeDeclaration <- Modifier* (ClassDeclaration
			     / EnumDeclaration
			     / InterfaceDeclaration
			     / AnnotationTypeDeclaration)
		 / SEMI

#-------------------------------------------------------------------------
#  Class Declaration
#-------------------------------------------------------------------------

ClassDeclaration <- CLASS Identifier TypeParameters? (EXTENDS ClassType)? (IMPLEMENTS ClassTypeList)? ClassBody

ClassBody <- LWING ClassBodyDeclaration* RWING

ClassBodyDeclaration
   <- SEMI
    / STATIC? Block                                    # Static or Instance Initializer
    / Modifier* MemberDecl                             # ClassMemberDeclaration

MemberDecl
   <- TypeParameters GenericMethodOrConstructorRest    # Generic Method or Constructor
    / Type Identifier MethodDeclaratorRest             # Method
"

theorem java_eq5 : javaFile5 =
  [35, 32, 32, 67, 111, 109, 112, 105, 108, 97, 116, 105, 111, 110, 32, 85, 110, 105, 116, 10, 35, 45, 45, 45, 45, 45, 45, 45, 45, 45, 45, 45, 45, 45,
   45, 45, 45, 45, 45, 45, 45, 45, 45, 45, 45, 45, 45, 45, 45, 45, 45, 45, 45, 45, 45, 45, 45, 45, 45, 45, 45, 45, 45, 45, 45, 45, 45, 45, 45, 45, 45,
   45, 45, 45, 45, 45, 45, 45, 45, 45, 45, 45, 45, 45, 45, 45, 45, 45, 45, 45, 45, 45, 45, 45, 10, 10, 67, 111, 109, 112, 105, 108, 97, 116, 105, 111,
   110, 85, 110, 105, 116, 32, 60, 45, 32, 83, 112, 97, 99, 105, 110, 103, 32, 80, 97, 99, 107, 97, 103, 101, 68, 101, 99, 108, 97, 114, 97, 116, 105,
   111, 110, 63, 32, 73, 109, 112, 111, 114, 116, 68, 101, 99, 108, 97, 114, 97, 116, 105, 111, 110, 42, 32, 84, 121, 112, 101, 68, 101, 99, 108, 97,
   114, 97, 116, 105, 111, 110, 42, 32, 69, 79, 84, 10, 80, 97, 99, 107, 97, 103, 101, 68, 101, 99, 108, 97, 114, 97, 116, 105, 111, 110, 32, 60, 45,
   32, 65, 110, 110, 111, 116, 97, 116, 105, 111, 110, 42, 32, 80, 65, 67, 75, 65, 71, 69, 32, 81, 117, 97, 108, 105, 102, 105, 101, 100, 73, 100,
   101, 110, 116, 105, 102, 105, 101, 114, 32, 83, 69, 77, 73, 10, 73, 109, 112, 111, 114, 116, 68, 101, 99, 108, 97, 114, 97, 116, 105, 111, 110, 32,
   60, 45, 32, 73, 77, 80, 79, 82, 84, 32, 83, 84, 65, 84, 73, 67, 63, 32, 81, 117, 97, 108, 105, 102, 105, 101, 100, 73, 100, 101, 110, 116, 105,
   102, 105, 101, 114, 32, 40, 68, 79, 84, 32, 83, 84, 65, 82, 41, 63, 32, 83, 69, 77, 73, 10, 10, 84, 121, 112, 101, 68, 101, 99, 108, 97, 114, 97,
   116, 105, 111, 110, 32, 60, 45, 32, 77, 111, 100, 105, 102, 105, 101, 114, 42, 32, 40, 67, 108, 97, 115, 115, 68, 101, 99, 108, 97, 114, 97, 116,
   105, 111, 110, 10, 9, 9, 9, 32, 32, 32, 32, 32, 47, 32, 69, 110, 117, 109, 68, 101, 99, 108, 97, 114, 97, 116, 105, 111, 110, 10, 9, 9, 9, 32, 32,
   32, 32, 32, 47, 32, 73, 110, 116, 101, 114, 102, 97, 99, 101, 68, 101, 99, 108, 97, 114, 97, 116, 105, 111, 110, 10, 9, 9, 9, 32, 32, 32, 32, 32,
   47, 32, 65, 110, 110, 111, 116, 97, 116, 105, 111, 110, 84, 121, 112, 101, 68, 101, 99, 108, 97, 114, 97, 116, 105, 111, 110, 41, 10, 9, 9, 32, 47,
   32, 83, 69, 77, 73, 10, 10, 35, 45, 45, 45, 45, 45, 45, 45, 45, 45, 45, 45, 45, 45, 45, 45, 45, 45, 45, 45, 45, 45, 45, 45, 45, 45, 45, 45, 45, 45,
   45, 45, 45, 45, 45, 45, 45, 45, 45, 45, 45, 45, 45, 45, 45, 45, 45, 45, 45, 45, 45, 45, 45, 45, 45, 45, 45, 45, 45, 45, 45, 45, 45, 45, 45, 45, 45,
   45, 45, 45, 45, 45, 45, 45, 10, 35, 32, 32, 67, 108, 97, 115, 115, 32, 68, 101, 99, 108, 97, 114, 97, 116, 105, 111, 110, 10, 35, 45, 45, 45, 45,
   45, 45, 45, 45, 45, 45, 45, 45, 45, 45, 45, 45, 45, 45, 45, 45, 45, 45, 45, 45, 45, 45, 45, 45, 45, 45, 45, 45, 45, 45, 45, 45, 45, 45, 45, 45, 45,
   45, 45, 45, 45, 45, 45, 45, 45, 45, 45, 45, 45, 45, 45, 45, 45, 45, 45, 45, 45, 45, 45, 45, 45, 45, 45, 45, 45, 45, 45, 45, 45, 10, 10, 67, 108,
   97, 115, 115, 68, 101, 99, 108, 97, 114, 97, 116, 105, 111, 110, 32, 60, 45, 32, 67, 76, 65, 83, 83, 32, 73, 100, 101, 110, 116, 105, 102, 105,
   101, 114, 32, 84, 121, 112, 101, 80, 97, 114, 97, 109, 101, 116, 101, 114, 115, 63, 32, 40, 69, 88, 84, 69, 78, 68, 83, 32, 67, 108, 97, 115, 115,
   84, 121, 112, 101, 41, 63, 32, 40, 73, 77, 80, 76, 69, 77, 69, 78, 84, 83, 32, 67, 108, 97, 115, 115, 84, 121, 112, 101, 76, 105, 115, 116, 41, 63,
   32, 67, 108, 97, 115, 115, 66, 111, 100, 121, 10, 10, 67, 108, 97, 115, 115, 66, 111, 100, 121, 32, 60, 45, 32, 76, 87, 73, 78, 71, 32, 67, 108,
   97, 115, 115, 66, 111, 100, 121, 68, 101, 99, 108, 97, 114, 97, 116, 105, 111, 110, 42, 32, 82, 87, 73, 78, 71, 10, 10, 67, 108, 97, 115, 115, 66,
   111, 100, 121, 68, 101, 99, 108, 97, 114, 97, 116, 105, 111, 110, 10, 32, 32, 32, 60, 45, 32, 83, 69, 77, 73, 10, 32, 32, 32, 32, 47, 32, 83, 84,
   65, 84, 73, 67, 63, 32, 66, 108, 111, 99, 107, 32, 32, 32, 32, 32, 32, 32, 32, 32, 32, 32, 32, 32, 32, 32, 32, 32, 32, 32, 32, 32, 32, 32, 32, 32,
   32, 32, 32, 32, 32, 32, 32, 32, 32, 32, 32, 35, 32, 83, 116, 97, 116, 105, 99, 32, 111, 114, 32, 73, 110, 115, 116, 97, 110, 99, 101, 32, 73, 110,
   105, 116, 105, 97, 108, 105, 122, 101, 114, 10, 32, 32, 32, 32, 47, 32, 77, 111, 100, 105, 102, 105, 101, 114, 42, 32, 77, 101, 109, 98, 101, 114,
   68, 101, 99, 108, 32, 32, 32, 32, 32, 32, 32, 32, 32, 32, 32, 32, 32, 32, 32, 32, 32, 32, 32, 32, 32, 32, 32, 32, 32, 32, 32, 32, 32, 35, 32, 67,
   108, 97, 115, 115, 77, 101, 109, 98, 101, 114, 68, 101, 99, 108, 97, 114, 97, 116, 105, 111, 110, 10, 10, 77, 101, 109, 98, 101, 114, 68, 101, 99,
   108, 10, 32, 32, 32, 60, 45, 32, 84, 121, 112, 101, 80, 97, 114, 97, 109, 101, 116, 101, 114, 115, 32, 71, 101, 110, 101, 114, 105, 99, 77, 101,
   116, 104, 111, 100, 79, 114, 67, 111, 110, 115, 116, 114, 117, 99, 116, 111, 114, 82, 101, 115, 116, 32, 32, 32, 32, 35, 32, 71, 101, 110, 101,
   114, 105, 99, 32, 77, 101, 116, 104, 111, 100, 32, 111, 114, 32, 67, 111, 110, 115, 116, 114, 117, 99, 116, 111, 114, 10, 32, 32, 32, 32, 47, 32,
   84, 121, 112, 101, 32, 73, 100, 101, 110, 116, 105, 102, 105, 101, 114, 32, 77, 101, 116, 104, 111, 100, 68, 101, 99, 108, 97, 114, 97, 116, 111,
   114, 82, 101, 115, 116, 32, 32, 32, 32, 32, 32, 32, 32, 32, 32, 32, 32, 32, 35, 32, 77, 101, 116, 104, 111, 100, 10] :=
  bytes_ofList
  ['#', '\x20', '\x20', 'C', 'o', 'm', 'p', 'i', 'l', 'a', 't', 'i', 'o', 'n', '\x20', 'U', 'n', 'i', 't', '\n', '#', '-', '-', '-', '-', '-', '-',
   '-', '-', '-', '-', '-', '-', '-', '-', '-', '-', '-', '-', '-', '-', '-', '-', '-', '-', '-', '-', '-', '-', '-', '-', '-', '-', '-', '-', '-',
   '-', '-', '-', '-', '-', '-', '-', '-', '-', '-', '-', '-', '-', '-', '-', '-', '-', '-', '-', '-', '-', '-', '-', '-', '-', '-', '-', '-', '-',
   '-', '-', '-', '-', '-', '-', '-', '-', '-', '\n', '\n', 'C', 'o', 'm', 'p', 'i', 'l', 'a', 't', 'i', 'o', 'n', 'U', 'n', 'i', 't', '\x20', '<',
   '-', '\x20', 'S', 'p', 'a', 'c', 'i', 'n', 'g', '\x20', 'P', 'a', 'c', 'k', 'a', 'g', 'e', 'D', 'e', 'c', 'l', 'a', 'r', 'a', 't', 'i', 'o', 'n',
   '?', '\x20', 'I', 'm', 'p', 'o', 'r', 't', 'D', 'e', 'c', 'l', 'a', 'r', 'a', 't', 'i', 'o', 'n', '*', '\x20', 'T', 'y', 'p', 'e', 'D', 'e', 'c',
   'l', 'a', 'r', 'a', 't', 'i', 'o', 'n', '*', '\x20', 'E', 'O', 'T', '\n', 'P', 'a', 'c', 'k', 'a', 'g', 'e', 'D', 'e', 'c', 'l', 'a', 'r', 'a',
   't', 'i', 'o', 'n', '\x20', '<', '-', '\x20', 'A', 'n', 'n', 'o', 't', 'a', 't', 'i', 'o', 'n', '*', '\x20', 'P', 'A', 'C', 'K', 'A', 'G', 'E',
   '\x20', 'Q', 'u', 'a', 'l', 'i', 'f', 'i', 'e', 'd', 'I', 'd', 'e', 'n', 't', 'i', 'f', 'i', 'e', 'r', '\x20', 'S', 'E', 'M', 'I', '\n', 'I', 'm',
   'p', 'o', 'r', 't', 'D', 'e', 'c', 'l', 'a', 'r', 'a', 't', 'i', 'o', 'n', '\x20', '<', '-', '\x20', 'I', 'M', 'P', 'O', 'R', 'T', '\x20', 'S',
   'T', 'A', 'T', 'I', 'C', '?', '\x20', 'Q', 'u', 'a', 'l', 'i', 'f', 'i', 'e', 'd', 'I', 'd', 'e', 'n', 't', 'i', 'f', 'i', 'e', 'r', '\x20', '(',
   'D', 'O', 'T', '\x20', 'S', 'T', 'A', 'R', ')', '?', '\x20', 'S', 'E', 'M', 'I', '\n', '\n', 'T', 'y', 'p', 'e', 'D', 'e', 'c', 'l', 'a', 'r', 'a',
   't', 'i', 'o', 'n', '\x20', '<', '-', '\x20', 'M', 'o', 'd', 'i', 'f', 'i', 'e', 'r', '*', '\x20', '(', 'C', 'l', 'a', 's', 's', 'D', 'e', 'c',
   'l', 'a', 'r', 'a', 't', 'i', 'o', 'n', '\n', '\t', '\t', '\t', '\x20', '\x20', '\x20', '\x20', '\x20', '/', '\x20', 'E', 'n', 'u', 'm', 'D', 'e',
   'c', 'l', 'a', 'r', 'a', 't', 'i', 'o', 'n', '\n', '\t', '\t', '\t', '\x20', '\x20', '\x20', '\x20', '\x20', '/', '\x20', 'I', 'n', 't', 'e', 'r',
   'f', 'a', 'c', 'e', 'D', 'e', 'c', 'l', 'a', 'r', 'a', 't', 'i', 'o', 'n', '\n', '\t', '\t', '\t', '\x20', '\x20', '\x20', '\x20', '\x20', '/',
   '\x20', 'A', 'n', 'n', 'o', 't', 'a', 't', 'i', 'o', 'n', 'T', 'y', 'p', 'e', 'D', 'e', 'c', 'l', 'a', 'r', 'a', 't', 'i', 'o', 'n', ')', '\n',
   '\t', '\t', '\x20', '/', '\x20', 'S', 'E', 'M', 'I', '\n', '\n', '#', '-', '-', '-', '-', '-', '-', '-', '-', '-', '-', '-', '-', '-', '-', '-',
   '-', '-', '-', '-', '-', '-', '-', '-', '-', '-', '-', '-', '-', '-', '-', '-', '-', '-', '-', '-', '-', '-', '-', '-', '-', '-', '-', '-', '-',
   '-', '-', '-', '-', '-', '-', '-', '-', '-', '-', '-', '-', '-', '-', '-', '-', '-', '-', '-', '-', '-', '-', '-', '-', '-', '-', '-', '-', '-',
   '\n', '#', '\x20', '\x20', 'C', 'l', 'a', 's', 's', '\x20', 'D', 'e', 'c', 'l', 'a', 'r', 'a', 't', 'i', 'o', 'n', '\n', '#', '-', '-', '-', '-',
   '-', '-', '-', '-', '-', '-', '-', '-', '-', '-', '-', '-', '-', '-', '-', '-', '-', '-', '-', '-', '-', '-', '-', '-', '-', '-', '-', '-', '-',
   '-', '-', '-', '-', '-', '-', '-', '-', '-', '-', '-', '-', '-', '-', '-', '-', '-', '-', '-', '-', '-', '-', '-', '-', '-', '-', '-', '-', '-',
   '-', '-', '-', '-', '-', '-', '-', '-', '-', '-', '-', '\n', '\n', 'C', 'l', 'a', 's', 's', 'D', 'e', 'c', 'l', 'a', 'r', 'a', 't', 'i', 'o', 'n',
   '\x20', '<', '-', '\x20', 'C', 'L', 'A', 'S', 'S', '\x20', 'I', 'd', 'e', 'n', 't', 'i', 'f', 'i', 'e', 'r', '\x20', 'T', 'y', 'p', 'e', 'P', 'a',
   'r', 'a', 'm', 'e', 't', 'e', 'r', 's', '?', '\x20', '(', 'E', 'X', 'T', 'E', 'N', 'D', 'S', '\x20', 'C', 'l', 'a', 's', 's', 'T', 'y', 'p', 'e',
   ')', '?', '\x20', '(', 'I', 'M', 'P', 'L', 'E', 'M', 'E', 'N', 'T', 'S', '\x20', 'C', 'l', 'a', 's', 's', 'T', 'y', 'p', 'e', 'L', 'i', 's', 't',
   ')', '?', '\x20', 'C', 'l', 'a', 's', 's', 'B', 'o', 'd', 'y', '\n', '\n', 'C', 'l', 'a', 's', 's', 'B', 'o', 'd', 'y', '\x20', '<', '-', '\x20',
   'L', 'W', 'I', 'N', 'G', '\x20', 'C', 'l', 'a', 's', 's', 'B', 'o', 'd', 'y', 'D', 'e', 'c', 'l', 'a', 'r', 'a', 't', 'i', 'o', 'n', '*', '\x20',
   'R', 'W', 'I', 'N', 'G', '\n', '\n', 'C', 'l', 'a', 's', 's', 'B', 'o', 'd', 'y', 'D', 'e', 'c', 'l', 'a', 'r', 'a', 't', 'i', 'o', 'n', '\n',
   '\x20', '\x20', '\x20', '<', '-', '\x20', 'S', 'E', 'M', 'I', '\n', '\x20', '\x20', '\x20', '\x20', '/', '\x20', 'S', 'T', 'A', 'T', 'I', 'C', '?',
   '\x20', 'B', 'l', 'o', 'c', 'k', '\x20', '\x20', '\x20', '\x20', '\x20', '\x20', '\x20', '\x20', '\x20', '\x20', '\x20', '\x20', '\x20', '\x20',
   '\x20', '\x20', '\x20', '\x20', '\x20', '\x20', '\x20', '\x20', '\x20', '\x20', '\x20', '\x20', '\x20', '\x20', '\x20', '\x20', '\x20', '\x20',
   '\x20', '\x20', '\x20', '\x20', '#', '\x20', 'S', 't', 'a', 't', 'i', 'c', '\x20', 'o', 'r', '\x20', 'I', 'n', 's', 't', 'a', 'n', 'c', 'e',
   '\x20', 'I', 'n', 'i', 't', 'i', 'a', 'l', 'i', 'z', 'e', 'r', '\n', '\x20', '\x20', '\x20', '\x20', '/', '\x20', 'M', 'o', 'd', 'i', 'f', 'i',
   'e', 'r', '*', '\x20', 'M', 'e', 'm', 'b', 'e', 'r', 'D', 'e', 'c', 'l', '\x20', '\x20', '\x20', '\x20', '\x20', '\x20', '\x20', '\x20', '\x20',
   '\x20', '\x20', '\x20', '\x20', '\x20', '\x20', '\x20', '\x20', '\x20', '\x20', '\x20', '\x20', '\x20', '\x20', '\x20', '\x20', '\x20', '\x20',
   '\x20', '\x20', '#', '\x20', 'C', 'l', 'a', 's', 's', 'M', 'e', 'm', 'b', 'e', 'r', 'D', 'e', 'c', 'l', 'a', 'r', 'a', 't', 'i', 'o', 'n', '\n',
   '\n', 'M', 'e', 'm', 'b', 'e', 'r', 'D', 'e', 'c', 'l', '\n', '\x20', '\x20', '\x20', '<', '-', '\x20', 'T', 'y', 'p', 'e', 'P', 'a', 'r', 'a',
   'm', 'e', 't', 'e', 'r', 's', '\x20', 'G', 'e', 'n', 'e', 'r', 'i', 'c', 'M', 'e', 't', 'h', 'o', 'd', 'O', 'r', 'C', 'o', 'n', 's', 't', 'r', 'u',
   'c', 't', 'o', 'r', 'R', 'e', 's', 't', '\x20', '\x20', '\x20', '\x20', '#', '\x20', 'G', 'e', 'n', 'e', 'r', 'i', 'c', '\x20', 'M', 'e', 't', 'h',
   'o', 'd', '\x20', 'o', 'r', '\x20', 'C', 'o', 'n', 's', 't', 'r', 'u', 'c', 't', 'o', 'r', '\n', '\x20', '\x20', '\x20', '\x20', '/', '\x20', 'T',
   'y', 'p', 'e', '\x20', 'I', 'd', 'e', 'n', 't', 'i', 'f', 'i', 'e', 'r', '\x20', 'M', 'e', 't', 'h', 'o', 'd', 'D', 'e', 'c', 'l', 'a', 'r', 'a',
   't', 'o', 'r', 'R', 'e', 's', 't', '\x20', '\x20', '\x20', '\x20', '\x20', '\x20', '\x20', '\x20', '\x20', '\x20', '\x20', '\x20', '\x20', '#',
   '\x20', 'M', 'e', 't', 'h', 'o', 'd', '\n']

/-- `grammars/java.peg:116-147` -/
def javaFile6 : List UInt8 := bytes "    / Type VariableDeclarators SEMI                    # Field
    / VOID Identifier VoidMethodDeclaratorRest         # Void method
    / Identifier ConstructorDeclaratorRest             # Constructor
    / InterfaceDeclaration                             # Interface
    / ClassDeclaration                                 # Class
    / EnumDeclaration                                  # Enum
    / AnnotationTypeDeclaration                        # Annotation

GenericMethodOrConstructorRest
    <- (Type / VOID) Identifier MethodDeclaratorRest
    / Identifier ConstructorDeclaratorRest

MethodDeclaratorRest
    <- FormalParameters Dim* (THROWS ClassTypeList)? (MethodBody / SEMI)

VoidMethodDeclaratorRest
    <- FormalParameters (THROWS ClassTypeList)? (MethodBody / SEMI)

ConstructorDeclaratorRest
    <- FormalParameters (THROWS ClassTypeList)? MethodBody

MethodBody
    <- Block

#-------------------------------------------------------------------------
#  Interface Declaration
#-------------------------------------------------------------------------

InterfaceDeclaration
    <- INTERFACE Identifier TypeParameters? (EXTENDS ClassTypeList)? InterfaceBody

InterfaceBody
"

theorem java_eq6 : javaFile6 =
  [32, 32, 32, 32, 47, 32, 84, 121, 112, 101, 32, 86, 97, 114, 105, 97, 98, 108, 101, 68, 101, 99, 108, 97, 114, 97, 116, 111, 114, 115, 32, 83, 69,
   77, 73, 32, 32, 32, 32, 32, 32, 32, 32, 32, 32, 32, 32, 32, 32, 32, 32, 32, 32, 32, 32, 35, 32, 70, 105, 101, 108, 100, 10, 32, 32, 32, 32, 47, 32,
   86, 79, 73, 68, 32, 73, 100, 101, 110, 116, 105, 102, 105, 101, 114, 32, 86, 111, 105, 100, 77, 101, 116, 104, 111, 100, 68, 101, 99, 108, 97, 114,
   97, 116, 111, 114, 82, 101, 115, 116, 32, 32, 32, 32, 32, 32, 32, 32, 32, 35, 32, 86, 111, 105, 100, 32, 109, 101, 116, 104, 111, 100, 10, 32, 32,
   32, 32, 47, 32, 73, 100, 101, 110, 116, 105, 102, 105, 101, 114, 32, 67, 111, 110, 115, 116, 114, 117, 99, 116, 111, 114, 68, 101, 99, 108, 97,
   114, 97, 116, 111, 114, 82, 101, 115, 116, 32, 32, 32, 32, 32, 32, 32, 32, 32, 32, 32, 32, 32, 35, 32, 67, 111, 110, 115, 116, 114, 117, 99, 116,
   111, 114, 10, 32, 32, 32, 32, 47, 32, 73, 110, 116, 101, 114, 102, 97, 99, 101, 68, 101, 99, 108, 97, 114, 97, 116, 105, 111, 110, 32, 32, 32, 32,
   32, 32, 32, 32, 32, 32, 32, 32, 32, 32, 32, 32, 32, 32, 32, 32, 32, 32, 32, 32, 32, 32, 32, 32, 32, 35, 32, 73, 110, 116, 101, 114, 102, 97, 99,
   101, 10, 32, 32, 32, 32, 47, 32, 67, 108, 97, 115, 115, 68, 101, 99, 108, 97, 114, 97, 116, 105, 111, 110, 32, 32, 32, 32, 32, 32, 32, 32, 32, 32,
   32, 32, 32, 32, 32, 32, 32, 32, 32, 32, 32, 32, 32, 32, 32, 32, 32, 32, 32, 32, 32, 32, 32, 35, 32, 67, 108, 97, 115, 115, 10, 32, 32, 32, 32, 47,
   32, 69, 110, 117, 109, 68, 101, 99, 108, 97, 114, 97, 116, 105, 111, 110, 32, 32, 32, 32, 32, 32, 32, 32, 32, 32, 32, 32, 32, 32, 32, 32, 32, 32,
   32, 32, 32, 32, 32, 32, 32, 32, 32, 32, 32, 32, 32, 32, 32, 32, 35, 32, 69, 110, 117, 109, 10, 32, 32, 32, 32, 47, 32, 65, 110, 110, 111, 116, 97,
   116, 105, 111, 110, 84, 121, 112, 101, 68, 101, 99, 108, 97, 114, 97, 116, 105, 111, 110, 32, 32, 32, 32, 32, 32, 32, 32, 32, 32, 32, 32, 32, 32,
   32, 32, 32, 32, 32, 32, 32, 32, 32, 32, 35, 32, 65, 110, 110, 111, 116, 97, 116, 105, 111, 110, 10, 10, 71, 101, 110, 101, 114, 105, 99, 77, 101,
   116, 104, 111, 100, 79, 114, 67, 111, 110, 115, 116, 114, 117, 99, 116, 111, 114, 82, 101, 115, 116, 10, 32, 32, 32, 32, 60, 45, 32, 40, 84, 121,
   112, 101, 32, 47, 32, 86, 79, 73, 68, 41, 32, 73, 100, 101, 110, 116, 105, 102, 105, 101, 114, 32, 77, 101, 116, 104, 111, 100, 68, 101, 99, 108,
   97, 114, 97, 116, 111, 114, 82, 101, 115, 116, 10, 32, 32, 32, 32, 47, 32, 73, 100, 101, 110, 116, 105, 102, 105, 101, 114, 32, 67, 111, 110, 115,
   116, 114, 117, 99, 116, 111, 114, 68, 101, 99, 108, 97, 114, 97, 116, 111, 114, 82, 101, 115, 116, 10, 10, 77, 101, 116, 104, 111, 100, 68, 101,
   99, 108, 97, 114, 97, 116, 111, 114, 82, 101, 115, 116, 10, 32, 32, 32, 32, 60, 45, 32, 70, 111, 114, 109, 97, 108, 80, 97, 114, 97, 109, 101, 116,
   101, 114, 115, 32, 68, 105, 109, 42, 32, 40, 84, 72, 82, 79, 87, 83, 32, 67, 108, 97, 115, 115, 84, 121, 112, 101, 76, 105, 115, 116, 41, 63, 32,
   40, 77, 101, 116, 104, 111, 100, 66, 111, 100, 121, 32, 47, 32, 83, 69, 77, 73, 41, 10, 10, 86, 111, 105, 100, 77, 101, 116, 104, 111, 100, 68,
   101, 99, 108, 97, 114, 97, 116, 111, 114, 82, 101, 115, 116, 10, 32, 32, 32, 32, 60, 45, 32, 70, 111, 114, 109, 97, 108, 80, 97, 114, 97, 109, 101,
   116, 101, 114, 115, 32, 40, 84, 72, 82, 79, 87, 83, 32, 67, 108, 97, 115, 115, 84, 121, 112, 101, 76, 105, 115, 116, 41, 63, 32, 40, 77, 101, 116,
   104, 111, 100, 66, 111, 100, 121, 32, 47, 32, 83, 69, 77, 73, 41, 10, 10, 67, 111, 110, 115, 116, 114, 117, 99, 116, 111, 114, 68, 101, 99, 108,
   97, 114, 97, 116, 111, 114, 82, 101, 115, 116, 10, 32, 32, 32, 32, 60, 45, 32, 70, 111, 114, 109, 97, 108, 80, 97, 114, 97, 109, 101, 116, 101,
   114, 115, 32, 40, 84, 72, 82, 79, 87, 83, 32, 67, 108, 97, 115, 115, 84, 121, 112, 101, 76, 105, 115, 116, 41, 63, 32, 77, 101, 116, 104, 111, 100,
   66, 111, 100, 121, 10, 10, 77, 101, 116, 104, 111, 100, 66, 111, 100, 121, 10, 32, 32, 32, 32, 60, 45, 32, 66, 108, 111, 99, 107, 10, 10, 35, 45,
   45, 45, 45, 45, 45, 45, 45, 45, 45, 45, 45, 45, 45, 45, 45, 45, 45, 45, 45, 45, 45, 45, 45, 45, 45, 45, 45, 45, 45, 45, 45, 45, 45, 45, 45, 45, 45,
   45, 45, 45, 45, 45, 45, 45, 45, 45, 45, 45, 45, 45, 45, 45, 45, 45, 45, 45, 45, 45, 45, 45, 45, 45, 45, 45, 45, 45, 45, 45, 45, 45, 45, 45, 10, 35,
   32, 32, 73, 110, 116, 101, 114, 102, 97, 99, 101, 32, 68, 101, 99, 108, 97, 114, 97, 116, 105, 111, 110, 10, 35, 45, 45, 45, 45, 45, 45, 45, 45,
   45, 45, 45, 45, 45, 45, 45, 45, 45, 45, 45, 45, 45, 45, 45, 45, 45, 45, 45, 45, 45, 45, 45, 45, 45, 45, 45, 45, 45, 45, 45, 45, 45, 45, 45, 45, 45,
   45, 45, 45, 45, 45, 45, 45, 45, 45, 45, 45, 45, 45, 45, 45, 45, 45, 45, 45, 45, 45, 45, 45, 45, 45, 45, 45, 45, 10, 10, 73, 110, 116, 101, 114,
   102, 97, 99, 101, 68, 101, 99, 108, 97, 114, 97, 116, 105, 111, 110, 10, 32, 32, 32, 32, 60, 45, 32, 73, 78, 84, 69, 82, 70, 65, 67, 69, 32, 73,
   100, 101, 110, 116, 105, 102, 105, 101, 114, 32, 84, 121, 112, 101, 80, 97, 114, 97, 109, 101, 116, 101, 114, 115, 63, 32, 40, 69, 88, 84, 69, 78,
   68, 83, 32, 67, 108, 97, 115, 115, 84, 121, 112, 101, 76, 105, 115, 116, 41, 63, 32, 73, 110, 116, 101, 114, 102, 97, 99, 101, 66, 111, 100, 121,
   10, 10, 73, 110, 116, 101, 114, 102, 97, 99, 101, 66, 111, 100, 121, 10] :=
  bytes_ofList
  ['\x20', '\x20', '\x20', '\x20', '/', '\x20', 'T', 'y', 'p', 'e', '\x20', 'V', 'a', 'r', 'i', 'a', 'b', 'l', 'e', 'D', 'e', 'c', 'l', 'a', 'r', 'a',
   't', 'o', 'r', 's', '\x20', 'S', 'E', 'M', 'I', '\x20', '\x20', '\x20', '\x20', '\x20', '\x20', '\x20', '\x20', '\x20', '\x20', '\x20', '\x20',
   '\x20', '\x20', '\x20', '\x20', '\x20', '\x20', '\x20', '\x20', '#', '\x20', 'F', 'i', 'e', 'l', 'd', '\n', '\x20', '\x20', '\x20', '\x20', '/',
   '\x20', 'V', 'O', 'I', 'D', '\x20', 'I', 'd', 'e', 'n', 't', 'i', 'f', 'i', 'e', 'r', '\x20', 'V', 'o', 'i', 'd', 'M', 'e', 't', 'h', 'o', 'd',
   'D', 'e', 'c', 'l', 'a', 'r', 'a', 't', 'o', 'r', 'R', 'e', 's', 't', '\x20', '\x20', '\x20', '\x20', '\x20', '\x20', '\x20', '\x20', '\x20', '#',
   '\x20', 'V', 'o', 'i', 'd', '\x20', 'm', 'e', 't', 'h', 'o', 'd', '\n', '\x20', '\x20', '\x20', '\x20', '/', '\x20', 'I', 'd', 'e', 'n', 't', 'i',
   'f', 'i', 'e', 'r', '\x20', 'C', 'o', 'n', 's', 't', 'r', 'u', 'c', 't', 'o', 'r', 'D', 'e', 'c', 'l', 'a', 'r', 'a', 't', 'o', 'r', 'R', 'e', 's',
   't', '\x20', '\x20', '\x20', '\x20', '\x20', '\x20', '\x20', '\x20', '\x20', '\x20', '\x20', '\x20', '\x20', '#', '\x20', 'C', 'o', 'n', 's', 't',
   'r', 'u', 'c', 't', 'o', 'r', '\n', '\x20', '\x20', '\x20', '\x20', '/', '\x20', 'I', 'n', 't', 'e', 'r', 'f', 'a', 'c', 'e', 'D', 'e', 'c', 'l',
   'a', 'r', 'a', 't', 'i', 'o', 'n', '\x20', '\x20', '\x20', '\x20', '\x20', '\x20', '\x20', '\x20', '\x20', '\x20', '\x20', '\x20', '\x20', '\x20',
   '\x20', '\x20', '\x20', '\x20', '\x20', '\x20', '\x20', '\x20', '\x20', '\x20', '\x20', '\x20', '\x20', '\x20', '\x20', '#', '\x20', 'I', 'n', 't',
   'e', 'r', 'f', 'a', 'c', 'e', '\n', '\x20', '\x20', '\x20', '\x20', '/', '\x20', 'C', 'l', 'a', 's', 's', 'D', 'e', 'c', 'l', 'a', 'r', 'a', 't',
   'i', 'o', 'n', '\x20', '\x20', '\x20', '\x20', '\x20', '\x20', '\x20', '\x20', '\x20', '\x20', '\x20', '\x20', '\x20', '\x20', '\x20', '\x20',
   '\x20', '\x20', '\x20', '\x20', '\x20', '\x20', '\x20', '\x20', '\x20', '\x20', '\x20', '\x20', '\x20', '\x20', '\x20', '\x20', '\x20', '#',
   '\x20', 'C', 'l', 'a', 's', 's', '\n', '\x20', '\x20', '\x20', '\x20', '/', '\x20', 'E', 'n', 'u', 'm', 'D', 'e', 'c', 'l', 'a', 'r', 'a', 't',
   'i', 'o', 'n', '\x20', '\x20', '\x20', '\x20', '\x20', '\x20', '\x20', '\x20', '\x20', '\x20', '\x20', '\x20', '\x20', '\x20', '\x20', '\x20',
   '\x20', '\x20', '\x20', '\x20', '\x20', '\x20', '\x20', '\x20', '\x20', '\x20', '\x20', '\x20', '\x20', '\x20', '\x20', '\x20', '\x20', '\x20',
   '#', '\x20', 'E', 'n', 'u', 'm', '\n', '\x20', '\x20', '\x20', '\x20', '/', '\x20', 'A', 'n', 'n', 'o', 't', 'a', 't', 'i', 'o', 'n', 'T', 'y',
   'p', 'e', 'D', 'e', 'c', 'l', 'a', 'r', 'a', 't', 'i', 'o', 'n', '\x20', '\x20', '\x20', '\x20', '\x20', '\x20', '\x20', '\x20', '\x20', '\x20',
   '\x20', '\x20', '\x20', '\x20', '\x20', '\x20', '\x20', '\x20', '\x20', '\x20', '\x20', '\x20', '\x20', '\x20', '#', '\x20', 'A', 'n', 'n', 'o',
   't', 'a', 't', 'i', 'o', 'n', '\n', '\n', 'G', 'e', 'n', 'e', 'r', 'i', 'c', 'M', 'e', 't', 'h', 'o', 'd', 'O', 'r', 'C', 'o', 'n', 's', 't', 'r',
   'u', 'c', 't', 'o', 'r', 'R', 'e', 's', 't', '\n', '\x20', '\x20', '\x20', '\x20', '<', '-', '\x20', '(', 'T', 'y', 'p', 'e', '\x20', '/', '\x20',
   'V', 'O', 'I', 'D', ')', '\x20', 'I', 'd', 'e', 'n', 't', 'i', 'f', 'i', 'e', 'r', '\x20', 'M', 'e', 't', 'h', 'o', 'd', 'D', 'e', 'c', 'l', 'a',
   'r', 'a', 't', 'o', 'r', 'R', 'e', 's', 't', '\n', '\x20', '\x20', '\x20', '\x20', '/', '\x20', 'I', 'd', 'e', 'n', 't', 'i', 'f', 'i', 'e', 'r',
   '\x20', 'C', 'o', 'n', 's', 't', 'r', 'u', 'c', 't', 'o', 'r', 'D', 'e', 'c', 'l', 'a', 'r', 'a', 't', 'o', 'r', 'R', 'e', 's', 't', '\n', '\n',
   'M', 'e', 't', 'h', 'o', 'd', 'D', 'e', 'c', 'l', 'a', 'r', 'a', 't', 'o', 'r', 'R', 'e', 's', 't', '\n', '\x20', '\x20', '\x20', '\x20', '<', '-',
   '\x20', 'F', 'o', 'r', 'm', 'a', 'l', 'P', 'a', 'r', 'a', 'm', 'e', 't', 'e', 'r', 's', '\x20', 'D', 'i', 'm', '*', '\x20', '(', 'T', 'H', 'R',
   'O', 'W', 'S', '\x20', 'C', 'l', 'a', 's', 's', 'T', 'y', 'p', 'e', 'L', 'i', 's', 't', ')', '?', '\x20', '(', 'M', 'e', 't', 'h', 'o', 'd', 'B',
   'o', 'd', 'y', '\x20', '/', '\x20', 'S', 'E', 'M', 'I', ')', '\n', '\n', 'V', 'o', 'i', 'd', 'M', 'e', 't', 'h', 'o', 'd', 'D', 'e', 'c', 'l', 'a',
   'r', 'a', 't', 'o', 'r', 'R', 'e', 's', 't', '\n', '\x20', '\x20', '\x20', '\x20', '<', '-', '\x20', 'F', 'o', 'r', 'm', 'a', 'l', 'P', 'a', 'r',
   'a', 'm', 'e', 't', 'e', 'r', 's', '\x20', '(', 'T', 'H', 'R', 'O', 'W', 'S', '\x20', 'C', 'l', 'a', 's', 's', 'T', 'y', 'p', 'e', 'L', 'i', 's',
   't', ')', '?', '\x20', '(', 'M', 'e', 't', 'h', 'o', 'd', 'B', 'o', 'd', 'y', '\x20', '/', '\x20', 'S', 'E', 'M', 'I', ')', '\n', '\n', 'C', 'o',
   'n', 's', 't', 'r', 'u', 'c', 't', 'o', 'r', 'D', 'e', 'c', 'l', 'a', 'r', 'a', 't', 'o', 'r', 'R', 'e', 's', 't', '\n', '\x20', '\x20', '\x20',
   '\x20', '<', '-', '\x20', 'F', 'o', 'r', 'm', 'a', 'l', 'P', 'a', 'r', 'a', 'm', 'e', 't', 'e', 'r', 's', '\x20', '(', 'T', 'H', 'R', 'O', 'W',
   'S', '\x20', 'C', 'l', 'a', 's', 's', 'T', 'y', 'p', 'e', 'L', 'i', 's', 't', ')', '?', '\x20', 'M', 'e', 't', 'h', 'o', 'd', 'B', 'o', 'd', 'y',
   '\n', '\n', 'M', 'e', 't', 'h', 'o', 'd', 'B', 'o', 'd', 'y', '\n', '\x20', '\x20', '\x20', '\x20', '<', '-', '\x20', 'B', 'l', 'o', 'c', 'k',
   '\n', '\n', '#', '-', '-', '-', '-', '-', '-', '-', '-', '-', '-', '-', '-', '-', '-', '-', '-', '-', '-', '-', '-', '-', '-', '-', '-', '-', '-',
   '-', '-', '-', '-', '-', '-', '-', '-', '-', '-', '-', '-', '-', '-', '-', '-', '-', '-', '-', '-', '-', '-', '-', '-', '-', '-', '-', '-', '-',
   '-', '-', '-', '-', '-', '-', '-', '-', '-', '-', '-', '-', '-', '-', '-', '-', '-', '-', '\n', '#', '\x20', '\x20', 'I', 'n', 't', 'e', 'r', 'f',
   'a', 'c', 'e', '\x20', 'D', 'e', 'c', 'l', 'a', 'r', 'a', 't', 'i', 'o', 'n', '\n', '#', '-', '-', '-', '-', '-', '-', '-', '-', '-', '-', '-',
   '-', '-', '-', '-', '-', '-', '-', '-', '-', '-', '-', '-', '-', '-', '-', '-', '-', '-', '-', '-', '-', '-', '-', '-', '-', '-', '-', '-', '-',
   '-', '-', '-', '-', '-', '-', '-', '-', '-', '-', '-', '-', '-', '-', '-', '-', '-', '-', '-', '-', '-', '-', '-', '-', '-', '-', '-', '-', '-',
   '-', '-', '-', '-', '\n', '\n', 'I', 'n', 't', 'e', 'r', 'f', 'a', 'c', 'e', 'D', 'e', 'c', 'l', 'a', 'r', 'a', 't', 'i', 'o', 'n', '\n', '\x20',
   '\x20', '\x20', '\x20', '<', '-', '\x20', 'I', 'N', 'T', 'E', 'R', 'F', 'A', 'C', 'E', '\x20', 'I', 'd', 'e', 'n', 't', 'i', 'f', 'i', 'e', 'r',
   '\x20', 'T', 'y', 'p', 'e', 'P', 'a', 'r', 'a', 'm', 'e', 't', 'e', 'r', 's', '?', '\x20', '(', 'E', 'X', 'T', 'E', 'N', 'D', 'S', '\x20', 'C',
   'l', 'a', 's', 's', 'T', 'y', 'p', 'e', 'L', 'i', 's', 't', ')', '?', '\x20', 'I', 'n', 't', 'e', 'r', 'f', 'a', 'c', 'e', 'B', 'o', 'd', 'y',
   '\n', '\n', 'I', 'n', 't', 'e', 'r', 'f', 'a', 'c', 'e', 'B', 'o', 'd', 'y', '\n']

/-- `grammars/java.peg:148-189` -/
def javaFile7 : List UInt8 := bytes "    <- LWING InterfaceBodyDeclaration* RWING

InterfaceBodyDeclaration
    <- Modifier* InterfaceMemberDecl
    / SEMI

InterfaceMemberDecl
    <- InterfaceMethodOrFieldDecl
    / InterfaceGenericMethodDecl
    / VOID Identifier VoidInterfaceMethodDeclaratorRest
    / InterfaceDeclaration
    / AnnotationTypeDeclaration
    / ClassDeclaration
    / EnumDeclaration

InterfaceMethodOrFieldDecl
    <- Type Identifier InterfaceMethodOrFieldRest

InterfaceMethodOrFieldRest
    <- ConstantDeclaratorsRest SEMI
    / InterfaceMethodDeclaratorRest

InterfaceMethodDeclaratorRest
    <- FormalParameters Dim* (THROWS ClassTypeList)? SEMI

InterfaceGenericMethodDecl
    <- TypeParameters (Type / VOID) Identifier InterfaceMethodDeclaratorRest

VoidInterfaceMethodDeclaratorRest
    <- FormalParameters (THROWS ClassTypeList)? SEMI

ConstantDeclaratorsRest
    <- ConstantDeclaratorRest (COMMA ConstantDeclarator)*

ConstantDeclarator
    <- Identifier ConstantDeclaratorRest

ConstantDeclaratorRest
    <- Dim* EQU VariableInitializer

#-------------------------------------------------------------------------
#  Enum Declaration
"

theorem java_eq7 : javaFile7 =
  [32, 32, 32, 32, 60, 45, 32, 76, 87, 73, 78, 71, 32, 73, 110, 116, 101, 114, 102, 97, 99, 101, 66, 111, 100, 121, 68, 101, 99, 108, 97, 114, 97,
   116, 105, 111, 110, 42, 32, 82, 87, 73, 78, 71, 10, 10, 73, 110, 116, 101, 114, 102, 97, 99, 101, 66, 111, 100, 121, 68, 101, 99, 108, 97, 114, 97,
   116, 105, 111, 110, 10, 32, 32, 32, 32, 60, 45, 32, 77, 111, 100, 105, 102, 105, 101, 114, 42, 32, 73, 110, 116, 101, 114, 102, 97, 99, 101, 77,
   101, 109, 98, 101, 114, 68, 101, 99, 108, 10, 32, 32, 32, 32, 47, 32, 83, 69, 77, 73, 10, 10, 73, 110, 116, 101, 114, 102, 97, 99, 101, 77, 101,
   109, 98, 101, 114, 68, 101, 99, 108, 10, 32, 32, 32, 32, 60, 45, 32, 73, 110, 116, 101, 114, 102, 97, 99, 101, 77, 101, 116, 104, 111, 100, 79,
   114, 70, 105, 101, 108, 100, 68, 101, 99, 108, 10, 32, 32, 32, 32, 47, 32, 73, 110, 116, 101, 114, 102, 97, 99, 101, 71, 101, 110, 101, 114, 105,
   99, 77, 101, 116, 104, 111, 100, 68, 101, 99, 108, 10, 32, 32, 32, 32, 47, 32, 86, 79, 73, 68, 32, 73, 100, 101, 110, 116, 105, 102, 105, 101, 114,
   32, 86, 111, 105, 100, 73, 110, 116, 101, 114, 102, 97, 99, 101, 77, 101, 116, 104, 111, 100, 68, 101, 99, 108, 97, 114, 97, 116, 111, 114, 82,
   101, 115, 116, 10, 32, 32, 32, 32, 47, 32, 73, 110, 116, 101, 114, 102, 97, 99, 101, 68, 101, 99, 108, 97, 114, 97, 116, 105, 111, 110, 10, 32, 32,
   32, 32, 47, 32, 65, 110, 110, 111, 116, 97, 116, 105, 111, 110, 84, 121, 112, 101, 68, 101, 99, 108, 97, 114, 97, 116, 105, 111, 110, 10, 32, 32,
   32, 32, 47, 32, 67, 108, 97, 115, 115, 68, 101, 99, 108, 97, 114, 97, 116, 105, 111, 110, 10, 32, 32, 32, 32, 47, 32, 69, 110, 117, 109, 68, 101,
   99, 108, 97, 114, 97, 116, 105, 111, 110, 10, 10, 73, 110, 116, 101, 114, 102, 97, 99, 101, 77, 101, 116, 104, 111, 100, 79, 114, 70, 105, 101,
   108, 100, 68, 101, 99, 108, 10, 32, 32, 32, 32, 60, 45, 32, 84, 121, 112, 101, 32, 73, 100, 101, 110, 116, 105, 102, 105, 101, 114, 32, 73, 110,
   116, 101, 114, 102, 97, 99, 101, 77, 101, 116, 104, 111, 100, 79, 114, 70, 105, 101, 108, 100, 82, 101, 115, 116, 10, 10, 73, 110, 116, 101, 114,
   102, 97, 99, 101, 77, 101, 116, 104, 111, 100, 79, 114, 70, 105, 101, 108, 100, 82, 101, 115, 116, 10, 32, 32, 32, 32, 60, 45, 32, 67, 111, 110,
   115, 116, 97, 110, 116, 68, 101, 99, 108, 97, 114, 97, 116, 111, 114, 115, 82, 101, 115, 116, 32, 83, 69, 77, 73, 10, 32, 32, 32, 32, 47, 32, 73,
   110, 116, 101, 114, 102, 97, 99, 101, 77, 101, 116, 104, 111, 100, 68, 101, 99, 108, 97, 114, 97, 116, 111, 114, 82, 101, 115, 116, 10, 10, 73,
   110, 116, 101, 114, 102, 97, 99, 101, 77, 101, 116, 104, 111, 100, 68, 101, 99, 108, 97, 114, 97, 116, 111, 114, 82, 101, 115, 116, 10, 32, 32, 32,
   32, 60, 45, 32, 70, 111, 114, 109, 97, 108, 80, 97, 114, 97, 109, 101, 116, 101, 114, 115, 32, 68, 105, 109, 42, 32, 40, 84, 72, 82, 79, 87, 83,
   32, 67, 108, 97, 115, 115, 84, 121, 112, 101, 76, 105, 115, 116, 41, 63, 32, 83, 69, 77, 73, 10, 10, 73, 110, 116, 101, 114, 102, 97, 99, 101, 71,
   101, 110, 101, 114, 105, 99, 77, 101, 116, 104, 111, 100, 68, 101, 99, 108, 10, 32, 32, 32, 32, 60, 45, 32, 84, 121, 112, 101, 80, 97, 114, 97,
   109, 101, 116, 101, 114, 115, 32, 40, 84, 121, 112, 101, 32, 47, 32, 86, 79, 73, 68, 41, 32, 73, 100, 101, 110, 116, 105, 102, 105, 101, 114, 32,
   73, 110, 116, 101, 114, 102, 97, 99, 101, 77, 101, 116, 104, 111, 100, 68, 101, 99, 108, 97, 114, 97, 116, 111, 114, 82, 101, 115, 116, 10, 10, 86,
   111, 105, 100, 73, 110, 116, 101, 114, 102, 97, 99, 101, 77, 101, 116, 104, 111, 100, 68, 101, 99, 108, 97, 114, 97, 116, 111, 114, 82, 101, 115,
   116, 10, 32, 32, 32, 32, 60, 45, 32, 70, 111, 114, 109, 97, 108, 80, 97, 114, 97, 109, 101, 116, 101, 114, 115, 32, 40, 84, 72, 82, 79, 87, 83, 32,
   67, 108, 97, 115, 115, 84, 121, 112, 101, 76, 105, 115, 116, 41, 63, 32, 83, 69, 77, 73, 10, 10, 67, 111, 110, 115, 116, 97, 110, 116, 68, 101, 99,
   108, 97, 114, 97, 116, 111, 114, 115, 82, 101, 115, 116, 10, 32, 32, 32, 32, 60, 45, 32, 67, 111, 110, 115, 116, 97, 110, 116, 68, 101, 99, 108,
   97, 114, 97, 116, 111, 114, 82, 101, 115, 116, 32, 40, 67, 79, 77, 77, 65, 32, 67, 111, 110, 115, 116, 97, 110, 116, 68, 101, 99, 108, 97, 114, 97,
   116, 111, 114, 41, 42, 10, 10, 67, 111, 110, 115, 116, 97, 110, 116, 68, 101, 99, 108, 97, 114, 97, 116, 111, 114, 10, 32, 32, 32, 32, 60, 45, 32,
   73, 100, 101, 110, 116, 105, 102, 105, 101, 114, 32, 67, 111, 110, 115, 116, 97, 110, 116, 68, 101, 99, 108, 97, 114, 97, 116, 111, 114, 82, 101,
   115, 116, 10, 10, 67, 111, 110, 115, 116, 97, 110, 116, 68, 101, 99, 108, 97, 114, 97, 116, 111, 114, 82, 101, 115, 116, 10, 32, 32, 32, 32, 60,
   45, 32, 68, 105, 109, 42, 32, 69, 81, 85, 32, 86, 97, 114, 105, 97, 98, 108, 101, 73, 110, 105, 116, 105, 97, 108, 105, 122, 101, 114, 10, 10, 35,
   45, 45, 45, 45, 45, 45, 45, 45, 45, 45, 45, 45, 45, 45, 45, 45, 45, 45, 45, 45, 45, 45, 45, 45, 45, 45, 45, 45, 45, 45, 45, 45, 45, 45, 45, 45, 45,
   45, 45, 45, 45, 45, 45, 45, 45, 45, 45, 45, 45, 45, 45, 45, 45, 45, 45, 45, 45, 45, 45, 45, 45, 45, 45, 45, 45, 45, 45, 45, 45, 45, 45, 45, 45, 10,
   35, 32, 32, 69, 110, 117, 109, 32, 68, 101, 99, 108, 97, 114, 97, 116, 105, 111, 110, 10] :=
  bytes_ofList
  ['\x20', '\x20', '\x20', '\x20', '<', '-', '\x20', 'L', 'W', 'I', 'N', 'G', '\x20', 'I', 'n', 't', 'e', 'r', 'f', 'a', 'c', 'e', 'B', 'o', 'd', 'y',
   'D', 'e', 'c', 'l', 'a', 'r', 'a', 't', 'i', 'o', 'n', '*', '\x20', 'R', 'W', 'I', 'N', 'G', '\n', '\n', 'I', 'n', 't', 'e', 'r', 'f', 'a', 'c',
   'e', 'B', 'o', 'd', 'y', 'D', 'e', 'c', 'l', 'a', 'r', 'a', 't', 'i', 'o', 'n', '\n', '\x20', '\x20', '\x20', '\x20', '<', '-', '\x20', 'M', 'o',
   'd', 'i', 'f', 'i', 'e', 'r', '*', '\x20', 'I', 'n', 't', 'e', 'r', 'f', 'a', 'c', 'e', 'M', 'e', 'm', 'b', 'e', 'r', 'D', 'e', 'c', 'l', '\n',
   '\x20', '\x20', '\x20', '\x20', '/', '\x20', 'S', 'E', 'M', 'I', '\n', '\n', 'I', 'n', 't', 'e', 'r', 'f', 'a', 'c', 'e', 'M', 'e', 'm', 'b', 'e',
   'r', 'D', 'e', 'c', 'l', '\n', '\x20', '\x20', '\x20', '\x20', '<', '-', '\x20', 'I', 'n', 't', 'e', 'r', 'f', 'a', 'c', 'e', 'M', 'e', 't', 'h',
   'o', 'd', 'O', 'r', 'F', 'i', 'e', 'l', 'd', 'D', 'e', 'c', 'l', '\n', '\x20', '\x20', '\x20', '\x20', '/', '\x20', 'I', 'n', 't', 'e', 'r', 'f',
   'a', 'c', 'e', 'G', 'e', 'n', 'e', 'r', 'i', 'c', 'M', 'e', 't', 'h', 'o', 'd', 'D', 'e', 'c', 'l', '\n', '\x20', '\x20', '\x20', '\x20', '/',
   '\x20', 'V', 'O', 'I', 'D', '\x20', 'I', 'd', 'e', 'n', 't', 'i', 'f', 'i', 'e', 'r', '\x20', 'V', 'o', 'i', 'd', 'I', 'n', 't', 'e', 'r', 'f',
   'a', 'c', 'e', 'M', 'e', 't', 'h', 'o', 'd', 'D', 'e', 'c', 'l', 'a', 'r', 'a', 't', 'o', 'r', 'R', 'e', 's', 't', '\n', '\x20', '\x20', '\x20',
   '\x20', '/', '\x20', 'I', 'n', 't', 'e', 'r', 'f', 'a', 'c', 'e', 'D', 'e', 'c', 'l', 'a', 'r', 'a', 't', 'i', 'o', 'n', '\n', '\x20', '\x20',
   '\x20', '\x20', '/', '\x20', 'A', 'n', 'n', 'o', 't', 'a', 't', 'i', 'o', 'n', 'T', 'y', 'p', 'e', 'D', 'e', 'c', 'l', 'a', 'r', 'a', 't', 'i',
   'o', 'n', '\n', '\x20', '\x20', '\x20', '\x20', '/', '\x20', 'C', 'l', 'a', 's', 's', 'D', 'e', 'c', 'l', 'a', 'r', 'a', 't', 'i', 'o', 'n', '\n',
   '\x20', '\x20', '\x20', '\x20', '/', '\x20', 'E', 'n', 'u', 'm', 'D', 'e', 'c', 'l', 'a', 'r', 'a', 't', 'i', 'o', 'n', '\n', '\n', 'I', 'n', 't',
   'e', 'r', 'f', 'a', 'c', 'e', 'M', 'e', 't', 'h', 'o', 'd', 'O', 'r', 'F', 'i', 'e', 'l', 'd', 'D', 'e', 'c', 'l', '\n', '\x20', '\x20', '\x20',
   '\x20', '<', '-', '\x20', 'T', 'y', 'p', 'e', '\x20', 'I', 'd', 'e', 'n', 't', 'i', 'f', 'i', 'e', 'r', '\x20', 'I', 'n', 't', 'e', 'r', 'f', 'a',
   'c', 'e', 'M', 'e', 't', 'h', 'o', 'd', 'O', 'r', 'F', 'i', 'e', 'l', 'd', 'R', 'e', 's', 't', '\n', '\n', 'I', 'n', 't', 'e', 'r', 'f', 'a', 'c',
   'e', 'M', 'e', 't', 'h', 'o', 'd', 'O', 'r', 'F', 'i', 'e', 'l', 'd', 'R', 'e', 's', 't', '\n', '\x20', '\x20', '\x20', '\x20', '<', '-', '\x20',
   'C', 'o', 'n', 's', 't', 'a', 'n', 't', 'D', 'e', 'c', 'l', 'a', 'r', 'a', 't', 'o', 'r', 's', 'R', 'e', 's', 't', '\x20', 'S', 'E', 'M', 'I',
   '\n', '\x20', '\x20', '\x20', '\x20', '/', '\x20', 'I', 'n', 't', 'e', 'r', 'f', 'a', 'c', 'e', 'M', 'e', 't', 'h', 'o', 'd', 'D', 'e', 'c', 'l',
   'a', 'r', 'a', 't', 'o', 'r', 'R', 'e', 's', 't', '\n', '\n', 'I', 'n', 't', 'e', 'r', 'f', 'a', 'c', 'e', 'M', 'e', 't', 'h', 'o', 'd', 'D', 'e',
   'c', 'l', 'a', 'r', 'a', 't', 'o', 'r', 'R', 'e', 's', 't', '\n', '\x20', '\x20', '\x20', '\x20', '<', '-', '\x20', 'F', 'o', 'r', 'm', 'a', 'l',
   'P', 'a', 'r', 'a', 'm', 'e', 't', 'e', 'r', 's', '\x20', 'D', 'i', 'm', '*', '\x20', '(', 'T', 'H', 'R', 'O', 'W', 'S', '\x20', 'C', 'l', 'a',
   's', 's', 'T', 'y', 'p', 'e', 'L', 'i', 's', 't', ')', '?', '\x20', 'S', 'E', 'M', 'I', '\n', '\n', 'I', 'n', 't', 'e', 'r', 'f', 'a', 'c', 'e',
   'G', 'e', 'n', 'e', 'r', 'i', 'c', 'M', 'e', 't', 'h', 'o', 'd', 'D', 'e', 'c', 'l', '\n', '\x20', '\x20', '\x20', '\x20', '<', '-', '\x20', 'T',
   'y', 'p', 'e', 'P', 'a', 'r', 'a', 'm', 'e', 't', 'e', 'r', 's', '\x20', '(', 'T', 'y', 'p', 'e', '\x20', '/', '\x20', 'V', 'O', 'I', 'D', ')',
   '\x20', 'I', 'd', 'e', 'n', 't', 'i', 'f', 'i', 'e', 'r', '\x20', 'I', 'n', 't', 'e', 'r', 'f', 'a', 'c', 'e', 'M', 'e', 't', 'h', 'o', 'd', 'D',
   'e', 'c', 'l', 'a', 'r', 'a', 't', 'o', 'r', 'R', 'e', 's', 't', '\n', '\n', 'V', 'o', 'i', 'd', 'I', 'n', 't', 'e', 'r', 'f', 'a', 'c', 'e', 'M',
   'e', 't', 'h', 'o', 'd', 'D', 'e', 'c', 'l', 'a', 'r', 'a', 't', 'o', 'r', 'R', 'e', 's', 't', '\n', '\x20', '\x20', '\x20', '\x20', '<', '-',
   '\x20', 'F', 'o', 'r', 'm', 'a', 'l', 'P', 'a', 'r', 'a', 'm', 'e', 't', 'e', 'r', 's', '\x20', '(', 'T', 'H', 'R', 'O', 'W', 'S', '\x20', 'C',
   'l', 'a', 's', 's', 'T', 'y', 'p', 'e', 'L', 'i', 's', 't', ')', '?', '\x20', 'S', 'E', 'M', 'I', '\n', '\n', 'C', 'o', 'n', 's', 't', 'a', 'n',
   't', 'D', 'e', 'c', 'l', 'a', 'r', 'a', 't', 'o', 'r', 's', 'R', 'e', 's', 't', '\n', '\x20', '\x20', '\x20', '\x20', '<', '-', '\x20', 'C', 'o',
   'n', 's', 't', 'a', 'n', 't', 'D', 'e', 'c', 'l', 'a', 'r', 'a', 't', 'o', 'r', 'R', 'e', 's', 't', '\x20', '(', 'C', 'O', 'M', 'M', 'A', '\x20',
   'C', 'o', 'n', 's', 't', 'a', 'n', 't', 'D', 'e', 'c', 'l', 'a', 'r', 'a', 't', 'o', 'r', ')', '*', '\n', '\n', 'C', 'o', 'n', 's', 't', 'a', 'n',
   't', 'D', 'e', 'c', 'l', 'a', 'r', 'a', 't', 'o', 'r', '\n', '\x20', '\x20', '\x20', '\x20', '<', '-', '\x20', 'I', 'd', 'e', 'n', 't', 'i', 'f',
   'i', 'e', 'r', '\x20', 'C', 'o', 'n', 's', 't', 'a', 'n', 't', 'D', 'e', 'c', 'l', 'a', 'r', 'a', 't', 'o', 'r', 'R', 'e', 's', 't', '\n', '\n',
   'C', 'o', 'n', 's', 't', 'a', 'n', 't', 'D', 'e', 'c', 'l', 'a', 'r', 'a', 't', 'o', 'r', 'R', 'e', 's', 't', '\n', '\x20', '\x20', '\x20', '\x20',
   '<', '-', '\x20', 'D', 'i', 'm', '*', '\x20', 'E', 'Q', 'U', '\x20', 'V', 'a', 'r', 'i', 'a', 'b', 'l', 'e', 'I', 'n', 'i', 't', 'i', 'a', 'l',
   'i', 'z', 'e', 'r', '\n', '\n', '#', '-', '-', '-', '-', '-', '-', '-', '-', '-', '-', '-', '-', '-', '-', '-', '-', '-', '-', '-', '-', '-', '-',
   '-', '-', '-', '-', '-', '-', '-', '-', '-', '-', '-', '-', '-', '-', '-', '-', '-', '-', '-', '-', '-', '-', '-', '-', '-', '-', '-', '-', '-',
   '-', '-', '-', '-', '-', '-', '-', '-', '-', '-', '-', '-', '-', '-', '-', '-', '-', '-', '-', '-', '-', '-', '\n', '#', '\x20', '\x20', 'E', 'n',
   'u', 'm', '\x20', 'D', 'e', 'c', 'l', 'a', 'r', 'a', 't', 'i', 'o', 'n', '\n']

/-- `grammars/java.peg:190-230` -/
def javaFile8 : List UInt8 := bytes "#-------------------------------------------------------------------------

EnumDeclaration
    <- ENUM Identifier (IMPLEMENTS ClassTypeList)? EnumBody

EnumBody
    <- LWING EnumConstants? COMMA? EnumBodyDeclarations? RWING

EnumConstants
    <- EnumConstant (COMMA EnumConstant)*

EnumConstant
    <- Annotation* Identifier Arguments? ClassBody?

EnumBodyDeclarations
    <- SEMI ClassBodyDeclaration*

#-------------------------------------------------------------------------
#  Variable Declarations
#-------------------------------------------------------------------------

LocalVariableDeclarationStatement
    <- (FINAL / Annotation)* Type VariableDeclarators SEMI

VariableDeclarators
    <- VariableDeclarator (COMMA VariableDeclarator)*

VariableDeclarator
    <- Identifier Dim* (EQU VariableInitializer)?

#-------------------------------------------------------------------------
#  Formal Parameters
#-------------------------------------------------------------------------

FormalParameters
    <- LPAR FormalParameterList? RPAR

FormalParameter
    <- (FINAL / Annotation)* Type VariableDeclaratorId

LastFormalParameter
"

theorem java_eq8 : javaFile8 =
  [35, 45, 45, 45, 45, 45, 45, 45, 45, 45, 45, 45, 45, 45, 45, 45, 45, 45, 45, 45, 45, 45, 45, 45, 45, 45, 45, 45, 45, 45, 45, 45, 45, 45, 45, 45, 45,
   45, 45, 45, 45, 45, 45, 45, 45, 45, 45, 45, 45, 45, 45, 45, 45, 45, 45, 45, 45, 45, 45, 45, 45, 45, 45, 45, 45, 45, 45, 45, 45, 45, 45, 45, 45, 45,
   10, 10, 69, 110, 117, 109, 68, 101, 99, 108, 97, 114, 97, 116, 105, 111, 110, 10, 32, 32, 32, 32, 60, 45, 32, 69, 78, 85, 77, 32, 73, 100, 101,
   110, 116, 105, 102, 105, 101, 114, 32, 40, 73, 77, 80, 76, 69, 77, 69, 78, 84, 83, 32, 67, 108, 97, 115, 115, 84, 121, 112, 101, 76, 105, 115, 116,
   41, 63, 32, 69, 110, 117, 109, 66, 111, 100, 121, 10, 10, 69, 110, 117, 109, 66, 111, 100, 121, 10, 32, 32, 32, 32, 60, 45, 32, 76, 87, 73, 78, 71,
   32, 69, 110, 117, 109, 67, 111, 110, 115, 116, 97, 110, 116, 115, 63, 32, 67, 79, 77, 77, 65, 63, 32, 69, 110, 117, 109, 66, 111, 100, 121, 68,
   101, 99, 108, 97, 114, 97, 116, 105, 111, 110, 115, 63, 32, 82, 87, 73, 78, 71, 10, 10, 69, 110, 117, 109, 67, 111, 110, 115, 116, 97, 110, 116,
   115, 10, 32, 32, 32, 32, 60, 45, 32, 69, 110, 117, 109, 67, 111, 110, 115, 116, 97, 110, 116, 32, 40, 67, 79, 77, 77, 65, 32, 69, 110, 117, 109,
   67, 111, 110, 115, 116, 97, 110, 116, 41, 42, 10, 10, 69, 110, 117, 109, 67, 111, 110, 115, 116, 97, 110, 116, 10, 32, 32, 32, 32, 60, 45, 32, 65,
   110, 110, 111, 116, 97, 116, 105, 111, 110, 42, 32, 73, 100, 101, 110, 116, 105, 102, 105, 101, 114, 32, 65, 114, 103, 117, 109, 101, 110, 116,
   115, 63, 32, 67, 108, 97, 115, 115, 66, 111, 100, 121, 63, 10, 10, 69, 110, 117, 109, 66, 111, 100, 121, 68, 101, 99, 108, 97, 114, 97, 116, 105,
   111, 110, 115, 10, 32, 32, 32, 32, 60, 45, 32, 83, 69, 77, 73, 32, 67, 108, 97, 115, 115, 66, 111, 100, 121, 68, 101, 99, 108, 97, 114, 97, 116,
   105, 111, 110, 42, 10, 10, 35, 45, 45, 45, 45, 45, 45, 45, 45, 45, 45, 45, 45, 45, 45, 45, 45, 45, 45, 45, 45, 45, 45, 45, 45, 45, 45, 45, 45, 45,
   45, 45, 45, 45, 45, 45, 45, 45, 45, 45, 45, 45, 45, 45, 45, 45, 45, 45, 45, 45, 45, 45, 45, 45, 45, 45, 45, 45, 45, 45, 45, 45, 45, 45, 45, 45, 45,
   45, 45, 45, 45, 45, 45, 45, 10, 35, 32, 32, 86, 97, 114, 105, 97, 98, 108, 101, 32, 68, 101, 99, 108, 97, 114, 97, 116, 105, 111, 110, 115, 10, 35,
   45, 45, 45, 45, 45, 45, 45, 45, 45, 45, 45, 45, 45, 45, 45, 45, 45, 45, 45, 45, 45, 45, 45, 45, 45, 45, 45, 45, 45, 45, 45, 45, 45, 45, 45, 45, 45,
   45, 45, 45, 45, 45, 45, 45, 45, 45, 45, 45, 45, 45, 45, 45, 45, 45, 45, 45, 45, 45, 45, 45, 45, 45, 45, 45, 45, 45, 45, 45, 45, 45, 45, 45, 45, 10,
   10, 76, 111, 99, 97, 108, 86, 97, 114, 105, 97, 98, 108, 101, 68, 101, 99, 108, 97, 114, 97, 116, 105, 111, 110, 83, 116, 97, 116, 101, 109, 101,
   110, 116, 10, 32, 32, 32, 32, 60, 45, 32, 40, 70, 73, 78, 65, 76, 32, 47, 32, 65, 110, 110, 111, 116, 97, 116, 105, 111, 110, 41, 42, 32, 84, 121,
   112, 101, 32, 86, 97, 114, 105, 97, 98, 108, 101, 68, 101, 99, 108, 97, 114, 97, 116, 111, 114, 115, 32, 83, 69, 77, 73, 10, 10, 86, 97, 114, 105,
   97, 98, 108, 101, 68, 101, 99, 108, 97, 114, 97, 116, 111, 114, 115, 10, 32, 32, 32, 32, 60, 45, 32, 86, 97, 114, 105, 97, 98, 108, 101, 68, 101,
   99, 108, 97, 114, 97, 116, 111, 114, 32, 40, 67, 79, 77, 77, 65, 32, 86, 97, 114, 105, 97, 98, 108, 101, 68, 101, 99, 108, 97, 114, 97, 116, 111,
   114, 41, 42, 10, 10, 86, 97, 114, 105, 97, 98, 108, 101, 68, 101, 99, 108, 97, 114, 97, 116, 111, 114, 10, 32, 32, 32, 32, 60, 45, 32, 73, 100,
   101, 110, 116, 105, 102, 105, 101, 114, 32, 68, 105, 109, 42, 32, 40, 69, 81, 85, 32, 86, 97, 114, 105, 97, 98, 108, 101, 73, 110, 105, 116, 105,
   97, 108, 105, 122, 101, 114, 41, 63, 10, 10, 35, 45, 45, 45, 45, 45, 45, 45, 45, 45, 45, 45, 45, 45, 45, 45, 45, 45, 45, 45, 45, 45, 45, 45, 45,
   45, 45, 45, 45, 45, 45, 45, 45, 45, 45, 45, 45, 45, 45, 45, 45, 45, 45, 45, 45, 45, 45, 45, 45, 45, 45, 45, 45, 45, 45, 45, 45, 45, 45, 45, 45, 45,
   45, 45, 45, 45, 45, 45, 45, 45, 45, 45, 45, 45, 10, 35, 32, 32, 70, 111, 114, 109, 97, 108, 32, 80, 97, 114, 97, 109, 101, 116, 101, 114, 115, 10,
   35, 45, 45, 45, 45, 45, 45, 45, 45, 45, 45, 45, 45, 45, 45, 45, 45, 45, 45, 45, 45, 45, 45, 45, 45, 45, 45, 45, 45, 45, 45, 45, 45, 45, 45, 45, 45,
   45, 45, 45, 45, 45, 45, 45, 45, 45, 45, 45, 45, 45, 45, 45, 45, 45, 45, 45, 45, 45, 45, 45, 45, 45, 45, 45, 45, 45, 45, 45, 45, 45, 45, 45, 45, 45,
   10, 10, 70, 111, 114, 109, 97, 108, 80, 97, 114, 97, 109, 101, 116, 101, 114, 115, 10, 32, 32, 32, 32, 60, 45, 32, 76, 80, 65, 82, 32, 70, 111,
   114, 109, 97, 108, 80, 97, 114, 97, 109, 101, 116, 101, 114, 76, 105, 115, 116, 63, 32, 82, 80, 65, 82, 10, 10, 70, 111, 114, 109, 97, 108, 80, 97,
   114, 97, 109, 101, 116, 101, 114, 10, 32, 32, 32, 32, 60, 45, 32, 40, 70, 73, 78, 65, 76, 32, 47, 32, 65, 110, 110, 111, 116, 97, 116, 105, 111,
   110, 41, 42, 32, 84, 121, 112, 101, 32, 86, 97, 114, 105, 97, 98, 108, 101, 68, 101, 99, 108, 97, 114, 97, 116, 111, 114, 73, 100, 10, 10, 76, 97,
   115, 116, 70, 111, 114, 109, 97, 108, 80, 97, 114, 97, 109, 101, 116, 101, 114, 10] :=
  bytes_ofList
  ['#', '-', '-', '-', '-', '-', '-', '-', '-', '-', '-', '-', '-', '-', '-', '-', '-', '-', '-', '-', '-', '-', '-', '-', '-', '-', '-', '-', '-',
   '-', '-', '-', '-', '-', '-', '-', '-', '-', '-', '-', '-', '-', '-', '-', '-', '-', '-', '-', '-', '-', '-', '-', '-', '-', '-', '-', '-', '-',
   '-', '-', '-', '-', '-', '-', '-', '-', '-', '-', '-', '-', '-', '-', '-', '-', '\n', '\n', 'E', 'n', 'u', 'm', 'D', 'e', 'c', 'l', 'a', 'r', 'a',
   't', 'i', 'o', 'n', '\n', '\x20', '\x20', '\x20', '\x20', '<', '-', '\x20', 'E', 'N', 'U', 'M', '\x20', 'I', 'd', 'e', 'n', 't', 'i', 'f', 'i',
   'e', 'r', '\x20', '(', 'I', 'M', 'P', 'L', 'E', 'M', 'E', 'N', 'T', 'S', '\x20', 'C', 'l', 'a', 's', 's', 'T', 'y', 'p', 'e', 'L', 'i', 's', 't',
   ')', '?', '\x20', 'E', 'n', 'u', 'm', 'B', 'o', 'd', 'y', '\n', '\n', 'E', 'n', 'u', 'm', 'B', 'o', 'd', 'y', '\n', '\x20', '\x20', '\x20', '\x20',
   '<', '-', '\x20', 'L', 'W', 'I', 'N', 'G', '\x20', 'E', 'n', 'u', 'm', 'C', 'o', 'n', 's', 't', 'a', 'n', 't', 's', '?', '\x20', 'C', 'O', 'M',
   'M', 'A', '?', '\x20', 'E', 'n', 'u', 'm', 'B', 'o', 'd', 'y', 'D', 'e', 'c', 'l', 'a', 'r', 'a', 't', 'i', 'o', 'n', 's', '?', '\x20', 'R', 'W',
   'I', 'N', 'G', '\n', '\n', 'E', 'n', 'u', 'm', 'C', 'o', 'n', 's', 't', 'a', 'n', 't', 's', '\n', '\x20', '\x20', '\x20', '\x20', '<', '-', '\x20',
   'E', 'n', 'u', 'm', 'C', 'o', 'n', 's', 't', 'a', 'n', 't', '\x20', '(', 'C', 'O', 'M', 'M', 'A', '\x20', 'E', 'n', 'u', 'm', 'C', 'o', 'n', 's',
   't', 'a', 'n', 't', ')', '*', '\n', '\n', 'E', 'n', 'u', 'm', 'C', 'o', 'n', 's', 't', 'a', 'n', 't', '\n', '\x20', '\x20', '\x20', '\x20', '<',
   '-', '\x20', 'A', 'n', 'n', 'o', 't', 'a', 't', 'i', 'o', 'n', '*', '\x20', 'I', 'd', 'e', 'n', 't', 'i', 'f', 'i', 'e', 'r', '\x20', 'A', 'r',
   'g', 'u', 'm', 'e', 'n', 't', 's', '?', '\x20', 'C', 'l', 'a', 's', 's', 'B', 'o', 'd', 'y', '?', '\n', '\n', 'E', 'n', 'u', 'm', 'B', 'o', 'd',
   'y', 'D', 'e', 'c', 'l', 'a', 'r', 'a', 't', 'i', 'o', 'n', 's', '\n', '\x20', '\x20', '\x20', '\x20', '<', '-', '\x20', 'S', 'E', 'M', 'I',
   '\x20', 'C', 'l', 'a', 's', 's', 'B', 'o', 'd', 'y', 'D', 'e', 'c', 'l', 'a', 'r', 'a', 't', 'i', 'o', 'n', '*', '\n', '\n', '#', '-', '-', '-',
   '-', '-', '-', '-', '-', '-', '-', '-', '-', '-', '-', '-', '-', '-', '-', '-', '-', '-', '-', '-', '-', '-', '-', '-', '-', '-', '-', '-', '-',
   '-', '-', '-', '-', '-', '-', '-', '-', '-', '-', '-', '-', '-', '-', '-', '-', '-', '-', '-', '-', '-', '-', '-', '-', '-', '-', '-', '-', '-',
   '-', '-', '-', '-', '-', '-', '-', '-', '-', '-', '-', '-', '\n', '#', '\x20', '\x20', 'V', 'a', 'r', 'i', 'a', 'b', 'l', 'e', '\x20', 'D', 'e',
   'c', 'l', 'a', 'r', 'a', 't', 'i', 'o', 'n', 's', '\n', '#', '-', '-', '-', '-', '-', '-', '-', '-', '-', '-', '-', '-', '-', '-', '-', '-', '-',
   '-', '-', '-', '-', '-', '-', '-', '-', '-', '-', '-', '-', '-', '-', '-', '-', '-', '-', '-', '-', '-', '-', '-', '-', '-', '-', '-', '-', '-',
   '-', '-', '-', '-', '-', '-', '-', '-', '-', '-', '-', '-', '-', '-', '-', '-', '-', '-', '-', '-', '-', '-', '-', '-', '-', '-', '-', '\n', '\n',
   'L', 'o', 'c', 'a', 'l', 'V', 'a', 'r', 'i', 'a', 'b', 'l', 'e', 'D', 'e', 'c', 'l', 'a', 'r', 'a', 't', 'i', 'o', 'n', 'S', 't', 'a', 't', 'e',
   'm', 'e', 'n', 't', '\n', '\x20', '\x20', '\x20', '\x20', '<', '-', '\x20', '(', 'F', 'I', 'N', 'A', 'L', '\x20', '/', '\x20', 'A', 'n', 'n', 'o',
   't', 'a', 't', 'i', 'o', 'n', ')', '*', '\x20', 'T', 'y', 'p', 'e', '\x20', 'V', 'a', 'r', 'i', 'a', 'b', 'l', 'e', 'D', 'e', 'c', 'l', 'a', 'r',
   'a', 't', 'o', 'r', 's', '\x20', 'S', 'E', 'M', 'I', '\n', '\n', 'V', 'a', 'r', 'i', 'a', 'b', 'l', 'e', 'D', 'e', 'c', 'l', 'a', 'r', 'a', 't',
   'o', 'r', 's', '\n', '\x20', '\x20', '\x20', '\x20', '<', '-', '\x20', 'V', 'a', 'r', 'i', 'a', 'b', 'l', 'e', 'D', 'e', 'c', 'l', 'a', 'r', 'a',
   't', 'o', 'r', '\x20', '(', 'C', 'O', 'M', 'M', 'A', '\x20', 'V', 'a', 'r', 'i', 'a', 'b', 'l', 'e', 'D', 'e', 'c', 'l', 'a', 'r', 'a', 't', 'o',
   'r', ')', '*', '\n', '\n', 'V', 'a', 'r', 'i', 'a', 'b', 'l', 'e', 'D', 'e', 'c', 'l', 'a', 'r', 'a', 't', 'o', 'r', '\n', '\x20', '\x20', '\x20',
   '\x20', '<', '-', '\x20', 'I', 'd', 'e', 'n', 't', 'i', 'f', 'i', 'e', 'r', '\x20', 'D', 'i', 'm', '*', '\x20', '(', 'E', 'Q', 'U', '\x20', 'V',
   'a', 'r', 'i', 'a', 'b', 'l', 'e', 'I', 'n', 'i', 't', 'i', 'a', 'l', 'i', 'z', 'e', 'r', ')', '?', '\n', '\n', '#', '-', '-', '-', '-', '-', '-',
   '-', '-', '-', '-', '-', '-', '-', '-', '-', '-', '-', '-', '-', '-', '-', '-', '-', '-', '-', '-', '-', '-', '-', '-', '-', '-', '-', '-', '-',
   '-', '-', '-', '-', '-', '-', '-', '-', '-', '-', '-', '-', '-', '-', '-', '-', '-', '-', '-', '-', '-', '-', '-', '-', '-', '-', '-', '-', '-',
   '-', '-', '-', '-', '-', '-', '-', '-', '-', '\n', '#', '\x20', '\x20', 'F', 'o', 'r', 'm', 'a', 'l', '\x20', 'P', 'a', 'r', 'a', 'm', 'e', 't',
   'e', 'r', 's', '\n', '#', '-', '-', '-', '-', '-', '-', '-', '-', '-', '-', '-', '-', '-', '-', '-', '-', '-', '-', '-', '-', '-', '-', '-', '-',
   '-', '-', '-', '-', '-', '-', '-', '-', '-', '-', '-', '-', '-', '-', '-', '-', '-', '-', '-', '-', '-', '-', '-', '-', '-', '-', '-', '-', '-',
   '-', '-', '-', '-', '-', '-', '-', '-', '-', '-', '-', '-', '-', '-', '-', '-', '-', '-', '-', '-', '\n', '\n', 'F', 'o', 'r', 'm', 'a', 'l', 'P',
   'a', 'r', 'a', 'm', 'e', 't', 'e', 'r', 's', '\n', '\x20', '\x20', '\x20', '\x20', '<', '-', '\x20', 'L', 'P', 'A', 'R', '\x20', 'F', 'o', 'r',
   'm', 'a', 'l', 'P', 'a', 'r', 'a', 'm', 'e', 't', 'e', 'r', 'L', 'i', 's', 't', '?', '\x20', 'R', 'P', 'A', 'R', '\n', '\n', 'F', 'o', 'r', 'm',
   'a', 'l', 'P', 'a', 'r', 'a', 'm', 'e', 't', 'e', 'r', '\n', '\x20', '\x20', '\x20', '\x20', '<', '-', '\x20', '(', 'F', 'I', 'N', 'A', 'L',
   '\x20', '/', '\x20', 'A', 'n', 'n', 'o', 't', 'a', 't', 'i', 'o', 'n', ')', '*', '\x20', 'T', 'y', 'p', 'e', '\x20', 'V', 'a', 'r', 'i', 'a', 'b',
   'l', 'e', 'D', 'e', 'c', 'l', 'a', 'r', 'a', 't', 'o', 'r', 'I', 'd', '\n', '\n', 'L', 'a', 's', 't', 'F', 'o', 'r', 'm', 'a', 'l', 'P', 'a', 'r',
   'a', 'm', 'e', 't', 'e', 'r', '\n']

/-- `grammars/java.peg:231-269` -/
def javaFile9 : List UInt8 := bytes "    <- (FINAL / Annotation)* Type ELLIPSIS VariableDeclaratorId

FormalParameterList
    <- FormalParameter (COMMA FormalParameter)* (COMMA LastFormalParameter)?
    / LastFormalParameter

VariableDeclaratorId
    <- Identifier Dim*

#-------------------------------------------------------------------------
#  Statements
#-------------------------------------------------------------------------

Block
    <- LWING BlockStatements RWING

BlockStatements
    <- BlockStatement*

BlockStatement
    <- LocalVariableDeclarationStatement
    / Modifier*
      ( ClassDeclaration
      / EnumDeclaration
      )
    / Statement

Statement
    <- Block
    / ASSERT Expression (COLON Expression)? SEMI
    / IF ParExpression Statement (ELSE Statement)?
    / FOR LPAR ForInit? SEMI Expression? SEMI ForUpdate? RPAR Statement
    / FOR LPAR FormalParameter COLON Expression RPAR Statement
    / WHILE ParExpression Statement
    / DO Statement WHILE ParExpression   SEMI
    / TRY LPAR Resource (SEMI Resource)* SEMI? RPAR Block Catch* Finally?
    / TRY Block (Catch+ Finally? / Finally)
    / SWITCH ParExpression LWING SwitchBlockStatementGroups RWING
    / SYNCHRONIZED ParExpression Block
"

theorem java_eq9 : javaFile9 =
  [32, 32, 32, 32, 60, 45, 32, 40, 70, 73, 78, 65, 76, 32, 47, 32, 65, 110, 110, 111, 116, 97, 116, 105, 111, 110, 41, 42, 32, 84, 121, 112, 101, 32,
   69, 76, 76, 73, 80, 83, 73, 83, 32, 86, 97, 114, 105, 97, 98, 108, 101, 68, 101, 99, 108, 97, 114, 97, 116, 111, 114, 73, 100, 10, 10, 70, 111,
   114, 109, 97, 108, 80, 97, 114, 97, 109, 101, 116, 101, 114, 76, 105, 115, 116, 10, 32, 32, 32, 32, 60, 45, 32, 70, 111, 114, 109, 97, 108, 80, 97,
   114, 97, 109, 101, 116, 101, 114, 32, 40, 67, 79, 77, 77, 65, 32, 70, 111, 114, 109, 97, 108, 80, 97, 114, 97, 109, 101, 116, 101, 114, 41, 42, 32,
   40, 67, 79, 77, 77, 65, 32, 76, 97, 115, 116, 70, 111, 114, 109, 97, 108, 80, 97, 114, 97, 109, 101, 116, 101, 114, 41, 63, 10, 32, 32, 32, 32, 47,
   32, 76, 97, 115, 116, 70, 111, 114, 109, 97, 108, 80, 97, 114, 97, 109, 101, 116, 101, 114, 10, 10, 86, 97, 114, 105, 97, 98, 108, 101, 68, 101,
   99, 108, 97, 114, 97, 116, 111, 114, 73, 100, 10, 32, 32, 32, 32, 60, 45, 32, 73, 100, 101, 110, 116, 105, 102, 105, 101, 114, 32, 68, 105, 109,
   42, 10, 10, 35, 45, 45, 45, 45, 45, 45, 45, 45, 45, 45, 45, 45, 45, 45, 45, 45, 45, 45, 45, 45, 45, 45, 45, 45, 45, 45, 45, 45, 45, 45, 45, 45, 45,
   45, 45, 45, 45, 45, 45, 45, 45, 45, 45, 45, 45, 45, 45, 45, 45, 45, 45, 45, 45, 45, 45, 45, 45, 45, 45, 45, 45, 45, 45, 45, 45, 45, 45, 45, 45, 45,
   45, 45, 45, 10, 35, 32, 32, 83, 116, 97, 116, 101, 109, 101, 110, 116, 115, 10, 35, 45, 45, 45, 45, 45, 45, 45, 45, 45, 45, 45, 45, 45, 45, 45, 45,
   45, 45, 45, 45, 45, 45, 45, 45, 45, 45, 45, 45, 45, 45, 45, 45, 45, 45, 45, 45, 45, 45, 45, 45, 45, 45, 45, 45, 45, 45, 45, 45, 45, 45, 45, 45, 45,
   45, 45, 45, 45, 45, 45, 45, 45, 45, 45, 45, 45, 45, 45, 45, 45, 45, 45, 45, 45, 10, 10, 66, 108, 111, 99, 107, 10, 32, 32, 32, 32, 60, 45, 32, 76,
   87, 73, 78, 71, 32, 66, 108, 111, 99, 107, 83, 116, 97, 116, 101, 109, 101, 110, 116, 115, 32, 82, 87, 73, 78, 71, 10, 10, 66, 108, 111, 99, 107,
   83, 116, 97, 116, 101, 109, 101, 110, 116, 115, 10, 32, 32, 32, 32, 60, 45, 32, 66, 108, 111, 99, 107, 83, 116, 97, 116, 101, 109, 101, 110, 116,
   42, 10, 10, 66, 108, 111, 99, 107, 83, 116, 97, 116, 101, 109, 101, 110, 116, 10, 32, 32, 32, 32, 60, 45, 32, 76, 111, 99, 97, 108, 86, 97, 114,
   105, 97, 98, 108, 101, 68, 101, 99, 108, 97, 114, 97, 116, 105, 111, 110, 83, 116, 97, 116, 101, 109, 101, 110, 116, 10, 32, 32, 32, 32, 47, 32,
   77, 111, 100, 105, 102, 105, 101, 114, 42, 10, 32, 32, 32, 32, 32, 32, 40, 32, 67, 108, 97, 115, 115, 68, 101, 99, 108, 97, 114, 97, 116, 105, 111,
   110, 10, 32, 32, 32, 32, 32, 32, 47, 32, 69, 110, 117, 109, 68, 101, 99, 108, 97, 114, 97, 116, 105, 111, 110, 10, 32, 32, 32, 32, 32, 32, 41, 10,
   32, 32, 32, 32, 47, 32, 83, 116, 97, 116, 101, 109, 101, 110, 116, 10, 10, 83, 116, 97, 116, 101, 109, 101, 110, 116, 10, 32, 32, 32, 32, 60, 45,
   32, 66, 108, 111, 99, 107, 10, 32, 32, 32, 32, 47, 32, 65, 83, 83, 69, 82, 84, 32, 69, 120, 112, 114, 101, 115, 115, 105, 111, 110, 32, 40, 67, 79,
   76, 79, 78, 32, 69, 120, 112, 114, 101, 115, 115, 105, 111, 110, 41, 63, 32, 83, 69, 77, 73, 10, 32, 32, 32, 32, 47, 32, 73, 70, 32, 80, 97, 114,
   69, 120, 112, 114, 101, 115, 115, 105, 111, 110, 32, 83, 116, 97, 116, 101, 109, 101, 110, 116, 32, 40, 69, 76, 83, 69, 32, 83, 116, 97, 116, 101,
   109, 101, 110, 116, 41, 63, 10, 32, 32, 32, 32, 47, 32, 70, 79, 82, 32, 76, 80, 65, 82, 32, 70, 111, 114, 73, 110, 105, 116, 63, 32, 83, 69, 77,
   73, 32, 69, 120, 112, 114, 101, 115, 115, 105, 111, 110, 63, 32, 83, 69, 77, 73, 32, 70, 111, 114, 85, 112, 100, 97, 116, 101, 63, 32, 82, 80, 65,
   82, 32, 83, 116, 97, 116, 101, 109, 101, 110, 116, 10, 32, 32, 32, 32, 47, 32, 70, 79, 82, 32, 76, 80, 65, 82, 32, 70, 111, 114, 109, 97, 108, 80,
   97, 114, 97, 109, 101, 116, 101, 114, 32, 67, 79, 76, 79, 78, 32, 69, 120, 112, 114, 101, 115, 115, 105, 111, 110, 32, 82, 80, 65, 82, 32, 83, 116,
   97, 116, 101, 109, 101, 110, 116, 10, 32, 32, 32, 32, 47, 32, 87, 72, 73, 76, 69, 32, 80, 97, 114, 69, 120, 112, 114, 101, 115, 115, 105, 111, 110,
   32, 83, 116, 97, 116, 101, 109, 101, 110, 116, 10, 32, 32, 32, 32, 47, 32, 68, 79, 32, 83, 116, 97, 116, 101, 109, 101, 110, 116, 32, 87, 72, 73,
   76, 69, 32, 80, 97, 114, 69, 120, 112, 114, 101, 115, 115, 105, 111, 110, 32, 32, 32, 83, 69, 77, 73, 10, 32, 32, 32, 32, 47, 32, 84, 82, 89, 32,
   76, 80, 65, 82, 32, 82, 101, 115, 111, 117, 114, 99, 101, 32, 40, 83, 69, 77, 73, 32, 82, 101, 115, 111, 117, 114, 99, 101, 41, 42, 32, 83, 69, 77,
   73, 63, 32, 82, 80, 65, 82, 32, 66, 108, 111, 99, 107, 32, 67, 97, 116, 99, 104, 42, 32, 70, 105, 110, 97, 108, 108, 121, 63, 10, 32, 32, 32, 32,
   47, 32, 84, 82, 89, 32, 66, 108, 111, 99, 107, 32, 40, 67, 97, 116, 99, 104, 43, 32, 70, 105, 110, 97, 108, 108, 121, 63, 32, 47, 32, 70, 105, 110,
   97, 108, 108, 121, 41, 10, 32, 32, 32, 32, 47, 32, 83, 87, 73, 84, 67, 72, 32, 80, 97, 114, 69, 120, 112, 114, 101, 115, 115, 105, 111, 110, 32,
   76, 87, 73, 78, 71, 32, 83, 119, 105, 116, 99, 104, 66, 108, 111, 99, 107, 83, 116, 97, 116, 101, 109, 101, 110, 116, 71, 114, 111, 117, 112, 115,
   32, 82, 87, 73, 78, 71, 10, 32, 32, 32, 32, 47, 32, 83, 89, 78, 67, 72, 82, 79, 78, 73, 90, 69, 68, 32, 80, 97, 114, 69, 120, 112, 114, 101, 115,
   115, 105, 111, 110, 32, 66, 108, 111, 99, 107, 10] :=
  bytes_ofList
  ['\x20', '\x20', '\x20', '\x20', '<', '-', '\x20', '(', 'F', 'I', 'N', 'A', 'L', '\x20', '/', '\x20', 'A', 'n', 'n', 'o', 't', 'a', 't', 'i', 'o',
   'n', ')', '*', '\x20', 'T', 'y', 'p', 'e', '\x20', 'E', 'L', 'L', 'I', 'P', 'S', 'I', 'S', '\x20', 'V', 'a', 'r', 'i', 'a', 'b', 'l', 'e', 'D',
   'e', 'c', 'l', 'a', 'r', 'a', 't', 'o', 'r', 'I', 'd', '\n', '\n', 'F', 'o', 'r', 'm', 'a', 'l', 'P', 'a', 'r', 'a', 'm', 'e', 't', 'e', 'r', 'L',
   'i', 's', 't', '\n', '\x20', '\x20', '\x20', '\x20', '<', '-', '\x20', 'F', 'o', 'r', 'm', 'a', 'l', 'P', 'a', 'r', 'a', 'm', 'e', 't', 'e', 'r',
   '\x20', '(', 'C', 'O', 'M', 'M', 'A', '\x20', 'F', 'o', 'r', 'm', 'a', 'l', 'P', 'a', 'r', 'a', 'm', 'e', 't', 'e', 'r', ')', '*', '\x20', '(',
   'C', 'O', 'M', 'M', 'A', '\x20', 'L', 'a', 's', 't', 'F', 'o', 'r', 'm', 'a', 'l', 'P', 'a', 'r', 'a', 'm', 'e', 't', 'e', 'r', ')', '?', '\n',
   '\x20', '\x20', '\x20', '\x20', '/', '\x20', 'L', 'a', 's', 't', 'F', 'o', 'r', 'm', 'a', 'l', 'P', 'a', 'r', 'a', 'm', 'e', 't', 'e', 'r', '\n',
   '\n', 'V', 'a', 'r', 'i', 'a', 'b', 'l', 'e', 'D', 'e', 'c', 'l', 'a', 'r', 'a', 't', 'o', 'r', 'I', 'd', '\n', '\x20', '\x20', '\x20', '\x20',
   '<', '-', '\x20', 'I', 'd', 'e', 'n', 't', 'i', 'f', 'i', 'e', 'r', '\x20', 'D', 'i', 'm', '*', '\n', '\n', '#', '-', '-', '-', '-', '-', '-', '-',
   '-', '-', '-', '-', '-', '-', '-', '-', '-', '-', '-', '-', '-', '-', '-', '-', '-', '-', '-', '-', '-', '-', '-', '-', '-', '-', '-', '-', '-',
   '-', '-', '-', '-', '-', '-', '-', '-', '-', '-', '-', '-', '-', '-', '-', '-', '-', '-', '-', '-', '-', '-', '-', '-', '-', '-', '-', '-', '-',
   '-', '-', '-', '-', '-', '-', '-', '-', '\n', '#', '\x20', '\x20', 'S', 't', 'a', 't', 'e', 'm', 'e', 'n', 't', 's', '\n', '#', '-', '-', '-', '-',
   '-', '-', '-', '-', '-', '-', '-', '-', '-', '-', '-', '-', '-', '-', '-', '-', '-', '-', '-', '-', '-', '-', '-', '-', '-', '-', '-', '-', '-',
   '-', '-', '-', '-', '-', '-', '-', '-', '-', '-', '-', '-', '-', '-', '-', '-', '-', '-', '-', '-', '-', '-', '-', '-', '-', '-', '-', '-', '-',
   '-', '-', '-', '-', '-', '-', '-', '-', '-', '-', '-', '\n', '\n', 'B', 'l', 'o', 'c', 'k', '\n', '\x20', '\x20', '\x20', '\x20', '<', '-', '\x20',
   'L', 'W', 'I', 'N', 'G', '\x20', 'B', 'l', 'o', 'c', 'k', 'S', 't', 'a', 't', 'e', 'm', 'e', 'n', 't', 's', '\x20', 'R', 'W', 'I', 'N', 'G', '\n',
   '\n', 'B', 'l', 'o', 'c', 'k', 'S', 't', 'a', 't', 'e', 'm', 'e', 'n', 't', 's', '\n', '\x20', '\x20', '\x20', '\x20', '<', '-', '\x20', 'B', 'l',
   'o', 'c', 'k', 'S', 't', 'a', 't', 'e', 'm', 'e', 'n', 't', '*', '\n', '\n', 'B', 'l', 'o', 'c', 'k', 'S', 't', 'a', 't', 'e', 'm', 'e', 'n', 't',
   '\n', '\x20', '\x20', '\x20', '\x20', '<', '-', '\x20', 'L', 'o', 'c', 'a', 'l', 'V', 'a', 'r', 'i', 'a', 'b', 'l', 'e', 'D', 'e', 'c', 'l', 'a',
   'r', 'a', 't', 'i', 'o', 'n', 'S', 't', 'a', 't', 'e', 'm', 'e', 'n', 't', '\n', '\x20', '\x20', '\x20', '\x20', '/', '\x20', 'M', 'o', 'd', 'i',
   'f', 'i', 'e', 'r', '*', '\n', '\x20', '\x20', '\x20', '\x20', '\x20', '\x20', '(', '\x20', 'C', 'l', 'a', 's', 's', 'D', 'e', 'c', 'l', 'a', 'r',
   'a', 't', 'i', 'o', 'n', '\n', '\x20', '\x20', '\x20', '\x20', '\x20', '\x20', '/', '\x20', 'E', 'n', 'u', 'm', 'D', 'e', 'c', 'l', 'a', 'r', 'a',
   't', 'i', 'o', 'n', '\n', '\x20', '\x20', '\x20', '\x20', '\x20', '\x20', ')', '\n', '\x20', '\x20', '\x20', '\x20', '/', '\x20', 'S', 't', 'a',
   't', 'e', 'm', 'e', 'n', 't', '\n', '\n', 'S', 't', 'a', 't', 'e', 'm', 'e', 'n', 't', '\n', '\x20', '\x20', '\x20', '\x20', '<', '-', '\x20', 'B',
   'l', 'o', 'c', 'k', '\n', '\x20', '\x20', '\x20', '\x20', '/', '\x20', 'A', 'S', 'S', 'E', 'R', 'T', '\x20', 'E', 'x', 'p', 'r', 'e', 's', 's',
   'i', 'o', 'n', '\x20', '(', 'C', 'O', 'L', 'O', 'N', '\x20', 'E', 'x', 'p', 'r', 'e', 's', 's', 'i', 'o', 'n', ')', '?', '\x20', 'S', 'E', 'M',
   'I', '\n', '\x20', '\x20', '\x20', '\x20', '/', '\x20', 'I', 'F', '\x20', 'P', 'a', 'r', 'E', 'x', 'p', 'r', 'e', 's', 's', 'i', 'o', 'n', '\x20',
   'S', 't', 'a', 't', 'e', 'm', 'e', 'n', 't', '\x20', '(', 'E', 'L', 'S', 'E', '\x20', 'S', 't', 'a', 't', 'e', 'm', 'e', 'n', 't', ')', '?', '\n',
   '\x20', '\x20', '\x20', '\x20', '/', '\x20', 'F', 'O', 'R', '\x20', 'L', 'P', 'A', 'R', '\x20', 'F', 'o', 'r', 'I', 'n', 'i', 't', '?', '\x20',
   'S', 'E', 'M', 'I', '\x20', 'E', 'x', 'p', 'r', 'e', 's', 's', 'i', 'o', 'n', '?', '\x20', 'S', 'E', 'M', 'I', '\x20', 'F', 'o', 'r', 'U', 'p',
   'd', 'a', 't', 'e', '?', '\x20', 'R', 'P', 'A', 'R', '\x20', 'S', 't', 'a', 't', 'e', 'm', 'e', 'n', 't', '\n', '\x20', '\x20', '\x20', '\x20',
   '/', '\x20', 'F', 'O', 'R', '\x20', 'L', 'P', 'A', 'R', '\x20', 'F', 'o', 'r', 'm', 'a', 'l', 'P', 'a', 'r', 'a', 'm', 'e', 't', 'e', 'r', '\x20',
   'C', 'O', 'L', 'O', 'N', '\x20', 'E', 'x', 'p', 'r', 'e', 's', 's', 'i', 'o', 'n', '\x20', 'R', 'P', 'A', 'R', '\x20', 'S', 't', 'a', 't', 'e',
   'm', 'e', 'n', 't', '\n', '\x20', '\x20', '\x20', '\x20', '/', '\x20', 'W', 'H', 'I', 'L', 'E', '\x20', 'P', 'a', 'r', 'E', 'x', 'p', 'r', 'e',
   's', 's', 'i', 'o', 'n', '\x20', 'S', 't', 'a', 't', 'e', 'm', 'e', 'n', 't', '\n', '\x20', '\x20', '\x20', '\x20', '/', '\x20', 'D', 'O', '\x20',
   'S', 't', 'a', 't', 'e', 'm', 'e', 'n', 't', '\x20', 'W', 'H', 'I', 'L', 'E', '\x20', 'P', 'a', 'r', 'E', 'x', 'p', 'r', 'e', 's', 's', 'i', 'o',
   'n', '\x20', '\x20', '\x20', 'S', 'E', 'M', 'I', '\n', '\x20', '\x20', '\x20', '\x20', '/', '\x20', 'T', 'R', 'Y', '\x20', 'L', 'P', 'A', 'R',
   '\x20', 'R', 'e', 's', 'o', 'u', 'r', 'c', 'e', '\x20', '(', 'S', 'E', 'M', 'I', '\x20', 'R', 'e', 's', 'o', 'u', 'r', 'c', 'e', ')', '*', '\x20',
   'S', 'E', 'M', 'I', '?', '\x20', 'R', 'P', 'A', 'R', '\x20', 'B', 'l', 'o', 'c', 'k', '\x20', 'C', 'a', 't', 'c', 'h', '*', '\x20', 'F', 'i', 'n',
   'a', 'l', 'l', 'y', '?', '\n', '\x20', '\x20', '\x20', '\x20', '/', '\x20', 'T', 'R', 'Y', '\x20', 'B', 'l', 'o', 'c', 'k', '\x20', '(', 'C', 'a',
   't', 'c', 'h', '+', '\x20', 'F', 'i', 'n', 'a', 'l', 'l', 'y', '?', '\x20', '/', '\x20', 'F', 'i', 'n', 'a', 'l', 'l', 'y', ')', '\n', '\x20',
   '\x20', '\x20', '\x20', '/', '\x20', 'S', 'W', 'I', 'T', 'C', 'H', '\x20', 'P', 'a', 'r', 'E', 'x', 'p', 'r', 'e', 's', 's', 'i', 'o', 'n', '\x20',
   'L', 'W', 'I', 'N', 'G', '\x20', 'S', 'w', 'i', 't', 'c', 'h', 'B', 'l', 'o', 'c', 'k', 'S', 't', 'a', 't', 'e', 'm', 'e', 'n', 't', 'G', 'r', 'o',
   'u', 'p', 's', '\x20', 'R', 'W', 'I', 'N', 'G', '\n', '\x20', '\x20', '\x20', '\x20', '/', '\x20', 'S', 'Y', 'N', 'C', 'H', 'R', 'O', 'N', 'I',
   'Z', 'E', 'D', '\x20', 'P', 'a', 'r', 'E', 'x', 'p', 'r', 'e', 's', 's', 'i', 'o', 'n', '\x20', 'B', 'l', 'o', 'c', 'k', '\n']

/-- `grammars/java.peg:270-321` -/
def javaFile10 : List UInt8 := bytes "    / RETURN Expression? SEMI
    / THROW Expression   SEMI
    / BREAK Identifier? SEMI
    / CONTINUE Identifier? SEMI
    / SEMI
    / StatementExpression SEMI
    / Identifier COLON Statement

Resource
    <- Modifier* Type VariableDeclaratorId EQU Expression

Catch
    <- CATCH LPAR (FINAL / Annotation)* Type (OR Type)* VariableDeclaratorId RPAR Block

Finally
    <- FINALLY Block

SwitchBlockStatementGroups
    <- SwitchBlockStatementGroup*

SwitchBlockStatementGroup
    <- SwitchLabel BlockStatements

SwitchLabel
    <- CASE ConstantExpression COLON
    / CASE EnumConstantName COLON
    / DEFAULT COLON

ForInit
    <- (FINAL / Annotation)* Type VariableDeclarators
    / StatementExpression (COMMA StatementExpression)*

ForUpdate
    <- StatementExpression (COMMA StatementExpression)*

EnumConstantName
    <- Identifier

#-------------------------------------------------------------------------
#  Expressions
#-------------------------------------------------------------------------

StatementExpression
    <- Expression

    # This is more generous than definition in section 14.8, which allows only
    # specific forms of Expression.


ConstantExpression
    <- Expression

"

theorem java_eq10 : javaFile10 =
  [32, 32, 32, 32, 47, 32, 82, 69, 84, 85, 82, 78, 32, 69, 120, 112, 114, 101, 115, 115, 105, 111, 110, 63, 32, 83, 69, 77, 73, 10, 32, 32, 32, 32,
   47, 32, 84, 72, 82, 79, 87, 32, 69, 120, 112, 114, 101, 115, 115, 105, 111, 110, 32, 32, 32, 83, 69, 77, 73, 10, 32, 32, 32, 32, 47, 32, 66, 82,
   69, 65, 75, 32, 73, 100, 101, 110, 116, 105, 102, 105, 101, 114, 63, 32, 83, 69, 77, 73, 10, 32, 32, 32, 32, 47, 32, 67, 79, 78, 84, 73, 78, 85,
   69, 32, 73, 100, 101, 110, 116, 105, 102, 105, 101, 114, 63, 32, 83, 69, 77, 73, 10, 32, 32, 32, 32, 47, 32, 83, 69, 77, 73, 10, 32, 32, 32, 32,
   47, 32, 83, 116, 97, 116, 101, 109, 101, 110, 116, 69, 120, 112, 114, 101, 115, 115, 105, 111, 110, 32, 83, 69, 77, 73, 10, 32, 32, 32, 32, 47, 32,
   73, 100, 101, 110, 116, 105, 102, 105, 101, 114, 32, 67, 79, 76, 79, 78, 32, 83, 116, 97, 116, 101, 109, 101, 110, 116, 10, 10, 82, 101, 115, 111,
   117, 114, 99, 101, 10, 32, 32, 32, 32, 60, 45, 32, 77, 111, 100, 105, 102, 105, 101, 114, 42, 32, 84, 121, 112, 101, 32, 86, 97, 114, 105, 97, 98,
   108, 101, 68, 101, 99, 108, 97, 114, 97, 116, 111, 114, 73, 100, 32, 69, 81, 85, 32, 69, 120, 112, 114, 101, 115, 115, 105, 111, 110, 10, 10, 67,
   97, 116, 99, 104, 10, 32, 32, 32, 32, 60, 45, 32, 67, 65, 84, 67, 72, 32, 76, 80, 65, 82, 32, 40, 70, 73, 78, 65, 76, 32, 47, 32, 65, 110, 110,
   111, 116, 97, 116, 105, 111, 110, 41, 42, 32, 84, 121, 112, 101, 32, 40, 79, 82, 32, 84, 121, 112, 101, 41, 42, 32, 86, 97, 114, 105, 97, 98, 108,
   101, 68, 101, 99, 108, 97, 114, 97, 116, 111, 114, 73, 100, 32, 82, 80, 65, 82, 32, 66, 108, 111, 99, 107, 10, 10, 70, 105, 110, 97, 108, 108, 121,
   10, 32, 32, 32, 32, 60, 45, 32, 70, 73, 78, 65, 76, 76, 89, 32, 66, 108, 111, 99, 107, 10, 10, 83, 119, 105, 116, 99, 104, 66, 108, 111, 99, 107,
   83, 116, 97, 116, 101, 109, 101, 110, 116, 71, 114, 111, 117, 112, 115, 10, 32, 32, 32, 32, 60, 45, 32, 83, 119, 105, 116, 99, 104, 66, 108, 111,
   99, 107, 83, 116, 97, 116, 101, 109, 101, 110, 116, 71, 114, 111, 117, 112, 42, 10, 10, 83, 119, 105, 116, 99, 104, 66, 108, 111, 99, 107, 83, 116,
   97, 116, 101, 109, 101, 110, 116, 71, 114, 111, 117, 112, 10, 32, 32, 32, 32, 60, 45, 32, 83, 119, 105, 116, 99, 104, 76, 97, 98, 101, 108, 32, 66,
   108, 111, 99, 107, 83, 116, 97, 116, 101, 109, 101, 110, 116, 115, 10, 10, 83, 119, 105, 116, 99, 104, 76, 97, 98, 101, 108, 10, 32, 32, 32, 32,
   60, 45, 32, 67, 65, 83, 69, 32, 67, 111, 110, 115, 116, 97, 110, 116, 69, 120, 112, 114, 101, 115, 115, 105, 111, 110, 32, 67, 79, 76, 79, 78, 10,
   32, 32, 32, 32, 47, 32, 67, 65, 83, 69, 32, 69, 110, 117, 109, 67, 111, 110, 115, 116, 97, 110, 116, 78, 97, 109, 101, 32, 67, 79, 76, 79, 78, 10,
   32, 32, 32, 32, 47, 32, 68, 69, 70, 65, 85, 76, 84, 32, 67, 79, 76, 79, 78, 10, 10, 70, 111, 114, 73, 110, 105, 116, 10, 32, 32, 32, 32, 60, 45,
   32, 40, 70, 73, 78, 65, 76, 32, 47, 32, 65, 110, 110, 111, 116, 97, 116, 105, 111, 110, 41, 42, 32, 84, 121, 112, 101, 32, 86, 97, 114, 105, 97,
   98, 108, 101, 68, 101, 99, 108, 97, 114, 97, 116, 111, 114, 115, 10, 32, 32, 32, 32, 47, 32, 83, 116, 97, 116, 101, 109, 101, 110, 116, 69, 120,
   112, 114, 101, 115, 115, 105, 111, 110, 32, 40, 67, 79, 77, 77, 65, 32, 83, 116, 97, 116, 101, 109, 101, 110, 116, 69, 120, 112, 114, 101, 115,
   115, 105, 111, 110, 41, 42, 10, 10, 70, 111, 114, 85, 112, 100, 97, 116, 101, 10, 32, 32, 32, 32, 60, 45, 32, 83, 116, 97, 116, 101, 109, 101, 110,
   116, 69, 120, 112, 114, 101, 115, 115, 105, 111, 110, 32, 40, 67, 79, 77, 77, 65, 32, 83, 116, 97, 116, 101, 109, 101, 110, 116, 69, 120, 112, 114,
   101, 115, 115, 105, 111, 110, 41, 42, 10, 10, 69, 110, 117, 109, 67, 111, 110, 115, 116, 97, 110, 116, 78, 97, 109, 101, 10, 32, 32, 32, 32, 60,
   45, 32, 73, 100, 101, 110, 116, 105, 102, 105, 101, 114, 10, 10, 35, 45, 45, 45, 45, 45, 45, 45, 45, 45, 45, 45, 45, 45, 45, 45, 45, 45, 45, 45,
   45, 45, 45, 45, 45, 45, 45, 45, 45, 45, 45, 45, 45, 45, 45, 45, 45, 45, 45, 45, 45, 45, 45, 45, 45, 45, 45, 45, 45, 45, 45, 45, 45, 45, 45, 45, 45,
   45, 45, 45, 45, 45, 45, 45, 45, 45, 45, 45, 45, 45, 45, 45, 45, 45, 10, 35, 32, 32, 69, 120, 112, 114, 101, 115, 115, 105, 111, 110, 115, 10, 35,
   45, 45, 45, 45, 45, 45, 45, 45, 45, 45, 45, 45, 45, 45, 45, 45, 45, 45, 45, 45, 45, 45, 45, 45, 45, 45, 45, 45, 45, 45, 45, 45, 45, 45, 45, 45, 45,
   45, 45, 45, 45, 45, 45, 45, 45, 45, 45, 45, 45, 45, 45, 45, 45, 45, 45, 45, 45, 45, 45, 45, 45, 45, 45, 45, 45, 45, 45, 45, 45, 45, 45, 45, 45, 10,
   10, 83, 116, 97, 116, 101, 109, 101, 110, 116, 69, 120, 112, 114, 101, 115, 115, 105, 111, 110, 10, 32, 32, 32, 32, 60, 45, 32, 69, 120, 112, 114,
   101, 115, 115, 105, 111, 110, 10, 10, 32, 32, 32, 32, 35, 32, 84, 104, 105, 115, 32, 105, 115, 32, 109, 111, 114, 101, 32, 103, 101, 110, 101, 114,
   111, 117, 115, 32, 116, 104, 97, 110, 32, 100, 101, 102, 105, 110, 105, 116, 105, 111, 110, 32, 105, 110, 32, 115, 101, 99, 116, 105, 111, 110, 32,
   49, 52, 46, 56, 44, 32, 119, 104, 105, 99, 104, 32, 97, 108, 108, 111, 119, 115, 32, 111, 110, 108, 121, 10, 32, 32, 32, 32, 35, 32, 115, 112, 101,
   99, 105, 102, 105, 99, 32, 102, 111, 114, 109, 115, 32, 111, 102, 32, 69, 120, 112, 114, 101, 115, 115, 105, 111, 110, 46, 10, 10, 10, 67, 111,
   110, 115, 116, 97, 110, 116, 69, 120, 112, 114, 101, 115, 115, 105, 111, 110, 10, 32, 32, 32, 32, 60, 45, 32, 69, 120, 112, 114, 101, 115, 115,
   105, 111, 110, 10, 10] :=
  bytes_ofList
  ['\x20', '\x20', '\x20', '\x20', '/', '\x20', 'R', 'E', 'T', 'U', 'R', 'N', '\x20', 'E', 'x', 'p', 'r', 'e', 's', 's', 'i', 'o', 'n', '?', '\x20',
   'S', 'E', 'M', 'I', '\n', '\x20', '\x20', '\x20', '\x20', '/', '\x20', 'T', 'H', 'R', 'O', 'W', '\x20', 'E', 'x', 'p', 'r', 'e', 's', 's', 'i',
   'o', 'n', '\x20', '\x20', '\x20', 'S', 'E', 'M', 'I', '\n', '\x20', '\x20', '\x20', '\x20', '/', '\x20', 'B', 'R', 'E', 'A', 'K', '\x20', 'I', 'd',
   'e', 'n', 't', 'i', 'f', 'i', 'e', 'r', '?', '\x20', 'S', 'E', 'M', 'I', '\n', '\x20', '\x20', '\x20', '\x20', '/', '\x20', 'C', 'O', 'N', 'T',
   'I', 'N', 'U', 'E', '\x20', 'I', 'd', 'e', 'n', 't', 'i', 'f', 'i', 'e', 'r', '?', '\x20', 'S', 'E', 'M', 'I', '\n', '\x20', '\x20', '\x20',
   '\x20', '/', '\x20', 'S', 'E', 'M', 'I', '\n', '\x20', '\x20', '\x20', '\x20', '/', '\x20', 'S', 't', 'a', 't', 'e', 'm', 'e', 'n', 't', 'E', 'x',
   'p', 'r', 'e', 's', 's', 'i', 'o', 'n', '\x20', 'S', 'E', 'M', 'I', '\n', '\x20', '\x20', '\x20', '\x20', '/', '\x20', 'I', 'd', 'e', 'n', 't',
   'i', 'f', 'i', 'e', 'r', '\x20', 'C', 'O', 'L', 'O', 'N', '\x20', 'S', 't', 'a', 't', 'e', 'm', 'e', 'n', 't', '\n', '\n', 'R', 'e', 's', 'o', 'u',
   'r', 'c', 'e', '\n', '\x20', '\x20', '\x20', '\x20', '<', '-', '\x20', 'M', 'o', 'd', 'i', 'f', 'i', 'e', 'r', '*', '\x20', 'T', 'y', 'p', 'e',
   '\x20', 'V', 'a', 'r', 'i', 'a', 'b', 'l', 'e', 'D', 'e', 'c', 'l', 'a', 'r', 'a', 't', 'o', 'r', 'I', 'd', '\x20', 'E', 'Q', 'U', '\x20', 'E',
   'x', 'p', 'r', 'e', 's', 's', 'i', 'o', 'n', '\n', '\n', 'C', 'a', 't', 'c', 'h', '\n', '\x20', '\x20', '\x20', '\x20', '<', '-', '\x20', 'C', 'A',
   'T', 'C', 'H', '\x20', 'L', 'P', 'A', 'R', '\x20', '(', 'F', 'I', 'N', 'A', 'L', '\x20', '/', '\x20', 'A', 'n', 'n', 'o', 't', 'a', 't', 'i', 'o',
   'n', ')', '*', '\x20', 'T', 'y', 'p', 'e', '\x20', '(', 'O', 'R', '\x20', 'T', 'y', 'p', 'e', ')', '*', '\x20', 'V', 'a', 'r', 'i', 'a', 'b', 'l',
   'e', 'D', 'e', 'c', 'l', 'a', 'r', 'a', 't', 'o', 'r', 'I', 'd', '\x20', 'R', 'P', 'A', 'R', '\x20', 'B', 'l', 'o', 'c', 'k', '\n', '\n', 'F', 'i',
   'n', 'a', 'l', 'l', 'y', '\n', '\x20', '\x20', '\x20', '\x20', '<', '-', '\x20', 'F', 'I', 'N', 'A', 'L', 'L', 'Y', '\x20', 'B', 'l', 'o', 'c',
   'k', '\n', '\n', 'S', 'w', 'i', 't', 'c', 'h', 'B', 'l', 'o', 'c', 'k', 'S', 't', 'a', 't', 'e', 'm', 'e', 'n', 't', 'G', 'r', 'o', 'u', 'p', 's',
   '\n', '\x20', '\x20', '\x20', '\x20', '<', '-', '\x20', 'S', 'w', 'i', 't', 'c', 'h', 'B', 'l', 'o', 'c', 'k', 'S', 't', 'a', 't', 'e', 'm', 'e',
   'n', 't', 'G', 'r', 'o', 'u', 'p', '*', '\n', '\n', 'S', 'w', 'i', 't', 'c', 'h', 'B', 'l', 'o', 'c', 'k', 'S', 't', 'a', 't', 'e', 'm', 'e', 'n',
   't', 'G', 'r', 'o', 'u', 'p', '\n', '\x20', '\x20', '\x20', '\x20', '<', '-', '\x20', 'S', 'w', 'i', 't', 'c', 'h', 'L', 'a', 'b', 'e', 'l',
   '\x20', 'B', 'l', 'o', 'c', 'k', 'S', 't', 'a', 't', 'e', 'm', 'e', 'n', 't', 's', '\n', '\n', 'S', 'w', 'i', 't', 'c', 'h', 'L', 'a', 'b', 'e',
   'l', '\n', '\x20', '\x20', '\x20', '\x20', '<', '-', '\x20', 'C', 'A', 'S', 'E', '\x20', 'C', 'o', 'n', 's', 't', 'a', 'n', 't', 'E', 'x', 'p',
   'r', 'e', 's', 's', 'i', 'o', 'n', '\x20', 'C', 'O', 'L', 'O', 'N', '\n', '\x20', '\x20', '\x20', '\x20', '/', '\x20', 'C', 'A', 'S', 'E', '\x20',
   'E', 'n', 'u', 'm', 'C', 'o', 'n', 's', 't', 'a', 'n', 't', 'N', 'a', 'm', 'e', '\x20', 'C', 'O', 'L', 'O', 'N', '\n', '\x20', '\x20', '\x20',
   '\x20', '/', '\x20', 'D', 'E', 'F', 'A', 'U', 'L', 'T', '\x20', 'C', 'O', 'L', 'O', 'N', '\n', '\n', 'F', 'o', 'r', 'I', 'n', 'i', 't', '\n',
   '\x20', '\x20', '\x20', '\x20', '<', '-', '\x20', '(', 'F', 'I', 'N', 'A', 'L', '\x20', '/', '\x20', 'A', 'n', 'n', 'o', 't', 'a', 't', 'i', 'o',
   'n', ')', '*', '\x20', 'T', 'y', 'p', 'e', '\x20', 'V', 'a', 'r', 'i', 'a', 'b', 'l', 'e', 'D', 'e', 'c', 'l', 'a', 'r', 'a', 't', 'o', 'r', 's',
   '\n', '\x20', '\x20', '\x20', '\x20', '/', '\x20', 'S', 't', 'a', 't', 'e', 'm', 'e', 'n', 't', 'E', 'x', 'p', 'r', 'e', 's', 's', 'i', 'o', 'n',
   '\x20', '(', 'C', 'O', 'M', 'M', 'A', '\x20', 'S', 't', 'a', 't', 'e', 'm', 'e', 'n', 't', 'E', 'x', 'p', 'r', 'e', 's', 's', 'i', 'o', 'n', ')',
   '*', '\n', '\n', 'F', 'o', 'r', 'U', 'p', 'd', 'a', 't', 'e', '\n', '\x20', '\x20', '\x20', '\x20', '<', '-', '\x20', 'S', 't', 'a', 't', 'e', 'm',
   'e', 'n', 't', 'E', 'x', 'p', 'r', 'e', 's', 's', 'i', 'o', 'n', '\x20', '(', 'C', 'O', 'M', 'M', 'A', '\x20', 'S', 't', 'a', 't', 'e', 'm', 'e',
   'n', 't', 'E', 'x', 'p', 'r', 'e', 's', 's', 'i', 'o', 'n', ')', '*', '\n', '\n', 'E', 'n', 'u', 'm', 'C', 'o', 'n', 's', 't', 'a', 'n', 't', 'N',
   'a', 'm', 'e', '\n', '\x20', '\x20', '\x20', '\x20', '<', '-', '\x20', 'I', 'd', 'e', 'n', 't', 'i', 'f', 'i', 'e', 'r', '\n', '\n', '#', '-', '-',
   '-', '-', '-', '-', '-', '-', '-', '-', '-', '-', '-', '-', '-', '-', '-', '-', '-', '-', '-', '-', '-', '-', '-', '-', '-', '-', '-', '-', '-',
   '-', '-', '-', '-', '-', '-', '-', '-', '-', '-', '-', '-', '-', '-', '-', '-', '-', '-', '-', '-', '-', '-', '-', '-', '-', '-', '-', '-', '-',
   '-', '-', '-', '-', '-', '-', '-', '-', '-', '-', '-', '-', '-', '\n', '#', '\x20', '\x20', 'E', 'x', 'p', 'r', 'e', 's', 's', 'i', 'o', 'n', 's',
   '\n', '#', '-', '-', '-', '-', '-', '-', '-', '-', '-', '-', '-', '-', '-', '-', '-', '-', '-', '-', '-', '-', '-', '-', '-', '-', '-', '-', '-',
   '-', '-', '-', '-', '-', '-', '-', '-', '-', '-', '-', '-', '-', '-', '-', '-', '-', '-', '-', '-', '-', '-', '-', '-', '-', '-', '-', '-', '-',
   '-', '-', '-', '-', '-', '-', '-', '-', '-', '-', '-', '-', '-', '-', '-', '-', '-', '\n', '\n', 'S', 't', 'a', 't', 'e', 'm', 'e', 'n', 't', 'E',
   'x', 'p', 'r', 'e', 's', 's', 'i', 'o', 'n', '\n', '\x20', '\x20', '\x20', '\x20', '<', '-', '\x20', 'E', 'x', 'p', 'r', 'e', 's', 's', 'i', 'o',
   'n', '\n', '\n', '\x20', '\x20', '\x20', '\x20', '#', '\x20', 'T', 'h', 'i', 's', '\x20', 'i', 's', '\x20', 'm', 'o', 'r', 'e', '\x20', 'g', 'e',
   'n', 'e', 'r', 'o', 'u', 's', '\x20', 't', 'h', 'a', 'n', '\x20', 'd', 'e', 'f', 'i', 'n', 'i', 't', 'i', 'o', 'n', '\x20', 'i', 'n', '\x20', 's',
   'e', 'c', 't', 'i', 'o', 'n', '\x20', '1', '4', '.', '8', ',', '\x20', 'w', 'h', 'i', 'c', 'h', '\x20', 'a', 'l', 'l', 'o', 'w', 's', '\x20', 'o',
   'n', 'l', 'y', '\n', '\x20', '\x20', '\x20', '\x20', '#', '\x20', 's', 'p', 'e', 'c', 'i', 'f', 'i', 'c', '\x20', 'f', 'o', 'r', 'm', 's', '\x20',
   'o', 'f', '\x20', 'E', 'x', 'p', 'r', 'e', 's', 's', 'i', 'o', 'n', '.', '\n', '\n', '\n', 'C', 'o', 'n', 's', 't', 'a', 'n', 't', 'E', 'x', 'p',
   'r', 'e', 's', 's', 'i', 'o', 'n', '\n', '\x20', '\x20', '\x20', '\x20', '<', '-', '\x20', 'E', 'x', 'p', 'r', 'e', 's', 's', 'i', 'o', 'n', '\n',
   '\n']

/-- `grammars/java.peg:322-365` -/
def javaFile11 : List UInt8 := bytes "Expression
    <- ConditionalExpression (AssignmentOperator ConditionalExpression)*

    # This definition is part of the modification in JLS Chapter 18
    # to minimize look ahead. In JLS Chapter 15.27, Expression is defined
    # as AssignmentExpression, which is effectively defined as
    # (LeftHandSide AssignmentOperator)* ConditionalExpression.
    # The above is obtained by allowing ANY ConditionalExpression
    # as LeftHandSide, which results in accepting statements like 5 = a.


AssignmentOperator
    <- EQU
    / PLUSEQU
    / MINUSEQU
    / STAREQU
    / DIVEQU
    / ANDEQU
    / OREQU
    / HATEQU
    / MODEQU
    / SLEQU
    / SREQU
    / BSREQU

ConditionalExpression
    <- ConditionalOrExpression (QUERY Expression COLON ConditionalOrExpression)*

ConditionalOrExpression
    <- ConditionalAndExpression (OROR ConditionalAndExpression)*

ConditionalAndExpression
    <- InclusiveOrExpression (ANDAND InclusiveOrExpression)*

InclusiveOrExpression
    <- ExclusiveOrExpression (OR ExclusiveOrExpression)*

ExclusiveOrExpression
    <- AndExpression (HAT AndExpression)*

AndExpression
    <- EqualityExpression (AND EqualityExpression)*

EqualityExpression
"

theorem java_eq11 : javaFile11 =
  [69, 120, 112, 114, 101, 115, 115, 105, 111, 110, 10, 32, 32, 32, 32, 60, 45, 32, 67, 111, 110, 100, 105, 116, 105, 111, 110, 97, 108, 69, 120, 112,
   114, 101, 115, 115, 105, 111, 110, 32, 40, 65, 115, 115, 105, 103, 110, 109, 101, 110, 116, 79, 112, 101, 114, 97, 116, 111, 114, 32, 67, 111, 110,
   100, 105, 116, 105, 111, 110, 97, 108, 69, 120, 112, 114, 101, 115, 115, 105, 111, 110, 41, 42, 10, 10, 32, 32, 32, 32, 35, 32, 84, 104, 105, 115,
   32, 100, 101, 102, 105, 110, 105, 116, 105, 111, 110, 32, 105, 115, 32, 112, 97, 114, 116, 32, 111, 102, 32, 116, 104, 101, 32, 109, 111, 100, 105,
   102, 105, 99, 97, 116, 105, 111, 110, 32, 105, 110, 32, 74, 76, 83, 32, 67, 104, 97, 112, 116, 101, 114, 32, 49, 56, 10, 32, 32, 32, 32, 35, 32,
   116, 111, 32, 109, 105, 110, 105, 109, 105, 122, 101, 32, 108, 111, 111, 107, 32, 97, 104, 101, 97, 100, 46, 32, 73, 110, 32, 74, 76, 83, 32, 67,
   104, 97, 112, 116, 101, 114, 32, 49, 53, 46, 50, 55, 44, 32, 69, 120, 112, 114, 101, 115, 115, 105, 111, 110, 32, 105, 115, 32, 100, 101, 102, 105,
   110, 101, 100, 10, 32, 32, 32, 32, 35, 32, 97, 115, 32, 65, 115, 115, 105, 103, 110, 109, 101, 110, 116, 69, 120, 112, 114, 101, 115, 115, 105,
   111, 110, 44, 32, 119, 104, 105, 99, 104, 32, 105, 115, 32, 101, 102, 102, 101, 99, 116, 105, 118, 101, 108, 121, 32, 100, 101, 102, 105, 110, 101,
   100, 32, 97, 115, 10, 32, 32, 32, 32, 35, 32, 40, 76, 101, 102, 116, 72, 97, 110, 100, 83, 105, 100, 101, 32, 65, 115, 115, 105, 103, 110, 109,
   101, 110, 116, 79, 112, 101, 114, 97, 116, 111, 114, 41, 42, 32, 67, 111, 110, 100, 105, 116, 105, 111, 110, 97, 108, 69, 120, 112, 114, 101, 115,
   115, 105, 111, 110, 46, 10, 32, 32, 32, 32, 35, 32, 84, 104, 101, 32, 97, 98, 111, 118, 101, 32, 105, 115, 32, 111, 98, 116, 97, 105, 110, 101,
   100, 32, 98, 121, 32, 97, 108, 108, 111, 119, 105, 110, 103, 32, 65, 78, 89, 32, 67, 111, 110, 100, 105, 116, 105, 111, 110, 97, 108, 69, 120, 112,
   114, 101, 115, 115, 105, 111, 110, 10, 32, 32, 32, 32, 35, 32, 97, 115, 32, 76, 101, 102, 116, 72, 97, 110, 100, 83, 105, 100, 101, 44, 32, 119,
   104, 105, 99, 104, 32, 114, 101, 115, 117, 108, 116, 115, 32, 105, 110, 32, 97, 99, 99, 101, 112, 116, 105, 110, 103, 32, 115, 116, 97, 116, 101,
   109, 101, 110, 116, 115, 32, 108, 105, 107, 101, 32, 53, 32, 61, 32, 97, 46, 10, 10, 10, 65, 115, 115, 105, 103, 110, 109, 101, 110, 116, 79, 112,
   101, 114, 97, 116, 111, 114, 10, 32, 32, 32, 32, 60, 45, 32, 69, 81, 85, 10, 32, 32, 32, 32, 47, 32, 80, 76, 85, 83, 69, 81, 85, 10, 32, 32, 32,
   32, 47, 32, 77, 73, 78, 85, 83, 69, 81, 85, 10, 32, 32, 32, 32, 47, 32, 83, 84, 65, 82, 69, 81, 85, 10, 32, 32, 32, 32, 47, 32, 68, 73, 86, 69, 81,
   85, 10, 32, 32, 32, 32, 47, 32, 65, 78, 68, 69, 81, 85, 10, 32, 32, 32, 32, 47, 32, 79, 82, 69, 81, 85, 10, 32, 32, 32, 32, 47, 32, 72, 65, 84, 69,
   81, 85, 10, 32, 32, 32, 32, 47, 32, 77, 79, 68, 69, 81, 85, 10, 32, 32, 32, 32, 47, 32, 83, 76, 69, 81, 85, 10, 32, 32, 32, 32, 47, 32, 83, 82, 69,
   81, 85, 10, 32, 32, 32, 32, 47, 32, 66, 83, 82, 69, 81, 85, 10, 10, 67, 111, 110, 100, 105, 116, 105, 111, 110, 97, 108, 69, 120, 112, 114, 101,
   115, 115, 105, 111, 110, 10, 32, 32, 32, 32, 60, 45, 32, 67, 111, 110, 100, 105, 116, 105, 111, 110, 97, 108, 79, 114, 69, 120, 112, 114, 101, 115,
   115, 105, 111, 110, 32, 40, 81, 85, 69, 82, 89, 32, 69, 120, 112, 114, 101, 115, 115, 105, 111, 110, 32, 67, 79, 76, 79, 78, 32, 67, 111, 110, 100,
   105, 116, 105, 111, 110, 97, 108, 79, 114, 69, 120, 112, 114, 101, 115, 115, 105, 111, 110, 41, 42, 10, 10, 67, 111, 110, 100, 105, 116, 105, 111,
   110, 97, 108, 79, 114, 69, 120, 112, 114, 101, 115, 115, 105, 111, 110, 10, 32, 32, 32, 32, 60, 45, 32, 67, 111, 110, 100, 105, 116, 105, 111, 110,
   97, 108, 65, 110, 100, 69, 120, 112, 114, 101, 115, 115, 105, 111, 110, 32, 40, 79, 82, 79, 82, 32, 67, 111, 110, 100, 105, 116, 105, 111, 110, 97,
   108, 65, 110, 100, 69, 120, 112, 114, 101, 115, 115, 105, 111, 110, 41, 42, 10, 10, 67, 111, 110, 100, 105, 116, 105, 111, 110, 97, 108, 65, 110,
   100, 69, 120, 112, 114, 101, 115, 115, 105, 111, 110, 10, 32, 32, 32, 32, 60, 45, 32, 73, 110, 99, 108, 117, 115, 105, 118, 101, 79, 114, 69, 120,
   112, 114, 101, 115, 115, 105, 111, 110, 32, 40, 65, 78, 68, 65, 78, 68, 32, 73, 110, 99, 108, 117, 115, 105, 118, 101, 79, 114, 69, 120, 112, 114,
   101, 115, 115, 105, 111, 110, 41, 42, 10, 10, 73, 110, 99, 108, 117, 115, 105, 118, 101, 79, 114, 69, 120, 112, 114, 101, 115, 115, 105, 111, 110,
   10, 32, 32, 32, 32, 60, 45, 32, 69, 120, 99, 108, 117, 115, 105, 118, 101, 79, 114, 69, 120, 112, 114, 101, 115, 115, 105, 111, 110, 32, 40, 79,
   82, 32, 69, 120, 99, 108, 117, 115, 105, 118, 101, 79, 114, 69, 120, 112, 114, 101, 115, 115, 105, 111, 110, 41, 42, 10, 10, 69, 120, 99, 108, 117,
   115, 105, 118, 101, 79, 114, 69, 120, 112, 114, 101, 115, 115, 105, 111, 110, 10, 32, 32, 32, 32, 60, 45, 32, 65, 110, 100, 69, 120, 112, 114, 101,
   115, 115, 105, 111, 110, 32, 40, 72, 65, 84, 32, 65, 110, 100, 69, 120, 112, 114, 101, 115, 115, 105, 111, 110, 41, 42, 10, 10, 65, 110, 100, 69,
   120, 112, 114, 101, 115, 115, 105, 111, 110, 10, 32, 32, 32, 32, 60, 45, 32, 69, 113, 117, 97, 108, 105, 116, 121, 69, 120, 112, 114, 101, 115,
   115, 105, 111, 110, 32, 40, 65, 78, 68, 32, 69, 113, 117, 97, 108, 105, 116, 121, 69, 120, 112, 114, 101, 115, 115, 105, 111, 110, 41, 42, 10, 10,
   69, 113, 117, 97, 108, 105, 116, 121, 69, 120, 112, 114, 101, 115, 115, 105, 111, 110, 10] :=
  bytes_ofList
  ['E', 'x', 'p', 'r', 'e', 's', 's', 'i', 'o', 'n', '\n', '\x20', '\x20', '\x20', '\x20', '<', '-', '\x20', 'C', 'o', 'n', 'd', 'i', 't', 'i', 'o',
   'n', 'a', 'l', 'E', 'x', 'p', 'r', 'e', 's', 's', 'i', 'o', 'n', '\x20', '(', 'A', 's', 's', 'i', 'g', 'n', 'm', 'e', 'n', 't', 'O', 'p', 'e', 'r',
   'a', 't', 'o', 'r', '\x20', 'C', 'o', 'n', 'd', 'i', 't', 'i', 'o', 'n', 'a', 'l', 'E', 'x', 'p', 'r', 'e', 's', 's', 'i', 'o', 'n', ')', '*',
   '\n', '\n', '\x20', '\x20', '\x20', '\x20', '#', '\x20', 'T', 'h', 'i', 's', '\x20', 'd', 'e', 'f', 'i', 'n', 'i', 't', 'i', 'o', 'n', '\x20', 'i',
   's', '\x20', 'p', 'a', 'r', 't', '\x20', 'o', 'f', '\x20', 't', 'h', 'e', '\x20', 'm', 'o', 'd', 'i', 'f', 'i', 'c', 'a', 't', 'i', 'o', 'n',
   '\x20', 'i', 'n', '\x20', 'J', 'L', 'S', '\x20', 'C', 'h', 'a', 'p', 't', 'e', 'r', '\x20', '1', '8', '\n', '\x20', '\x20', '\x20', '\x20', '#',
   '\x20', 't', 'o', '\x20', 'm', 'i', 'n', 'i', 'm', 'i', 'z', 'e', '\x20', 'l', 'o', 'o', 'k', '\x20', 'a', 'h', 'e', 'a', 'd', '.', '\x20', 'I',
   'n', '\x20', 'J', 'L', 'S', '\x20', 'C', 'h', 'a', 'p', 't', 'e', 'r', '\x20', '1', '5', '.', '2', '7', ',', '\x20', 'E', 'x', 'p', 'r', 'e', 's',
   's', 'i', 'o', 'n', '\x20', 'i', 's', '\x20', 'd', 'e', 'f', 'i', 'n', 'e', 'd', '\n', '\x20', '\x20', '\x20', '\x20', '#', '\x20', 'a', 's',
   '\x20', 'A', 's', 's', 'i', 'g', 'n', 'm', 'e', 'n', 't', 'E', 'x', 'p', 'r', 'e', 's', 's', 'i', 'o', 'n', ',', '\x20', 'w', 'h', 'i', 'c', 'h',
   '\x20', 'i', 's', '\x20', 'e', 'f', 'f', 'e', 'c', 't', 'i', 'v', 'e', 'l', 'y', '\x20', 'd', 'e', 'f', 'i', 'n', 'e', 'd', '\x20', 'a', 's', '\n',
   '\x20', '\x20', '\x20', '\x20', '#', '\x20', '(', 'L', 'e', 'f', 't', 'H', 'a', 'n', 'd', 'S', 'i', 'd', 'e', '\x20', 'A', 's', 's', 'i', 'g', 'n',
   'm', 'e', 'n', 't', 'O', 'p', 'e', 'r', 'a', 't', 'o', 'r', ')', '*', '\x20', 'C', 'o', 'n', 'd', 'i', 't', 'i', 'o', 'n', 'a', 'l', 'E', 'x', 'p',
   'r', 'e', 's', 's', 'i', 'o', 'n', '.', '\n', '\x20', '\x20', '\x20', '\x20', '#', '\x20', 'T', 'h', 'e', '\x20', 'a', 'b', 'o', 'v', 'e', '\x20',
   'i', 's', '\x20', 'o', 'b', 't', 'a', 'i', 'n', 'e', 'd', '\x20', 'b', 'y', '\x20', 'a', 'l', 'l', 'o', 'w', 'i', 'n', 'g', '\x20', 'A', 'N', 'Y',
   '\x20', 'C', 'o', 'n', 'd', 'i', 't', 'i', 'o', 'n', 'a', 'l', 'E', 'x', 'p', 'r', 'e', 's', 's', 'i', 'o', 'n', '\n', '\x20', '\x20', '\x20',
   '\x20', '#', '\x20', 'a', 's', '\x20', 'L', 'e', 'f', 't', 'H', 'a', 'n', 'd', 'S', 'i', 'd', 'e', ',', '\x20', 'w', 'h', 'i', 'c', 'h', '\x20',
   'r', 'e', 's', 'u', 'l', 't', 's', '\x20', 'i', 'n', '\x20', 'a', 'c', 'c', 'e', 'p', 't', 'i', 'n', 'g', '\x20', 's', 't', 'a', 't', 'e', 'm',
   'e', 'n', 't', 's', '\x20', 'l', 'i', 'k', 'e', '\x20', '5', '\x20', '=', '\x20', 'a', '.', '\n', '\n', '\n', 'A', 's', 's', 'i', 'g', 'n', 'm',
   'e', 'n', 't', 'O', 'p', 'e', 'r', 'a', 't', 'o', 'r', '\n', '\x20', '\x20', '\x20', '\x20', '<', '-', '\x20', 'E', 'Q', 'U', '\n', '\x20', '\x20',
   '\x20', '\x20', '/', '\x20', 'P', 'L', 'U', 'S', 'E', 'Q', 'U', '\n', '\x20', '\x20', '\x20', '\x20', '/', '\x20', 'M', 'I', 'N', 'U', 'S', 'E',
   'Q', 'U', '\n', '\x20', '\x20', '\x20', '\x20', '/', '\x20', 'S', 'T', 'A', 'R', 'E', 'Q', 'U', '\n', '\x20', '\x20', '\x20', '\x20', '/', '\x20',
   'D', 'I', 'V', 'E', 'Q', 'U', '\n', '\x20', '\x20', '\x20', '\x20', '/', '\x20', 'A', 'N', 'D', 'E', 'Q', 'U', '\n', '\x20', '\x20', '\x20',
   '\x20', '/', '\x20', 'O', 'R', 'E', 'Q', 'U', '\n', '\x20', '\x20', '\x20', '\x20', '/', '\x20', 'H', 'A', 'T', 'E', 'Q', 'U', '\n', '\x20',
   '\x20', '\x20', '\x20', '/', '\x20', 'M', 'O', 'D', 'E', 'Q', 'U', '\n', '\x20', '\x20', '\x20', '\x20', '/', '\x20', 'S', 'L', 'E', 'Q', 'U',
   '\n', '\x20', '\x20', '\x20', '\x20', '/', '\x20', 'S', 'R', 'E', 'Q', 'U', '\n', '\x20', '\x20', '\x20', '\x20', '/', '\x20', 'B', 'S', 'R', 'E',
   'Q', 'U', '\n', '\n', 'C', 'o', 'n', 'd', 'i', 't', 'i', 'o', 'n', 'a', 'l', 'E', 'x', 'p', 'r', 'e', 's', 's', 'i', 'o', 'n', '\n', '\x20',
   '\x20', '\x20', '\x20', '<', '-', '\x20', 'C', 'o', 'n', 'd', 'i', 't', 'i', 'o', 'n', 'a', 'l', 'O', 'r', 'E', 'x', 'p', 'r', 'e', 's', 's', 'i',
   'o', 'n', '\x20', '(', 'Q', 'U', 'E', 'R', 'Y', '\x20', 'E', 'x', 'p', 'r', 'e', 's', 's', 'i', 'o', 'n', '\x20', 'C', 'O', 'L', 'O', 'N', '\x20',
   'C', 'o', 'n', 'd', 'i', 't', 'i', 'o', 'n', 'a', 'l', 'O', 'r', 'E', 'x', 'p', 'r', 'e', 's', 's', 'i', 'o', 'n', ')', '*', '\n', '\n', 'C', 'o',
   'n', 'd', 'i', 't', 'i', 'o', 'n', 'a', 'l', 'O', 'r', 'E', 'x', 'p', 'r', 'e', 's', 's', 'i', 'o', 'n', '\n', '\x20', '\x20', '\x20', '\x20', '<',
   '-', '\x20', 'C', 'o', 'n', 'd', 'i', 't', 'i', 'o', 'n', 'a', 'l', 'A', 'n', 'd', 'E', 'x', 'p', 'r', 'e', 's', 's', 'i', 'o', 'n', '\x20', '(',
   'O', 'R', 'O', 'R', '\x20', 'C', 'o', 'n', 'd', 'i', 't', 'i', 'o', 'n', 'a', 'l', 'A', 'n', 'd', 'E', 'x', 'p', 'r', 'e', 's', 's', 'i', 'o', 'n',
   ')', '*', '\n', '\n', 'C', 'o', 'n', 'd', 'i', 't', 'i', 'o', 'n', 'a', 'l', 'A', 'n', 'd', 'E', 'x', 'p', 'r', 'e', 's', 's', 'i', 'o', 'n', '\n',
   '\x20', '\x20', '\x20', '\x20', '<', '-', '\x20', 'I', 'n', 'c', 'l', 'u', 's', 'i', 'v', 'e', 'O', 'r', 'E', 'x', 'p', 'r', 'e', 's', 's', 'i',
   'o', 'n', '\x20', '(', 'A', 'N', 'D', 'A', 'N', 'D', '\x20', 'I', 'n', 'c', 'l', 'u', 's', 'i', 'v', 'e', 'O', 'r', 'E', 'x', 'p', 'r', 'e', 's',
   's', 'i', 'o', 'n', ')', '*', '\n', '\n', 'I', 'n', 'c', 'l', 'u', 's', 'i', 'v', 'e', 'O', 'r', 'E', 'x', 'p', 'r', 'e', 's', 's', 'i', 'o', 'n',
   '\n', '\x20', '\x20', '\x20', '\x20', '<', '-', '\x20', 'E', 'x', 'c', 'l', 'u', 's', 'i', 'v', 'e', 'O', 'r', 'E', 'x', 'p', 'r', 'e', 's', 's',
   'i', 'o', 'n', '\x20', '(', 'O', 'R', '\x20', 'E', 'x', 'c', 'l', 'u', 's', 'i', 'v', 'e', 'O', 'r', 'E', 'x', 'p', 'r', 'e', 's', 's', 'i', 'o',
   'n', ')', '*', '\n', '\n', 'E', 'x', 'c', 'l', 'u', 's', 'i', 'v', 'e', 'O', 'r', 'E', 'x', 'p', 'r', 'e', 's', 's', 'i', 'o', 'n', '\n', '\x20',
   '\x20', '\x20', '\x20', '<', '-', '\x20', 'A', 'n', 'd', 'E', 'x', 'p', 'r', 'e', 's', 's', 'i', 'o', 'n', '\x20', '(', 'H', 'A', 'T', '\x20', 'A',
   'n', 'd', 'E', 'x', 'p', 'r', 'e', 's', 's', 'i', 'o', 'n', ')', '*', '\n', '\n', 'A', 'n', 'd', 'E', 'x', 'p', 'r', 'e', 's', 's', 'i', 'o', 'n',
   '\n', '\x20', '\x20', '\x20', '\x20', '<', '-', '\x20', 'E', 'q', 'u', 'a', 'l', 'i', 't', 'y', 'E', 'x', 'p', 'r', 'e', 's', 's', 'i', 'o', 'n',
   '\x20', '(', 'A', 'N', 'D', '\x20', 'E', 'q', 'u', 'a', 'l', 'i', 't', 'y', 'E', 'x', 'p', 'r', 'e', 's', 's', 'i', 'o', 'n', ')', '*', '\n', '\n',
   'E', 'q', 'u', 'a', 'l', 'i', 't', 'y', 'E', 'x', 'p', 'r', 'e', 's', 's', 'i', 'o', 'n', '\n']

/-- `grammars/java.peg:366-409` -/
def javaFile12 : List UInt8 := bytes "    <- RelationalExpression ((EQUAL /  NOTEQUAL) RelationalExpression)*

RelationalExpression
    <- ShiftExpression ((LE / GE / LT / GT) ShiftExpression / INSTANCEOF ReferenceType)*

ShiftExpression
    <- AdditiveExpression ((SL / SR / BSR) AdditiveExpression)*

AdditiveExpression
    <- MultiplicativeExpression ((PLUS / MINUS) MultiplicativeExpression)*

MultiplicativeExpression
    <- UnaryExpression ((STAR / DIV / MOD) UnaryExpression)*

UnaryExpression
    <- PrefixOp UnaryExpression
    / LPAR Type RPAR UnaryExpression
    / Primary (Selector)* (PostfixOp)*

Primary
    <- ParExpression
    / NonWildcardTypeArguments (ExplicitGenericInvocationSuffix / THIS Arguments)
    / THIS Arguments?
    / SUPER SuperSuffix
    / Literal
    / NEW Creator
    / QualifiedIdentifier IdentifierSuffix?
    / BasicType Dim* DOT CLASS
    / VOID DOT CLASS

IdentifierSuffix
    <- LBRK ( RBRK Dim* DOT CLASS / Expression RBRK)
    / Arguments
    / DOT
      ( CLASS
      / ExplicitGenericInvocation
      / THIS
      / SUPER Arguments
      / NEW NonWildcardTypeArguments? InnerCreator
      )

ExplicitGenericInvocation
    <- NonWildcardTypeArguments ExplicitGenericInvocationSuffix

"

theorem java_eq12 : javaFile12 =
  [32, 32, 32, 32, 60, 45, 32, 82, 101, 108, 97, 116, 105, 111, 110, 97, 108, 69, 120, 112, 114, 101, 115, 115, 105, 111, 110, 32, 40, 40, 69, 81, 85,
   65, 76, 32, 47, 32, 32, 78, 79, 84, 69, 81, 85, 65, 76, 41, 32, 82, 101, 108, 97, 116, 105, 111, 110, 97, 108, 69, 120, 112, 114, 101, 115, 115,
   105, 111, 110, 41, 42, 10, 10, 82, 101, 108, 97, 116, 105, 111, 110, 97, 108, 69, 120, 112, 114, 101, 115, 115, 105, 111, 110, 10, 32, 32, 32, 32,
   60, 45, 32, 83, 104, 105, 102, 116, 69, 120, 112, 114, 101, 115, 115, 105, 111, 110, 32, 40, 40, 76, 69, 32, 47, 32, 71, 69, 32, 47, 32, 76, 84,
   32, 47, 32, 71, 84, 41, 32, 83, 104, 105, 102, 116, 69, 120, 112, 114, 101, 115, 115, 105, 111, 110, 32, 47, 32, 73, 78, 83, 84, 65, 78, 67, 69,
   79, 70, 32, 82, 101, 102, 101, 114, 101, 110, 99, 101, 84, 121, 112, 101, 41, 42, 10, 10, 83, 104, 105, 102, 116, 69, 120, 112, 114, 101, 115, 115,
   105, 111, 110, 10, 32, 32, 32, 32, 60, 45, 32, 65, 100, 100, 105, 116, 105, 118, 101, 69, 120, 112, 114, 101, 115, 115, 105, 111, 110, 32, 40, 40,
   83, 76, 32, 47, 32, 83, 82, 32, 47, 32, 66, 83, 82, 41, 32, 65, 100, 100, 105, 116, 105, 118, 101, 69, 120, 112, 114, 101, 115, 115, 105, 111, 110,
   41, 42, 10, 10, 65, 100, 100, 105, 116, 105, 118, 101, 69, 120, 112, 114, 101, 115, 115, 105, 111, 110, 10, 32, 32, 32, 32, 60, 45, 32, 77, 117,
   108, 116, 105, 112, 108, 105, 99, 97, 116, 105, 118, 101, 69, 120, 112, 114, 101, 115, 115, 105, 111, 110, 32, 40, 40, 80, 76, 85, 83, 32, 47, 32,
   77, 73, 78, 85, 83, 41, 32, 77, 117, 108, 116, 105, 112, 108, 105, 99, 97, 116, 105, 118, 101, 69, 120, 112, 114, 101, 115, 115, 105, 111, 110, 41,
   42, 10, 10, 77, 117, 108, 116, 105, 112, 108, 105, 99, 97, 116, 105, 118, 101, 69, 120, 112, 114, 101, 115, 115, 105, 111, 110, 10, 32, 32, 32, 32,
   60, 45, 32, 85, 110, 97, 114, 121, 69, 120, 112, 114, 101, 115, 115, 105, 111, 110, 32, 40, 40, 83, 84, 65, 82, 32, 47, 32, 68, 73, 86, 32, 47, 32,
   77, 79, 68, 41, 32, 85, 110, 97, 114, 121, 69, 120, 112, 114, 101, 115, 115, 105, 111, 110, 41, 42, 10, 10, 85, 110, 97, 114, 121, 69, 120, 112,
   114, 101, 115, 115, 105, 111, 110, 10, 32, 32, 32, 32, 60, 45, 32, 80, 114, 101, 102, 105, 120, 79, 112, 32, 85, 110, 97, 114, 121, 69, 120, 112,
   114, 101, 115, 115, 105, 111, 110, 10, 32, 32, 32, 32, 47, 32, 76, 80, 65, 82, 32, 84, 121, 112, 101, 32, 82, 80, 65, 82, 32, 85, 110, 97, 114,
   121, 69, 120, 112, 114, 101, 115, 115, 105, 111, 110, 10, 32, 32, 32, 32, 47, 32, 80, 114, 105, 109, 97, 114, 121, 32, 40, 83, 101, 108, 101, 99,
   116, 111, 114, 41, 42, 32, 40, 80, 111, 115, 116, 102, 105, 120, 79, 112, 41, 42, 10, 10, 80, 114, 105, 109, 97, 114, 121, 10, 32, 32, 32, 32, 60,
   45, 32, 80, 97, 114, 69, 120, 112, 114, 101, 115, 115, 105, 111, 110, 10, 32, 32, 32, 32, 47, 32, 78, 111, 110, 87, 105, 108, 100, 99, 97, 114,
   100, 84, 121, 112, 101, 65, 114, 103, 117, 109, 101, 110, 116, 115, 32, 40, 69, 120, 112, 108, 105, 99, 105, 116, 71, 101, 110, 101, 114, 105, 99,
   73, 110, 118, 111, 99, 97, 116, 105, 111, 110, 83, 117, 102, 102, 105, 120, 32, 47, 32, 84, 72, 73, 83, 32, 65, 114, 103, 117, 109, 101, 110, 116,
   115, 41, 10, 32, 32, 32, 32, 47, 32, 84, 72, 73, 83, 32, 65, 114, 103, 117, 109, 101, 110, 116, 115, 63, 10, 32, 32, 32, 32, 47, 32, 83, 85, 80,
   69, 82, 32, 83, 117, 112, 101, 114, 83, 117, 102, 102, 105, 120, 10, 32, 32, 32, 32, 47, 32, 76, 105, 116, 101, 114, 97, 108, 10, 32, 32, 32, 32,
   47, 32, 78, 69, 87, 32, 67, 114, 101, 97, 116, 111, 114, 10, 32, 32, 32, 32, 47, 32, 81, 117, 97, 108, 105, 102, 105, 101, 100, 73, 100, 101, 110,
   116, 105, 102, 105, 101, 114, 32, 73, 100, 101, 110, 116, 105, 102, 105, 101, 114, 83, 117, 102, 102, 105, 120, 63, 10, 32, 32, 32, 32, 47, 32, 66,
   97, 115, 105, 99, 84, 121, 112, 101, 32, 68, 105, 109, 42, 32, 68, 79, 84, 32, 67, 76, 65, 83, 83, 10, 32, 32, 32, 32, 47, 32, 86, 79, 73, 68, 32,
   68, 79, 84, 32, 67, 76, 65, 83, 83, 10, 10, 73, 100, 101, 110, 116, 105, 102, 105, 101, 114, 83, 117, 102, 102, 105, 120, 10, 32, 32, 32, 32, 60,
   45, 32, 76, 66, 82, 75, 32, 40, 32, 82, 66, 82, 75, 32, 68, 105, 109, 42, 32, 68, 79, 84, 32, 67, 76, 65, 83, 83, 32, 47, 32, 69, 120, 112, 114,
   101, 115, 115, 105, 111, 110, 32, 82, 66, 82, 75, 41, 10, 32, 32, 32, 32, 47, 32, 65, 114, 103, 117, 109, 101, 110, 116, 115, 10, 32, 32, 32, 32,
   47, 32, 68, 79, 84, 10, 32, 32, 32, 32, 32, 32, 40, 32, 67, 76, 65, 83, 83, 10, 32, 32, 32, 32, 32, 32, 47, 32, 69, 120, 112, 108, 105, 99, 105,
   116, 71, 101, 110, 101, 114, 105, 99, 73, 110, 118, 111, 99, 97, 116, 105, 111, 110, 10, 32, 32, 32, 32, 32, 32, 47, 32, 84, 72, 73, 83, 10, 32,
   32, 32, 32, 32, 32, 47, 32, 83, 85, 80, 69, 82, 32, 65, 114, 103, 117, 109, 101, 110, 116, 115, 10, 32, 32, 32, 32, 32, 32, 47, 32, 78, 69, 87, 32,
   78, 111, 110, 87, 105, 108, 100, 99, 97, 114, 100, 84, 121, 112, 101, 65, 114, 103, 117, 109, 101, 110, 116, 115, 63, 32, 73, 110, 110, 101, 114,
   67, 114, 101, 97, 116, 111, 114, 10, 32, 32, 32, 32, 32, 32, 41, 10, 10, 69, 120, 112, 108, 105, 99, 105, 116, 71, 101, 110, 101, 114, 105, 99, 73,
   110, 118, 111, 99, 97, 116, 105, 111, 110, 10, 32, 32, 32, 32, 60, 45, 32, 78, 111, 110, 87, 105, 108, 100, 99, 97, 114, 100, 84, 121, 112, 101,
   65, 114, 103, 117, 109, 101, 110, 116, 115, 32, 69, 120, 112, 108, 105, 99, 105, 116, 71, 101, 110, 101, 114, 105, 99, 73, 110, 118, 111, 99, 97,
   116, 105, 111, 110, 83, 117, 102, 102, 105, 120, 10, 10] :=
  bytes_ofList
  ['\x20', '\x20', '\x20', '\x20', '<', '-', '\x20', 'R', 'e', 'l', 'a', 't', 'i', 'o', 'n', 'a', 'l', 'E', 'x', 'p', 'r', 'e', 's', 's', 'i', 'o',
   'n', '\x20', '(', '(', 'E', 'Q', 'U', 'A', 'L', '\x20', '/', '\x20', '\x20', 'N', 'O', 'T', 'E', 'Q', 'U', 'A', 'L', ')', '\x20', 'R', 'e', 'l',
   'a', 't', 'i', 'o', 'n', 'a', 'l', 'E', 'x', 'p', 'r', 'e', 's', 's', 'i', 'o', 'n', ')', '*', '\n', '\n', 'R', 'e', 'l', 'a', 't', 'i', 'o', 'n',
   'a', 'l', 'E', 'x', 'p', 'r', 'e', 's', 's', 'i', 'o', 'n', '\n', '\x20', '\x20', '\x20', '\x20', '<', '-', '\x20', 'S', 'h', 'i', 'f', 't', 'E',
   'x', 'p', 'r', 'e', 's', 's', 'i', 'o', 'n', '\x20', '(', '(', 'L', 'E', '\x20', '/', '\x20', 'G', 'E', '\x20', '/', '\x20', 'L', 'T', '\x20', '/',
   '\x20', 'G', 'T', ')', '\x20', 'S', 'h', 'i', 'f', 't', 'E', 'x', 'p', 'r', 'e', 's', 's', 'i', 'o', 'n', '\x20', '/', '\x20', 'I', 'N', 'S', 'T',
   'A', 'N', 'C', 'E', 'O', 'F', '\x20', 'R', 'e', 'f', 'e', 'r', 'e', 'n', 'c', 'e', 'T', 'y', 'p', 'e', ')', '*', '\n', '\n', 'S', 'h', 'i', 'f',
   't', 'E', 'x', 'p', 'r', 'e', 's', 's', 'i', 'o', 'n', '\n', '\x20', '\x20', '\x20', '\x20', '<', '-', '\x20', 'A', 'd', 'd', 'i', 't', 'i', 'v',
   'e', 'E', 'x', 'p', 'r', 'e', 's', 's', 'i', 'o', 'n', '\x20', '(', '(', 'S', 'L', '\x20', '/', '\x20', 'S', 'R', '\x20', '/', '\x20', 'B', 'S',
   'R', ')', '\x20', 'A', 'd', 'd', 'i', 't', 'i', 'v', 'e', 'E', 'x', 'p', 'r', 'e', 's', 's', 'i', 'o', 'n', ')', '*', '\n', '\n', 'A', 'd', 'd',
   'i', 't', 'i', 'v', 'e', 'E', 'x', 'p', 'r', 'e', 's', 's', 'i', 'o', 'n', '\n', '\x20', '\x20', '\x20', '\x20', '<', '-', '\x20', 'M', 'u', 'l',
   't', 'i', 'p', 'l', 'i', 'c', 'a', 't', 'i', 'v', 'e', 'E', 'x', 'p', 'r', 'e', 's', 's', 'i', 'o', 'n', '\x20', '(', '(', 'P', 'L', 'U', 'S',
   '\x20', '/', '\x20', 'M', 'I', 'N', 'U', 'S', ')', '\x20', 'M', 'u', 'l', 't', 'i', 'p', 'l', 'i', 'c', 'a', 't', 'i', 'v', 'e', 'E', 'x', 'p',
   'r', 'e', 's', 's', 'i', 'o', 'n', ')', '*', '\n', '\n', 'M', 'u', 'l', 't', 'i', 'p', 'l', 'i', 'c', 'a', 't', 'i', 'v', 'e', 'E', 'x', 'p', 'r',
   'e', 's', 's', 'i', 'o', 'n', '\n', '\x20', '\x20', '\x20', '\x20', '<', '-', '\x20', 'U', 'n', 'a', 'r', 'y', 'E', 'x', 'p', 'r', 'e', 's', 's',
   'i', 'o', 'n', '\x20', '(', '(', 'S', 'T', 'A', 'R', '\x20', '/', '\x20', 'D', 'I', 'V', '\x20', '/', '\x20', 'M', 'O', 'D', ')', '\x20', 'U', 'n',
   'a', 'r', 'y', 'E', 'x', 'p', 'r', 'e', 's', 's', 'i', 'o', 'n', ')', '*', '\n', '\n', 'U', 'n', 'a', 'r', 'y', 'E', 'x', 'p', 'r', 'e', 's', 's',
   'i', 'o', 'n', '\n', '\x20', '\x20', '\x20', '\x20', '<', '-', '\x20', 'P', 'r', 'e', 'f', 'i', 'x', 'O', 'p', '\x20', 'U', 'n', 'a', 'r', 'y',
   'E', 'x', 'p', 'r', 'e', 's', 's', 'i', 'o', 'n', '\n', '\x20', '\x20', '\x20', '\x20', '/', '\x20', 'L', 'P', 'A', 'R', '\x20', 'T', 'y', 'p',
   'e', '\x20', 'R', 'P', 'A', 'R', '\x20', 'U', 'n', 'a', 'r', 'y', 'E', 'x', 'p', 'r', 'e', 's', 's', 'i', 'o', 'n', '\n', '\x20', '\x20', '\x20',
   '\x20', '/', '\x20', 'P', 'r', 'i', 'm', 'a', 'r', 'y', '\x20', '(', 'S', 'e', 'l', 'e', 'c', 't', 'o', 'r', ')', '*', '\x20', '(', 'P', 'o', 's',
   't', 'f', 'i', 'x', 'O', 'p', ')', '*', '\n', '\n', 'P', 'r', 'i', 'm', 'a', 'r', 'y', '\n', '\x20', '\x20', '\x20', '\x20', '<', '-', '\x20', 'P',
   'a', 'r', 'E', 'x', 'p', 'r', 'e', 's', 's', 'i', 'o', 'n', '\n', '\x20', '\x20', '\x20', '\x20', '/', '\x20', 'N', 'o', 'n', 'W', 'i', 'l', 'd',
   'c', 'a', 'r', 'd', 'T', 'y', 'p', 'e', 'A', 'r', 'g', 'u', 'm', 'e', 'n', 't', 's', '\x20', '(', 'E', 'x', 'p', 'l', 'i', 'c', 'i', 't', 'G', 'e',
   'n', 'e', 'r', 'i', 'c', 'I', 'n', 'v', 'o', 'c', 'a', 't', 'i', 'o', 'n', 'S', 'u', 'f', 'f', 'i', 'x', '\x20', '/', '\x20', 'T', 'H', 'I', 'S',
   '\x20', 'A', 'r', 'g', 'u', 'm', 'e', 'n', 't', 's', ')', '\n', '\x20', '\x20', '\x20', '\x20', '/', '\x20', 'T', 'H', 'I', 'S', '\x20', 'A', 'r',
   'g', 'u', 'm', 'e', 'n', 't', 's', '?', '\n', '\x20', '\x20', '\x20', '\x20', '/', '\x20', 'S', 'U', 'P', 'E', 'R', '\x20', 'S', 'u', 'p', 'e',
   'r', 'S', 'u', 'f', 'f', 'i', 'x', '\n', '\x20', '\x20', '\x20', '\x20', '/', '\x20', 'L', 'i', 't', 'e', 'r', 'a', 'l', '\n', '\x20', '\x20',
   '\x20', '\x20', '/', '\x20', 'N', 'E', 'W', '\x20', 'C', 'r', 'e', 'a', 't', 'o', 'r', '\n', '\x20', '\x20', '\x20', '\x20', '/', '\x20', 'Q', 'u',
   'a', 'l', 'i', 'f', 'i', 'e', 'd', 'I', 'd', 'e', 'n', 't', 'i', 'f', 'i', 'e', 'r', '\x20', 'I', 'd', 'e', 'n', 't', 'i', 'f', 'i', 'e', 'r', 'S',
   'u', 'f', 'f', 'i', 'x', '?', '\n', '\x20', '\x20', '\x20', '\x20', '/', '\x20', 'B', 'a', 's', 'i', 'c', 'T', 'y', 'p', 'e', '\x20', 'D', 'i',
   'm', '*', '\x20', 'D', 'O', 'T', '\x20', 'C', 'L', 'A', 'S', 'S', '\n', '\x20', '\x20', '\x20', '\x20', '/', '\x20', 'V', 'O', 'I', 'D', '\x20',
   'D', 'O', 'T', '\x20', 'C', 'L', 'A', 'S', 'S', '\n', '\n', 'I', 'd', 'e', 'n', 't', 'i', 'f', 'i', 'e', 'r', 'S', 'u', 'f', 'f', 'i', 'x', '\n',
   '\x20', '\x20', '\x20', '\x20', '<', '-', '\x20', 'L', 'B', 'R', 'K', '\x20', '(', '\x20', 'R', 'B', 'R', 'K', '\x20', 'D', 'i', 'm', '*', '\x20',
   'D', 'O', 'T', '\x20', 'C', 'L', 'A', 'S', 'S', '\x20', '/', '\x20', 'E', 'x', 'p', 'r', 'e', 's', 's', 'i', 'o', 'n', '\x20', 'R', 'B', 'R', 'K',
   ')', '\n', '\x20', '\x20', '\x20', '\x20', '/', '\x20', 'A', 'r', 'g', 'u', 'm', 'e', 'n', 't', 's', '\n', '\x20', '\x20', '\x20', '\x20', '/',
   '\x20', 'D', 'O', 'T', '\n', '\x20', '\x20', '\x20', '\x20', '\x20', '\x20', '(', '\x20', 'C', 'L', 'A', 'S', 'S', '\n', '\x20', '\x20', '\x20',
   '\x20', '\x20', '\x20', '/', '\x20', 'E', 'x', 'p', 'l', 'i', 'c', 'i', 't', 'G', 'e', 'n', 'e', 'r', 'i', 'c', 'I', 'n', 'v', 'o', 'c', 'a', 't',
   'i', 'o', 'n', '\n', '\x20', '\x20', '\x20', '\x20', '\x20', '\x20', '/', '\x20', 'T', 'H', 'I', 'S', '\n', '\x20', '\x20', '\x20', '\x20', '\x20',
   '\x20', '/', '\x20', 'S', 'U', 'P', 'E', 'R', '\x20', 'A', 'r', 'g', 'u', 'm', 'e', 'n', 't', 's', '\n', '\x20', '\x20', '\x20', '\x20', '\x20',
   '\x20', '/', '\x20', 'N', 'E', 'W', '\x20', 'N', 'o', 'n', 'W', 'i', 'l', 'd', 'c', 'a', 'r', 'd', 'T', 'y', 'p', 'e', 'A', 'r', 'g', 'u', 'm',
   'e', 'n', 't', 's', '?', '\x20', 'I', 'n', 'n', 'e', 'r', 'C', 'r', 'e', 'a', 't', 'o', 'r', '\n', '\x20', '\x20', '\x20', '\x20', '\x20', '\x20',
   ')', '\n', '\n', 'E', 'x', 'p', 'l', 'i', 'c', 'i', 't', 'G', 'e', 'n', 'e', 'r', 'i', 'c', 'I', 'n', 'v', 'o', 'c', 'a', 't', 'i', 'o', 'n', '\n',
   '\x20', '\x20', '\x20', '\x20', '<', '-', '\x20', 'N', 'o', 'n', 'W', 'i', 'l', 'd', 'c', 'a', 'r', 'd', 'T', 'y', 'p', 'e', 'A', 'r', 'g', 'u',
   'm', 'e', 'n', 't', 's', '\x20', 'E', 'x', 'p', 'l', 'i', 'c', 'i', 't', 'G', 'e', 'n', 'e', 'r', 'i', 'c', 'I', 'n', 'v', 'o', 'c', 'a', 't', 'i',
   'o', 'n', 'S', 'u', 'f', 'f', 'i', 'x', '\n', '\n']

/-- `grammars/java.peg:410-467` -/
def javaFile13 : List UInt8 := bytes "NonWildcardTypeArguments
    <- LPOINT ReferenceType (COMMA ReferenceType)* RPOINT

ExplicitGenericInvocationSuffix
    <- SUPER SuperSuffix
    / Identifier Arguments

PrefixOp
    <- INC
    / DEC
    / BANG
    / TILDA
    / PLUS
    / MINUS

PostfixOp
    <- INC
    / DEC

Selector
    <- DOT Identifier Arguments?
    / DOT ExplicitGenericInvocation
    / DOT THIS
    / DOT SUPER SuperSuffix
    / DOT NEW NonWildcardTypeArguments? InnerCreator
    / DimExpr

SuperSuffix
    <- Arguments
    / DOT Identifier Arguments?

BasicType
    <- ( 'byte'
      / 'short'
      / 'char'
      / 'int'
      / 'long'
      / 'float'
      / 'double'
      / 'boolean'
      ) !LetterOrDigit Spacing

Arguments
    <- LPAR (Expression (COMMA Expression)*)? RPAR

Creator
    <- NonWildcardTypeArguments? CreatedName ClassCreatorRest
    / NonWildcardTypeArguments? (ClassType / BasicType) ArrayCreatorRest

CreatedName
    <- Identifier NonWildcardTypeArguments? (DOT Identifier NonWildcardTypeArguments?)*

InnerCreator
    <- Identifier ClassCreatorRest

ArrayCreatorRest
    <- LBRK ( RBRK Dim* ArrayInitializer / Expression RBRK DimExpr* Dim* )

"

theorem java_eq13 : javaFile13 =
  [78, 111, 110, 87, 105, 108, 100, 99, 97, 114, 100, 84, 121, 112, 101, 65, 114, 103, 117, 109, 101, 110, 116, 115, 10, 32, 32, 32, 32, 60, 45, 32,
   76, 80, 79, 73, 78, 84, 32, 82, 101, 102, 101, 114, 101, 110, 99, 101, 84, 121, 112, 101, 32, 40, 67, 79, 77, 77, 65, 32, 82, 101, 102, 101, 114,
   101, 110, 99, 101, 84, 121, 112, 101, 41, 42, 32, 82, 80, 79, 73, 78, 84, 10, 10, 69, 120, 112, 108, 105, 99, 105, 116, 71, 101, 110, 101, 114,
   105, 99, 73, 110, 118, 111, 99, 97, 116, 105, 111, 110, 83, 117, 102, 102, 105, 120, 10, 32, 32, 32, 32, 60, 45, 32, 83, 85, 80, 69, 82, 32, 83,
   117, 112, 101, 114, 83, 117, 102, 102, 105, 120, 10, 32, 32, 32, 32, 47, 32, 73, 100, 101, 110, 116, 105, 102, 105, 101, 114, 32, 65, 114, 103,
   117, 109, 101, 110, 116, 115, 10, 10, 80, 114, 101, 102, 105, 120, 79, 112, 10, 32, 32, 32, 32, 60, 45, 32, 73, 78, 67, 10, 32, 32, 32, 32, 47, 32,
   68, 69, 67, 10, 32, 32, 32, 32, 47, 32, 66, 65, 78, 71, 10, 32, 32, 32, 32, 47, 32, 84, 73, 76, 68, 65, 10, 32, 32, 32, 32, 47, 32, 80, 76, 85, 83,
   10, 32, 32, 32, 32, 47, 32, 77, 73, 78, 85, 83, 10, 10, 80, 111, 115, 116, 102, 105, 120, 79, 112, 10, 32, 32, 32, 32, 60, 45, 32, 73, 78, 67, 10,
   32, 32, 32, 32, 47, 32, 68, 69, 67, 10, 10, 83, 101, 108, 101, 99, 116, 111, 114, 10, 32, 32, 32, 32, 60, 45, 32, 68, 79, 84, 32, 73, 100, 101,
   110, 116, 105, 102, 105, 101, 114, 32, 65, 114, 103, 117, 109, 101, 110, 116, 115, 63, 10, 32, 32, 32, 32, 47, 32, 68, 79, 84, 32, 69, 120, 112,
   108, 105, 99, 105, 116, 71, 101, 110, 101, 114, 105, 99, 73, 110, 118, 111, 99, 97, 116, 105, 111, 110, 10, 32, 32, 32, 32, 47, 32, 68, 79, 84, 32,
   84, 72, 73, 83, 10, 32, 32, 32, 32, 47, 32, 68, 79, 84, 32, 83, 85, 80, 69, 82, 32, 83, 117, 112, 101, 114, 83, 117, 102, 102, 105, 120, 10, 32,
   32, 32, 32, 47, 32, 68, 79, 84, 32, 78, 69, 87, 32, 78, 111, 110, 87, 105, 108, 100, 99, 97, 114, 100, 84, 121, 112, 101, 65, 114, 103, 117, 109,
   101, 110, 116, 115, 63, 32, 73, 110, 110, 101, 114, 67, 114, 101, 97, 116, 111, 114, 10, 32, 32, 32, 32, 47, 32, 68, 105, 109, 69, 120, 112, 114,
   10, 10, 83, 117, 112, 101, 114, 83, 117, 102, 102, 105, 120, 10, 32, 32, 32, 32, 60, 45, 32, 65, 114, 103, 117, 109, 101, 110, 116, 115, 10, 32,
   32, 32, 32, 47, 32, 68, 79, 84, 32, 73, 100, 101, 110, 116, 105, 102, 105, 101, 114, 32, 65, 114, 103, 117, 109, 101, 110, 116, 115, 63, 10, 10,
   66, 97, 115, 105, 99, 84, 121, 112, 101, 10, 32, 32, 32, 32, 60, 45, 32, 40, 32, 39, 98, 121, 116, 101, 39, 10, 32, 32, 32, 32, 32, 32, 47, 32, 39,
   115, 104, 111, 114, 116, 39, 10, 32, 32, 32, 32, 32, 32, 47, 32, 39, 99, 104, 97, 114, 39, 10, 32, 32, 32, 32, 32, 32, 47, 32, 39, 105, 110, 116,
   39, 10, 32, 32, 32, 32, 32, 32, 47, 32, 39, 108, 111, 110, 103, 39, 10, 32, 32, 32, 32, 32, 32, 47, 32, 39, 102, 108, 111, 97, 116, 39, 10, 32, 32,
   32, 32, 32, 32, 47, 32, 39, 100, 111, 117, 98, 108, 101, 39, 10, 32, 32, 32, 32, 32, 32, 47, 32, 39, 98, 111, 111, 108, 101, 97, 110, 39, 10, 32,
   32, 32, 32, 32, 32, 41, 32, 33, 76, 101, 116, 116, 101, 114, 79, 114, 68, 105, 103, 105, 116, 32, 83, 112, 97, 99, 105, 110, 103, 10, 10, 65, 114,
   103, 117, 109, 101, 110, 116, 115, 10, 32, 32, 32, 32, 60, 45, 32, 76, 80, 65, 82, 32, 40, 69, 120, 112, 114, 101, 115, 115, 105, 111, 110, 32, 40,
   67, 79, 77, 77, 65, 32, 69, 120, 112, 114, 101, 115, 115, 105, 111, 110, 41, 42, 41, 63, 32, 82, 80, 65, 82, 10, 10, 67, 114, 101, 97, 116, 111,
   114, 10, 32, 32, 32, 32, 60, 45, 32, 78, 111, 110, 87, 105, 108, 100, 99, 97, 114, 100, 84, 121, 112, 101, 65, 114, 103, 117, 109, 101, 110, 116,
   115, 63, 32, 67, 114, 101, 97, 116, 101, 100, 78, 97, 109, 101, 32, 67, 108, 97, 115, 115, 67, 114, 101, 97, 116, 111, 114, 82, 101, 115, 116, 10,
   32, 32, 32, 32, 47, 32, 78, 111, 110, 87, 105, 108, 100, 99, 97, 114, 100, 84, 121, 112, 101, 65, 114, 103, 117, 109, 101, 110, 116, 115, 63, 32,
   40, 67, 108, 97, 115, 115, 84, 121, 112, 101, 32, 47, 32, 66, 97, 115, 105, 99, 84, 121, 112, 101, 41, 32, 65, 114, 114, 97, 121, 67, 114, 101, 97,
   116, 111, 114, 82, 101, 115, 116, 10, 10, 67, 114, 101, 97, 116, 101, 100, 78, 97, 109, 101, 10, 32, 32, 32, 32, 60, 45, 32, 73, 100, 101, 110,
   116, 105, 102, 105, 101, 114, 32, 78, 111, 110, 87, 105, 108, 100, 99, 97, 114, 100, 84, 121, 112, 101, 65, 114, 103, 117, 109, 101, 110, 116, 115,
   63, 32, 40, 68, 79, 84, 32, 73, 100, 101, 110, 116, 105, 102, 105, 101, 114, 32, 78, 111, 110, 87, 105, 108, 100, 99, 97, 114, 100, 84, 121, 112,
   101, 65, 114, 103, 117, 109, 101, 110, 116, 115, 63, 41, 42, 10, 10, 73, 110, 110, 101, 114, 67, 114, 101, 97, 116, 111, 114, 10, 32, 32, 32, 32,
   60, 45, 32, 73, 100, 101, 110, 116, 105, 102, 105, 101, 114, 32, 67, 108, 97, 115, 115, 67, 114, 101, 97, 116, 111, 114, 82, 101, 115, 116, 10, 10,
   65, 114, 114, 97, 121, 67, 114, 101, 97, 116, 111, 114, 82, 101, 115, 116, 10, 32, 32, 32, 32, 60, 45, 32, 76, 66, 82, 75, 32, 40, 32, 82, 66, 82,
   75, 32, 68, 105, 109, 42, 32, 65, 114, 114, 97, 121, 73, 110, 105, 116, 105, 97, 108, 105, 122, 101, 114, 32, 47, 32, 69, 120, 112, 114, 101, 115,
   115, 105, 111, 110, 32, 82, 66, 82, 75, 32, 68, 105, 109, 69, 120, 112, 114, 42, 32, 68, 105, 109, 42, 32, 41, 10, 10] :=
  bytes_ofList
  ['N', 'o', 'n', 'W', 'i', 'l', 'd', 'c', 'a', 'r', 'd', 'T', 'y', 'p', 'e', 'A', 'r', 'g', 'u', 'm', 'e', 'n', 't', 's', '\n', '\x20', '\x20',
   '\x20', '\x20', '<', '-', '\x20', 'L', 'P', 'O', 'I', 'N', 'T', '\x20', 'R', 'e', 'f', 'e', 'r', 'e', 'n', 'c', 'e', 'T', 'y', 'p', 'e', '\x20',
   '(', 'C', 'O', 'M', 'M', 'A', '\x20', 'R', 'e', 'f', 'e', 'r', 'e', 'n', 'c', 'e', 'T', 'y', 'p', 'e', ')', '*', '\x20', 'R', 'P', 'O', 'I', 'N',
   'T', '\n', '\n', 'E', 'x', 'p', 'l', 'i', 'c', 'i', 't', 'G', 'e', 'n', 'e', 'r', 'i', 'c', 'I', 'n', 'v', 'o', 'c', 'a', 't', 'i', 'o', 'n', 'S',
   'u', 'f', 'f', 'i', 'x', '\n', '\x20', '\x20', '\x20', '\x20', '<', '-', '\x20', 'S', 'U', 'P', 'E', 'R', '\x20', 'S', 'u', 'p', 'e', 'r', 'S',
   'u', 'f', 'f', 'i', 'x', '\n', '\x20', '\x20', '\x20', '\x20', '/', '\x20', 'I', 'd', 'e', 'n', 't', 'i', 'f', 'i', 'e', 'r', '\x20', 'A', 'r',
   'g', 'u', 'm', 'e', 'n', 't', 's', '\n', '\n', 'P', 'r', 'e', 'f', 'i', 'x', 'O', 'p', '\n', '\x20', '\x20', '\x20', '\x20', '<', '-', '\x20', 'I',
   'N', 'C', '\n', '\x20', '\x20', '\x20', '\x20', '/', '\x20', 'D', 'E', 'C', '\n', '\x20', '\x20', '\x20', '\x20', '/', '\x20', 'B', 'A', 'N', 'G',
   '\n', '\x20', '\x20', '\x20', '\x20', '/', '\x20', 'T', 'I', 'L', 'D', 'A', '\n', '\x20', '\x20', '\x20', '\x20', '/', '\x20', 'P', 'L', 'U', 'S',
   '\n', '\x20', '\x20', '\x20', '\x20', '/', '\x20', 'M', 'I', 'N', 'U', 'S', '\n', '\n', 'P', 'o', 's', 't', 'f', 'i', 'x', 'O', 'p', '\n', '\x20',
   '\x20', '\x20', '\x20', '<', '-', '\x20', 'I', 'N', 'C', '\n', '\x20', '\x20', '\x20', '\x20', '/', '\x20', 'D', 'E', 'C', '\n', '\n', 'S', 'e',
   'l', 'e', 'c', 't', 'o', 'r', '\n', '\x20', '\x20', '\x20', '\x20', '<', '-', '\x20', 'D', 'O', 'T', '\x20', 'I', 'd', 'e', 'n', 't', 'i', 'f',
   'i', 'e', 'r', '\x20', 'A', 'r', 'g', 'u', 'm', 'e', 'n', 't', 's', '?', '\n', '\x20', '\x20', '\x20', '\x20', '/', '\x20', 'D', 'O', 'T', '\x20',
   'E', 'x', 'p', 'l', 'i', 'c', 'i', 't', 'G', 'e', 'n', 'e', 'r', 'i', 'c', 'I', 'n', 'v', 'o', 'c', 'a', 't', 'i', 'o', 'n', '\n', '\x20', '\x20',
   '\x20', '\x20', '/', '\x20', 'D', 'O', 'T', '\x20', 'T', 'H', 'I', 'S', '\n', '\x20', '\x20', '\x20', '\x20', '/', '\x20', 'D', 'O', 'T', '\x20',
   'S', 'U', 'P', 'E', 'R', '\x20', 'S', 'u', 'p', 'e', 'r', 'S', 'u', 'f', 'f', 'i', 'x', '\n', '\x20', '\x20', '\x20', '\x20', '/', '\x20', 'D',
   'O', 'T', '\x20', 'N', 'E', 'W', '\x20', 'N', 'o', 'n', 'W', 'i', 'l', 'd', 'c', 'a', 'r', 'd', 'T', 'y', 'p', 'e', 'A', 'r', 'g', 'u', 'm', 'e',
   'n', 't', 's', '?', '\x20', 'I', 'n', 'n', 'e', 'r', 'C', 'r', 'e', 'a', 't', 'o', 'r', '\n', '\x20', '\x20', '\x20', '\x20', '/', '\x20', 'D',
   'i', 'm', 'E', 'x', 'p', 'r', '\n', '\n', 'S', 'u', 'p', 'e', 'r', 'S', 'u', 'f', 'f', 'i', 'x', '\n', '\x20', '\x20', '\x20', '\x20', '<', '-',
   '\x20', 'A', 'r', 'g', 'u', 'm', 'e', 'n', 't', 's', '\n', '\x20', '\x20', '\x20', '\x20', '/', '\x20', 'D', 'O', 'T', '\x20', 'I', 'd', 'e', 'n',
   't', 'i', 'f', 'i', 'e', 'r', '\x20', 'A', 'r', 'g', 'u', 'm', 'e', 'n', 't', 's', '?', '\n', '\n', 'B', 'a', 's', 'i', 'c', 'T', 'y', 'p', 'e',
   '\n', '\x20', '\x20', '\x20', '\x20', '<', '-', '\x20', '(', '\x20', '\'', 'b', 'y', 't', 'e', '\'', '\n', '\x20', '\x20', '\x20', '\x20', '\x20',
   '\x20', '/', '\x20', '\'', 's', 'h', 'o', 'r', 't', '\'', '\n', '\x20', '\x20', '\x20', '\x20', '\x20', '\x20', '/', '\x20', '\'', 'c', 'h', 'a',
   'r', '\'', '\n', '\x20', '\x20', '\x20', '\x20', '\x20', '\x20', '/', '\x20', '\'', 'i', 'n', 't', '\'', '\n', '\x20', '\x20', '\x20', '\x20',
   '\x20', '\x20', '/', '\x20', '\'', 'l', 'o', 'n', 'g', '\'', '\n', '\x20', '\x20', '\x20', '\x20', '\x20', '\x20', '/', '\x20', '\'', 'f', 'l',
   'o', 'a', 't', '\'', '\n', '\x20', '\x20', '\x20', '\x20', '\x20', '\x20', '/', '\x20', '\'', 'd', 'o', 'u', 'b', 'l', 'e', '\'', '\n', '\x20',
   '\x20', '\x20', '\x20', '\x20', '\x20', '/', '\x20', '\'', 'b', 'o', 'o', 'l', 'e', 'a', 'n', '\'', '\n', '\x20', '\x20', '\x20', '\x20', '\x20',
   '\x20', ')', '\x20', '!', 'L', 'e', 't', 't', 'e', 'r', 'O', 'r', 'D', 'i', 'g', 'i', 't', '\x20', 'S', 'p', 'a', 'c', 'i', 'n', 'g', '\n', '\n',
   'A', 'r', 'g', 'u', 'm', 'e', 'n', 't', 's', '\n', '\x20', '\x20', '\x20', '\x20', '<', '-', '\x20', 'L', 'P', 'A', 'R', '\x20', '(', 'E', 'x',
   'p', 'r', 'e', 's', 's', 'i', 'o', 'n', '\x20', '(', 'C', 'O', 'M', 'M', 'A', '\x20', 'E', 'x', 'p', 'r', 'e', 's', 's', 'i', 'o', 'n', ')', '*',
   ')', '?', '\x20', 'R', 'P', 'A', 'R', '\n', '\n', 'C', 'r', 'e', 'a', 't', 'o', 'r', '\n', '\x20', '\x20', '\x20', '\x20', '<', '-', '\x20', 'N',
   'o', 'n', 'W', 'i', 'l', 'd', 'c', 'a', 'r', 'd', 'T', 'y', 'p', 'e', 'A', 'r', 'g', 'u', 'm', 'e', 'n', 't', 's', '?', '\x20', 'C', 'r', 'e', 'a',
   't', 'e', 'd', 'N', 'a', 'm', 'e', '\x20', 'C', 'l', 'a', 's', 's', 'C', 'r', 'e', 'a', 't', 'o', 'r', 'R', 'e', 's', 't', '\n', '\x20', '\x20',
   '\x20', '\x20', '/', '\x20', 'N', 'o', 'n', 'W', 'i', 'l', 'd', 'c', 'a', 'r', 'd', 'T', 'y', 'p', 'e', 'A', 'r', 'g', 'u', 'm', 'e', 'n', 't',
   's', '?', '\x20', '(', 'C', 'l', 'a', 's', 's', 'T', 'y', 'p', 'e', '\x20', '/', '\x20', 'B', 'a', 's', 'i', 'c', 'T', 'y', 'p', 'e', ')', '\x20',
   'A', 'r', 'r', 'a', 'y', 'C', 'r', 'e', 'a', 't', 'o', 'r', 'R', 'e', 's', 't', '\n', '\n', 'C', 'r', 'e', 'a', 't', 'e', 'd', 'N', 'a', 'm', 'e',
   '\n', '\x20', '\x20', '\x20', '\x20', '<', '-', '\x20', 'I', 'd', 'e', 'n', 't', 'i', 'f', 'i', 'e', 'r', '\x20', 'N', 'o', 'n', 'W', 'i', 'l',
   'd', 'c', 'a', 'r', 'd', 'T', 'y', 'p', 'e', 'A', 'r', 'g', 'u', 'm', 'e', 'n', 't', 's', '?', '\x20', '(', 'D', 'O', 'T', '\x20', 'I', 'd', 'e',
   'n', 't', 'i', 'f', 'i', 'e', 'r', '\x20', 'N', 'o', 'n', 'W', 'i', 'l', 'd', 'c', 'a', 'r', 'd', 'T', 'y', 'p', 'e', 'A', 'r', 'g', 'u', 'm', 'e',
   'n', 't', 's', '?', ')', '*', '\n', '\n', 'I', 'n', 'n', 'e', 'r', 'C', 'r', 'e', 'a', 't', 'o', 'r', '\n', '\x20', '\x20', '\x20', '\x20', '<',
   '-', '\x20', 'I', 'd', 'e', 'n', 't', 'i', 'f', 'i', 'e', 'r', '\x20', 'C', 'l', 'a', 's', 's', 'C', 'r', 'e', 'a', 't', 'o', 'r', 'R', 'e', 's',
   't', '\n', '\n', 'A', 'r', 'r', 'a', 'y', 'C', 'r', 'e', 'a', 't', 'o', 'r', 'R', 'e', 's', 't', '\n', '\x20', '\x20', '\x20', '\x20', '<', '-',
   '\x20', 'L', 'B', 'R', 'K', '\x20', '(', '\x20', 'R', 'B', 'R', 'K', '\x20', 'D', 'i', 'm', '*', '\x20', 'A', 'r', 'r', 'a', 'y', 'I', 'n', 'i',
   't', 'i', 'a', 'l', 'i', 'z', 'e', 'r', '\x20', '/', '\x20', 'E', 'x', 'p', 'r', 'e', 's', 's', 'i', 'o', 'n', '\x20', 'R', 'B', 'R', 'K', '\x20',
   'D', 'i', 'm', 'E', 'x', 'p', 'r', '*', '\x20', 'D', 'i', 'm', '*', '\x20', ')', '\n', '\n']

/-- `grammars/java.peg:468-523` -/
def javaFile14 : List UInt8 := bytes "    # This is more generous than JLS 15.10. According to that definition,
    # BasicType must be followed by at least one DimExpr or by ArrayInitializer.


ClassCreatorRest
    <- Diamond? Arguments ClassBody?

Diamond
    <- LPOINT RPOINT

ArrayInitializer
    <- LWING (VariableInitializer (COMMA VariableInitializer)*)? COMMA?  RWING

VariableInitializer
    <- ArrayInitializer
    / Expression

ParExpression
    <- LPAR Expression RPAR

QualifiedIdentifier
    <- Identifier (DOT Identifier)*

Dim
    <- LBRK RBRK

DimExpr
    <- LBRK Expression RBRK

#-------------------------------------------------------------------------
#  Types and Modifiers
#-------------------------------------------------------------------------

Type
    <- (BasicType / ClassType) Dim*

ReferenceType
    <- BasicType Dim+
    / ClassType Dim*

ClassType
    <- Identifier TypeArguments? (DOT Identifier TypeArguments?)*

ClassTypeList
    <- ClassType (COMMA ClassType)*

TypeArguments
    <- LPOINT TypeArgument (COMMA TypeArgument)* RPOINT

TypeArgument
    <- ReferenceType
    / QUERY ((EXTENDS / SUPER) ReferenceType)?

TypeParameters
    <- LPOINT TypeParameter (COMMA TypeParameter)* RPOINT

"

theorem java_eq14 : javaFile14 =
  [32, 32, 32, 32, 35, 32, 84, 104, 105, 115, 32, 105, 115, 32, 109, 111, 114, 101, 32, 103, 101, 110, 101, 114, 111, 117, 115, 32, 116, 104, 97, 110,
   32, 74, 76, 83, 32, 49, 53, 46, 49, 48, 46, 32, 65, 99, 99, 111, 114, 100, 105, 110, 103, 32, 116, 111, 32, 116, 104, 97, 116, 32, 100, 101, 102,
   105, 110, 105, 116, 105, 111, 110, 44, 10, 32, 32, 32, 32, 35, 32, 66, 97, 115, 105, 99, 84, 121, 112, 101, 32, 109, 117, 115, 116, 32, 98, 101,
   32, 102, 111, 108, 108, 111, 119, 101, 100, 32, 98, 121, 32, 97, 116, 32, 108, 101, 97, 115, 116, 32, 111, 110, 101, 32, 68, 105, 109, 69, 120,
   112, 114, 32, 111, 114, 32, 98, 121, 32, 65, 114, 114, 97, 121, 73, 110, 105, 116, 105, 97, 108, 105, 122, 101, 114, 46, 10, 10, 10, 67, 108, 97,
   115, 115, 67, 114, 101, 97, 116, 111, 114, 82, 101, 115, 116, 10, 32, 32, 32, 32, 60, 45, 32, 68, 105, 97, 109, 111, 110, 100, 63, 32, 65, 114,
   103, 117, 109, 101, 110, 116, 115, 32, 67, 108, 97, 115, 115, 66, 111, 100, 121, 63, 10, 10, 68, 105, 97, 109, 111, 110, 100, 10, 32, 32, 32, 32,
   60, 45, 32, 76, 80, 79, 73, 78, 84, 32, 82, 80, 79, 73, 78, 84, 10, 10, 65, 114, 114, 97, 121, 73, 110, 105, 116, 105, 97, 108, 105, 122, 101, 114,
   10, 32, 32, 32, 32, 60, 45, 32, 76, 87, 73, 78, 71, 32, 40, 86, 97, 114, 105, 97, 98, 108, 101, 73, 110, 105, 116, 105, 97, 108, 105, 122, 101,
   114, 32, 40, 67, 79, 77, 77, 65, 32, 86, 97, 114, 105, 97, 98, 108, 101, 73, 110, 105, 116, 105, 97, 108, 105, 122, 101, 114, 41, 42, 41, 63, 32,
   67, 79, 77, 77, 65, 63, 32, 32, 82, 87, 73, 78, 71, 10, 10, 86, 97, 114, 105, 97, 98, 108, 101, 73, 110, 105, 116, 105, 97, 108, 105, 122, 101,
   114, 10, 32, 32, 32, 32, 60, 45, 32, 65, 114, 114, 97, 121, 73, 110, 105, 116, 105, 97, 108, 105, 122, 101, 114, 10, 32, 32, 32, 32, 47, 32, 69,
   120, 112, 114, 101, 115, 115, 105, 111, 110, 10, 10, 80, 97, 114, 69, 120, 112, 114, 101, 115, 115, 105, 111, 110, 10, 32, 32, 32, 32, 60, 45, 32,
   76, 80, 65, 82, 32, 69, 120, 112, 114, 101, 115, 115, 105, 111, 110, 32, 82, 80, 65, 82, 10, 10, 81, 117, 97, 108, 105, 102, 105, 101, 100, 73,
   100, 101, 110, 116, 105, 102, 105, 101, 114, 10, 32, 32, 32, 32, 60, 45, 32, 73, 100, 101, 110, 116, 105, 102, 105, 101, 114, 32, 40, 68, 79, 84,
   32, 73, 100, 101, 110, 116, 105, 102, 105, 101, 114, 41, 42, 10, 10, 68, 105, 109, 10, 32, 32, 32, 32, 60, 45, 32, 76, 66, 82, 75, 32, 82, 66, 82,
   75, 10, 10, 68, 105, 109, 69, 120, 112, 114, 10, 32, 32, 32, 32, 60, 45, 32, 76, 66, 82, 75, 32, 69, 120, 112, 114, 101, 115, 115, 105, 111, 110,
   32, 82, 66, 82, 75, 10, 10, 35, 45, 45, 45, 45, 45, 45, 45, 45, 45, 45, 45, 45, 45, 45, 45, 45, 45, 45, 45, 45, 45, 45, 45, 45, 45, 45, 45, 45, 45,
   45, 45, 45, 45, 45, 45, 45, 45, 45, 45, 45, 45, 45, 45, 45, 45, 45, 45, 45, 45, 45, 45, 45, 45, 45, 45, 45, 45, 45, 45, 45, 45, 45, 45, 45, 45, 45,
   45, 45, 45, 45, 45, 45, 45, 10, 35, 32, 32, 84, 121, 112, 101, 115, 32, 97, 110, 100, 32, 77, 111, 100, 105, 102, 105, 101, 114, 115, 10, 35, 45,
   45, 45, 45, 45, 45, 45, 45, 45, 45, 45, 45, 45, 45, 45, 45, 45, 45, 45, 45, 45, 45, 45, 45, 45, 45, 45, 45, 45, 45, 45, 45, 45, 45, 45, 45, 45, 45,
   45, 45, 45, 45, 45, 45, 45, 45, 45, 45, 45, 45, 45, 45, 45, 45, 45, 45, 45, 45, 45, 45, 45, 45, 45, 45, 45, 45, 45, 45, 45, 45, 45, 45, 45, 10, 10,
   84, 121, 112, 101, 10, 32, 32, 32, 32, 60, 45, 32, 40, 66, 97, 115, 105, 99, 84, 121, 112, 101, 32, 47, 32, 67, 108, 97, 115, 115, 84, 121, 112,
   101, 41, 32, 68, 105, 109, 42, 10, 10, 82, 101, 102, 101, 114, 101, 110, 99, 101, 84, 121, 112, 101, 10, 32, 32, 32, 32, 60, 45, 32, 66, 97, 115,
   105, 99, 84, 121, 112, 101, 32, 68, 105, 109, 43, 10, 32, 32, 32, 32, 47, 32, 67, 108, 97, 115, 115, 84, 121, 112, 101, 32, 68, 105, 109, 42, 10,
   10, 67, 108, 97, 115, 115, 84, 121, 112, 101, 10, 32, 32, 32, 32, 60, 45, 32, 73, 100, 101, 110, 116, 105, 102, 105, 101, 114, 32, 84, 121, 112,
   101, 65, 114, 103, 117, 109, 101, 110, 116, 115, 63, 32, 40, 68, 79, 84, 32, 73, 100, 101, 110, 116, 105, 102, 105, 101, 114, 32, 84, 121, 112,
   101, 65, 114, 103, 117, 109, 101, 110, 116, 115, 63, 41, 42, 10, 10, 67, 108, 97, 115, 115, 84, 121, 112, 101, 76, 105, 115, 116, 10, 32, 32, 32,
   32, 60, 45, 32, 67, 108, 97, 115, 115, 84, 121, 112, 101, 32, 40, 67, 79, 77, 77, 65, 32, 67, 108, 97, 115, 115, 84, 121, 112, 101, 41, 42, 10, 10,
   84, 121, 112, 101, 65, 114, 103, 117, 109, 101, 110, 116, 115, 10, 32, 32, 32, 32, 60, 45, 32, 76, 80, 79, 73, 78, 84, 32, 84, 121, 112, 101, 65,
   114, 103, 117, 109, 101, 110, 116, 32, 40, 67, 79, 77, 77, 65, 32, 84, 121, 112, 101, 65, 114, 103, 117, 109, 101, 110, 116, 41, 42, 32, 82, 80,
   79, 73, 78, 84, 10, 10, 84, 121, 112, 101, 65, 114, 103, 117, 109, 101, 110, 116, 10, 32, 32, 32, 32, 60, 45, 32, 82, 101, 102, 101, 114, 101, 110,
   99, 101, 84, 121, 112, 101, 10, 32, 32, 32, 32, 47, 32, 81, 85, 69, 82, 89, 32, 40, 40, 69, 88, 84, 69, 78, 68, 83, 32, 47, 32, 83, 85, 80, 69, 82,
   41, 32, 82, 101, 102, 101, 114, 101, 110, 99, 101, 84, 121, 112, 101, 41, 63, 10, 10, 84, 121, 112, 101, 80, 97, 114, 97, 109, 101, 116, 101, 114,
   115, 10, 32, 32, 32, 32, 60, 45, 32, 76, 80, 79, 73, 78, 84, 32, 84, 121, 112, 101, 80, 97, 114, 97, 109, 101, 116, 101, 114, 32, 40, 67, 79, 77,
   77, 65, 32, 84, 121, 112, 101, 80, 97, 114, 97, 109, 101, 116, 101, 114, 41, 42, 32, 82, 80, 79, 73, 78, 84, 10, 10] :=
  bytes_ofList
  ['\x20', '\x20', '\x20', '\x20', '#', '\x20', 'T', 'h', 'i', 's', '\x20', 'i', 's', '\x20', 'm', 'o', 'r', 'e', '\x20', 'g', 'e', 'n', 'e', 'r',
   'o', 'u', 's', '\x20', 't', 'h', 'a', 'n', '\x20', 'J', 'L', 'S', '\x20', '1', '5', '.', '1', '0', '.', '\x20', 'A', 'c', 'c', 'o', 'r', 'd', 'i',
   'n', 'g', '\x20', 't', 'o', '\x20', 't', 'h', 'a', 't', '\x20', 'd', 'e', 'f', 'i', 'n', 'i', 't', 'i', 'o', 'n', ',', '\n', '\x20', '\x20',
   '\x20', '\x20', '#', '\x20', 'B', 'a', 's', 'i', 'c', 'T', 'y', 'p', 'e', '\x20', 'm', 'u', 's', 't', '\x20', 'b', 'e', '\x20', 'f', 'o', 'l', 'l',
   'o', 'w', 'e', 'd', '\x20', 'b', 'y', '\x20', 'a', 't', '\x20', 'l', 'e', 'a', 's', 't', '\x20', 'o', 'n', 'e', '\x20', 'D', 'i', 'm', 'E', 'x',
   'p', 'r', '\x20', 'o', 'r', '\x20', 'b', 'y', '\x20', 'A', 'r', 'r', 'a', 'y', 'I', 'n', 'i', 't', 'i', 'a', 'l', 'i', 'z', 'e', 'r', '.', '\n',
   '\n', '\n', 'C', 'l', 'a', 's', 's', 'C', 'r', 'e', 'a', 't', 'o', 'r', 'R', 'e', 's', 't', '\n', '\x20', '\x20', '\x20', '\x20', '<', '-', '\x20',
   'D', 'i', 'a', 'm', 'o', 'n', 'd', '?', '\x20', 'A', 'r', 'g', 'u', 'm', 'e', 'n', 't', 's', '\x20', 'C', 'l', 'a', 's', 's', 'B', 'o', 'd', 'y',
   '?', '\n', '\n', 'D', 'i', 'a', 'm', 'o', 'n', 'd', '\n', '\x20', '\x20', '\x20', '\x20', '<', '-', '\x20', 'L', 'P', 'O', 'I', 'N', 'T', '\x20',
   'R', 'P', 'O', 'I', 'N', 'T', '\n', '\n', 'A', 'r', 'r', 'a', 'y', 'I', 'n', 'i', 't', 'i', 'a', 'l', 'i', 'z', 'e', 'r', '\n', '\x20', '\x20',
   '\x20', '\x20', '<', '-', '\x20', 'L', 'W', 'I', 'N', 'G', '\x20', '(', 'V', 'a', 'r', 'i', 'a', 'b', 'l', 'e', 'I', 'n', 'i', 't', 'i', 'a', 'l',
   'i', 'z', 'e', 'r', '\x20', '(', 'C', 'O', 'M', 'M', 'A', '\x20', 'V', 'a', 'r', 'i', 'a', 'b', 'l', 'e', 'I', 'n', 'i', 't', 'i', 'a', 'l', 'i',
   'z', 'e', 'r', ')', '*', ')', '?', '\x20', 'C', 'O', 'M', 'M', 'A', '?', '\x20', '\x20', 'R', 'W', 'I', 'N', 'G', '\n', '\n', 'V', 'a', 'r', 'i',
   'a', 'b', 'l', 'e', 'I', 'n', 'i', 't', 'i', 'a', 'l', 'i', 'z', 'e', 'r', '\n', '\x20', '\x20', '\x20', '\x20', '<', '-', '\x20', 'A', 'r', 'r',
   'a', 'y', 'I', 'n', 'i', 't', 'i', 'a', 'l', 'i', 'z', 'e', 'r', '\n', '\x20', '\x20', '\x20', '\x20', '/', '\x20', 'E', 'x', 'p', 'r', 'e', 's',
   's', 'i', 'o', 'n', '\n', '\n', 'P', 'a', 'r', 'E', 'x', 'p', 'r', 'e', 's', 's', 'i', 'o', 'n', '\n', '\x20', '\x20', '\x20', '\x20', '<', '-',
   '\x20', 'L', 'P', 'A', 'R', '\x20', 'E', 'x', 'p', 'r', 'e', 's', 's', 'i', 'o', 'n', '\x20', 'R', 'P', 'A', 'R', '\n', '\n', 'Q', 'u', 'a', 'l',
   'i', 'f', 'i', 'e', 'd', 'I', 'd', 'e', 'n', 't', 'i', 'f', 'i', 'e', 'r', '\n', '\x20', '\x20', '\x20', '\x20', '<', '-', '\x20', 'I', 'd', 'e',
   'n', 't', 'i', 'f', 'i', 'e', 'r', '\x20', '(', 'D', 'O', 'T', '\x20', 'I', 'd', 'e', 'n', 't', 'i', 'f', 'i', 'e', 'r', ')', '*', '\n', '\n', 'D',
   'i', 'm', '\n', '\x20', '\x20', '\x20', '\x20', '<', '-', '\x20', 'L', 'B', 'R', 'K', '\x20', 'R', 'B', 'R', 'K', '\n', '\n', 'D', 'i', 'm', 'E',
   'x', 'p', 'r', '\n', '\x20', '\x20', '\x20', '\x20', '<', '-', '\x20', 'L', 'B', 'R', 'K', '\x20', 'E', 'x', 'p', 'r', 'e', 's', 's', 'i', 'o',
   'n', '\x20', 'R', 'B', 'R', 'K', '\n', '\n', '#', '-', '-', '-', '-', '-', '-', '-', '-', '-', '-', '-', '-', '-', '-', '-', '-', '-', '-', '-',
   '-', '-', '-', '-', '-', '-', '-', '-', '-', '-', '-', '-', '-', '-', '-', '-', '-', '-', '-', '-', '-', '-', '-', '-', '-', '-', '-', '-', '-',
   '-', '-', '-', '-', '-', '-', '-', '-', '-', '-', '-', '-', '-', '-', '-', '-', '-', '-', '-', '-', '-', '-', '-', '-', '-', '\n', '#', '\x20',
   '\x20', 'T', 'y', 'p', 'e', 's', '\x20', 'a', 'n', 'd', '\x20', 'M', 'o', 'd', 'i', 'f', 'i', 'e', 'r', 's', '\n', '#', '-', '-', '-', '-', '-',
   '-', '-', '-', '-', '-', '-', '-', '-', '-', '-', '-', '-', '-', '-', '-', '-', '-', '-', '-', '-', '-', '-', '-', '-', '-', '-', '-', '-', '-',
   '-', '-', '-', '-', '-', '-', '-', '-', '-', '-', '-', '-', '-', '-', '-', '-', '-', '-', '-', '-', '-', '-', '-', '-', '-', '-', '-', '-', '-',
   '-', '-', '-', '-', '-', '-', '-', '-', '-', '-', '\n', '\n', 'T', 'y', 'p', 'e', '\n', '\x20', '\x20', '\x20', '\x20', '<', '-', '\x20', '(', 'B',
   'a', 's', 'i', 'c', 'T', 'y', 'p', 'e', '\x20', '/', '\x20', 'C', 'l', 'a', 's', 's', 'T', 'y', 'p', 'e', ')', '\x20', 'D', 'i', 'm', '*', '\n',
   '\n', 'R', 'e', 'f', 'e', 'r', 'e', 'n', 'c', 'e', 'T', 'y', 'p', 'e', '\n', '\x20', '\x20', '\x20', '\x20', '<', '-', '\x20', 'B', 'a', 's', 'i',
   'c', 'T', 'y', 'p', 'e', '\x20', 'D', 'i', 'm', '+', '\n', '\x20', '\x20', '\x20', '\x20', '/', '\x20', 'C', 'l', 'a', 's', 's', 'T', 'y', 'p',
   'e', '\x20', 'D', 'i', 'm', '*', '\n', '\n', 'C', 'l', 'a', 's', 's', 'T', 'y', 'p', 'e', '\n', '\x20', '\x20', '\x20', '\x20', '<', '-', '\x20',
   'I', 'd', 'e', 'n', 't', 'i', 'f', 'i', 'e', 'r', '\x20', 'T', 'y', 'p', 'e', 'A', 'r', 'g', 'u', 'm', 'e', 'n', 't', 's', '?', '\x20', '(', 'D',
   'O', 'T', '\x20', 'I', 'd', 'e', 'n', 't', 'i', 'f', 'i', 'e', 'r', '\x20', 'T', 'y', 'p', 'e', 'A', 'r', 'g', 'u', 'm', 'e', 'n', 't', 's', '?',
   ')', '*', '\n', '\n', 'C', 'l', 'a', 's', 's', 'T', 'y', 'p', 'e', 'L', 'i', 's', 't', '\n', '\x20', '\x20', '\x20', '\x20', '<', '-', '\x20', 'C',
   'l', 'a', 's', 's', 'T', 'y', 'p', 'e', '\x20', '(', 'C', 'O', 'M', 'M', 'A', '\x20', 'C', 'l', 'a', 's', 's', 'T', 'y', 'p', 'e', ')', '*', '\n',
   '\n', 'T', 'y', 'p', 'e', 'A', 'r', 'g', 'u', 'm', 'e', 'n', 't', 's', '\n', '\x20', '\x20', '\x20', '\x20', '<', '-', '\x20', 'L', 'P', 'O', 'I',
   'N', 'T', '\x20', 'T', 'y', 'p', 'e', 'A', 'r', 'g', 'u', 'm', 'e', 'n', 't', '\x20', '(', 'C', 'O', 'M', 'M', 'A', '\x20', 'T', 'y', 'p', 'e',
   'A', 'r', 'g', 'u', 'm', 'e', 'n', 't', ')', '*', '\x20', 'R', 'P', 'O', 'I', 'N', 'T', '\n', '\n', 'T', 'y', 'p', 'e', 'A', 'r', 'g', 'u', 'm',
   'e', 'n', 't', '\n', '\x20', '\x20', '\x20', '\x20', '<', '-', '\x20', 'R', 'e', 'f', 'e', 'r', 'e', 'n', 'c', 'e', 'T', 'y', 'p', 'e', '\n',
   '\x20', '\x20', '\x20', '\x20', '/', '\x20', 'Q', 'U', 'E', 'R', 'Y', '\x20', '(', '(', 'E', 'X', 'T', 'E', 'N', 'D', 'S', '\x20', '/', '\x20',
   'S', 'U', 'P', 'E', 'R', ')', '\x20', 'R', 'e', 'f', 'e', 'r', 'e', 'n', 'c', 'e', 'T', 'y', 'p', 'e', ')', '?', '\n', '\n', 'T', 'y', 'p', 'e',
   'P', 'a', 'r', 'a', 'm', 'e', 't', 'e', 'r', 's', '\n', '\x20', '\x20', '\x20', '\x20', '<', '-', '\x20', 'L', 'P', 'O', 'I', 'N', 'T', '\x20',
   'T', 'y', 'p', 'e', 'P', 'a', 'r', 'a', 'm', 'e', 't', 'e', 'r', '\x20', '(', 'C', 'O', 'M', 'M', 'A', '\x20', 'T', 'y', 'p', 'e', 'P', 'a', 'r',
   'a', 'm', 'e', 't', 'e', 'r', ')', '*', '\x20', 'R', 'P', 'O', 'I', 'N', 'T', '\n', '\n']

/-- `grammars/java.peg:524-570` -/
def javaFile15 : List UInt8 := bytes "TypeParameter
    <- Identifier (EXTENDS Bound)?

Bound
    <- ClassType (AND ClassType)*

Modifier
    <- Annotation
    / ( 'public'
      / 'protected'
      / 'private'
      / 'static'
      / 'abstract'
      / 'final'
      / 'native'
      / 'synchronized'
      / 'transient'
      / 'volatile'
      / 'strictfp'
      ) !LetterOrDigit Spacing

    # This common definition of Modifier is part of the modification
    # in JLS Chapter 18 to minimize look ahead. The main body of JLS has
    # different lists of modifiers for different language elements.

#-------------------------------------------------------------------------
#  Annotations
#-------------------------------------------------------------------------

AnnotationTypeDeclaration
    <- AT INTERFACE Identifier AnnotationTypeBody

AnnotationTypeBody
    <- LWING AnnotationTypeElementDeclaration* RWING

AnnotationTypeElementDeclaration
    <- Modifier* AnnotationTypeElementRest
    / SEMI

AnnotationTypeElementRest
    <- Type AnnotationMethodOrConstantRest SEMI
    / ClassDeclaration
    / EnumDeclaration
    / InterfaceDeclaration
    / AnnotationTypeDeclaration

AnnotationMethodOrConstantRest
"

theorem java_eq15 : javaFile15 =
  [84, 121, 112, 101, 80, 97, 114, 97, 109, 101, 116, 101, 114, 10, 32, 32, 32, 32, 60, 45, 32, 73, 100, 101, 110, 116, 105, 102, 105, 101, 114, 32,
   40, 69, 88, 84, 69, 78, 68, 83, 32, 66, 111, 117, 110, 100, 41, 63, 10, 10, 66, 111, 117, 110, 100, 10, 32, 32, 32, 32, 60, 45, 32, 67, 108, 97,
   115, 115, 84, 121, 112, 101, 32, 40, 65, 78, 68, 32, 67, 108, 97, 115, 115, 84, 121, 112, 101, 41, 42, 10, 10, 77, 111, 100, 105, 102, 105, 101,
   114, 10, 32, 32, 32, 32, 60, 45, 32, 65, 110, 110, 111, 116, 97, 116, 105, 111, 110, 10, 32, 32, 32, 32, 47, 32, 40, 32, 39, 112, 117, 98, 108,
   105, 99, 39, 10, 32, 32, 32, 32, 32, 32, 47, 32, 39, 112, 114, 111, 116, 101, 99, 116, 101, 100, 39, 10, 32, 32, 32, 32, 32, 32, 47, 32, 39, 112,
   114, 105, 118, 97, 116, 101, 39, 10, 32, 32, 32, 32, 32, 32, 47, 32, 39, 115, 116, 97, 116, 105, 99, 39, 10, 32, 32, 32, 32, 32, 32, 47, 32, 39,
   97, 98, 115, 116, 114, 97, 99, 116, 39, 10, 32, 32, 32, 32, 32, 32, 47, 32, 39, 102, 105, 110, 97, 108, 39, 10, 32, 32, 32, 32, 32, 32, 47, 32, 39,
   110, 97, 116, 105, 118, 101, 39, 10, 32, 32, 32, 32, 32, 32, 47, 32, 39, 115, 121, 110, 99, 104, 114, 111, 110, 105, 122, 101, 100, 39, 10, 32, 32,
   32, 32, 32, 32, 47, 32, 39, 116, 114, 97, 110, 115, 105, 101, 110, 116, 39, 10, 32, 32, 32, 32, 32, 32, 47, 32, 39, 118, 111, 108, 97, 116, 105,
   108, 101, 39, 10, 32, 32, 32, 32, 32, 32, 47, 32, 39, 115, 116, 114, 105, 99, 116, 102, 112, 39, 10, 32, 32, 32, 32, 32, 32, 41, 32, 33, 76, 101,
   116, 116, 101, 114, 79, 114, 68, 105, 103, 105, 116, 32, 83, 112, 97, 99, 105, 110, 103, 10, 10, 32, 32, 32, 32, 35, 32, 84, 104, 105, 115, 32, 99,
   111, 109, 109, 111, 110, 32, 100, 101, 102, 105, 110, 105, 116, 105, 111, 110, 32, 111, 102, 32, 77, 111, 100, 105, 102, 105, 101, 114, 32, 105,
   115, 32, 112, 97, 114, 116, 32, 111, 102, 32, 116, 104, 101, 32, 109, 111, 100, 105, 102, 105, 99, 97, 116, 105, 111, 110, 10, 32, 32, 32, 32, 35,
   32, 105, 110, 32, 74, 76, 83, 32, 67, 104, 97, 112, 116, 101, 114, 32, 49, 56, 32, 116, 111, 32, 109, 105, 110, 105, 109, 105, 122, 101, 32, 108,
   111, 111, 107, 32, 97, 104, 101, 97, 100, 46, 32, 84, 104, 101, 32, 109, 97, 105, 110, 32, 98, 111, 100, 121, 32, 111, 102, 32, 74, 76, 83, 32,
   104, 97, 115, 10, 32, 32, 32, 32, 35, 32, 100, 105, 102, 102, 101, 114, 101, 110, 116, 32, 108, 105, 115, 116, 115, 32, 111, 102, 32, 109, 111,
   100, 105, 102, 105, 101, 114, 115, 32, 102, 111, 114, 32, 100, 105, 102, 102, 101, 114, 101, 110, 116, 32, 108, 97, 110, 103, 117, 97, 103, 101,
   32, 101, 108, 101, 109, 101, 110, 116, 115, 46, 10, 10, 35, 45, 45, 45, 45, 45, 45, 45, 45, 45, 45, 45, 45, 45, 45, 45, 45, 45, 45, 45, 45, 45, 45,
   45, 45, 45, 45, 45, 45, 45, 45, 45, 45, 45, 45, 45, 45, 45, 45, 45, 45, 45, 45, 45, 45, 45, 45, 45, 45, 45, 45, 45, 45, 45, 45, 45, 45, 45, 45, 45,
   45, 45, 45, 45, 45, 45, 45, 45, 45, 45, 45, 45, 45, 45, 10, 35, 32, 32, 65, 110, 110, 111, 116, 97, 116, 105, 111, 110, 115, 10, 35, 45, 45, 45,
   45, 45, 45, 45, 45, 45, 45, 45, 45, 45, 45, 45, 45, 45, 45, 45, 45, 45, 45, 45, 45, 45, 45, 45, 45, 45, 45, 45, 45, 45, 45, 45, 45, 45, 45, 45, 45,
   45, 45, 45, 45, 45, 45, 45, 45, 45, 45, 45, 45, 45, 45, 45, 45, 45, 45, 45, 45, 45, 45, 45, 45, 45, 45, 45, 45, 45, 45, 45, 45, 45, 10, 10, 65,
   110, 110, 111, 116, 97, 116, 105, 111, 110, 84, 121, 112, 101, 68, 101, 99, 108, 97, 114, 97, 116, 105, 111, 110, 10, 32, 32, 32, 32, 60, 45, 32,
   65, 84, 32, 73, 78, 84, 69, 82, 70, 65, 67, 69, 32, 73, 100, 101, 110, 116, 105, 102, 105, 101, 114, 32, 65, 110, 110, 111, 116, 97, 116, 105, 111,
   110, 84, 121, 112, 101, 66, 111, 100, 121, 10, 10, 65, 110, 110, 111, 116, 97, 116, 105, 111, 110, 84, 121, 112, 101, 66, 111, 100, 121, 10, 32,
   32, 32, 32, 60, 45, 32, 76, 87, 73, 78, 71, 32, 65, 110, 110, 111, 116, 97, 116, 105, 111, 110, 84, 121, 112, 101, 69, 108, 101, 109, 101, 110,
   116, 68, 101, 99, 108, 97, 114, 97, 116, 105, 111, 110, 42, 32, 82, 87, 73, 78, 71, 10, 10, 65, 110, 110, 111, 116, 97, 116, 105, 111, 110, 84,
   121, 112, 101, 69, 108, 101, 109, 101, 110, 116, 68, 101, 99, 108, 97, 114, 97, 116, 105, 111, 110, 10, 32, 32, 32, 32, 60, 45, 32, 77, 111, 100,
   105, 102, 105, 101, 114, 42, 32, 65, 110, 110, 111, 116, 97, 116, 105, 111, 110, 84, 121, 112, 101, 69, 108, 101, 109, 101, 110, 116, 82, 101, 115,
   116, 10, 32, 32, 32, 32, 47, 32, 83, 69, 77, 73, 10, 10, 65, 110, 110, 111, 116, 97, 116, 105, 111, 110, 84, 121, 112, 101, 69, 108, 101, 109, 101,
   110, 116, 82, 101, 115, 116, 10, 32, 32, 32, 32, 60, 45, 32, 84, 121, 112, 101, 32, 65, 110, 110, 111, 116, 97, 116, 105, 111, 110, 77, 101, 116,
   104, 111, 100, 79, 114, 67, 111, 110, 115, 116, 97, 110, 116, 82, 101, 115, 116, 32, 83, 69, 77, 73, 10, 32, 32, 32, 32, 47, 32, 67, 108, 97, 115,
   115, 68, 101, 99, 108, 97, 114, 97, 116, 105, 111, 110, 10, 32, 32, 32, 32, 47, 32, 69, 110, 117, 109, 68, 101, 99, 108, 97, 114, 97, 116, 105,
   111, 110, 10, 32, 32, 32, 32, 47, 32, 73, 110, 116, 101, 114, 102, 97, 99, 101, 68, 101, 99, 108, 97, 114, 97, 116, 105, 111, 110, 10, 32, 32, 32,
   32, 47, 32, 65, 110, 110, 111, 116, 97, 116, 105, 111, 110, 84, 121, 112, 101, 68, 101, 99, 108, 97, 114, 97, 116, 105, 111, 110, 10, 10, 65, 110,
   110, 111, 116, 97, 116, 105, 111, 110, 77, 101, 116, 104, 111, 100, 79, 114, 67, 111, 110, 115, 116, 97, 110, 116, 82, 101, 115, 116, 10] :=
  bytes_ofList
  ['T', 'y', 'p', 'e', 'P', 'a', 'r', 'a', 'm', 'e', 't', 'e', 'r', '\n', '\x20', '\x20', '\x20', '\x20', '<', '-', '\x20', 'I', 'd', 'e', 'n', 't',
   'i', 'f', 'i', 'e', 'r', '\x20', '(', 'E', 'X', 'T', 'E', 'N', 'D', 'S', '\x20', 'B', 'o', 'u', 'n', 'd', ')', '?', '\n', '\n', 'B', 'o', 'u', 'n',
   'd', '\n', '\x20', '\x20', '\x20', '\x20', '<', '-', '\x20', 'C', 'l', 'a', 's', 's', 'T', 'y', 'p', 'e', '\x20', '(', 'A', 'N', 'D', '\x20', 'C',
   'l', 'a', 's', 's', 'T', 'y', 'p', 'e', ')', '*', '\n', '\n', 'M', 'o', 'd', 'i', 'f', 'i', 'e', 'r', '\n', '\x20', '\x20', '\x20', '\x20', '<',
   '-', '\x20', 'A', 'n', 'n', 'o', 't', 'a', 't', 'i', 'o', 'n', '\n', '\x20', '\x20', '\x20', '\x20', '/', '\x20', '(', '\x20', '\'', 'p', 'u', 'b',
   'l', 'i', 'c', '\'', '\n', '\x20', '\x20', '\x20', '\x20', '\x20', '\x20', '/', '\x20', '\'', 'p', 'r', 'o', 't', 'e', 'c', 't', 'e', 'd', '\'',
   '\n', '\x20', '\x20', '\x20', '\x20', '\x20', '\x20', '/', '\x20', '\'', 'p', 'r', 'i', 'v', 'a', 't', 'e', '\'', '\n', '\x20', '\x20', '\x20',
   '\x20', '\x20', '\x20', '/', '\x20', '\'', 's', 't', 'a', 't', 'i', 'c', '\'', '\n', '\x20', '\x20', '\x20', '\x20', '\x20', '\x20', '/', '\x20',
   '\'', 'a', 'b', 's', 't', 'r', 'a', 'c', 't', '\'', '\n', '\x20', '\x20', '\x20', '\x20', '\x20', '\x20', '/', '\x20', '\'', 'f', 'i', 'n', 'a',
   'l', '\'', '\n', '\x20', '\x20', '\x20', '\x20', '\x20', '\x20', '/', '\x20', '\'', 'n', 'a', 't', 'i', 'v', 'e', '\'', '\n', '\x20', '\x20',
   '\x20', '\x20', '\x20', '\x20', '/', '\x20', '\'', 's', 'y', 'n', 'c', 'h', 'r', 'o', 'n', 'i', 'z', 'e', 'd', '\'', '\n', '\x20', '\x20', '\x20',
   '\x20', '\x20', '\x20', '/', '\x20', '\'', 't', 'r', 'a', 'n', 's', 'i', 'e', 'n', 't', '\'', '\n', '\x20', '\x20', '\x20', '\x20', '\x20', '\x20',
   '/', '\x20', '\'', 'v', 'o', 'l', 'a', 't', 'i', 'l', 'e', '\'', '\n', '\x20', '\x20', '\x20', '\x20', '\x20', '\x20', '/', '\x20', '\'', 's', 't',
   'r', 'i', 'c', 't', 'f', 'p', '\'', '\n', '\x20', '\x20', '\x20', '\x20', '\x20', '\x20', ')', '\x20', '!', 'L', 'e', 't', 't', 'e', 'r', 'O', 'r',
   'D', 'i', 'g', 'i', 't', '\x20', 'S', 'p', 'a', 'c', 'i', 'n', 'g', '\n', '\n', '\x20', '\x20', '\x20', '\x20', '#', '\x20', 'T', 'h', 'i', 's',
   '\x20', 'c', 'o', 'm', 'm', 'o', 'n', '\x20', 'd', 'e', 'f', 'i', 'n', 'i', 't', 'i', 'o', 'n', '\x20', 'o', 'f', '\x20', 'M', 'o', 'd', 'i', 'f',
   'i', 'e', 'r', '\x20', 'i', 's', '\x20', 'p', 'a', 'r', 't', '\x20', 'o', 'f', '\x20', 't', 'h', 'e', '\x20', 'm', 'o', 'd', 'i', 'f', 'i', 'c',
   'a', 't', 'i', 'o', 'n', '\n', '\x20', '\x20', '\x20', '\x20', '#', '\x20', 'i', 'n', '\x20', 'J', 'L', 'S', '\x20', 'C', 'h', 'a', 'p', 't', 'e',
   'r', '\x20', '1', '8', '\x20', 't', 'o', '\x20', 'm', 'i', 'n', 'i', 'm', 'i', 'z', 'e', '\x20', 'l', 'o', 'o', 'k', '\x20', 'a', 'h', 'e', 'a',
   'd', '.', '\x20', 'T', 'h', 'e', '\x20', 'm', 'a', 'i', 'n', '\x20', 'b', 'o', 'd', 'y', '\x20', 'o', 'f', '\x20', 'J', 'L', 'S', '\x20', 'h', 'a',
   's', '\n', '\x20', '\x20', '\x20', '\x20', '#', '\x20', 'd', 'i', 'f', 'f', 'e', 'r', 'e', 'n', 't', '\x20', 'l', 'i', 's', 't', 's', '\x20', 'o',
   'f', '\x20', 'm', 'o', 'd', 'i', 'f', 'i', 'e', 'r', 's', '\x20', 'f', 'o', 'r', '\x20', 'd', 'i', 'f', 'f', 'e', 'r', 'e', 'n', 't', '\x20', 'l',
   'a', 'n', 'g', 'u', 'a', 'g', 'e', '\x20', 'e', 'l', 'e', 'm', 'e', 'n', 't', 's', '.', '\n', '\n', '#', '-', '-', '-', '-', '-', '-', '-', '-',
   '-', '-', '-', '-', '-', '-', '-', '-', '-', '-', '-', '-', '-', '-', '-', '-', '-', '-', '-', '-', '-', '-', '-', '-', '-', '-', '-', '-', '-',
   '-', '-', '-', '-', '-', '-', '-', '-', '-', '-', '-', '-', '-', '-', '-', '-', '-', '-', '-', '-', '-', '-', '-', '-', '-', '-', '-', '-', '-',
   '-', '-', '-', '-', '-', '-', '-', '\n', '#', '\x20', '\x20', 'A', 'n', 'n', 'o', 't', 'a', 't', 'i', 'o', 'n', 's', '\n', '#', '-', '-', '-', '-',
   '-', '-', '-', '-', '-', '-', '-', '-', '-', '-', '-', '-', '-', '-', '-', '-', '-', '-', '-', '-', '-', '-', '-', '-', '-', '-', '-', '-', '-',
   '-', '-', '-', '-', '-', '-', '-', '-', '-', '-', '-', '-', '-', '-', '-', '-', '-', '-', '-', '-', '-', '-', '-', '-', '-', '-', '-', '-', '-',
   '-', '-', '-', '-', '-', '-', '-', '-', '-', '-', '-', '\n', '\n', 'A', 'n', 'n', 'o', 't', 'a', 't', 'i', 'o', 'n', 'T', 'y', 'p', 'e', 'D', 'e',
   'c', 'l', 'a', 'r', 'a', 't', 'i', 'o', 'n', '\n', '\x20', '\x20', '\x20', '\x20', '<', '-', '\x20', 'A', 'T', '\x20', 'I', 'N', 'T', 'E', 'R',
   'F', 'A', 'C', 'E', '\x20', 'I', 'd', 'e', 'n', 't', 'i', 'f', 'i', 'e', 'r', '\x20', 'A', 'n', 'n', 'o', 't', 'a', 't', 'i', 'o', 'n', 'T', 'y',
   'p', 'e', 'B', 'o', 'd', 'y', '\n', '\n', 'A', 'n', 'n', 'o', 't', 'a', 't', 'i', 'o', 'n', 'T', 'y', 'p', 'e', 'B', 'o', 'd', 'y', '\n', '\x20',
   '\x20', '\x20', '\x20', '<', '-', '\x20', 'L', 'W', 'I', 'N', 'G', '\x20', 'A', 'n', 'n', 'o', 't', 'a', 't', 'i', 'o', 'n', 'T', 'y', 'p', 'e',
   'E', 'l', 'e', 'm', 'e', 'n', 't', 'D', 'e', 'c', 'l', 'a', 'r', 'a', 't', 'i', 'o', 'n', '*', '\x20', 'R', 'W', 'I', 'N', 'G', '\n', '\n', 'A',
   'n', 'n', 'o', 't', 'a', 't', 'i', 'o', 'n', 'T', 'y', 'p', 'e', 'E', 'l', 'e', 'm', 'e', 'n', 't', 'D', 'e', 'c', 'l', 'a', 'r', 'a', 't', 'i',
   'o', 'n', '\n', '\x20', '\x20', '\x20', '\x20', '<', '-', '\x20', 'M', 'o', 'd', 'i', 'f', 'i', 'e', 'r', '*', '\x20', 'A', 'n', 'n', 'o', 't',
   'a', 't', 'i', 'o', 'n', 'T', 'y', 'p', 'e', 'E', 'l', 'e', 'm', 'e', 'n', 't', 'R', 'e', 's', 't', '\n', '\x20', '\x20', '\x20', '\x20', '/',
   '\x20', 'S', 'E', 'M', 'I', '\n', '\n', 'A', 'n', 'n', 'o', 't', 'a', 't', 'i', 'o', 'n', 'T', 'y', 'p', 'e', 'E', 'l', 'e', 'm', 'e', 'n', 't',
   'R', 'e', 's', 't', '\n', '\x20', '\x20', '\x20', '\x20', '<', '-', '\x20', 'T', 'y', 'p', 'e', '\x20', 'A', 'n', 'n', 'o', 't', 'a', 't', 'i',
   'o', 'n', 'M', 'e', 't', 'h', 'o', 'd', 'O', 'r', 'C', 'o', 'n', 's', 't', 'a', 'n', 't', 'R', 'e', 's', 't', '\x20', 'S', 'E', 'M', 'I', '\n',
   '\x20', '\x20', '\x20', '\x20', '/', '\x20', 'C', 'l', 'a', 's', 's', 'D', 'e', 'c', 'l', 'a', 'r', 'a', 't', 'i', 'o', 'n', '\n', '\x20', '\x20',
   '\x20', '\x20', '/', '\x20', 'E', 'n', 'u', 'm', 'D', 'e', 'c', 'l', 'a', 'r', 'a', 't', 'i', 'o', 'n', '\n', '\x20', '\x20', '\x20', '\x20', '/',
   '\x20', 'I', 'n', 't', 'e', 'r', 'f', 'a', 'c', 'e', 'D', 'e', 'c', 'l', 'a', 'r', 'a', 't', 'i', 'o', 'n', '\n', '\x20', '\x20', '\x20', '\x20',
   '/', '\x20', 'A', 'n', 'n', 'o', 't', 'a', 't', 'i', 'o', 'n', 'T', 'y', 'p', 'e', 'D', 'e', 'c', 'l', 'a', 'r', 'a', 't', 'i', 'o', 'n', '\n',
   '\n', 'A', 'n', 'n', 'o', 't', 'a', 't', 'i', 'o', 'n', 'M', 'e', 't', 'h', 'o', 'd', 'O', 'r', 'C', 'o', 'n', 's', 't', 'a', 'n', 't', 'R', 'e',
   's', 't', '\n']

/-- `grammars/java.peg:571-621` -/
def javaFile16 : List UInt8 := bytes "    <- AnnotationMethodRest
    / AnnotationConstantRest

AnnotationMethodRest
    <- Identifier LPAR RPAR DefaultValue?

AnnotationConstantRest
    <- VariableDeclarators

DefaultValue
    <- DEFAULT ElementValue

Annotation
    <- NormalAnnotation
    / SingleElementAnnotation
    / MarkerAnnotation

NormalAnnotation
    <- AT QualifiedIdentifier LPAR ElementValuePairs? RPAR

SingleElementAnnotation
    <- AT QualifiedIdentifier LPAR ElementValue RPAR

MarkerAnnotation
    <- AT QualifiedIdentifier

ElementValuePairs
    <- ElementValuePair (COMMA ElementValuePair)*

ElementValuePair
    <- Identifier EQU ElementValue

ElementValue
    <- ConditionalExpression
    / Annotation
    / ElementValueArrayInitializer

ElementValueArrayInitializer
    <- LWING ElementValues? COMMA? RWING

ElementValues
    <- ElementValue (COMMA ElementValue)*


#=========================================================================
#  Lexical Structure
#=========================================================================
#-------------------------------------------------------------------------
#  JLS 3.6-7  Spacing
#-------------------------------------------------------------------------

"

theorem java_eq16 : javaFile16 =
  [32, 32, 32, 32, 60, 45, 32, 65, 110, 110, 111, 116, 97, 116, 105, 111, 110, 77, 101, 116, 104, 111, 100, 82, 101, 115, 116, 10, 32, 32, 32, 32, 47,
   32, 65, 110, 110, 111, 116, 97, 116, 105, 111, 110, 67, 111, 110, 115, 116, 97, 110, 116, 82, 101, 115, 116, 10, 10, 65, 110, 110, 111, 116, 97,
   116, 105, 111, 110, 77, 101, 116, 104, 111, 100, 82, 101, 115, 116, 10, 32, 32, 32, 32, 60, 45, 32, 73, 100, 101, 110, 116, 105, 102, 105, 101,
   114, 32, 76, 80, 65, 82, 32, 82, 80, 65, 82, 32, 68, 101, 102, 97, 117, 108, 116, 86, 97, 108, 117, 101, 63, 10, 10, 65, 110, 110, 111, 116, 97,
   116, 105, 111, 110, 67, 111, 110, 115, 116, 97, 110, 116, 82, 101, 115, 116, 10, 32, 32, 32, 32, 60, 45, 32, 86, 97, 114, 105, 97, 98, 108, 101,
   68, 101, 99, 108, 97, 114, 97, 116, 111, 114, 115, 10, 10, 68, 101, 102, 97, 117, 108, 116, 86, 97, 108, 117, 101, 10, 32, 32, 32, 32, 60, 45, 32,
   68, 69, 70, 65, 85, 76, 84, 32, 69, 108, 101, 109, 101, 110, 116, 86, 97, 108, 117, 101, 10, 10, 65, 110, 110, 111, 116, 97, 116, 105, 111, 110,
   10, 32, 32, 32, 32, 60, 45, 32, 78, 111, 114, 109, 97, 108, 65, 110, 110, 111, 116, 97, 116, 105, 111, 110, 10, 32, 32, 32, 32, 47, 32, 83, 105,
   110, 103, 108, 101, 69, 108, 101, 109, 101, 110, 116, 65, 110, 110, 111, 116, 97, 116, 105, 111, 110, 10, 32, 32, 32, 32, 47, 32, 77, 97, 114, 107,
   101, 114, 65, 110, 110, 111, 116, 97, 116, 105, 111, 110, 10, 10, 78, 111, 114, 109, 97, 108, 65, 110, 110, 111, 116, 97, 116, 105, 111, 110, 10,
   32, 32, 32, 32, 60, 45, 32, 65, 84, 32, 81, 117, 97, 108, 105, 102, 105, 101, 100, 73, 100, 101, 110, 116, 105, 102, 105, 101, 114, 32, 76, 80, 65,
   82, 32, 69, 108, 101, 109, 101, 110, 116, 86, 97, 108, 117, 101, 80, 97, 105, 114, 115, 63, 32, 82, 80, 65, 82, 10, 10, 83, 105, 110, 103, 108,
   101, 69, 108, 101, 109, 101, 110, 116, 65, 110, 110, 111, 116, 97, 116, 105, 111, 110, 10, 32, 32, 32, 32, 60, 45, 32, 65, 84, 32, 81, 117, 97,
   108, 105, 102, 105, 101, 100, 73, 100, 101, 110, 116, 105, 102, 105, 101, 114, 32, 76, 80, 65, 82, 32, 69, 108, 101, 109, 101, 110, 116, 86, 97,
   108, 117, 101, 32, 82, 80, 65, 82, 10, 10, 77, 97, 114, 107, 101, 114, 65, 110, 110, 111, 116, 97, 116, 105, 111, 110, 10, 32, 32, 32, 32, 60, 45,
   32, 65, 84, 32, 81, 117, 97, 108, 105, 102, 105, 101, 100, 73, 100, 101, 110, 116, 105, 102, 105, 101, 114, 10, 10, 69, 108, 101, 109, 101, 110,
   116, 86, 97, 108, 117, 101, 80, 97, 105, 114, 115, 10, 32, 32, 32, 32, 60, 45, 32, 69, 108, 101, 109, 101, 110, 116, 86, 97, 108, 117, 101, 80, 97,
   105, 114, 32, 40, 67, 79, 77, 77, 65, 32, 69, 108, 101, 109, 101, 110, 116, 86, 97, 108, 117, 101, 80, 97, 105, 114, 41, 42, 10, 10, 69, 108, 101,
   109, 101, 110, 116, 86, 97, 108, 117, 101, 80, 97, 105, 114, 10, 32, 32, 32, 32, 60, 45, 32, 73, 100, 101, 110, 116, 105, 102, 105, 101, 114, 32,
   69, 81, 85, 32, 69, 108, 101, 109, 101, 110, 116, 86, 97, 108, 117, 101, 10, 10, 69, 108, 101, 109, 101, 110, 116, 86, 97, 108, 117, 101, 10, 32,
   32, 32, 32, 60, 45, 32, 67, 111, 110, 100, 105, 116, 105, 111, 110, 97, 108, 69, 120, 112, 114, 101, 115, 115, 105, 111, 110, 10, 32, 32, 32, 32,
   47, 32, 65, 110, 110, 111, 116, 97, 116, 105, 111, 110, 10, 32, 32, 32, 32, 47, 32, 69, 108, 101, 109, 101, 110, 116, 86, 97, 108, 117, 101, 65,
   114, 114, 97, 121, 73, 110, 105, 116, 105, 97, 108, 105, 122, 101, 114, 10, 10, 69, 108, 101, 109, 101, 110, 116, 86, 97, 108, 117, 101, 65, 114,
   114, 97, 121, 73, 110, 105, 116, 105, 97, 108, 105, 122, 101, 114, 10, 32, 32, 32, 32, 60, 45, 32, 76, 87, 73, 78, 71, 32, 69, 108, 101, 109, 101,
   110, 116, 86, 97, 108, 117, 101, 115, 63, 32, 67, 79, 77, 77, 65, 63, 32, 82, 87, 73, 78, 71, 10, 10, 69, 108, 101, 109, 101, 110, 116, 86, 97,
   108, 117, 101, 115, 10, 32, 32, 32, 32, 60, 45, 32, 69, 108, 101, 109, 101, 110, 116, 86, 97, 108, 117, 101, 32, 40, 67, 79, 77, 77, 65, 32, 69,
   108, 101, 109, 101, 110, 116, 86, 97, 108, 117, 101, 41, 42, 10, 10, 10, 35, 61, 61, 61, 61, 61, 61, 61, 61, 61, 61, 61, 61, 61, 61, 61, 61, 61,
   61, 61, 61, 61, 61, 61, 61, 61, 61, 61, 61, 61, 61, 61, 61, 61, 61, 61, 61, 61, 61, 61, 61, 61, 61, 61, 61, 61, 61, 61, 61, 61, 61, 61, 61, 61, 61,
   61, 61, 61, 61, 61, 61, 61, 61, 61, 61, 61, 61, 61, 61, 61, 61, 61, 61, 61, 10, 35, 32, 32, 76, 101, 120, 105, 99, 97, 108, 32, 83, 116, 114, 117,
   99, 116, 117, 114, 101, 10, 35, 61, 61, 61, 61, 61, 61, 61, 61, 61, 61, 61, 61, 61, 61, 61, 61, 61, 61, 61, 61, 61, 61, 61, 61, 61, 61, 61, 61, 61,
   61, 61, 61, 61, 61, 61, 61, 61, 61, 61, 61, 61, 61, 61, 61, 61, 61, 61, 61, 61, 61, 61, 61, 61, 61, 61, 61, 61, 61, 61, 61, 61, 61, 61, 61, 61, 61,
   61, 61, 61, 61, 61, 61, 61, 10, 35, 45, 45, 45, 45, 45, 45, 45, 45, 45, 45, 45, 45, 45, 45, 45, 45, 45, 45, 45, 45, 45, 45, 45, 45, 45, 45, 45, 45,
   45, 45, 45, 45, 45, 45, 45, 45, 45, 45, 45, 45, 45, 45, 45, 45, 45, 45, 45, 45, 45, 45, 45, 45, 45, 45, 45, 45, 45, 45, 45, 45, 45, 45, 45, 45, 45,
   45, 45, 45, 45, 45, 45, 45, 45, 10, 35, 32, 32, 74, 76, 83, 32, 51, 46, 54, 45, 55, 32, 32, 83, 112, 97, 99, 105, 110, 103, 10, 35, 45, 45, 45, 45,
   45, 45, 45, 45, 45, 45, 45, 45, 45, 45, 45, 45, 45, 45, 45, 45, 45, 45, 45, 45, 45, 45, 45, 45, 45, 45, 45, 45, 45, 45, 45, 45, 45, 45, 45, 45, 45,
   45, 45, 45, 45, 45, 45, 45, 45, 45, 45, 45, 45, 45, 45, 45, 45, 45, 45, 45, 45, 45, 45, 45, 45, 45, 45, 45, 45, 45, 45, 45, 45, 10, 10] :=
  bytes_ofList
  ['\x20', '\x20', '\x20', '\x20', '<', '-', '\x20', 'A', 'n', 'n', 'o', 't', 'a', 't', 'i', 'o', 'n', 'M', 'e', 't', 'h', 'o', 'd', 'R', 'e', 's',
   't', '\n', '\x20', '\x20', '\x20', '\x20', '/', '\x20', 'A', 'n', 'n', 'o', 't', 'a', 't', 'i', 'o', 'n', 'C', 'o', 'n', 's', 't', 'a', 'n', 't',
   'R', 'e', 's', 't', '\n', '\n', 'A', 'n', 'n', 'o', 't', 'a', 't', 'i', 'o', 'n', 'M', 'e', 't', 'h', 'o', 'd', 'R', 'e', 's', 't', '\n', '\x20',
   '\x20', '\x20', '\x20', '<', '-', '\x20', 'I', 'd', 'e', 'n', 't', 'i', 'f', 'i', 'e', 'r', '\x20', 'L', 'P', 'A', 'R', '\x20', 'R', 'P', 'A', 'R',
   '\x20', 'D', 'e', 'f', 'a', 'u', 'l', 't', 'V', 'a', 'l', 'u', 'e', '?', '\n', '\n', 'A', 'n', 'n', 'o', 't', 'a', 't', 'i', 'o', 'n', 'C', 'o',
   'n', 's', 't', 'a', 'n', 't', 'R', 'e', 's', 't', '\n', '\x20', '\x20', '\x20', '\x20', '<', '-', '\x20', 'V', 'a', 'r', 'i', 'a', 'b', 'l', 'e',
   'D', 'e', 'c', 'l', 'a', 'r', 'a', 't', 'o', 'r', 's', '\n', '\n', 'D', 'e', 'f', 'a', 'u', 'l', 't', 'V', 'a', 'l', 'u', 'e', '\n', '\x20',
   '\x20', '\x20', '\x20', '<', '-', '\x20', 'D', 'E', 'F', 'A', 'U', 'L', 'T', '\x20', 'E', 'l', 'e', 'm', 'e', 'n', 't', 'V', 'a', 'l', 'u', 'e',
   '\n', '\n', 'A', 'n', 'n', 'o', 't', 'a', 't', 'i', 'o', 'n', '\n', '\x20', '\x20', '\x20', '\x20', '<', '-', '\x20', 'N', 'o', 'r', 'm', 'a', 'l',
   'A', 'n', 'n', 'o', 't', 'a', 't', 'i', 'o', 'n', '\n', '\x20', '\x20', '\x20', '\x20', '/', '\x20', 'S', 'i', 'n', 'g', 'l', 'e', 'E', 'l', 'e',
   'm', 'e', 'n', 't', 'A', 'n', 'n', 'o', 't', 'a', 't', 'i', 'o', 'n', '\n', '\x20', '\x20', '\x20', '\x20', '/', '\x20', 'M', 'a', 'r', 'k', 'e',
   'r', 'A', 'n', 'n', 'o', 't', 'a', 't', 'i', 'o', 'n', '\n', '\n', 'N', 'o', 'r', 'm', 'a', 'l', 'A', 'n', 'n', 'o', 't', 'a', 't', 'i', 'o', 'n',
   '\n', '\x20', '\x20', '\x20', '\x20', '<', '-', '\x20', 'A', 'T', '\x20', 'Q', 'u', 'a', 'l', 'i', 'f', 'i', 'e', 'd', 'I', 'd', 'e', 'n', 't',
   'i', 'f', 'i', 'e', 'r', '\x20', 'L', 'P', 'A', 'R', '\x20', 'E', 'l', 'e', 'm', 'e', 'n', 't', 'V', 'a', 'l', 'u', 'e', 'P', 'a', 'i', 'r', 's',
   '?', '\x20', 'R', 'P', 'A', 'R', '\n', '\n', 'S', 'i', 'n', 'g', 'l', 'e', 'E', 'l', 'e', 'm', 'e', 'n', 't', 'A', 'n', 'n', 'o', 't', 'a', 't',
   'i', 'o', 'n', '\n', '\x20', '\x20', '\x20', '\x20', '<', '-', '\x20', 'A', 'T', '\x20', 'Q', 'u', 'a', 'l', 'i', 'f', 'i', 'e', 'd', 'I', 'd',
   'e', 'n', 't', 'i', 'f', 'i', 'e', 'r', '\x20', 'L', 'P', 'A', 'R', '\x20', 'E', 'l', 'e', 'm', 'e', 'n', 't', 'V', 'a', 'l', 'u', 'e', '\x20',
   'R', 'P', 'A', 'R', '\n', '\n', 'M', 'a', 'r', 'k', 'e', 'r', 'A', 'n', 'n', 'o', 't', 'a', 't', 'i', 'o', 'n', '\n', '\x20', '\x20', '\x20',
   '\x20', '<', '-', '\x20', 'A', 'T', '\x20', 'Q', 'u', 'a', 'l', 'i', 'f', 'i', 'e', 'd', 'I', 'd', 'e', 'n', 't', 'i', 'f', 'i', 'e', 'r', '\n',
   '\n', 'E', 'l', 'e', 'm', 'e', 'n', 't', 'V', 'a', 'l', 'u', 'e', 'P', 'a', 'i', 'r', 's', '\n', '\x20', '\x20', '\x20', '\x20', '<', '-', '\x20',
   'E', 'l', 'e', 'm', 'e', 'n', 't', 'V', 'a', 'l', 'u', 'e', 'P', 'a', 'i', 'r', '\x20', '(', 'C', 'O', 'M', 'M', 'A', '\x20', 'E', 'l', 'e', 'm',
   'e', 'n', 't', 'V', 'a', 'l', 'u', 'e', 'P', 'a', 'i', 'r', ')', '*', '\n', '\n', 'E', 'l', 'e', 'm', 'e', 'n', 't', 'V', 'a', 'l', 'u', 'e', 'P',
   'a', 'i', 'r', '\n', '\x20', '\x20', '\x20', '\x20', '<', '-', '\x20', 'I', 'd', 'e', 'n', 't', 'i', 'f', 'i', 'e', 'r', '\x20', 'E', 'Q', 'U',
   '\x20', 'E', 'l', 'e', 'm', 'e', 'n', 't', 'V', 'a', 'l', 'u', 'e', '\n', '\n', 'E', 'l', 'e', 'm', 'e', 'n', 't', 'V', 'a', 'l', 'u', 'e', '\n',
   '\x20', '\x20', '\x20', '\x20', '<', '-', '\x20', 'C', 'o', 'n', 'd', 'i', 't', 'i', 'o', 'n', 'a', 'l', 'E', 'x', 'p', 'r', 'e', 's', 's', 'i',
   'o', 'n', '\n', '\x20', '\x20', '\x20', '\x20', '/', '\x20', 'A', 'n', 'n', 'o', 't', 'a', 't', 'i', 'o', 'n', '\n', '\x20', '\x20', '\x20',
   '\x20', '/', '\x20', 'E', 'l', 'e', 'm', 'e', 'n', 't', 'V', 'a', 'l', 'u', 'e', 'A', 'r', 'r', 'a', 'y', 'I', 'n', 'i', 't', 'i', 'a', 'l', 'i',
   'z', 'e', 'r', '\n', '\n', 'E', 'l', 'e', 'm', 'e', 'n', 't', 'V', 'a', 'l', 'u', 'e', 'A', 'r', 'r', 'a', 'y', 'I', 'n', 'i', 't', 'i', 'a', 'l',
   'i', 'z', 'e', 'r', '\n', '\x20', '\x20', '\x20', '\x20', '<', '-', '\x20', 'L', 'W', 'I', 'N', 'G', '\x20', 'E', 'l', 'e', 'm', 'e', 'n', 't',
   'V', 'a', 'l', 'u', 'e', 's', '?', '\x20', 'C', 'O', 'M', 'M', 'A', '?', '\x20', 'R', 'W', 'I', 'N', 'G', '\n', '\n', 'E', 'l', 'e', 'm', 'e', 'n',
   't', 'V', 'a', 'l', 'u', 'e', 's', '\n', '\x20', '\x20', '\x20', '\x20', '<', '-', '\x20', 'E', 'l', 'e', 'm', 'e', 'n', 't', 'V', 'a', 'l', 'u',
   'e', '\x20', '(', 'C', 'O', 'M', 'M', 'A', '\x20', 'E', 'l', 'e', 'm', 'e', 'n', 't', 'V', 'a', 'l', 'u', 'e', ')', '*', '\n', '\n', '\n', '#',
   '=', '=', '=', '=', '=', '=', '=', '=', '=', '=', '=', '=', '=', '=', '=', '=', '=', '=', '=', '=', '=', '=', '=', '=', '=', '=', '=', '=', '=',
   '=', '=', '=', '=', '=', '=', '=', '=', '=', '=', '=', '=', '=', '=', '=', '=', '=', '=', '=', '=', '=', '=', '=', '=', '=', '=', '=', '=', '=',
   '=', '=', '=', '=', '=', '=', '=', '=', '=', '=', '=', '=', '=', '=', '=', '\n', '#', '\x20', '\x20', 'L', 'e', 'x', 'i', 'c', 'a', 'l', '\x20',
   'S', 't', 'r', 'u', 'c', 't', 'u', 'r', 'e', '\n', '#', '=', '=', '=', '=', '=', '=', '=', '=', '=', '=', '=', '=', '=', '=', '=', '=', '=', '=',
   '=', '=', '=', '=', '=', '=', '=', '=', '=', '=', '=', '=', '=', '=', '=', '=', '=', '=', '=', '=', '=', '=', '=', '=', '=', '=', '=', '=', '=',
   '=', '=', '=', '=', '=', '=', '=', '=', '=', '=', '=', '=', '=', '=', '=', '=', '=', '=', '=', '=', '=', '=', '=', '=', '=', '=', '\n', '#', '-',
   '-', '-', '-', '-', '-', '-', '-', '-', '-', '-', '-', '-', '-', '-', '-', '-', '-', '-', '-', '-', '-', '-', '-', '-', '-', '-', '-', '-', '-',
   '-', '-', '-', '-', '-', '-', '-', '-', '-', '-', '-', '-', '-', '-', '-', '-', '-', '-', '-', '-', '-', '-', '-', '-', '-', '-', '-', '-', '-',
   '-', '-', '-', '-', '-', '-', '-', '-', '-', '-', '-', '-', '-', '-', '\n', '#', '\x20', '\x20', 'J', 'L', 'S', '\x20', '3', '.', '6', '-', '7',
   '\x20', '\x20', 'S', 'p', 'a', 'c', 'i', 'n', 'g', '\n', '#', '-', '-', '-', '-', '-', '-', '-', '-', '-', '-', '-', '-', '-', '-', '-', '-', '-',
   '-', '-', '-', '-', '-', '-', '-', '-', '-', '-', '-', '-', '-', '-', '-', '-', '-', '-', '-', '-', '-', '-', '-', '-', '-', '-', '-', '-', '-',
   '-', '-', '-', '-', '-', '-', '-', '-', '-', '-', '-', '-', '-', '-', '-', '-', '-', '-', '-', '-', '-', '-', '-', '-', '-', '-', '-', '\n', '\n']

/-- `grammars/java.peg:622-653` -/
def javaFile17 : List UInt8 := bytes "Spacing
     <- ( [ \\t\\r\\n]+              # WhiteSpace [ \\t\\r\\n\\u000C]+
      / '/*' (!'*/' .)* '*/'      # TraditionalComment
      / '//' (![\\r\\n] .)* [\\r\\n]  # EndOfLineComment
      )*

#-------------------------------------------------------------------------
#  JLS 3.8  Identifiers
#-------------------------------------------------------------------------

Identifier <- !Keyword Letter LetterOrDigit* Spacing

Letter <- [a-z] / [A-Z] / [_$]

LetterOrDigit <- [a-z] / [A-Z] / [0-9] / [_$]

    # These are traditional definitions of letters and digits.
    # JLS defines letters and digits as Unicode characters recognized
    # as such by special Java procedures, which is difficult
    # to express in terms of Parsing Expressions.

#-------------------------------------------------------------------------
#  JLS 3.9  Keywords
#  More precisely: reserved words. According to JLS, \"true\", \"false\",
#  and \"null\" are technically not keywords - but still must not appear
#  as identifiers. Keywords \"const\" and \"goto\" are not used; JLS explains
#  the reason.
#-------------------------------------------------------------------------

Keyword
   <- ( 'abstract'
      / 'assert'
"

theorem java_eq17 : javaFile17 =
  [83, 112, 97, 99, 105, 110, 103, 10, 32, 32, 32, 32, 32, 60, 45, 32, 40, 32, 91, 32, 92, 116, 92, 114, 92, 110, 93, 43, 32, 32, 32, 32, 32, 32, 32,
   32, 32, 32, 32, 32, 32, 32, 35, 32, 87, 104, 105, 116, 101, 83, 112, 97, 99, 101, 32, 91, 32, 92, 116, 92, 114, 92, 110, 92, 117, 48, 48, 48, 67,
   93, 43, 10, 32, 32, 32, 32, 32, 32, 47, 32, 39, 47, 42, 39, 32, 40, 33, 39, 42, 47, 39, 32, 46, 41, 42, 32, 39, 42, 47, 39, 32, 32, 32, 32, 32, 32,
   35, 32, 84, 114, 97, 100, 105, 116, 105, 111, 110, 97, 108, 67, 111, 109, 109, 101, 110, 116, 10, 32, 32, 32, 32, 32, 32, 47, 32, 39, 47, 47, 39,
   32, 40, 33, 91, 92, 114, 92, 110, 93, 32, 46, 41, 42, 32, 91, 92, 114, 92, 110, 93, 32, 32, 35, 32, 69, 110, 100, 79, 102, 76, 105, 110, 101, 67,
   111, 109, 109, 101, 110, 116, 10, 32, 32, 32, 32, 32, 32, 41, 42, 10, 10, 35, 45, 45, 45, 45, 45, 45, 45, 45, 45, 45, 45, 45, 45, 45, 45, 45, 45,
   45, 45, 45, 45, 45, 45, 45, 45, 45, 45, 45, 45, 45, 45, 45, 45, 45, 45, 45, 45, 45, 45, 45, 45, 45, 45, 45, 45, 45, 45, 45, 45, 45, 45, 45, 45, 45,
   45, 45, 45, 45, 45, 45, 45, 45, 45, 45, 45, 45, 45, 45, 45, 45, 45, 45, 45, 10, 35, 32, 32, 74, 76, 83, 32, 51, 46, 56, 32, 32, 73, 100, 101, 110,
   116, 105, 102, 105, 101, 114, 115, 10, 35, 45, 45, 45, 45, 45, 45, 45, 45, 45, 45, 45, 45, 45, 45, 45, 45, 45, 45, 45, 45, 45, 45, 45, 45, 45, 45,
   45, 45, 45, 45, 45, 45, 45, 45, 45, 45, 45, 45, 45, 45, 45, 45, 45, 45, 45, 45, 45, 45, 45, 45, 45, 45, 45, 45, 45, 45, 45, 45, 45, 45, 45, 45, 45,
   45, 45, 45, 45, 45, 45, 45, 45, 45, 45, 10, 10, 73, 100, 101, 110, 116, 105, 102, 105, 101, 114, 32, 60, 45, 32, 33, 75, 101, 121, 119, 111, 114,
   100, 32, 76, 101, 116, 116, 101, 114, 32, 76, 101, 116, 116, 101, 114, 79, 114, 68, 105, 103, 105, 116, 42, 32, 83, 112, 97, 99, 105, 110, 103, 10,
   10, 76, 101, 116, 116, 101, 114, 32, 60, 45, 32, 91, 97, 45, 122, 93, 32, 47, 32, 91, 65, 45, 90, 93, 32, 47, 32, 91, 95, 36, 93, 10, 10, 76, 101,
   116, 116, 101, 114, 79, 114, 68, 105, 103, 105, 116, 32, 60, 45, 32, 91, 97, 45, 122, 93, 32, 47, 32, 91, 65, 45, 90, 93, 32, 47, 32, 91, 48, 45,
   57, 93, 32, 47, 32, 91, 95, 36, 93, 10, 10, 32, 32, 32, 32, 35, 32, 84, 104, 101, 115, 101, 32, 97, 114, 101, 32, 116, 114, 97, 100, 105, 116, 105,
   111, 110, 97, 108, 32, 100, 101, 102, 105, 110, 105, 116, 105, 111, 110, 115, 32, 111, 102, 32, 108, 101, 116, 116, 101, 114, 115, 32, 97, 110,
   100, 32, 100, 105, 103, 105, 116, 115, 46, 10, 32, 32, 32, 32, 35, 32, 74, 76, 83, 32, 100, 101, 102, 105, 110, 101, 115, 32, 108, 101, 116, 116,
   101, 114, 115, 32, 97, 110, 100, 32, 100, 105, 103, 105, 116, 115, 32, 97, 115, 32, 85, 110, 105, 99, 111, 100, 101, 32, 99, 104, 97, 114, 97, 99,
   116, 101, 114, 115, 32, 114, 101, 99, 111, 103, 110, 105, 122, 101, 100, 10, 32, 32, 32, 32, 35, 32, 97, 115, 32, 115, 117, 99, 104, 32, 98, 121,
   32, 115, 112, 101, 99, 105, 97, 108, 32, 74, 97, 118, 97, 32, 112, 114, 111, 99, 101, 100, 117, 114, 101, 115, 44, 32, 119, 104, 105, 99, 104, 32,
   105, 115, 32, 100, 105, 102, 102, 105, 99, 117, 108, 116, 10, 32, 32, 32, 32, 35, 32, 116, 111, 32, 101, 120, 112, 114, 101, 115, 115, 32, 105,
   110, 32, 116, 101, 114, 109, 115, 32, 111, 102, 32, 80, 97, 114, 115, 105, 110, 103, 32, 69, 120, 112, 114, 101, 115, 115, 105, 111, 110, 115, 46,
   10, 10, 35, 45, 45, 45, 45, 45, 45, 45, 45, 45, 45, 45, 45, 45, 45, 45, 45, 45, 45, 45, 45, 45, 45, 45, 45, 45, 45, 45, 45, 45, 45, 45, 45, 45, 45,
   45, 45, 45, 45, 45, 45, 45, 45, 45, 45, 45, 45, 45, 45, 45, 45, 45, 45, 45, 45, 45, 45, 45, 45, 45, 45, 45, 45, 45, 45, 45, 45, 45, 45, 45, 45, 45,
   45, 45, 10, 35, 32, 32, 74, 76, 83, 32, 51, 46, 57, 32, 32, 75, 101, 121, 119, 111, 114, 100, 115, 10, 35, 32, 32, 77, 111, 114, 101, 32, 112, 114,
   101, 99, 105, 115, 101, 108, 121, 58, 32, 114, 101, 115, 101, 114, 118, 101, 100, 32, 119, 111, 114, 100, 115, 46, 32, 65, 99, 99, 111, 114, 100,
   105, 110, 103, 32, 116, 111, 32, 74, 76, 83, 44, 32, 34, 116, 114, 117, 101, 34, 44, 32, 34, 102, 97, 108, 115, 101, 34, 44, 10, 35, 32, 32, 97,
   110, 100, 32, 34, 110, 117, 108, 108, 34, 32, 97, 114, 101, 32, 116, 101, 99, 104, 110, 105, 99, 97, 108, 108, 121, 32, 110, 111, 116, 32, 107,
   101, 121, 119, 111, 114, 100, 115, 32, 45, 32, 98, 117, 116, 32, 115, 116, 105, 108, 108, 32, 109, 117, 115, 116, 32, 110, 111, 116, 32, 97, 112,
   112, 101, 97, 114, 10, 35, 32, 32, 97, 115, 32, 105, 100, 101, 110, 116, 105, 102, 105, 101, 114, 115, 46, 32, 75, 101, 121, 119, 111, 114, 100,
   115, 32, 34, 99, 111, 110, 115, 116, 34, 32, 97, 110, 100, 32, 34, 103, 111, 116, 111, 34, 32, 97, 114, 101, 32, 110, 111, 116, 32, 117, 115, 101,
   100, 59, 32, 74, 76, 83, 32, 101, 120, 112, 108, 97, 105, 110, 115, 10, 35, 32, 32, 116, 104, 101, 32, 114, 101, 97, 115, 111, 110, 46, 10, 35, 45,
   45, 45, 45, 45, 45, 45, 45, 45, 45, 45, 45, 45, 45, 45, 45, 45, 45, 45, 45, 45, 45, 45, 45, 45, 45, 45, 45, 45, 45, 45, 45, 45, 45, 45, 45, 45, 45,
   45, 45, 45, 45, 45, 45, 45, 45, 45, 45, 45, 45, 45, 45, 45, 45, 45, 45, 45, 45, 45, 45, 45, 45, 45, 45, 45, 45, 45, 45, 45, 45, 45, 45, 45, 10, 10,
   75, 101, 121, 119, 111, 114, 100, 10, 32, 32, 32, 60, 45, 32, 40, 32, 39, 97, 98, 115, 116, 114, 97, 99, 116, 39, 10, 32, 32, 32, 32, 32, 32, 47,
   32, 39, 97, 115, 115, 101, 114, 116, 39, 10] :=
  bytes_ofList
  ['S', 'p', 'a', 'c', 'i', 'n', 'g', '\n', '\x20', '\x20', '\x20', '\x20', '\x20', '<', '-', '\x20', '(', '\x20', '[', '\x20', '\\', 't', '\\', 'r',
   '\\', 'n', ']', '+', '\x20', '\x20', '\x20', '\x20', '\x20', '\x20', '\x20', '\x20', '\x20', '\x20', '\x20', '\x20', '\x20', '\x20', '#', '\x20',
   'W', 'h', 'i', 't', 'e', 'S', 'p', 'a', 'c', 'e', '\x20', '[', '\x20', '\\', 't', '\\', 'r', '\\', 'n', '\\', 'u', '0', '0', '0', 'C', ']', '+',
   '\n', '\x20', '\x20', '\x20', '\x20', '\x20', '\x20', '/', '\x20', '\'', '/', '*', '\'', '\x20', '(', '!', '\'', '*', '/', '\'', '\x20', '.', ')',
   '*', '\x20', '\'', '*', '/', '\'', '\x20', '\x20', '\x20', '\x20', '\x20', '\x20', '#', '\x20', 'T', 'r', 'a', 'd', 'i', 't', 'i', 'o', 'n', 'a',
   'l', 'C', 'o', 'm', 'm', 'e', 'n', 't', '\n', '\x20', '\x20', '\x20', '\x20', '\x20', '\x20', '/', '\x20', '\'', '/', '/', '\'', '\x20', '(', '!',
   '[', '\\', 'r', '\\', 'n', ']', '\x20', '.', ')', '*', '\x20', '[', '\\', 'r', '\\', 'n', ']', '\x20', '\x20', '#', '\x20', 'E', 'n', 'd', 'O',
   'f', 'L', 'i', 'n', 'e', 'C', 'o', 'm', 'm', 'e', 'n', 't', '\n', '\x20', '\x20', '\x20', '\x20', '\x20', '\x20', ')', '*', '\n', '\n', '#', '-',
   '-', '-', '-', '-', '-', '-', '-', '-', '-', '-', '-', '-', '-', '-', '-', '-', '-', '-', '-', '-', '-', '-', '-', '-', '-', '-', '-', '-', '-',
   '-', '-', '-', '-', '-', '-', '-', '-', '-', '-', '-', '-', '-', '-', '-', '-', '-', '-', '-', '-', '-', '-', '-', '-', '-', '-', '-', '-', '-',
   '-', '-', '-', '-', '-', '-', '-', '-', '-', '-', '-', '-', '-', '-', '\n', '#', '\x20', '\x20', 'J', 'L', 'S', '\x20', '3', '.', '8', '\x20',
   '\x20', 'I', 'd', 'e', 'n', 't', 'i', 'f', 'i', 'e', 'r', 's', '\n', '#', '-', '-', '-', '-', '-', '-', '-', '-', '-', '-', '-', '-', '-', '-',
   '-', '-', '-', '-', '-', '-', '-', '-', '-', '-', '-', '-', '-', '-', '-', '-', '-', '-', '-', '-', '-', '-', '-', '-', '-', '-', '-', '-', '-',
   '-', '-', '-', '-', '-', '-', '-', '-', '-', '-', '-', '-', '-', '-', '-', '-', '-', '-', '-', '-', '-', '-', '-', '-', '-', '-', '-', '-', '-',
   '-', '\n', '\n', 'I', 'd', 'e', 'n', 't', 'i', 'f', 'i', 'e', 'r', '\x20', '<', '-', '\x20', '!', 'K', 'e', 'y', 'w', 'o', 'r', 'd', '\x20', 'L',
   'e', 't', 't', 'e', 'r', '\x20', 'L', 'e', 't', 't', 'e', 'r', 'O', 'r', 'D', 'i', 'g', 'i', 't', '*', '\x20', 'S', 'p', 'a', 'c', 'i', 'n', 'g',
   '\n', '\n', 'L', 'e', 't', 't', 'e', 'r', '\x20', '<', '-', '\x20', '[', 'a', '-', 'z', ']', '\x20', '/', '\x20', '[', 'A', '-', 'Z', ']', '\x20',
   '/', '\x20', '[', '_', '$', ']', '\n', '\n', 'L', 'e', 't', 't', 'e', 'r', 'O', 'r', 'D', 'i', 'g', 'i', 't', '\x20', '<', '-', '\x20', '[', 'a',
   '-', 'z', ']', '\x20', '/', '\x20', '[', 'A', '-', 'Z', ']', '\x20', '/', '\x20', '[', '0', '-', '9', ']', '\x20', '/', '\x20', '[', '_', '$', ']',
   '\n', '\n', '\x20', '\x20', '\x20', '\x20', '#', '\x20', 'T', 'h', 'e', 's', 'e', '\x20', 'a', 'r', 'e', '\x20', 't', 'r', 'a', 'd', 'i', 't', 'i',
   'o', 'n', 'a', 'l', '\x20', 'd', 'e', 'f', 'i', 'n', 'i', 't', 'i', 'o', 'n', 's', '\x20', 'o', 'f', '\x20', 'l', 'e', 't', 't', 'e', 'r', 's',
   '\x20', 'a', 'n', 'd', '\x20', 'd', 'i', 'g', 'i', 't', 's', '.', '\n', '\x20', '\x20', '\x20', '\x20', '#', '\x20', 'J', 'L', 'S', '\x20', 'd',
   'e', 'f', 'i', 'n', 'e', 's', '\x20', 'l', 'e', 't', 't', 'e', 'r', 's', '\x20', 'a', 'n', 'd', '\x20', 'd', 'i', 'g', 'i', 't', 's', '\x20', 'a',
   's', '\x20', 'U', 'n', 'i', 'c', 'o', 'd', 'e', '\x20', 'c', 'h', 'a', 'r', 'a', 'c', 't', 'e', 'r', 's', '\x20', 'r', 'e', 'c', 'o', 'g', 'n',
   'i', 'z', 'e', 'd', '\n', '\x20', '\x20', '\x20', '\x20', '#', '\x20', 'a', 's', '\x20', 's', 'u', 'c', 'h', '\x20', 'b', 'y', '\x20', 's', 'p',
   'e', 'c', 'i', 'a', 'l', '\x20', 'J', 'a', 'v', 'a', '\x20', 'p', 'r', 'o', 'c', 'e', 'd', 'u', 'r', 'e', 's', ',', '\x20', 'w', 'h', 'i', 'c',
   'h', '\x20', 'i', 's', '\x20', 'd', 'i', 'f', 'f', 'i', 'c', 'u', 'l', 't', '\n', '\x20', '\x20', '\x20', '\x20', '#', '\x20', 't', 'o', '\x20',
   'e', 'x', 'p', 'r', 'e', 's', 's', '\x20', 'i', 'n', '\x20', 't', 'e', 'r', 'm', 's', '\x20', 'o', 'f', '\x20', 'P', 'a', 'r', 's', 'i', 'n', 'g',
   '\x20', 'E', 'x', 'p', 'r', 'e', 's', 's', 'i', 'o', 'n', 's', '.', '\n', '\n', '#', '-', '-', '-', '-', '-', '-', '-', '-', '-', '-', '-', '-',
   '-', '-', '-', '-', '-', '-', '-', '-', '-', '-', '-', '-', '-', '-', '-', '-', '-', '-', '-', '-', '-', '-', '-', '-', '-', '-', '-', '-', '-',
   '-', '-', '-', '-', '-', '-', '-', '-', '-', '-', '-', '-', '-', '-', '-', '-', '-', '-', '-', '-', '-', '-', '-', '-', '-', '-', '-', '-', '-',
   '-', '-', '-', '\n', '#', '\x20', '\x20', 'J', 'L', 'S', '\x20', '3', '.', '9', '\x20', '\x20', 'K', 'e', 'y', 'w', 'o', 'r', 'd', 's', '\n', '#',
   '\x20', '\x20', 'M', 'o', 'r', 'e', '\x20', 'p', 'r', 'e', 'c', 'i', 's', 'e', 'l', 'y', ':', '\x20', 'r', 'e', 's', 'e', 'r', 'v', 'e', 'd',
   '\x20', 'w', 'o', 'r', 'd', 's', '.', '\x20', 'A', 'c', 'c', 'o', 'r', 'd', 'i', 'n', 'g', '\x20', 't', 'o', '\x20', 'J', 'L', 'S', ',', '\x20',
   '"', 't', 'r', 'u', 'e', '"', ',', '\x20', '"', 'f', 'a', 'l', 's', 'e', '"', ',', '\n', '#', '\x20', '\x20', 'a', 'n', 'd', '\x20', '"', 'n', 'u',
   'l', 'l', '"', '\x20', 'a', 'r', 'e', '\x20', 't', 'e', 'c', 'h', 'n', 'i', 'c', 'a', 'l', 'l', 'y', '\x20', 'n', 'o', 't', '\x20', 'k', 'e', 'y',
   'w', 'o', 'r', 'd', 's', '\x20', '-', '\x20', 'b', 'u', 't', '\x20', 's', 't', 'i', 'l', 'l', '\x20', 'm', 'u', 's', 't', '\x20', 'n', 'o', 't',
   '\x20', 'a', 'p', 'p', 'e', 'a', 'r', '\n', '#', '\x20', '\x20', 'a', 's', '\x20', 'i', 'd', 'e', 'n', 't', 'i', 'f', 'i', 'e', 'r', 's', '.',
   '\x20', 'K', 'e', 'y', 'w', 'o', 'r', 'd', 's', '\x20', '"', 'c', 'o', 'n', 's', 't', '"', '\x20', 'a', 'n', 'd', '\x20', '"', 'g', 'o', 't', 'o',
   '"', '\x20', 'a', 'r', 'e', '\x20', 'n', 'o', 't', '\x20', 'u', 's', 'e', 'd', ';', '\x20', 'J', 'L', 'S', '\x20', 'e', 'x', 'p', 'l', 'a', 'i',
   'n', 's', '\n', '#', '\x20', '\x20', 't', 'h', 'e', '\x20', 'r', 'e', 'a', 's', 'o', 'n', '.', '\n', '#', '-', '-', '-', '-', '-', '-', '-', '-',
   '-', '-', '-', '-', '-', '-', '-', '-', '-', '-', '-', '-', '-', '-', '-', '-', '-', '-', '-', '-', '-', '-', '-', '-', '-', '-', '-', '-', '-',
   '-', '-', '-', '-', '-', '-', '-', '-', '-', '-', '-', '-', '-', '-', '-', '-', '-', '-', '-', '-', '-', '-', '-', '-', '-', '-', '-', '-', '-',
   '-', '-', '-', '-', '-', '-', '-', '\n', '\n', 'K', 'e', 'y', 'w', 'o', 'r', 'd', '\n', '\x20', '\x20', '\x20', '<', '-', '\x20', '(', '\x20',
   '\'', 'a', 'b', 's', 't', 'r', 'a', 'c', 't', '\'', '\n', '\x20', '\x20', '\x20', '\x20', '\x20', '\x20', '/', '\x20', '\'', 'a', 's', 's', 'e',
   'r', 't', '\'', '\n']

/-- `grammars/java.peg:654-712` -/
def javaFile18 : List UInt8 := bytes "      / 'boolean'
      / 'break'
      / 'byte'
      / 'case'
      / 'catch'
      / 'char'
      / 'class'
      / 'const'
      / 'continue'
      / 'default'
      / 'double'
      / 'do'
      / 'else'
      / 'enum'
      / 'extends'
      / 'false'
      / 'finally'
      / 'final'
      / 'float'
      / 'for'
      / 'goto'
      / 'if'
      / 'implements'
      / 'import'
      / 'interface'
      / 'int'
      / 'instanceof'
      / 'long'
      / 'native'
      / 'new'
      / 'null'
      / 'package'
      / 'private'
      / 'protected'
      / 'public'
      / 'return'
      / 'short'
      / 'static'
      / 'strictfp'
      / 'super'
      / 'switch'
      / 'synchronized'
      / 'this'
      / 'throws'
      / 'throw'
      / 'transient'
      / 'true'
      / 'try'
      / 'void'
      / 'volatile'
      / 'while'
      ) !LetterOrDigit

ASSERT       <- 'assert'       !LetterOrDigit Spacing
BREAK        <- 'break'        !LetterOrDigit Spacing
CASE         <- 'case'         !LetterOrDigit Spacing
CATCH        <- 'catch'        !LetterOrDigit Spacing
CLASS        <- 'class'        !LetterOrDigit Spacing
CONTINUE     <- 'continue'     !LetterOrDigit Spacing
"

theorem java_eq18 : javaFile18 =
  [32, 32, 32, 32, 32, 32, 47, 32, 39, 98, 111, 111, 108, 101, 97, 110, 39, 10, 32, 32, 32, 32, 32, 32, 47, 32, 39, 98, 114, 101, 97, 107, 39, 10, 32,
   32, 32, 32, 32, 32, 47, 32, 39, 98, 121, 116, 101, 39, 10, 32, 32, 32, 32, 32, 32, 47, 32, 39, 99, 97, 115, 101, 39, 10, 32, 32, 32, 32, 32, 32,
   47, 32, 39, 99, 97, 116, 99, 104, 39, 10, 32, 32, 32, 32, 32, 32, 47, 32, 39, 99, 104, 97, 114, 39, 10, 32, 32, 32, 32, 32, 32, 47, 32, 39, 99,
   108, 97, 115, 115, 39, 10, 32, 32, 32, 32, 32, 32, 47, 32, 39, 99, 111, 110, 115, 116, 39, 10, 32, 32, 32, 32, 32, 32, 47, 32, 39, 99, 111, 110,
   116, 105, 110, 117, 101, 39, 10, 32, 32, 32, 32, 32, 32, 47, 32, 39, 100, 101, 102, 97, 117, 108, 116, 39, 10, 32, 32, 32, 32, 32, 32, 47, 32, 39,
   100, 111, 117, 98, 108, 101, 39, 10, 32, 32, 32, 32, 32, 32, 47, 32, 39, 100, 111, 39, 10, 32, 32, 32, 32, 32, 32, 47, 32, 39, 101, 108, 115, 101,
   39, 10, 32, 32, 32, 32, 32, 32, 47, 32, 39, 101, 110, 117, 109, 39, 10, 32, 32, 32, 32, 32, 32, 47, 32, 39, 101, 120, 116, 101, 110, 100, 115, 39,
   10, 32, 32, 32, 32, 32, 32, 47, 32, 39, 102, 97, 108, 115, 101, 39, 10, 32, 32, 32, 32, 32, 32, 47, 32, 39, 102, 105, 110, 97, 108, 108, 121, 39,
   10, 32, 32, 32, 32, 32, 32, 47, 32, 39, 102, 105, 110, 97, 108, 39, 10, 32, 32, 32, 32, 32, 32, 47, 32, 39, 102, 108, 111, 97, 116, 39, 10, 32, 32,
   32, 32, 32, 32, 47, 32, 39, 102, 111, 114, 39, 10, 32, 32, 32, 32, 32, 32, 47, 32, 39, 103, 111, 116, 111, 39, 10, 32, 32, 32, 32, 32, 32, 47, 32,
   39, 105, 102, 39, 10, 32, 32, 32, 32, 32, 32, 47, 32, 39, 105, 109, 112, 108, 101, 109, 101, 110, 116, 115, 39, 10, 32, 32, 32, 32, 32, 32, 47, 32,
   39, 105, 109, 112, 111, 114, 116, 39, 10, 32, 32, 32, 32, 32, 32, 47, 32, 39, 105, 110, 116, 101, 114, 102, 97, 99, 101, 39, 10, 32, 32, 32, 32,
   32, 32, 47, 32, 39, 105, 110, 116, 39, 10, 32, 32, 32, 32, 32, 32, 47, 32, 39, 105, 110, 115, 116, 97, 110, 99, 101, 111, 102, 39, 10, 32, 32, 32,
   32, 32, 32, 47, 32, 39, 108, 111, 110, 103, 39, 10, 32, 32, 32, 32, 32, 32, 47, 32, 39, 110, 97, 116, 105, 118, 101, 39, 10, 32, 32, 32, 32, 32,
   32, 47, 32, 39, 110, 101, 119, 39, 10, 32, 32, 32, 32, 32, 32, 47, 32, 39, 110, 117, 108, 108, 39, 10, 32, 32, 32, 32, 32, 32, 47, 32, 39, 112, 97,
   99, 107, 97, 103, 101, 39, 10, 32, 32, 32, 32, 32, 32, 47, 32, 39, 112, 114, 105, 118, 97, 116, 101, 39, 10, 32, 32, 32, 32, 32, 32, 47, 32, 39,
   112, 114, 111, 116, 101, 99, 116, 101, 100, 39, 10, 32, 32, 32, 32, 32, 32, 47, 32, 39, 112, 117, 98, 108, 105, 99, 39, 10, 32, 32, 32, 32, 32, 32,
   47, 32, 39, 114, 101, 116, 117, 114, 110, 39, 10, 32, 32, 32, 32, 32, 32, 47, 32, 39, 115, 104, 111, 114, 116, 39, 10, 32, 32, 32, 32, 32, 32, 47,
   32, 39, 115, 116, 97, 116, 105, 99, 39, 10, 32, 32, 32, 32, 32, 32, 47, 32, 39, 115, 116, 114, 105, 99, 116, 102, 112, 39, 10, 32, 32, 32, 32, 32,
   32, 47, 32, 39, 115, 117, 112, 101, 114, 39, 10, 32, 32, 32, 32, 32, 32, 47, 32, 39, 115, 119, 105, 116, 99, 104, 39, 10, 32, 32, 32, 32, 32, 32,
   47, 32, 39, 115, 121, 110, 99, 104, 114, 111, 110, 105, 122, 101, 100, 39, 10, 32, 32, 32, 32, 32, 32, 47, 32, 39, 116, 104, 105, 115, 39, 10, 32,
   32, 32, 32, 32, 32, 47, 32, 39, 116, 104, 114, 111, 119, 115, 39, 10, 32, 32, 32, 32, 32, 32, 47, 32, 39, 116, 104, 114, 111, 119, 39, 10, 32, 32,
   32, 32, 32, 32, 47, 32, 39, 116, 114, 97, 110, 115, 105, 101, 110, 116, 39, 10, 32, 32, 32, 32, 32, 32, 47, 32, 39, 116, 114, 117, 101, 39, 10, 32,
   32, 32, 32, 32, 32, 47, 32, 39, 116, 114, 121, 39, 10, 32, 32, 32, 32, 32, 32, 47, 32, 39, 118, 111, 105, 100, 39, 10, 32, 32, 32, 32, 32, 32, 47,
   32, 39, 118, 111, 108, 97, 116, 105, 108, 101, 39, 10, 32, 32, 32, 32, 32, 32, 47, 32, 39, 119, 104, 105, 108, 101, 39, 10, 32, 32, 32, 32, 32, 32,
   41, 32, 33, 76, 101, 116, 116, 101, 114, 79, 114, 68, 105, 103, 105, 116, 10, 10, 65, 83, 83, 69, 82, 84, 32, 32, 32, 32, 32, 32, 32, 60, 45, 32,
   39, 97, 115, 115, 101, 114, 116, 39, 32, 32, 32, 32, 32, 32, 32, 33, 76, 101, 116, 116, 101, 114, 79, 114, 68, 105, 103, 105, 116, 32, 83, 112, 97,
   99, 105, 110, 103, 10, 66, 82, 69, 65, 75, 32, 32, 32, 32, 32, 32, 32, 32, 60, 45, 32, 39, 98, 114, 101, 97, 107, 39, 32, 32, 32, 32, 32, 32, 32,
   32, 33, 76, 101, 116, 116, 101, 114, 79, 114, 68, 105, 103, 105, 116, 32, 83, 112, 97, 99, 105, 110, 103, 10, 67, 65, 83, 69, 32, 32, 32, 32, 32,
   32, 32, 32, 32, 60, 45, 32, 39, 99, 97, 115, 101, 39, 32, 32, 32, 32, 32, 32, 32, 32, 32, 33, 76, 101, 116, 116, 101, 114, 79, 114, 68, 105, 103,
   105, 116, 32, 83, 112, 97, 99, 105, 110, 103, 10, 67, 65, 84, 67, 72, 32, 32, 32, 32, 32, 32, 32, 32, 60, 45, 32, 39, 99, 97, 116, 99, 104, 39, 32,
   32, 32, 32, 32, 32, 32, 32, 33, 76, 101, 116, 116, 101, 114, 79, 114, 68, 105, 103, 105, 116, 32, 83, 112, 97, 99, 105, 110, 103, 10, 67, 76, 65,
   83, 83, 32, 32, 32, 32, 32, 32, 32, 32, 60, 45, 32, 39, 99, 108, 97, 115, 115, 39, 32, 32, 32, 32, 32, 32, 32, 32, 33, 76, 101, 116, 116, 101, 114,
   79, 114, 68, 105, 103, 105, 116, 32, 83, 112, 97, 99, 105, 110, 103, 10, 67, 79, 78, 84, 73, 78, 85, 69, 32, 32, 32, 32, 32, 60, 45, 32, 39, 99,
   111, 110, 116, 105, 110, 117, 101, 39, 32, 32, 32, 32, 32, 33, 76, 101, 116, 116, 101, 114, 79, 114, 68, 105, 103, 105, 116, 32, 83, 112, 97, 99,
   105, 110, 103, 10] :=
  bytes_ofList
  ['\x20', '\x20', '\x20', '\x20', '\x20', '\x20', '/', '\x20', '\'', 'b', 'o', 'o', 'l', 'e', 'a', 'n', '\'', '\n', '\x20', '\x20', '\x20', '\x20',
   '\x20', '\x20', '/', '\x20', '\'', 'b', 'r', 'e', 'a', 'k', '\'', '\n', '\x20', '\x20', '\x20', '\x20', '\x20', '\x20', '/', '\x20', '\'', 'b',
   'y', 't', 'e', '\'', '\n', '\x20', '\x20', '\x20', '\x20', '\x20', '\x20', '/', '\x20', '\'', 'c', 'a', 's', 'e', '\'', '\n', '\x20', '\x20',
   '\x20', '\x20', '\x20', '\x20', '/', '\x20', '\'', 'c', 'a', 't', 'c', 'h', '\'', '\n', '\x20', '\x20', '\x20', '\x20', '\x20', '\x20', '/',
   '\x20', '\'', 'c', 'h', 'a', 'r', '\'', '\n', '\x20', '\x20', '\x20', '\x20', '\x20', '\x20', '/', '\x20', '\'', 'c', 'l', 'a', 's', 's', '\'',
   '\n', '\x20', '\x20', '\x20', '\x20', '\x20', '\x20', '/', '\x20', '\'', 'c', 'o', 'n', 's', 't', '\'', '\n', '\x20', '\x20', '\x20', '\x20',
   '\x20', '\x20', '/', '\x20', '\'', 'c', 'o', 'n', 't', 'i', 'n', 'u', 'e', '\'', '\n', '\x20', '\x20', '\x20', '\x20', '\x20', '\x20', '/', '\x20',
   '\'', 'd', 'e', 'f', 'a', 'u', 'l', 't', '\'', '\n', '\x20', '\x20', '\x20', '\x20', '\x20', '\x20', '/', '\x20', '\'', 'd', 'o', 'u', 'b', 'l',
   'e', '\'', '\n', '\x20', '\x20', '\x20', '\x20', '\x20', '\x20', '/', '\x20', '\'', 'd', 'o', '\'', '\n', '\x20', '\x20', '\x20', '\x20', '\x20',
   '\x20', '/', '\x20', '\'', 'e', 'l', 's', 'e', '\'', '\n', '\x20', '\x20', '\x20', '\x20', '\x20', '\x20', '/', '\x20', '\'', 'e', 'n', 'u', 'm',
   '\'', '\n', '\x20', '\x20', '\x20', '\x20', '\x20', '\x20', '/', '\x20', '\'', 'e', 'x', 't', 'e', 'n', 'd', 's', '\'', '\n', '\x20', '\x20',
   '\x20', '\x20', '\x20', '\x20', '/', '\x20', '\'', 'f', 'a', 'l', 's', 'e', '\'', '\n', '\x20', '\x20', '\x20', '\x20', '\x20', '\x20', '/',
   '\x20', '\'', 'f', 'i', 'n', 'a', 'l', 'l', 'y', '\'', '\n', '\x20', '\x20', '\x20', '\x20', '\x20', '\x20', '/', '\x20', '\'', 'f', 'i', 'n', 'a',
   'l', '\'', '\n', '\x20', '\x20', '\x20', '\x20', '\x20', '\x20', '/', '\x20', '\'', 'f', 'l', 'o', 'a', 't', '\'', '\n', '\x20', '\x20', '\x20',
   '\x20', '\x20', '\x20', '/', '\x20', '\'', 'f', 'o', 'r', '\'', '\n', '\x20', '\x20', '\x20', '\x20', '\x20', '\x20', '/', '\x20', '\'', 'g', 'o',
   't', 'o', '\'', '\n', '\x20', '\x20', '\x20', '\x20', '\x20', '\x20', '/', '\x20', '\'', 'i', 'f', '\'', '\n', '\x20', '\x20', '\x20', '\x20',
   '\x20', '\x20', '/', '\x20', '\'', 'i', 'm', 'p', 'l', 'e', 'm', 'e', 'n', 't', 's', '\'', '\n', '\x20', '\x20', '\x20', '\x20', '\x20', '\x20',
   '/', '\x20', '\'', 'i', 'm', 'p', 'o', 'r', 't', '\'', '\n', '\x20', '\x20', '\x20', '\x20', '\x20', '\x20', '/', '\x20', '\'', 'i', 'n', 't', 'e',
   'r', 'f', 'a', 'c', 'e', '\'', '\n', '\x20', '\x20', '\x20', '\x20', '\x20', '\x20', '/', '\x20', '\'', 'i', 'n', 't', '\'', '\n', '\x20', '\x20',
   '\x20', '\x20', '\x20', '\x20', '/', '\x20', '\'', 'i', 'n', 's', 't', 'a', 'n', 'c', 'e', 'o', 'f', '\'', '\n', '\x20', '\x20', '\x20', '\x20',
   '\x20', '\x20', '/', '\x20', '\'', 'l', 'o', 'n', 'g', '\'', '\n', '\x20', '\x20', '\x20', '\x20', '\x20', '\x20', '/', '\x20', '\'', 'n', 'a',
   't', 'i', 'v', 'e', '\'', '\n', '\x20', '\x20', '\x20', '\x20', '\x20', '\x20', '/', '\x20', '\'', 'n', 'e', 'w', '\'', '\n', '\x20', '\x20',
   '\x20', '\x20', '\x20', '\x20', '/', '\x20', '\'', 'n', 'u', 'l', 'l', '\'', '\n', '\x20', '\x20', '\x20', '\x20', '\x20', '\x20', '/', '\x20',
   '\'', 'p', 'a', 'c', 'k', 'a', 'g', 'e', '\'', '\n', '\x20', '\x20', '\x20', '\x20', '\x20', '\x20', '/', '\x20', '\'', 'p', 'r', 'i', 'v', 'a',
   't', 'e', '\'', '\n', '\x20', '\x20', '\x20', '\x20', '\x20', '\x20', '/', '\x20', '\'', 'p', 'r', 'o', 't', 'e', 'c', 't', 'e', 'd', '\'', '\n',
   '\x20', '\x20', '\x20', '\x20', '\x20', '\x20', '/', '\x20', '\'', 'p', 'u', 'b', 'l', 'i', 'c', '\'', '\n', '\x20', '\x20', '\x20', '\x20',
   '\x20', '\x20', '/', '\x20', '\'', 'r', 'e', 't', 'u', 'r', 'n', '\'', '\n', '\x20', '\x20', '\x20', '\x20', '\x20', '\x20', '/', '\x20', '\'',
   's', 'h', 'o', 'r', 't', '\'', '\n', '\x20', '\x20', '\x20', '\x20', '\x20', '\x20', '/', '\x20', '\'', 's', 't', 'a', 't', 'i', 'c', '\'', '\n',
   '\x20', '\x20', '\x20', '\x20', '\x20', '\x20', '/', '\x20', '\'', 's', 't', 'r', 'i', 'c', 't', 'f', 'p', '\'', '\n', '\x20', '\x20', '\x20',
   '\x20', '\x20', '\x20', '/', '\x20', '\'', 's', 'u', 'p', 'e', 'r', '\'', '\n', '\x20', '\x20', '\x20', '\x20', '\x20', '\x20', '/', '\x20', '\'',
   's', 'w', 'i', 't', 'c', 'h', '\'', '\n', '\x20', '\x20', '\x20', '\x20', '\x20', '\x20', '/', '\x20', '\'', 's', 'y', 'n', 'c', 'h', 'r', 'o',
   'n', 'i', 'z', 'e', 'd', '\'', '\n', '\x20', '\x20', '\x20', '\x20', '\x20', '\x20', '/', '\x20', '\'', 't', 'h', 'i', 's', '\'', '\n', '\x20',
   '\x20', '\x20', '\x20', '\x20', '\x20', '/', '\x20', '\'', 't', 'h', 'r', 'o', 'w', 's', '\'', '\n', '\x20', '\x20', '\x20', '\x20', '\x20',
   '\x20', '/', '\x20', '\'', 't', 'h', 'r', 'o', 'w', '\'', '\n', '\x20', '\x20', '\x20', '\x20', '\x20', '\x20', '/', '\x20', '\'', 't', 'r', 'a',
   'n', 's', 'i', 'e', 'n', 't', '\'', '\n', '\x20', '\x20', '\x20', '\x20', '\x20', '\x20', '/', '\x20', '\'', 't', 'r', 'u', 'e', '\'', '\n',
   '\x20', '\x20', '\x20', '\x20', '\x20', '\x20', '/', '\x20', '\'', 't', 'r', 'y', '\'', '\n', '\x20', '\x20', '\x20', '\x20', '\x20', '\x20', '/',
   '\x20', '\'', 'v', 'o', 'i', 'd', '\'', '\n', '\x20', '\x20', '\x20', '\x20', '\x20', '\x20', '/', '\x20', '\'', 'v', 'o', 'l', 'a', 't', 'i', 'l',
   'e', '\'', '\n', '\x20', '\x20', '\x20', '\x20', '\x20', '\x20', '/', '\x20', '\'', 'w', 'h', 'i', 'l', 'e', '\'', '\n', '\x20', '\x20', '\x20',
   '\x20', '\x20', '\x20', ')', '\x20', '!', 'L', 'e', 't', 't', 'e', 'r', 'O', 'r', 'D', 'i', 'g', 'i', 't', '\n', '\n', 'A', 'S', 'S', 'E', 'R',
   'T', '\x20', '\x20', '\x20', '\x20', '\x20', '\x20', '\x20', '<', '-', '\x20', '\'', 'a', 's', 's', 'e', 'r', 't', '\'', '\x20', '\x20', '\x20',
   '\x20', '\x20', '\x20', '\x20', '!', 'L', 'e', 't', 't', 'e', 'r', 'O', 'r', 'D', 'i', 'g', 'i', 't', '\x20', 'S', 'p', 'a', 'c', 'i', 'n', 'g',
   '\n', 'B', 'R', 'E', 'A', 'K', '\x20', '\x20', '\x20', '\x20', '\x20', '\x20', '\x20', '\x20', '<', '-', '\x20', '\'', 'b', 'r', 'e', 'a', 'k',
   '\'', '\x20', '\x20', '\x20', '\x20', '\x20', '\x20', '\x20', '\x20', '!', 'L', 'e', 't', 't', 'e', 'r', 'O', 'r', 'D', 'i', 'g', 'i', 't', '\x20',
   'S', 'p', 'a', 'c', 'i', 'n', 'g', '\n', 'C', 'A', 'S', 'E', '\x20', '\x20', '\x20', '\x20', '\x20', '\x20', '\x20', '\x20', '\x20', '<', '-',
   '\x20', '\'', 'c', 'a', 's', 'e', '\'', '\x20', '\x20', '\x20', '\x20', '\x20', '\x20', '\x20', '\x20', '\x20', '!', 'L', 'e', 't', 't', 'e', 'r',
   'O', 'r', 'D', 'i', 'g', 'i', 't', '\x20', 'S', 'p', 'a', 'c', 'i', 'n', 'g', '\n', 'C', 'A', 'T', 'C', 'H', '\x20', '\x20', '\x20', '\x20',
   '\x20', '\x20', '\x20', '\x20', '<', '-', '\x20', '\'', 'c', 'a', 't', 'c', 'h', '\'', '\x20', '\x20', '\x20', '\x20', '\x20', '\x20', '\x20',
   '\x20', '!', 'L', 'e', 't', 't', 'e', 'r', 'O', 'r', 'D', 'i', 'g', 'i', 't', '\x20', 'S', 'p', 'a', 'c', 'i', 'n', 'g', '\n', 'C', 'L', 'A', 'S',
   'S', '\x20', '\x20', '\x20', '\x20', '\x20', '\x20', '\x20', '\x20', '<', '-', '\x20', '\'', 'c', 'l', 'a', 's', 's', '\'', '\x20', '\x20', '\x20',
   '\x20', '\x20', '\x20', '\x20', '\x20', '!', 'L', 'e', 't', 't', 'e', 'r', 'O', 'r', 'D', 'i', 'g', 'i', 't', '\x20', 'S', 'p', 'a', 'c', 'i', 'n',
   'g', '\n', 'C', 'O', 'N', 'T', 'I', 'N', 'U', 'E', '\x20', '\x20', '\x20', '\x20', '\x20', '<', '-', '\x20', '\'', 'c', 'o', 'n', 't', 'i', 'n',
   'u', 'e', '\'', '\x20', '\x20', '\x20', '\x20', '\x20', '!', 'L', 'e', 't', 't', 'e', 'r', 'O', 'r', 'D', 'i', 'g', 'i', 't', '\x20', 'S', 'p',
   'a', 'c', 'i', 'n', 'g', '\n']

/-- `grammars/java.peg:713-734` -/
def javaFile19 : List UInt8 := bytes "DEFAULT      <- 'default'      !LetterOrDigit Spacing
DO           <- 'do'           !LetterOrDigit Spacing
ELSE         <- 'else'         !LetterOrDigit Spacing
ENUM         <- 'enum'         !LetterOrDigit Spacing
EXTENDS      <- 'extends'      !LetterOrDigit Spacing
FINALLY      <- 'finally'      !LetterOrDigit Spacing
FINAL        <- 'final'        !LetterOrDigit Spacing
FOR          <- 'for'          !LetterOrDigit Spacing
IF           <- 'if'           !LetterOrDigit Spacing
IMPLEMENTS   <- 'implements'   !LetterOrDigit Spacing
IMPORT       <- 'import'       !LetterOrDigit Spacing
INTERFACE    <- 'interface'    !LetterOrDigit Spacing
INSTANCEOF   <- 'instanceof'   !LetterOrDigit Spacing
NEW          <- 'new'          !LetterOrDigit Spacing
PACKAGE      <- 'package'      !LetterOrDigit Spacing
RETURN       <- 'return'       !LetterOrDigit Spacing
STATIC       <- 'static'       !LetterOrDigit Spacing
SUPER        <- 'super'        !LetterOrDigit Spacing
SWITCH       <- 'switch'       !LetterOrDigit Spacing
SYNCHRONIZED <- 'synchronized' !LetterOrDigit Spacing
THIS         <- 'this'         !LetterOrDigit Spacing
THROWS       <- 'throws'       !LetterOrDigit Spacing
"

theorem java_eq19 : javaFile19 =
  [68, 69, 70, 65, 85, 76, 84, 32, 32, 32, 32, 32, 32, 60, 45, 32, 39, 100, 101, 102, 97, 117, 108, 116, 39, 32, 32, 32, 32, 32, 32, 33, 76, 101, 116,
   116, 101, 114, 79, 114, 68, 105, 103, 105, 116, 32, 83, 112, 97, 99, 105, 110, 103, 10, 68, 79, 32, 32, 32, 32, 32, 32, 32, 32, 32, 32, 32, 60, 45,
   32, 39, 100, 111, 39, 32, 32, 32, 32, 32, 32, 32, 32, 32, 32, 32, 33, 76, 101, 116, 116, 101, 114, 79, 114, 68, 105, 103, 105, 116, 32, 83, 112,
   97, 99, 105, 110, 103, 10, 69, 76, 83, 69, 32, 32, 32, 32, 32, 32, 32, 32, 32, 60, 45, 32, 39, 101, 108, 115, 101, 39, 32, 32, 32, 32, 32, 32, 32,
   32, 32, 33, 76, 101, 116, 116, 101, 114, 79, 114, 68, 105, 103, 105, 116, 32, 83, 112, 97, 99, 105, 110, 103, 10, 69, 78, 85, 77, 32, 32, 32, 32,
   32, 32, 32, 32, 32, 60, 45, 32, 39, 101, 110, 117, 109, 39, 32, 32, 32, 32, 32, 32, 32, 32, 32, 33, 76, 101, 116, 116, 101, 114, 79, 114, 68, 105,
   103, 105, 116, 32, 83, 112, 97, 99, 105, 110, 103, 10, 69, 88, 84, 69, 78, 68, 83, 32, 32, 32, 32, 32, 32, 60, 45, 32, 39, 101, 120, 116, 101, 110,
   100, 115, 39, 32, 32, 32, 32, 32, 32, 33, 76, 101, 116, 116, 101, 114, 79, 114, 68, 105, 103, 105, 116, 32, 83, 112, 97, 99, 105, 110, 103, 10, 70,
   73, 78, 65, 76, 76, 89, 32, 32, 32, 32, 32, 32, 60, 45, 32, 39, 102, 105, 110, 97, 108, 108, 121, 39, 32, 32, 32, 32, 32, 32, 33, 76, 101, 116,
   116, 101, 114, 79, 114, 68, 105, 103, 105, 116, 32, 83, 112, 97, 99, 105, 110, 103, 10, 70, 73, 78, 65, 76, 32, 32, 32, 32, 32, 32, 32, 32, 60, 45,
   32, 39, 102, 105, 110, 97, 108, 39, 32, 32, 32, 32, 32, 32, 32, 32, 33, 76, 101, 116, 116, 101, 114, 79, 114, 68, 105, 103, 105, 116, 32, 83, 112,
   97, 99, 105, 110, 103, 10, 70, 79, 82, 32, 32, 32, 32, 32, 32, 32, 32, 32, 32, 60, 45, 32, 39, 102, 111, 114, 39, 32, 32, 32, 32, 32, 32, 32, 32,
   32, 32, 33, 76, 101, 116, 116, 101, 114, 79, 114, 68, 105, 103, 105, 116, 32, 83, 112, 97, 99, 105, 110, 103, 10, 73, 70, 32, 32, 32, 32, 32, 32,
   32, 32, 32, 32, 32, 60, 45, 32, 39, 105, 102, 39, 32, 32, 32, 32, 32, 32, 32, 32, 32, 32, 32, 33, 76, 101, 116, 116, 101, 114, 79, 114, 68, 105,
   103, 105, 116, 32, 83, 112, 97, 99, 105, 110, 103, 10, 73, 77, 80, 76, 69, 77, 69, 78, 84, 83, 32, 32, 32, 60, 45, 32, 39, 105, 109, 112, 108, 101,
   109, 101, 110, 116, 115, 39, 32, 32, 32, 33, 76, 101, 116, 116, 101, 114, 79, 114, 68, 105, 103, 105, 116, 32, 83, 112, 97, 99, 105, 110, 103, 10,
   73, 77, 80, 79, 82, 84, 32, 32, 32, 32, 32, 32, 32, 60, 45, 32, 39, 105, 109, 112, 111, 114, 116, 39, 32, 32, 32, 32, 32, 32, 32, 33, 76, 101, 116,
   116, 101, 114, 79, 114, 68, 105, 103, 105, 116, 32, 83, 112, 97, 99, 105, 110, 103, 10, 73, 78, 84, 69, 82, 70, 65, 67, 69, 32, 32, 32, 32, 60, 45,
   32, 39, 105, 110, 116, 101, 114, 102, 97, 99, 101, 39, 32, 32, 32, 32, 33, 76, 101, 116, 116, 101, 114, 79, 114, 68, 105, 103, 105, 116, 32, 83,
   112, 97, 99, 105, 110, 103, 10, 73, 78, 83, 84, 65, 78, 67, 69, 79, 70, 32, 32, 32, 60, 45, 32, 39, 105, 110, 115, 116, 97, 110, 99, 101, 111, 102,
   39, 32, 32, 32, 33, 76, 101, 116, 116, 101, 114, 79, 114, 68, 105, 103, 105, 116, 32, 83, 112, 97, 99, 105, 110, 103, 10, 78, 69, 87, 32, 32, 32,
   32, 32, 32, 32, 32, 32, 32, 60, 45, 32, 39, 110, 101, 119, 39, 32, 32, 32, 32, 32, 32, 32, 32, 32, 32, 33, 76, 101, 116, 116, 101, 114, 79, 114,
   68, 105, 103, 105, 116, 32, 83, 112, 97, 99, 105, 110, 103, 10, 80, 65, 67, 75, 65, 71, 69, 32, 32, 32, 32, 32, 32, 60, 45, 32, 39, 112, 97, 99,
   107, 97, 103, 101, 39, 32, 32, 32, 32, 32, 32, 33, 76, 101, 116, 116, 101, 114, 79, 114, 68, 105, 103, 105, 116, 32, 83, 112, 97, 99, 105, 110,
   103, 10, 82, 69, 84, 85, 82, 78, 32, 32, 32, 32, 32, 32, 32, 60, 45, 32, 39, 114, 101, 116, 117, 114, 110, 39, 32, 32, 32, 32, 32, 32, 32, 33, 76,
   101, 116, 116, 101, 114, 79, 114, 68, 105, 103, 105, 116, 32, 83, 112, 97, 99, 105, 110, 103, 10, 83, 84, 65, 84, 73, 67, 32, 32, 32, 32, 32, 32,
   32, 60, 45, 32, 39, 115, 116, 97, 116, 105, 99, 39, 32, 32, 32, 32, 32, 32, 32, 33, 76, 101, 116, 116, 101, 114, 79, 114, 68, 105, 103, 105, 116,
   32, 83, 112, 97, 99, 105, 110, 103, 10, 83, 85, 80, 69, 82, 32, 32, 32, 32, 32, 32, 32, 32, 60, 45, 32, 39, 115, 117, 112, 101, 114, 39, 32, 32,
   32, 32, 32, 32, 32, 32, 33, 76, 101, 116, 116, 101, 114, 79, 114, 68, 105, 103, 105, 116, 32, 83, 112, 97, 99, 105, 110, 103, 10, 83, 87, 73, 84,
   67, 72, 32, 32, 32, 32, 32, 32, 32, 60, 45, 32, 39, 115, 119, 105, 116, 99, 104, 39, 32, 32, 32, 32, 32, 32, 32, 33, 76, 101, 116, 116, 101, 114,
   79, 114, 68, 105, 103, 105, 116, 32, 83, 112, 97, 99, 105, 110, 103, 10, 83, 89, 78, 67, 72, 82, 79, 78, 73, 90, 69, 68, 32, 60, 45, 32, 39, 115,
   121, 110, 99, 104, 114, 111, 110, 105, 122, 101, 100, 39, 32, 33, 76, 101, 116, 116, 101, 114, 79, 114, 68, 105, 103, 105, 116, 32, 83, 112, 97,
   99, 105, 110, 103, 10, 84, 72, 73, 83, 32, 32, 32, 32, 32, 32, 32, 32, 32, 60, 45, 32, 39, 116, 104, 105, 115, 39, 32, 32, 32, 32, 32, 32, 32, 32,
   32, 33, 76, 101, 116, 116, 101, 114, 79, 114, 68, 105, 103, 105, 116, 32, 83, 112, 97, 99, 105, 110, 103, 10, 84, 72, 82, 79, 87, 83, 32, 32, 32,
   32, 32, 32, 32, 60, 45, 32, 39, 116, 104, 114, 111, 119, 115, 39, 32, 32, 32, 32, 32, 32, 32, 33, 76, 101, 116, 116, 101, 114, 79, 114, 68, 105,
   103, 105, 116, 32, 83, 112, 97, 99, 105, 110, 103, 10] :=
  bytes_ofList
  ['D', 'E', 'F', 'A', 'U', 'L', 'T', '\x20', '\x20', '\x20', '\x20', '\x20', '\x20', '<', '-', '\x20', '\'', 'd', 'e', 'f', 'a', 'u', 'l', 't', '\'',
   '\x20', '\x20', '\x20', '\x20', '\x20', '\x20', '!', 'L', 'e', 't', 't', 'e', 'r', 'O', 'r', 'D', 'i', 'g', 'i', 't', '\x20', 'S', 'p', 'a', 'c',
   'i', 'n', 'g', '\n', 'D', 'O', '\x20', '\x20', '\x20', '\x20', '\x20', '\x20', '\x20', '\x20', '\x20', '\x20', '\x20', '<', '-', '\x20', '\'', 'd',
   'o', '\'', '\x20', '\x20', '\x20', '\x20', '\x20', '\x20', '\x20', '\x20', '\x20', '\x20', '\x20', '!', 'L', 'e', 't', 't', 'e', 'r', 'O', 'r',
   'D', 'i', 'g', 'i', 't', '\x20', 'S', 'p', 'a', 'c', 'i', 'n', 'g', '\n', 'E', 'L', 'S', 'E', '\x20', '\x20', '\x20', '\x20', '\x20', '\x20',
   '\x20', '\x20', '\x20', '<', '-', '\x20', '\'', 'e', 'l', 's', 'e', '\'', '\x20', '\x20', '\x20', '\x20', '\x20', '\x20', '\x20', '\x20', '\x20',
   '!', 'L', 'e', 't', 't', 'e', 'r', 'O', 'r', 'D', 'i', 'g', 'i', 't', '\x20', 'S', 'p', 'a', 'c', 'i', 'n', 'g', '\n', 'E', 'N', 'U', 'M', '\x20',
   '\x20', '\x20', '\x20', '\x20', '\x20', '\x20', '\x20', '\x20', '<', '-', '\x20', '\'', 'e', 'n', 'u', 'm', '\'', '\x20', '\x20', '\x20', '\x20',
   '\x20', '\x20', '\x20', '\x20', '\x20', '!', 'L', 'e', 't', 't', 'e', 'r', 'O', 'r', 'D', 'i', 'g', 'i', 't', '\x20', 'S', 'p', 'a', 'c', 'i', 'n',
   'g', '\n', 'E', 'X', 'T', 'E', 'N', 'D', 'S', '\x20', '\x20', '\x20', '\x20', '\x20', '\x20', '<', '-', '\x20', '\'', 'e', 'x', 't', 'e', 'n', 'd',
   's', '\'', '\x20', '\x20', '\x20', '\x20', '\x20', '\x20', '!', 'L', 'e', 't', 't', 'e', 'r', 'O', 'r', 'D', 'i', 'g', 'i', 't', '\x20', 'S', 'p',
   'a', 'c', 'i', 'n', 'g', '\n', 'F', 'I', 'N', 'A', 'L', 'L', 'Y', '\x20', '\x20', '\x20', '\x20', '\x20', '\x20', '<', '-', '\x20', '\'', 'f', 'i',
   'n', 'a', 'l', 'l', 'y', '\'', '\x20', '\x20', '\x20', '\x20', '\x20', '\x20', '!', 'L', 'e', 't', 't', 'e', 'r', 'O', 'r', 'D', 'i', 'g', 'i',
   't', '\x20', 'S', 'p', 'a', 'c', 'i', 'n', 'g', '\n', 'F', 'I', 'N', 'A', 'L', '\x20', '\x20', '\x20', '\x20', '\x20', '\x20', '\x20', '\x20', '<',
   '-', '\x20', '\'', 'f', 'i', 'n', 'a', 'l', '\'', '\x20', '\x20', '\x20', '\x20', '\x20', '\x20', '\x20', '\x20', '!', 'L', 'e', 't', 't', 'e',
   'r', 'O', 'r', 'D', 'i', 'g', 'i', 't', '\x20', 'S', 'p', 'a', 'c', 'i', 'n', 'g', '\n', 'F', 'O', 'R', '\x20', '\x20', '\x20', '\x20', '\x20',
   '\x20', '\x20', '\x20', '\x20', '\x20', '<', '-', '\x20', '\'', 'f', 'o', 'r', '\'', '\x20', '\x20', '\x20', '\x20', '\x20', '\x20', '\x20',
   '\x20', '\x20', '\x20', '!', 'L', 'e', 't', 't', 'e', 'r', 'O', 'r', 'D', 'i', 'g', 'i', 't', '\x20', 'S', 'p', 'a', 'c', 'i', 'n', 'g', '\n', 'I',
   'F', '\x20', '\x20', '\x20', '\x20', '\x20', '\x20', '\x20', '\x20', '\x20', '\x20', '\x20', '<', '-', '\x20', '\'', 'i', 'f', '\'', '\x20',
   '\x20', '\x20', '\x20', '\x20', '\x20', '\x20', '\x20', '\x20', '\x20', '\x20', '!', 'L', 'e', 't', 't', 'e', 'r', 'O', 'r', 'D', 'i', 'g', 'i',
   't', '\x20', 'S', 'p', 'a', 'c', 'i', 'n', 'g', '\n', 'I', 'M', 'P', 'L', 'E', 'M', 'E', 'N', 'T', 'S', '\x20', '\x20', '\x20', '<', '-', '\x20',
   '\'', 'i', 'm', 'p', 'l', 'e', 'm', 'e', 'n', 't', 's', '\'', '\x20', '\x20', '\x20', '!', 'L', 'e', 't', 't', 'e', 'r', 'O', 'r', 'D', 'i', 'g',
   'i', 't', '\x20', 'S', 'p', 'a', 'c', 'i', 'n', 'g', '\n', 'I', 'M', 'P', 'O', 'R', 'T', '\x20', '\x20', '\x20', '\x20', '\x20', '\x20', '\x20',
   '<', '-', '\x20', '\'', 'i', 'm', 'p', 'o', 'r', 't', '\'', '\x20', '\x20', '\x20', '\x20', '\x20', '\x20', '\x20', '!', 'L', 'e', 't', 't', 'e',
   'r', 'O', 'r', 'D', 'i', 'g', 'i', 't', '\x20', 'S', 'p', 'a', 'c', 'i', 'n', 'g', '\n', 'I', 'N', 'T', 'E', 'R', 'F', 'A', 'C', 'E', '\x20',
   '\x20', '\x20', '\x20', '<', '-', '\x20', '\'', 'i', 'n', 't', 'e', 'r', 'f', 'a', 'c', 'e', '\'', '\x20', '\x20', '\x20', '\x20', '!', 'L', 'e',
   't', 't', 'e', 'r', 'O', 'r', 'D', 'i', 'g', 'i', 't', '\x20', 'S', 'p', 'a', 'c', 'i', 'n', 'g', '\n', 'I', 'N', 'S', 'T', 'A', 'N', 'C', 'E',
   'O', 'F', '\x20', '\x20', '\x20', '<', '-', '\x20', '\'', 'i', 'n', 's', 't', 'a', 'n', 'c', 'e', 'o', 'f', '\'', '\x20', '\x20', '\x20', '!', 'L',
   'e', 't', 't', 'e', 'r', 'O', 'r', 'D', 'i', 'g', 'i', 't', '\x20', 'S', 'p', 'a', 'c', 'i', 'n', 'g', '\n', 'N', 'E', 'W', '\x20', '\x20', '\x20',
   '\x20', '\x20', '\x20', '\x20', '\x20', '\x20', '\x20', '<', '-', '\x20', '\'', 'n', 'e', 'w', '\'', '\x20', '\x20', '\x20', '\x20', '\x20',
   '\x20', '\x20', '\x20', '\x20', '\x20', '!', 'L', 'e', 't', 't', 'e', 'r', 'O', 'r', 'D', 'i', 'g', 'i', 't', '\x20', 'S', 'p', 'a', 'c', 'i', 'n',
   'g', '\n', 'P', 'A', 'C', 'K', 'A', 'G', 'E', '\x20', '\x20', '\x20', '\x20', '\x20', '\x20', '<', '-', '\x20', '\'', 'p', 'a', 'c', 'k', 'a', 'g',
   'e', '\'', '\x20', '\x20', '\x20', '\x20', '\x20', '\x20', '!', 'L', 'e', 't', 't', 'e', 'r', 'O', 'r', 'D', 'i', 'g', 'i', 't', '\x20', 'S', 'p',
   'a', 'c', 'i', 'n', 'g', '\n', 'R', 'E', 'T', 'U', 'R', 'N', '\x20', '\x20', '\x20', '\x20', '\x20', '\x20', '\x20', '<', '-', '\x20', '\'', 'r',
   'e', 't', 'u', 'r', 'n', '\'', '\x20', '\x20', '\x20', '\x20', '\x20', '\x20', '\x20', '!', 'L', 'e', 't', 't', 'e', 'r', 'O', 'r', 'D', 'i', 'g',
   'i', 't', '\x20', 'S', 'p', 'a', 'c', 'i', 'n', 'g', '\n', 'S', 'T', 'A', 'T', 'I', 'C', '\x20', '\x20', '\x20', '\x20', '\x20', '\x20', '\x20',
   '<', '-', '\x20', '\'', 's', 't', 'a', 't', 'i', 'c', '\'', '\x20', '\x20', '\x20', '\x20', '\x20', '\x20', '\x20', '!', 'L', 'e', 't', 't', 'e',
   'r', 'O', 'r', 'D', 'i', 'g', 'i', 't', '\x20', 'S', 'p', 'a', 'c', 'i', 'n', 'g', '\n', 'S', 'U', 'P', 'E', 'R', '\x20', '\x20', '\x20', '\x20',
   '\x20', '\x20', '\x20', '\x20', '<', '-', '\x20', '\'', 's', 'u', 'p', 'e', 'r', '\'', '\x20', '\x20', '\x20', '\x20', '\x20', '\x20', '\x20',
   '\x20', '!', 'L', 'e', 't', 't', 'e', 'r', 'O', 'r', 'D', 'i', 'g', 'i', 't', '\x20', 'S', 'p', 'a', 'c', 'i', 'n', 'g', '\n', 'S', 'W', 'I', 'T',
   'C', 'H', '\x20', '\x20', '\x20', '\x20', '\x20', '\x20', '\x20', '<', '-', '\x20', '\'', 's', 'w', 'i', 't', 'c', 'h', '\'', '\x20', '\x20',
   '\x20', '\x20', '\x20', '\x20', '\x20', '!', 'L', 'e', 't', 't', 'e', 'r', 'O', 'r', 'D', 'i', 'g', 'i', 't', '\x20', 'S', 'p', 'a', 'c', 'i', 'n',
   'g', '\n', 'S', 'Y', 'N', 'C', 'H', 'R', 'O', 'N', 'I', 'Z', 'E', 'D', '\x20', '<', '-', '\x20', '\'', 's', 'y', 'n', 'c', 'h', 'r', 'o', 'n', 'i',
   'z', 'e', 'd', '\'', '\x20', '!', 'L', 'e', 't', 't', 'e', 'r', 'O', 'r', 'D', 'i', 'g', 'i', 't', '\x20', 'S', 'p', 'a', 'c', 'i', 'n', 'g', '\n',
   'T', 'H', 'I', 'S', '\x20', '\x20', '\x20', '\x20', '\x20', '\x20', '\x20', '\x20', '\x20', '<', '-', '\x20', '\'', 't', 'h', 'i', 's', '\'',
   '\x20', '\x20', '\x20', '\x20', '\x20', '\x20', '\x20', '\x20', '\x20', '!', 'L', 'e', 't', 't', 'e', 'r', 'O', 'r', 'D', 'i', 'g', 'i', 't',
   '\x20', 'S', 'p', 'a', 'c', 'i', 'n', 'g', '\n', 'T', 'H', 'R', 'O', 'W', 'S', '\x20', '\x20', '\x20', '\x20', '\x20', '\x20', '\x20', '<', '-',
   '\x20', '\'', 't', 'h', 'r', 'o', 'w', 's', '\'', '\x20', '\x20', '\x20', '\x20', '\x20', '\x20', '\x20', '!', 'L', 'e', 't', 't', 'e', 'r', 'O',
   'r', 'D', 'i', 'g', 'i', 't', '\x20', 'S', 'p', 'a', 'c', 'i', 'n', 'g', '\n']

/-- `grammars/java.peg:735-774` -/
def javaFile20 : List UInt8 := bytes "THROW        <- 'throw'        !LetterOrDigit Spacing
TRY          <- 'try'          !LetterOrDigit Spacing
VOID         <- 'void'         !LetterOrDigit Spacing
WHILE        <- 'while'        !LetterOrDigit Spacing

#-------------------------------------------------------------------------
#  JLS 3.10  Literals
#-------------------------------------------------------------------------

Literal
   <- ( FloatLiteral
      / IntegerLiteral          # May be a prefix of FloatLiteral
      / CharLiteral
      / StringLiteral
      / 'true'  !LetterOrDigit
      / 'false' !LetterOrDigit
      / 'null'  !LetterOrDigit
      ) Spacing

IntegerLiteral
   <- ( HexNumeral
      / BinaryNumeral
      / OctalNumeral            # May be a prefix of HexNumeral or BinaryNumeral
      / DecimalNumeral          # May be a prefix of OctalNumeral
      ) [lL]?

DecimalNumeral <- '0' / [1-9] ([_]* [0-9])*

HexNumeral     <- ('0x' / '0X') HexDigits

BinaryNumeral  <- ('0b' / '0B') [01] ([_]* [01])*

OctalNumeral   <- '0' ([_]* [0-7])+

FloatLiteral   <- HexFloat / DecimalFloat

DecimalFloat
   <- Digits '.' Digits?  Exponent? [fFdD]?
    / '.' Digits Exponent? [fFdD]?
    / Digits Exponent [fFdD]?
"

theorem java_eq20 : javaFile20 =
  [84, 72, 82, 79, 87, 32, 32, 32, 32, 32, 32, 32, 32, 60, 45, 32, 39, 116, 104, 114, 111, 119, 39, 32, 32, 32, 32, 32, 32, 32, 32, 33, 76, 101, 116,
   116, 101, 114, 79, 114, 68, 105, 103, 105, 116, 32, 83, 112, 97, 99, 105, 110, 103, 10, 84, 82, 89, 32, 32, 32, 32, 32, 32, 32, 32, 32, 32, 60, 45,
   32, 39, 116, 114, 121, 39, 32, 32, 32, 32, 32, 32, 32, 32, 32, 32, 33, 76, 101, 116, 116, 101, 114, 79, 114, 68, 105, 103, 105, 116, 32, 83, 112,
   97, 99, 105, 110, 103, 10, 86, 79, 73, 68, 32, 32, 32, 32, 32, 32, 32, 32, 32, 60, 45, 32, 39, 118, 111, 105, 100, 39, 32, 32, 32, 32, 32, 32, 32,
   32, 32, 33, 76, 101, 116, 116, 101, 114, 79, 114, 68, 105, 103, 105, 116, 32, 83, 112, 97, 99, 105, 110, 103, 10, 87, 72, 73, 76, 69, 32, 32, 32,
   32, 32, 32, 32, 32, 60, 45, 32, 39, 119, 104, 105, 108, 101, 39, 32, 32, 32, 32, 32, 32, 32, 32, 33, 76, 101, 116, 116, 101, 114, 79, 114, 68, 105,
   103, 105, 116, 32, 83, 112, 97, 99, 105, 110, 103, 10, 10, 35, 45, 45, 45, 45, 45, 45, 45, 45, 45, 45, 45, 45, 45, 45, 45, 45, 45, 45, 45, 45, 45,
   45, 45, 45, 45, 45, 45, 45, 45, 45, 45, 45, 45, 45, 45, 45, 45, 45, 45, 45, 45, 45, 45, 45, 45, 45, 45, 45, 45, 45, 45, 45, 45, 45, 45, 45, 45, 45,
   45, 45, 45, 45, 45, 45, 45, 45, 45, 45, 45, 45, 45, 45, 45, 10, 35, 32, 32, 74, 76, 83, 32, 51, 46, 49, 48, 32, 32, 76, 105, 116, 101, 114, 97,
   108, 115, 10, 35, 45, 45, 45, 45, 45, 45, 45, 45, 45, 45, 45, 45, 45, 45, 45, 45, 45, 45, 45, 45, 45, 45, 45, 45, 45, 45, 45, 45, 45, 45, 45, 45,
   45, 45, 45, 45, 45, 45, 45, 45, 45, 45, 45, 45, 45, 45, 45, 45, 45, 45, 45, 45, 45, 45, 45, 45, 45, 45, 45, 45, 45, 45, 45, 45, 45, 45, 45, 45, 45,
   45, 45, 45, 45, 10, 10, 76, 105, 116, 101, 114, 97, 108, 10, 32, 32, 32, 60, 45, 32, 40, 32, 70, 108, 111, 97, 116, 76, 105, 116, 101, 114, 97,
   108, 10, 32, 32, 32, 32, 32, 32, 47, 32, 73, 110, 116, 101, 103, 101, 114, 76, 105, 116, 101, 114, 97, 108, 32, 32, 32, 32, 32, 32, 32, 32, 32, 32,
   35, 32, 77, 97, 121, 32, 98, 101, 32, 97, 32, 112, 114, 101, 102, 105, 120, 32, 111, 102, 32, 70, 108, 111, 97, 116, 76, 105, 116, 101, 114, 97,
   108, 10, 32, 32, 32, 32, 32, 32, 47, 32, 67, 104, 97, 114, 76, 105, 116, 101, 114, 97, 108, 10, 32, 32, 32, 32, 32, 32, 47, 32, 83, 116, 114, 105,
   110, 103, 76, 105, 116, 101, 114, 97, 108, 10, 32, 32, 32, 32, 32, 32, 47, 32, 39, 116, 114, 117, 101, 39, 32, 32, 33, 76, 101, 116, 116, 101, 114,
   79, 114, 68, 105, 103, 105, 116, 10, 32, 32, 32, 32, 32, 32, 47, 32, 39, 102, 97, 108, 115, 101, 39, 32, 33, 76, 101, 116, 116, 101, 114, 79, 114,
   68, 105, 103, 105, 116, 10, 32, 32, 32, 32, 32, 32, 47, 32, 39, 110, 117, 108, 108, 39, 32, 32, 33, 76, 101, 116, 116, 101, 114, 79, 114, 68, 105,
   103, 105, 116, 10, 32, 32, 32, 32, 32, 32, 41, 32, 83, 112, 97, 99, 105, 110, 103, 10, 10, 73, 110, 116, 101, 103, 101, 114, 76, 105, 116, 101,
   114, 97, 108, 10, 32, 32, 32, 60, 45, 32, 40, 32, 72, 101, 120, 78, 117, 109, 101, 114, 97, 108, 10, 32, 32, 32, 32, 32, 32, 47, 32, 66, 105, 110,
   97, 114, 121, 78, 117, 109, 101, 114, 97, 108, 10, 32, 32, 32, 32, 32, 32, 47, 32, 79, 99, 116, 97, 108, 78, 117, 109, 101, 114, 97, 108, 32, 32,
   32, 32, 32, 32, 32, 32, 32, 32, 32, 32, 35, 32, 77, 97, 121, 32, 98, 101, 32, 97, 32, 112, 114, 101, 102, 105, 120, 32, 111, 102, 32, 72, 101, 120,
   78, 117, 109, 101, 114, 97, 108, 32, 111, 114, 32, 66, 105, 110, 97, 114, 121, 78, 117, 109, 101, 114, 97, 108, 10, 32, 32, 32, 32, 32, 32, 47, 32,
   68, 101, 99, 105, 109, 97, 108, 78, 117, 109, 101, 114, 97, 108, 32, 32, 32, 32, 32, 32, 32, 32, 32, 32, 35, 32, 77, 97, 121, 32, 98, 101, 32, 97,
   32, 112, 114, 101, 102, 105, 120, 32, 111, 102, 32, 79, 99, 116, 97, 108, 78, 117, 109, 101, 114, 97, 108, 10, 32, 32, 32, 32, 32, 32, 41, 32, 91,
   108, 76, 93, 63, 10, 10, 68, 101, 99, 105, 109, 97, 108, 78, 117, 109, 101, 114, 97, 108, 32, 60, 45, 32, 39, 48, 39, 32, 47, 32, 91, 49, 45, 57,
   93, 32, 40, 91, 95, 93, 42, 32, 91, 48, 45, 57, 93, 41, 42, 10, 10, 72, 101, 120, 78, 117, 109, 101, 114, 97, 108, 32, 32, 32, 32, 32, 60, 45, 32,
   40, 39, 48, 120, 39, 32, 47, 32, 39, 48, 88, 39, 41, 32, 72, 101, 120, 68, 105, 103, 105, 116, 115, 10, 10, 66, 105, 110, 97, 114, 121, 78, 117,
   109, 101, 114, 97, 108, 32, 32, 60, 45, 32, 40, 39, 48, 98, 39, 32, 47, 32, 39, 48, 66, 39, 41, 32, 91, 48, 49, 93, 32, 40, 91, 95, 93, 42, 32, 91,
   48, 49, 93, 41, 42, 10, 10, 79, 99, 116, 97, 108, 78, 117, 109, 101, 114, 97, 108, 32, 32, 32, 60, 45, 32, 39, 48, 39, 32, 40, 91, 95, 93, 42, 32,
   91, 48, 45, 55, 93, 41, 43, 10, 10, 70, 108, 111, 97, 116, 76, 105, 116, 101, 114, 97, 108, 32, 32, 32, 60, 45, 32, 72, 101, 120, 70, 108, 111, 97,
   116, 32, 47, 32, 68, 101, 99, 105, 109, 97, 108, 70, 108, 111, 97, 116, 10, 10, 68, 101, 99, 105, 109, 97, 108, 70, 108, 111, 97, 116, 10, 32, 32,
   32, 60, 45, 32, 68, 105, 103, 105, 116, 115, 32, 39, 46, 39, 32, 68, 105, 103, 105, 116, 115, 63, 32, 32, 69, 120, 112, 111, 110, 101, 110, 116,
   63, 32, 91, 102, 70, 100, 68, 93, 63, 10, 32, 32, 32, 32, 47, 32, 39, 46, 39, 32, 68, 105, 103, 105, 116, 115, 32, 69, 120, 112, 111, 110, 101,
   110, 116, 63, 32, 91, 102, 70, 100, 68, 93, 63, 10, 32, 32, 32, 32, 47, 32, 68, 105, 103, 105, 116, 115, 32, 69, 120, 112, 111, 110, 101, 110, 116,
   32, 91, 102, 70, 100, 68, 93, 63, 10] :=
  bytes_ofList
  ['T', 'H', 'R', 'O', 'W', '\x20', '\x20', '\x20', '\x20', '\x20', '\x20', '\x20', '\x20', '<', '-', '\x20', '\'', 't', 'h', 'r', 'o', 'w', '\'',
   '\x20', '\x20', '\x20', '\x20', '\x20', '\x20', '\x20', '\x20', '!', 'L', 'e', 't', 't', 'e', 'r', 'O', 'r', 'D', 'i', 'g', 'i', 't', '\x20', 'S',
   'p', 'a', 'c', 'i', 'n', 'g', '\n', 'T', 'R', 'Y', '\x20', '\x20', '\x20', '\x20', '\x20', '\x20', '\x20', '\x20', '\x20', '\x20', '<', '-',
   '\x20', '\'', 't', 'r', 'y', '\'', '\x20', '\x20', '\x20', '\x20', '\x20', '\x20', '\x20', '\x20', '\x20', '\x20', '!', 'L', 'e', 't', 't', 'e',
   'r', 'O', 'r', 'D', 'i', 'g', 'i', 't', '\x20', 'S', 'p', 'a', 'c', 'i', 'n', 'g', '\n', 'V', 'O', 'I', 'D', '\x20', '\x20', '\x20', '\x20',
   '\x20', '\x20', '\x20', '\x20', '\x20', '<', '-', '\x20', '\'', 'v', 'o', 'i', 'd', '\'', '\x20', '\x20', '\x20', '\x20', '\x20', '\x20', '\x20',
   '\x20', '\x20', '!', 'L', 'e', 't', 't', 'e', 'r', 'O', 'r', 'D', 'i', 'g', 'i', 't', '\x20', 'S', 'p', 'a', 'c', 'i', 'n', 'g', '\n', 'W', 'H',
   'I', 'L', 'E', '\x20', '\x20', '\x20', '\x20', '\x20', '\x20', '\x20', '\x20', '<', '-', '\x20', '\'', 'w', 'h', 'i', 'l', 'e', '\'', '\x20',
   '\x20', '\x20', '\x20', '\x20', '\x20', '\x20', '\x20', '!', 'L', 'e', 't', 't', 'e', 'r', 'O', 'r', 'D', 'i', 'g', 'i', 't', '\x20', 'S', 'p',
   'a', 'c', 'i', 'n', 'g', '\n', '\n', '#', '-', '-', '-', '-', '-', '-', '-', '-', '-', '-', '-', '-', '-', '-', '-', '-', '-', '-', '-', '-', '-',
   '-', '-', '-', '-', '-', '-', '-', '-', '-', '-', '-', '-', '-', '-', '-', '-', '-', '-', '-', '-', '-', '-', '-', '-', '-', '-', '-', '-', '-',
   '-', '-', '-', '-', '-', '-', '-', '-', '-', '-', '-', '-', '-', '-', '-', '-', '-', '-', '-', '-', '-', '-', '-', '\n', '#', '\x20', '\x20', 'J',
   'L', 'S', '\x20', '3', '.', '1', '0', '\x20', '\x20', 'L', 'i', 't', 'e', 'r', 'a', 'l', 's', '\n', '#', '-', '-', '-', '-', '-', '-', '-', '-',
   '-', '-', '-', '-', '-', '-', '-', '-', '-', '-', '-', '-', '-', '-', '-', '-', '-', '-', '-', '-', '-', '-', '-', '-', '-', '-', '-', '-', '-',
   '-', '-', '-', '-', '-', '-', '-', '-', '-', '-', '-', '-', '-', '-', '-', '-', '-', '-', '-', '-', '-', '-', '-', '-', '-', '-', '-', '-', '-',
   '-', '-', '-', '-', '-', '-', '-', '\n', '\n', 'L', 'i', 't', 'e', 'r', 'a', 'l', '\n', '\x20', '\x20', '\x20', '<', '-', '\x20', '(', '\x20', 'F',
   'l', 'o', 'a', 't', 'L', 'i', 't', 'e', 'r', 'a', 'l', '\n', '\x20', '\x20', '\x20', '\x20', '\x20', '\x20', '/', '\x20', 'I', 'n', 't', 'e', 'g',
   'e', 'r', 'L', 'i', 't', 'e', 'r', 'a', 'l', '\x20', '\x20', '\x20', '\x20', '\x20', '\x20', '\x20', '\x20', '\x20', '\x20', '#', '\x20', 'M', 'a',
   'y', '\x20', 'b', 'e', '\x20', 'a', '\x20', 'p', 'r', 'e', 'f', 'i', 'x', '\x20', 'o', 'f', '\x20', 'F', 'l', 'o', 'a', 't', 'L', 'i', 't', 'e',
   'r', 'a', 'l', '\n', '\x20', '\x20', '\x20', '\x20', '\x20', '\x20', '/', '\x20', 'C', 'h', 'a', 'r', 'L', 'i', 't', 'e', 'r', 'a', 'l', '\n',
   '\x20', '\x20', '\x20', '\x20', '\x20', '\x20', '/', '\x20', 'S', 't', 'r', 'i', 'n', 'g', 'L', 'i', 't', 'e', 'r', 'a', 'l', '\n', '\x20', '\x20',
   '\x20', '\x20', '\x20', '\x20', '/', '\x20', '\'', 't', 'r', 'u', 'e', '\'', '\x20', '\x20', '!', 'L', 'e', 't', 't', 'e', 'r', 'O', 'r', 'D', 'i',
   'g', 'i', 't', '\n', '\x20', '\x20', '\x20', '\x20', '\x20', '\x20', '/', '\x20', '\'', 'f', 'a', 'l', 's', 'e', '\'', '\x20', '!', 'L', 'e', 't',
   't', 'e', 'r', 'O', 'r', 'D', 'i', 'g', 'i', 't', '\n', '\x20', '\x20', '\x20', '\x20', '\x20', '\x20', '/', '\x20', '\'', 'n', 'u', 'l', 'l',
   '\'', '\x20', '\x20', '!', 'L', 'e', 't', 't', 'e', 'r', 'O', 'r', 'D', 'i', 'g', 'i', 't', '\n', '\x20', '\x20', '\x20', '\x20', '\x20', '\x20',
   ')', '\x20', 'S', 'p', 'a', 'c', 'i', 'n', 'g', '\n', '\n', 'I', 'n', 't', 'e', 'g', 'e', 'r', 'L', 'i', 't', 'e', 'r', 'a', 'l', '\n', '\x20',
   '\x20', '\x20', '<', '-', '\x20', '(', '\x20', 'H', 'e', 'x', 'N', 'u', 'm', 'e', 'r', 'a', 'l', '\n', '\x20', '\x20', '\x20', '\x20', '\x20',
   '\x20', '/', '\x20', 'B', 'i', 'n', 'a', 'r', 'y', 'N', 'u', 'm', 'e', 'r', 'a', 'l', '\n', '\x20', '\x20', '\x20', '\x20', '\x20', '\x20', '/',
   '\x20', 'O', 'c', 't', 'a', 'l', 'N', 'u', 'm', 'e', 'r', 'a', 'l', '\x20', '\x20', '\x20', '\x20', '\x20', '\x20', '\x20', '\x20', '\x20', '\x20',
   '\x20', '\x20', '#', '\x20', 'M', 'a', 'y', '\x20', 'b', 'e', '\x20', 'a', '\x20', 'p', 'r', 'e', 'f', 'i', 'x', '\x20', 'o', 'f', '\x20', 'H',
   'e', 'x', 'N', 'u', 'm', 'e', 'r', 'a', 'l', '\x20', 'o', 'r', '\x20', 'B', 'i', 'n', 'a', 'r', 'y', 'N', 'u', 'm', 'e', 'r', 'a', 'l', '\n',
   '\x20', '\x20', '\x20', '\x20', '\x20', '\x20', '/', '\x20', 'D', 'e', 'c', 'i', 'm', 'a', 'l', 'N', 'u', 'm', 'e', 'r', 'a', 'l', '\x20', '\x20',
   '\x20', '\x20', '\x20', '\x20', '\x20', '\x20', '\x20', '\x20', '#', '\x20', 'M', 'a', 'y', '\x20', 'b', 'e', '\x20', 'a', '\x20', 'p', 'r', 'e',
   'f', 'i', 'x', '\x20', 'o', 'f', '\x20', 'O', 'c', 't', 'a', 'l', 'N', 'u', 'm', 'e', 'r', 'a', 'l', '\n', '\x20', '\x20', '\x20', '\x20', '\x20',
   '\x20', ')', '\x20', '[', 'l', 'L', ']', '?', '\n', '\n', 'D', 'e', 'c', 'i', 'm', 'a', 'l', 'N', 'u', 'm', 'e', 'r', 'a', 'l', '\x20', '<', '-',
   '\x20', '\'', '0', '\'', '\x20', '/', '\x20', '[', '1', '-', '9', ']', '\x20', '(', '[', '_', ']', '*', '\x20', '[', '0', '-', '9', ']', ')', '*',
   '\n', '\n', 'H', 'e', 'x', 'N', 'u', 'm', 'e', 'r', 'a', 'l', '\x20', '\x20', '\x20', '\x20', '\x20', '<', '-', '\x20', '(', '\'', '0', 'x', '\'',
   '\x20', '/', '\x20', '\'', '0', 'X', '\'', ')', '\x20', 'H', 'e', 'x', 'D', 'i', 'g', 'i', 't', 's', '\n', '\n', 'B', 'i', 'n', 'a', 'r', 'y', 'N',
   'u', 'm', 'e', 'r', 'a', 'l', '\x20', '\x20', '<', '-', '\x20', '(', '\'', '0', 'b', '\'', '\x20', '/', '\x20', '\'', '0', 'B', '\'', ')', '\x20',
   '[', '0', '1', ']', '\x20', '(', '[', '_', ']', '*', '\x20', '[', '0', '1', ']', ')', '*', '\n', '\n', 'O', 'c', 't', 'a', 'l', 'N', 'u', 'm', 'e',
   'r', 'a', 'l', '\x20', '\x20', '\x20', '<', '-', '\x20', '\'', '0', '\'', '\x20', '(', '[', '_', ']', '*', '\x20', '[', '0', '-', '7', ']', ')',
   '+', '\n', '\n', 'F', 'l', 'o', 'a', 't', 'L', 'i', 't', 'e', 'r', 'a', 'l', '\x20', '\x20', '\x20', '<', '-', '\x20', 'H', 'e', 'x', 'F', 'l',
   'o', 'a', 't', '\x20', '/', '\x20', 'D', 'e', 'c', 'i', 'm', 'a', 'l', 'F', 'l', 'o', 'a', 't', '\n', '\n', 'D', 'e', 'c', 'i', 'm', 'a', 'l', 'F',
   'l', 'o', 'a', 't', '\n', '\x20', '\x20', '\x20', '<', '-', '\x20', 'D', 'i', 'g', 'i', 't', 's', '\x20', '\'', '.', '\'', '\x20', 'D', 'i', 'g',
   'i', 't', 's', '?', '\x20', '\x20', 'E', 'x', 'p', 'o', 'n', 'e', 'n', 't', '?', '\x20', '[', 'f', 'F', 'd', 'D', ']', '?', '\n', '\x20', '\x20',
   '\x20', '\x20', '/', '\x20', '\'', '.', '\'', '\x20', 'D', 'i', 'g', 'i', 't', 's', '\x20', 'E', 'x', 'p', 'o', 'n', 'e', 'n', 't', '?', '\x20',
   '[', 'f', 'F', 'd', 'D', ']', '?', '\n', '\x20', '\x20', '\x20', '\x20', '/', '\x20', 'D', 'i', 'g', 'i', 't', 's', '\x20', 'E', 'x', 'p', 'o',
   'n', 'e', 'n', 't', '\x20', '[', 'f', 'F', 'd', 'D', ']', '?', '\n']

/-- `grammars/java.peg:775-818` -/
def javaFile21 : List UInt8 := bytes "    / Digits Exponent? [fFdD]

Exponent <- [eE] [+\\-]? Digits

HexFloat <- HexSignificand BinaryExponent [fFdD]?

HexSignificand
   <- ('0x' / '0X') HexDigits? '.' HexDigits
    / HexNumeral '.'?                           # May be a prefix of above

BinaryExponent <- [pP] [+\\-]? Digits

Digits <- [0-9]([_]*[0-9])*

HexDigits <- HexDigit ([_]*HexDigit)*

HexDigit <- [a-f] / [A-F] / [0-9]

CharLiteral <- ['] (Escape / !['\\\\] .) [']

StringLiteral <- '\\\"' (Escape / ![\"\\\\\\n\\r] .)* '\\\"'

Escape <- '\\\\' ([btnfr\"'\\\\] / OctalEscape / UnicodeEscape)

OctalEscape
   <- [0-3][0-7][0-7]
    / [0-7][0-7]
    / [0-7]

UnicodeEscape
   <- 'u'+ HexDigit HexDigit HexDigit HexDigit

#-------------------------------------------------------------------------
#  JLS 3.11-12  Separators, Operators
#-------------------------------------------------------------------------

AT              <-   '@'       Spacing
AND             <-   '&'![=&]  Spacing
ANDAND          <-   '&&'      Spacing
ANDEQU          <-   '&='      Spacing
BANG            <-   '!' !'='  Spacing
BSR             <-   '>>>' !'=' Spacing
BSREQU          <-   '>>>='    Spacing
COLON           <-   ':'       Spacing
"

theorem java_eq21 : javaFile21 =
  [32, 32, 32, 32, 47, 32, 68, 105, 103, 105, 116, 115, 32, 69, 120, 112, 111, 110, 101, 110, 116, 63, 32, 91, 102, 70, 100, 68, 93, 10, 10, 69, 120,
   112, 111, 110, 101, 110, 116, 32, 60, 45, 32, 91, 101, 69, 93, 32, 91, 43, 92, 45, 93, 63, 32, 68, 105, 103, 105, 116, 115, 10, 10, 72, 101, 120,
   70, 108, 111, 97, 116, 32, 60, 45, 32, 72, 101, 120, 83, 105, 103, 110, 105, 102, 105, 99, 97, 110, 100, 32, 66, 105, 110, 97, 114, 121, 69, 120,
   112, 111, 110, 101, 110, 116, 32, 91, 102, 70, 100, 68, 93, 63, 10, 10, 72, 101, 120, 83, 105, 103, 110, 105, 102, 105, 99, 97, 110, 100, 10, 32,
   32, 32, 60, 45, 32, 40, 39, 48, 120, 39, 32, 47, 32, 39, 48, 88, 39, 41, 32, 72, 101, 120, 68, 105, 103, 105, 116, 115, 63, 32, 39, 46, 39, 32, 72,
   101, 120, 68, 105, 103, 105, 116, 115, 10, 32, 32, 32, 32, 47, 32, 72, 101, 120, 78, 117, 109, 101, 114, 97, 108, 32, 39, 46, 39, 63, 32, 32, 32,
   32, 32, 32, 32, 32, 32, 32, 32, 32, 32, 32, 32, 32, 32, 32, 32, 32, 32, 32, 32, 32, 32, 32, 32, 35, 32, 77, 97, 121, 32, 98, 101, 32, 97, 32, 112,
   114, 101, 102, 105, 120, 32, 111, 102, 32, 97, 98, 111, 118, 101, 10, 10, 66, 105, 110, 97, 114, 121, 69, 120, 112, 111, 110, 101, 110, 116, 32,
   60, 45, 32, 91, 112, 80, 93, 32, 91, 43, 92, 45, 93, 63, 32, 68, 105, 103, 105, 116, 115, 10, 10, 68, 105, 103, 105, 116, 115, 32, 60, 45, 32, 91,
   48, 45, 57, 93, 40, 91, 95, 93, 42, 91, 48, 45, 57, 93, 41, 42, 10, 10, 72, 101, 120, 68, 105, 103, 105, 116, 115, 32, 60, 45, 32, 72, 101, 120,
   68, 105, 103, 105, 116, 32, 40, 91, 95, 93, 42, 72, 101, 120, 68, 105, 103, 105, 116, 41, 42, 10, 10, 72, 101, 120, 68, 105, 103, 105, 116, 32, 60,
   45, 32, 91, 97, 45, 102, 93, 32, 47, 32, 91, 65, 45, 70, 93, 32, 47, 32, 91, 48, 45, 57, 93, 10, 10, 67, 104, 97, 114, 76, 105, 116, 101, 114, 97,
   108, 32, 60, 45, 32, 91, 39, 93, 32, 40, 69, 115, 99, 97, 112, 101, 32, 47, 32, 33, 91, 39, 92, 92, 93, 32, 46, 41, 32, 91, 39, 93, 10, 10, 83,
   116, 114, 105, 110, 103, 76, 105, 116, 101, 114, 97, 108, 32, 60, 45, 32, 39, 92, 34, 39, 32, 40, 69, 115, 99, 97, 112, 101, 32, 47, 32, 33, 91,
   34, 92, 92, 92, 110, 92, 114, 93, 32, 46, 41, 42, 32, 39, 92, 34, 39, 10, 10, 69, 115, 99, 97, 112, 101, 32, 60, 45, 32, 39, 92, 92, 39, 32, 40,
   91, 98, 116, 110, 102, 114, 34, 39, 92, 92, 93, 32, 47, 32, 79, 99, 116, 97, 108, 69, 115, 99, 97, 112, 101, 32, 47, 32, 85, 110, 105, 99, 111,
   100, 101, 69, 115, 99, 97, 112, 101, 41, 10, 10, 79, 99, 116, 97, 108, 69, 115, 99, 97, 112, 101, 10, 32, 32, 32, 60, 45, 32, 91, 48, 45, 51, 93,
   91, 48, 45, 55, 93, 91, 48, 45, 55, 93, 10, 32, 32, 32, 32, 47, 32, 91, 48, 45, 55, 93, 91, 48, 45, 55, 93, 10, 32, 32, 32, 32, 47, 32, 91, 48, 45,
   55, 93, 10, 10, 85, 110, 105, 99, 111, 100, 101, 69, 115, 99, 97, 112, 101, 10, 32, 32, 32, 60, 45, 32, 39, 117, 39, 43, 32, 72, 101, 120, 68, 105,
   103, 105, 116, 32, 72, 101, 120, 68, 105, 103, 105, 116, 32, 72, 101, 120, 68, 105, 103, 105, 116, 32, 72, 101, 120, 68, 105, 103, 105, 116, 10,
   10, 35, 45, 45, 45, 45, 45, 45, 45, 45, 45, 45, 45, 45, 45, 45, 45, 45, 45, 45, 45, 45, 45, 45, 45, 45, 45, 45, 45, 45, 45, 45, 45, 45, 45, 45, 45,
   45, 45, 45, 45, 45, 45, 45, 45, 45, 45, 45, 45, 45, 45, 45, 45, 45, 45, 45, 45, 45, 45, 45, 45, 45, 45, 45, 45, 45, 45, 45, 45, 45, 45, 45, 45, 45,
   45, 10, 35, 32, 32, 74, 76, 83, 32, 51, 46, 49, 49, 45, 49, 50, 32, 32, 83, 101, 112, 97, 114, 97, 116, 111, 114, 115, 44, 32, 79, 112, 101, 114,
   97, 116, 111, 114, 115, 10, 35, 45, 45, 45, 45, 45, 45, 45, 45, 45, 45, 45, 45, 45, 45, 45, 45, 45, 45, 45, 45, 45, 45, 45, 45, 45, 45, 45, 45, 45,
   45, 45, 45, 45, 45, 45, 45, 45, 45, 45, 45, 45, 45, 45, 45, 45, 45, 45, 45, 45, 45, 45, 45, 45, 45, 45, 45, 45, 45, 45, 45, 45, 45, 45, 45, 45, 45,
   45, 45, 45, 45, 45, 45, 45, 10, 10, 65, 84, 32, 32, 32, 32, 32, 32, 32, 32, 32, 32, 32, 32, 32, 32, 60, 45, 32, 32, 32, 39, 64, 39, 32, 32, 32, 32,
   32, 32, 32, 83, 112, 97, 99, 105, 110, 103, 10, 65, 78, 68, 32, 32, 32, 32, 32, 32, 32, 32, 32, 32, 32, 32, 32, 60, 45, 32, 32, 32, 39, 38, 39, 33,
   91, 61, 38, 93, 32, 32, 83, 112, 97, 99, 105, 110, 103, 10, 65, 78, 68, 65, 78, 68, 32, 32, 32, 32, 32, 32, 32, 32, 32, 32, 60, 45, 32, 32, 32, 39,
   38, 38, 39, 32, 32, 32, 32, 32, 32, 83, 112, 97, 99, 105, 110, 103, 10, 65, 78, 68, 69, 81, 85, 32, 32, 32, 32, 32, 32, 32, 32, 32, 32, 60, 45, 32,
   32, 32, 39, 38, 61, 39, 32, 32, 32, 32, 32, 32, 83, 112, 97, 99, 105, 110, 103, 10, 66, 65, 78, 71, 32, 32, 32, 32, 32, 32, 32, 32, 32, 32, 32, 32,
   60, 45, 32, 32, 32, 39, 33, 39, 32, 33, 39, 61, 39, 32, 32, 83, 112, 97, 99, 105, 110, 103, 10, 66, 83, 82, 32, 32, 32, 32, 32, 32, 32, 32, 32, 32,
   32, 32, 32, 60, 45, 32, 32, 32, 39, 62, 62, 62, 39, 32, 33, 39, 61, 39, 32, 83, 112, 97, 99, 105, 110, 103, 10, 66, 83, 82, 69, 81, 85, 32, 32, 32,
   32, 32, 32, 32, 32, 32, 32, 60, 45, 32, 32, 32, 39, 62, 62, 62, 61, 39, 32, 32, 32, 32, 83, 112, 97, 99, 105, 110, 103, 10, 67, 79, 76, 79, 78, 32,
   32, 32, 32, 32, 32, 32, 32, 32, 32, 32, 60, 45, 32, 32, 32, 39, 58, 39, 32, 32, 32, 32, 32, 32, 32, 83, 112, 97, 99, 105, 110, 103, 10] :=
  bytes_ofList
  ['\x20', '\x20', '\x20', '\x20', '/', '\x20', 'D', 'i', 'g', 'i', 't', 's', '\x20', 'E', 'x', 'p', 'o', 'n', 'e', 'n', 't', '?', '\x20', '[', 'f',
   'F', 'd', 'D', ']', '\n', '\n', 'E', 'x', 'p', 'o', 'n', 'e', 'n', 't', '\x20', '<', '-', '\x20', '[', 'e', 'E', ']', '\x20', '[', '+', '\\', '-',
   ']', '?', '\x20', 'D', 'i', 'g', 'i', 't', 's', '\n', '\n', 'H', 'e', 'x', 'F', 'l', 'o', 'a', 't', '\x20', '<', '-', '\x20', 'H', 'e', 'x', 'S',
   'i', 'g', 'n', 'i', 'f', 'i', 'c', 'a', 'n', 'd', '\x20', 'B', 'i', 'n', 'a', 'r', 'y', 'E', 'x', 'p', 'o', 'n', 'e', 'n', 't', '\x20', '[', 'f',
   'F', 'd', 'D', ']', '?', '\n', '\n', 'H', 'e', 'x', 'S', 'i', 'g', 'n', 'i', 'f', 'i', 'c', 'a', 'n', 'd', '\n', '\x20', '\x20', '\x20', '<', '-',
   '\x20', '(', '\'', '0', 'x', '\'', '\x20', '/', '\x20', '\'', '0', 'X', '\'', ')', '\x20', 'H', 'e', 'x', 'D', 'i', 'g', 'i', 't', 's', '?',
   '\x20', '\'', '.', '\'', '\x20', 'H', 'e', 'x', 'D', 'i', 'g', 'i', 't', 's', '\n', '\x20', '\x20', '\x20', '\x20', '/', '\x20', 'H', 'e', 'x',
   'N', 'u', 'm', 'e', 'r', 'a', 'l', '\x20', '\'', '.', '\'', '?', '\x20', '\x20', '\x20', '\x20', '\x20', '\x20', '\x20', '\x20', '\x20', '\x20',
   '\x20', '\x20', '\x20', '\x20', '\x20', '\x20', '\x20', '\x20', '\x20', '\x20', '\x20', '\x20', '\x20', '\x20', '\x20', '\x20', '\x20', '#',
   '\x20', 'M', 'a', 'y', '\x20', 'b', 'e', '\x20', 'a', '\x20', 'p', 'r', 'e', 'f', 'i', 'x', '\x20', 'o', 'f', '\x20', 'a', 'b', 'o', 'v', 'e',
   '\n', '\n', 'B', 'i', 'n', 'a', 'r', 'y', 'E', 'x', 'p', 'o', 'n', 'e', 'n', 't', '\x20', '<', '-', '\x20', '[', 'p', 'P', ']', '\x20', '[', '+',
   '\\', '-', ']', '?', '\x20', 'D', 'i', 'g', 'i', 't', 's', '\n', '\n', 'D', 'i', 'g', 'i', 't', 's', '\x20', '<', '-', '\x20', '[', '0', '-', '9',
   ']', '(', '[', '_', ']', '*', '[', '0', '-', '9', ']', ')', '*', '\n', '\n', 'H', 'e', 'x', 'D', 'i', 'g', 'i', 't', 's', '\x20', '<', '-', '\x20',
   'H', 'e', 'x', 'D', 'i', 'g', 'i', 't', '\x20', '(', '[', '_', ']', '*', 'H', 'e', 'x', 'D', 'i', 'g', 'i', 't', ')', '*', '\n', '\n', 'H', 'e',
   'x', 'D', 'i', 'g', 'i', 't', '\x20', '<', '-', '\x20', '[', 'a', '-', 'f', ']', '\x20', '/', '\x20', '[', 'A', '-', 'F', ']', '\x20', '/', '\x20',
   '[', '0', '-', '9', ']', '\n', '\n', 'C', 'h', 'a', 'r', 'L', 'i', 't', 'e', 'r', 'a', 'l', '\x20', '<', '-', '\x20', '[', '\'', ']', '\x20', '(',
   'E', 's', 'c', 'a', 'p', 'e', '\x20', '/', '\x20', '!', '[', '\'', '\\', '\\', ']', '\x20', '.', ')', '\x20', '[', '\'', ']', '\n', '\n', 'S', 't',
   'r', 'i', 'n', 'g', 'L', 'i', 't', 'e', 'r', 'a', 'l', '\x20', '<', '-', '\x20', '\'', '\\', '"', '\'', '\x20', '(', 'E', 's', 'c', 'a', 'p', 'e',
   '\x20', '/', '\x20', '!', '[', '"', '\\', '\\', '\\', 'n', '\\', 'r', ']', '\x20', '.', ')', '*', '\x20', '\'', '\\', '"', '\'', '\n', '\n', 'E',
   's', 'c', 'a', 'p', 'e', '\x20', '<', '-', '\x20', '\'', '\\', '\\', '\'', '\x20', '(', '[', 'b', 't', 'n', 'f', 'r', '"', '\'', '\\', '\\', ']',
   '\x20', '/', '\x20', 'O', 'c', 't', 'a', 'l', 'E', 's', 'c', 'a', 'p', 'e', '\x20', '/', '\x20', 'U', 'n', 'i', 'c', 'o', 'd', 'e', 'E', 's', 'c',
   'a', 'p', 'e', ')', '\n', '\n', 'O', 'c', 't', 'a', 'l', 'E', 's', 'c', 'a', 'p', 'e', '\n', '\x20', '\x20', '\x20', '<', '-', '\x20', '[', '0',
   '-', '3', ']', '[', '0', '-', '7', ']', '[', '0', '-', '7', ']', '\n', '\x20', '\x20', '\x20', '\x20', '/', '\x20', '[', '0', '-', '7', ']', '[',
   '0', '-', '7', ']', '\n', '\x20', '\x20', '\x20', '\x20', '/', '\x20', '[', '0', '-', '7', ']', '\n', '\n', 'U', 'n', 'i', 'c', 'o', 'd', 'e', 'E',
   's', 'c', 'a', 'p', 'e', '\n', '\x20', '\x20', '\x20', '<', '-', '\x20', '\'', 'u', '\'', '+', '\x20', 'H', 'e', 'x', 'D', 'i', 'g', 'i', 't',
   '\x20', 'H', 'e', 'x', 'D', 'i', 'g', 'i', 't', '\x20', 'H', 'e', 'x', 'D', 'i', 'g', 'i', 't', '\x20', 'H', 'e', 'x', 'D', 'i', 'g', 'i', 't',
   '\n', '\n', '#', '-', '-', '-', '-', '-', '-', '-', '-', '-', '-', '-', '-', '-', '-', '-', '-', '-', '-', '-', '-', '-', '-', '-', '-', '-', '-',
   '-', '-', '-', '-', '-', '-', '-', '-', '-', '-', '-', '-', '-', '-', '-', '-', '-', '-', '-', '-', '-', '-', '-', '-', '-', '-', '-', '-', '-',
   '-', '-', '-', '-', '-', '-', '-', '-', '-', '-', '-', '-', '-', '-', '-', '-', '-', '-', '\n', '#', '\x20', '\x20', 'J', 'L', 'S', '\x20', '3',
   '.', '1', '1', '-', '1', '2', '\x20', '\x20', 'S', 'e', 'p', 'a', 'r', 'a', 't', 'o', 'r', 's', ',', '\x20', 'O', 'p', 'e', 'r', 'a', 't', 'o',
   'r', 's', '\n', '#', '-', '-', '-', '-', '-', '-', '-', '-', '-', '-', '-', '-', '-', '-', '-', '-', '-', '-', '-', '-', '-', '-', '-', '-', '-',
   '-', '-', '-', '-', '-', '-', '-', '-', '-', '-', '-', '-', '-', '-', '-', '-', '-', '-', '-', '-', '-', '-', '-', '-', '-', '-', '-', '-', '-',
   '-', '-', '-', '-', '-', '-', '-', '-', '-', '-', '-', '-', '-', '-', '-', '-', '-', '-', '-', '\n', '\n', 'A', 'T', '\x20', '\x20', '\x20',
   '\x20', '\x20', '\x20', '\x20', '\x20', '\x20', '\x20', '\x20', '\x20', '\x20', '\x20', '<', '-', '\x20', '\x20', '\x20', '\'', '@', '\'', '\x20',
   '\x20', '\x20', '\x20', '\x20', '\x20', '\x20', 'S', 'p', 'a', 'c', 'i', 'n', 'g', '\n', 'A', 'N', 'D', '\x20', '\x20', '\x20', '\x20', '\x20',
   '\x20', '\x20', '\x20', '\x20', '\x20', '\x20', '\x20', '\x20', '<', '-', '\x20', '\x20', '\x20', '\'', '&', '\'', '!', '[', '=', '&', ']', '\x20',
   '\x20', 'S', 'p', 'a', 'c', 'i', 'n', 'g', '\n', 'A', 'N', 'D', 'A', 'N', 'D', '\x20', '\x20', '\x20', '\x20', '\x20', '\x20', '\x20', '\x20',
   '\x20', '\x20', '<', '-', '\x20', '\x20', '\x20', '\'', '&', '&', '\'', '\x20', '\x20', '\x20', '\x20', '\x20', '\x20', 'S', 'p', 'a', 'c', 'i',
   'n', 'g', '\n', 'A', 'N', 'D', 'E', 'Q', 'U', '\x20', '\x20', '\x20', '\x20', '\x20', '\x20', '\x20', '\x20', '\x20', '\x20', '<', '-', '\x20',
   '\x20', '\x20', '\'', '&', '=', '\'', '\x20', '\x20', '\x20', '\x20', '\x20', '\x20', 'S', 'p', 'a', 'c', 'i', 'n', 'g', '\n', 'B', 'A', 'N', 'G',
   '\x20', '\x20', '\x20', '\x20', '\x20', '\x20', '\x20', '\x20', '\x20', '\x20', '\x20', '\x20', '<', '-', '\x20', '\x20', '\x20', '\'', '!', '\'',
   '\x20', '!', '\'', '=', '\'', '\x20', '\x20', 'S', 'p', 'a', 'c', 'i', 'n', 'g', '\n', 'B', 'S', 'R', '\x20', '\x20', '\x20', '\x20', '\x20',
   '\x20', '\x20', '\x20', '\x20', '\x20', '\x20', '\x20', '\x20', '<', '-', '\x20', '\x20', '\x20', '\'', '>', '>', '>', '\'', '\x20', '!', '\'',
   '=', '\'', '\x20', 'S', 'p', 'a', 'c', 'i', 'n', 'g', '\n', 'B', 'S', 'R', 'E', 'Q', 'U', '\x20', '\x20', '\x20', '\x20', '\x20', '\x20', '\x20',
   '\x20', '\x20', '\x20', '<', '-', '\x20', '\x20', '\x20', '\'', '>', '>', '>', '=', '\'', '\x20', '\x20', '\x20', '\x20', 'S', 'p', 'a', 'c', 'i',
   'n', 'g', '\n', 'C', 'O', 'L', 'O', 'N', '\x20', '\x20', '\x20', '\x20', '\x20', '\x20', '\x20', '\x20', '\x20', '\x20', '\x20', '<', '-', '\x20',
   '\x20', '\x20', '\'', ':', '\'', '\x20', '\x20', '\x20', '\x20', '\x20', '\x20', '\x20', 'S', 'p', 'a', 'c', 'i', 'n', 'g', '\n']

/-- `grammars/java.peg:819-848` -/
def javaFile22 : List UInt8 := bytes "COMMA           <-   ','       Spacing
DEC             <-   '--'      Spacing
DIV             <-   '/' !'='  Spacing
DIVEQU          <-   '/='      Spacing
DOT             <-   '.'       Spacing
ELLIPSIS        <-   '...'     Spacing
EQU             <-   '=' !'='  Spacing
EQUAL           <-   '=='      Spacing
GE              <-   '>='      Spacing
GT              <-   '>'![=>]  Spacing
HAT             <-   '^' !'='   Spacing
HATEQU          <-   '^='      Spacing
INC             <-   '++'      Spacing
LBRK            <-   '['       Spacing
LE              <-   '<='      Spacing
LPAR            <-   '('       Spacing
LPOINT          <-   '<'       Spacing
LT              <-   '<' ![=<]  Spacing
LWING           <-   '{'       Spacing
MINUS           <-   '-' ![=\\-] Spacing
MINUSEQU        <-   '-='      Spacing
MOD             <-   '%' !'='   Spacing
MODEQU          <-   '%='      Spacing
NOTEQUAL        <-   '!='      Spacing
OR              <-   '|' ![=|]  Spacing
OREQU           <-   '|='      Spacing
OROR            <-   '||'      Spacing
PLUS            <-   '+' ![=+]  Spacing
PLUSEQU         <-   '+='      Spacing
QUERY           <-   '?'       Spacing
"

theorem java_eq22 : javaFile22 =
  [67, 79, 77, 77, 65, 32, 32, 32, 32, 32, 32, 32, 32, 32, 32, 32, 60, 45, 32, 32, 32, 39, 44, 39, 32, 32, 32, 32, 32, 32, 32, 83, 112, 97, 99, 105,
   110, 103, 10, 68, 69, 67, 32, 32, 32, 32, 32, 32, 32, 32, 32, 32, 32, 32, 32, 60, 45, 32, 32, 32, 39, 45, 45, 39, 32, 32, 32, 32, 32, 32, 83, 112,
   97, 99, 105, 110, 103, 10, 68, 73, 86, 32, 32, 32, 32, 32, 32, 32, 32, 32, 32, 32, 32, 32, 60, 45, 32, 32, 32, 39, 47, 39, 32, 33, 39, 61, 39, 32,
   32, 83, 112, 97, 99, 105, 110, 103, 10, 68, 73, 86, 69, 81, 85, 32, 32, 32, 32, 32, 32, 32, 32, 32, 32, 60, 45, 32, 32, 32, 39, 47, 61, 39, 32, 32,
   32, 32, 32, 32, 83, 112, 97, 99, 105, 110, 103, 10, 68, 79, 84, 32, 32, 32, 32, 32, 32, 32, 32, 32, 32, 32, 32, 32, 60, 45, 32, 32, 32, 39, 46, 39,
   32, 32, 32, 32, 32, 32, 32, 83, 112, 97, 99, 105, 110, 103, 10, 69, 76, 76, 73, 80, 83, 73, 83, 32, 32, 32, 32, 32, 32, 32, 32, 60, 45, 32, 32, 32,
   39, 46, 46, 46, 39, 32, 32, 32, 32, 32, 83, 112, 97, 99, 105, 110, 103, 10, 69, 81, 85, 32, 32, 32, 32, 32, 32, 32, 32, 32, 32, 32, 32, 32, 60, 45,
   32, 32, 32, 39, 61, 39, 32, 33, 39, 61, 39, 32, 32, 83, 112, 97, 99, 105, 110, 103, 10, 69, 81, 85, 65, 76, 32, 32, 32, 32, 32, 32, 32, 32, 32, 32,
   32, 60, 45, 32, 32, 32, 39, 61, 61, 39, 32, 32, 32, 32, 32, 32, 83, 112, 97, 99, 105, 110, 103, 10, 71, 69, 32, 32, 32, 32, 32, 32, 32, 32, 32, 32,
   32, 32, 32, 32, 60, 45, 32, 32, 32, 39, 62, 61, 39, 32, 32, 32, 32, 32, 32, 83, 112, 97, 99, 105, 110, 103, 10, 71, 84, 32, 32, 32, 32, 32, 32, 32,
   32, 32, 32, 32, 32, 32, 32, 60, 45, 32, 32, 32, 39, 62, 39, 33, 91, 61, 62, 93, 32, 32, 83, 112, 97, 99, 105, 110, 103, 10, 72, 65, 84, 32, 32, 32,
   32, 32, 32, 32, 32, 32, 32, 32, 32, 32, 60, 45, 32, 32, 32, 39, 94, 39, 32, 33, 39, 61, 39, 32, 32, 32, 83, 112, 97, 99, 105, 110, 103, 10, 72, 65,
   84, 69, 81, 85, 32, 32, 32, 32, 32, 32, 32, 32, 32, 32, 60, 45, 32, 32, 32, 39, 94, 61, 39, 32, 32, 32, 32, 32, 32, 83, 112, 97, 99, 105, 110, 103,
   10, 73, 78, 67, 32, 32, 32, 32, 32, 32, 32, 32, 32, 32, 32, 32, 32, 60, 45, 32, 32, 32, 39, 43, 43, 39, 32, 32, 32, 32, 32, 32, 83, 112, 97, 99,
   105, 110, 103, 10, 76, 66, 82, 75, 32, 32, 32, 32, 32, 32, 32, 32, 32, 32, 32, 32, 60, 45, 32, 32, 32, 39, 91, 39, 32, 32, 32, 32, 32, 32, 32, 83,
   112, 97, 99, 105, 110, 103, 10, 76, 69, 32, 32, 32, 32, 32, 32, 32, 32, 32, 32, 32, 32, 32, 32, 60, 45, 32, 32, 32, 39, 60, 61, 39, 32, 32, 32, 32,
   32, 32, 83, 112, 97, 99, 105, 110, 103, 10, 76, 80, 65, 82, 32, 32, 32, 32, 32, 32, 32, 32, 32, 32, 32, 32, 60, 45, 32, 32, 32, 39, 40, 39, 32, 32,
   32, 32, 32, 32, 32, 83, 112, 97, 99, 105, 110, 103, 10, 76, 80, 79, 73, 78, 84, 32, 32, 32, 32, 32, 32, 32, 32, 32, 32, 60, 45, 32, 32, 32, 39, 60,
   39, 32, 32, 32, 32, 32, 32, 32, 83, 112, 97, 99, 105, 110, 103, 10, 76, 84, 32, 32, 32, 32, 32, 32, 32, 32, 32, 32, 32, 32, 32, 32, 60, 45, 32, 32,
   32, 39, 60, 39, 32, 33, 91, 61, 60, 93, 32, 32, 83, 112, 97, 99, 105, 110, 103, 10, 76, 87, 73, 78, 71, 32, 32, 32, 32, 32, 32, 32, 32, 32, 32, 32,
   60, 45, 32, 32, 32, 39, 123, 39, 32, 32, 32, 32, 32, 32, 32, 83, 112, 97, 99, 105, 110, 103, 10, 77, 73, 78, 85, 83, 32, 32, 32, 32, 32, 32, 32,
   32, 32, 32, 32, 60, 45, 32, 32, 32, 39, 45, 39, 32, 33, 91, 61, 92, 45, 93, 32, 83, 112, 97, 99, 105, 110, 103, 10, 77, 73, 78, 85, 83, 69, 81, 85,
   32, 32, 32, 32, 32, 32, 32, 32, 60, 45, 32, 32, 32, 39, 45, 61, 39, 32, 32, 32, 32, 32, 32, 83, 112, 97, 99, 105, 110, 103, 10, 77, 79, 68, 32, 32,
   32, 32, 32, 32, 32, 32, 32, 32, 32, 32, 32, 60, 45, 32, 32, 32, 39, 37, 39, 32, 33, 39, 61, 39, 32, 32, 32, 83, 112, 97, 99, 105, 110, 103, 10, 77,
   79, 68, 69, 81, 85, 32, 32, 32, 32, 32, 32, 32, 32, 32, 32, 60, 45, 32, 32, 32, 39, 37, 61, 39, 32, 32, 32, 32, 32, 32, 83, 112, 97, 99, 105, 110,
   103, 10, 78, 79, 84, 69, 81, 85, 65, 76, 32, 32, 32, 32, 32, 32, 32, 32, 60, 45, 32, 32, 32, 39, 33, 61, 39, 32, 32, 32, 32, 32, 32, 83, 112, 97,
   99, 105, 110, 103, 10, 79, 82, 32, 32, 32, 32, 32, 32, 32, 32, 32, 32, 32, 32, 32, 32, 60, 45, 32, 32, 32, 39, 124, 39, 32, 33, 91, 61, 124, 93,
   32, 32, 83, 112, 97, 99, 105, 110, 103, 10, 79, 82, 69, 81, 85, 32, 32, 32, 32, 32, 32, 32, 32, 32, 32, 32, 60, 45, 32, 32, 32, 39, 124, 61, 39,
   32, 32, 32, 32, 32, 32, 83, 112, 97, 99, 105, 110, 103, 10, 79, 82, 79, 82, 32, 32, 32, 32, 32, 32, 32, 32, 32, 32, 32, 32, 60, 45, 32, 32, 32, 39,
   124, 124, 39, 32, 32, 32, 32, 32, 32, 83, 112, 97, 99, 105, 110, 103, 10, 80, 76, 85, 83, 32, 32, 32, 32, 32, 32, 32, 32, 32, 32, 32, 32, 60, 45,
   32, 32, 32, 39, 43, 39, 32, 33, 91, 61, 43, 93, 32, 32, 83, 112, 97, 99, 105, 110, 103, 10, 80, 76, 85, 83, 69, 81, 85, 32, 32, 32, 32, 32, 32, 32,
   32, 32, 60, 45, 32, 32, 32, 39, 43, 61, 39, 32, 32, 32, 32, 32, 32, 83, 112, 97, 99, 105, 110, 103, 10, 81, 85, 69, 82, 89, 32, 32, 32, 32, 32, 32,
   32, 32, 32, 32, 32, 60, 45, 32, 32, 32, 39, 63, 39, 32, 32, 32, 32, 32, 32, 32, 83, 112, 97, 99, 105, 110, 103, 10] :=
  bytes_ofList
  ['C', 'O', 'M', 'M', 'A', '\x20', '\x20', '\x20', '\x20', '\x20', '\x20', '\x20', '\x20', '\x20', '\x20', '\x20', '<', '-', '\x20', '\x20', '\x20',
   '\'', ',', '\'', '\x20', '\x20', '\x20', '\x20', '\x20', '\x20', '\x20', 'S', 'p', 'a', 'c', 'i', 'n', 'g', '\n', 'D', 'E', 'C', '\x20', '\x20',
   '\x20', '\x20', '\x20', '\x20', '\x20', '\x20', '\x20', '\x20', '\x20', '\x20', '\x20', '<', '-', '\x20', '\x20', '\x20', '\'', '-', '-', '\'',
   '\x20', '\x20', '\x20', '\x20', '\x20', '\x20', 'S', 'p', 'a', 'c', 'i', 'n', 'g', '\n', 'D', 'I', 'V', '\x20', '\x20', '\x20', '\x20', '\x20',
   '\x20', '\x20', '\x20', '\x20', '\x20', '\x20', '\x20', '\x20', '<', '-', '\x20', '\x20', '\x20', '\'', '/', '\'', '\x20', '!', '\'', '=', '\'',
   '\x20', '\x20', 'S', 'p', 'a', 'c', 'i', 'n', 'g', '\n', 'D', 'I', 'V', 'E', 'Q', 'U', '\x20', '\x20', '\x20', '\x20', '\x20', '\x20', '\x20',
   '\x20', '\x20', '\x20', '<', '-', '\x20', '\x20', '\x20', '\'', '/', '=', '\'', '\x20', '\x20', '\x20', '\x20', '\x20', '\x20', 'S', 'p', 'a', 'c',
   'i', 'n', 'g', '\n', 'D', 'O', 'T', '\x20', '\x20', '\x20', '\x20', '\x20', '\x20', '\x20', '\x20', '\x20', '\x20', '\x20', '\x20', '\x20', '<',
   '-', '\x20', '\x20', '\x20', '\'', '.', '\'', '\x20', '\x20', '\x20', '\x20', '\x20', '\x20', '\x20', 'S', 'p', 'a', 'c', 'i', 'n', 'g', '\n', 'E',
   'L', 'L', 'I', 'P', 'S', 'I', 'S', '\x20', '\x20', '\x20', '\x20', '\x20', '\x20', '\x20', '\x20', '<', '-', '\x20', '\x20', '\x20', '\'', '.',
   '.', '.', '\'', '\x20', '\x20', '\x20', '\x20', '\x20', 'S', 'p', 'a', 'c', 'i', 'n', 'g', '\n', 'E', 'Q', 'U', '\x20', '\x20', '\x20', '\x20',
   '\x20', '\x20', '\x20', '\x20', '\x20', '\x20', '\x20', '\x20', '\x20', '<', '-', '\x20', '\x20', '\x20', '\'', '=', '\'', '\x20', '!', '\'', '=',
   '\'', '\x20', '\x20', 'S', 'p', 'a', 'c', 'i', 'n', 'g', '\n', 'E', 'Q', 'U', 'A', 'L', '\x20', '\x20', '\x20', '\x20', '\x20', '\x20', '\x20',
   '\x20', '\x20', '\x20', '\x20', '<', '-', '\x20', '\x20', '\x20', '\'', '=', '=', '\'', '\x20', '\x20', '\x20', '\x20', '\x20', '\x20', 'S', 'p',
   'a', 'c', 'i', 'n', 'g', '\n', 'G', 'E', '\x20', '\x20', '\x20', '\x20', '\x20', '\x20', '\x20', '\x20', '\x20', '\x20', '\x20', '\x20', '\x20',
   '\x20', '<', '-', '\x20', '\x20', '\x20', '\'', '>', '=', '\'', '\x20', '\x20', '\x20', '\x20', '\x20', '\x20', 'S', 'p', 'a', 'c', 'i', 'n', 'g',
   '\n', 'G', 'T', '\x20', '\x20', '\x20', '\x20', '\x20', '\x20', '\x20', '\x20', '\x20', '\x20', '\x20', '\x20', '\x20', '\x20', '<', '-', '\x20',
   '\x20', '\x20', '\'', '>', '\'', '!', '[', '=', '>', ']', '\x20', '\x20', 'S', 'p', 'a', 'c', 'i', 'n', 'g', '\n', 'H', 'A', 'T', '\x20', '\x20',
   '\x20', '\x20', '\x20', '\x20', '\x20', '\x20', '\x20', '\x20', '\x20', '\x20', '\x20', '<', '-', '\x20', '\x20', '\x20', '\'', '^', '\'', '\x20',
   '!', '\'', '=', '\'', '\x20', '\x20', '\x20', 'S', 'p', 'a', 'c', 'i', 'n', 'g', '\n', 'H', 'A', 'T', 'E', 'Q', 'U', '\x20', '\x20', '\x20',
   '\x20', '\x20', '\x20', '\x20', '\x20', '\x20', '\x20', '<', '-', '\x20', '\x20', '\x20', '\'', '^', '=', '\'', '\x20', '\x20', '\x20', '\x20',
   '\x20', '\x20', 'S', 'p', 'a', 'c', 'i', 'n', 'g', '\n', 'I', 'N', 'C', '\x20', '\x20', '\x20', '\x20', '\x20', '\x20', '\x20', '\x20', '\x20',
   '\x20', '\x20', '\x20', '\x20', '<', '-', '\x20', '\x20', '\x20', '\'', '+', '+', '\'', '\x20', '\x20', '\x20', '\x20', '\x20', '\x20', 'S', 'p',
   'a', 'c', 'i', 'n', 'g', '\n', 'L', 'B', 'R', 'K', '\x20', '\x20', '\x20', '\x20', '\x20', '\x20', '\x20', '\x20', '\x20', '\x20', '\x20', '\x20',
   '<', '-', '\x20', '\x20', '\x20', '\'', '[', '\'', '\x20', '\x20', '\x20', '\x20', '\x20', '\x20', '\x20', 'S', 'p', 'a', 'c', 'i', 'n', 'g', '\n',
   'L', 'E', '\x20', '\x20', '\x20', '\x20', '\x20', '\x20', '\x20', '\x20', '\x20', '\x20', '\x20', '\x20', '\x20', '\x20', '<', '-', '\x20', '\x20',
   '\x20', '\'', '<', '=', '\'', '\x20', '\x20', '\x20', '\x20', '\x20', '\x20', 'S', 'p', 'a', 'c', 'i', 'n', 'g', '\n', 'L', 'P', 'A', 'R', '\x20',
   '\x20', '\x20', '\x20', '\x20', '\x20', '\x20', '\x20', '\x20', '\x20', '\x20', '\x20', '<', '-', '\x20', '\x20', '\x20', '\'', '(', '\'', '\x20',
   '\x20', '\x20', '\x20', '\x20', '\x20', '\x20', 'S', 'p', 'a', 'c', 'i', 'n', 'g', '\n', 'L', 'P', 'O', 'I', 'N', 'T', '\x20', '\x20', '\x20',
   '\x20', '\x20', '\x20', '\x20', '\x20', '\x20', '\x20', '<', '-', '\x20', '\x20', '\x20', '\'', '<', '\'', '\x20', '\x20', '\x20', '\x20', '\x20',
   '\x20', '\x20', 'S', 'p', 'a', 'c', 'i', 'n', 'g', '\n', 'L', 'T', '\x20', '\x20', '\x20', '\x20', '\x20', '\x20', '\x20', '\x20', '\x20', '\x20',
   '\x20', '\x20', '\x20', '\x20', '<', '-', '\x20', '\x20', '\x20', '\'', '<', '\'', '\x20', '!', '[', '=', '<', ']', '\x20', '\x20', 'S', 'p', 'a',
   'c', 'i', 'n', 'g', '\n', 'L', 'W', 'I', 'N', 'G', '\x20', '\x20', '\x20', '\x20', '\x20', '\x20', '\x20', '\x20', '\x20', '\x20', '\x20', '<',
   '-', '\x20', '\x20', '\x20', '\'', '{', '\'', '\x20', '\x20', '\x20', '\x20', '\x20', '\x20', '\x20', 'S', 'p', 'a', 'c', 'i', 'n', 'g', '\n', 'M',
   'I', 'N', 'U', 'S', '\x20', '\x20', '\x20', '\x20', '\x20', '\x20', '\x20', '\x20', '\x20', '\x20', '\x20', '<', '-', '\x20', '\x20', '\x20', '\'',
   '-', '\'', '\x20', '!', '[', '=', '\\', '-', ']', '\x20', 'S', 'p', 'a', 'c', 'i', 'n', 'g', '\n', 'M', 'I', 'N', 'U', 'S', 'E', 'Q', 'U', '\x20',
   '\x20', '\x20', '\x20', '\x20', '\x20', '\x20', '\x20', '<', '-', '\x20', '\x20', '\x20', '\'', '-', '=', '\'', '\x20', '\x20', '\x20', '\x20',
   '\x20', '\x20', 'S', 'p', 'a', 'c', 'i', 'n', 'g', '\n', 'M', 'O', 'D', '\x20', '\x20', '\x20', '\x20', '\x20', '\x20', '\x20', '\x20', '\x20',
   '\x20', '\x20', '\x20', '\x20', '<', '-', '\x20', '\x20', '\x20', '\'', '%', '\'', '\x20', '!', '\'', '=', '\'', '\x20', '\x20', '\x20', 'S', 'p',
   'a', 'c', 'i', 'n', 'g', '\n', 'M', 'O', 'D', 'E', 'Q', 'U', '\x20', '\x20', '\x20', '\x20', '\x20', '\x20', '\x20', '\x20', '\x20', '\x20', '<',
   '-', '\x20', '\x20', '\x20', '\'', '%', '=', '\'', '\x20', '\x20', '\x20', '\x20', '\x20', '\x20', 'S', 'p', 'a', 'c', 'i', 'n', 'g', '\n', 'N',
   'O', 'T', 'E', 'Q', 'U', 'A', 'L', '\x20', '\x20', '\x20', '\x20', '\x20', '\x20', '\x20', '\x20', '<', '-', '\x20', '\x20', '\x20', '\'', '!',
   '=', '\'', '\x20', '\x20', '\x20', '\x20', '\x20', '\x20', 'S', 'p', 'a', 'c', 'i', 'n', 'g', '\n', 'O', 'R', '\x20', '\x20', '\x20', '\x20',
   '\x20', '\x20', '\x20', '\x20', '\x20', '\x20', '\x20', '\x20', '\x20', '\x20', '<', '-', '\x20', '\x20', '\x20', '\'', '|', '\'', '\x20', '!',
   '[', '=', '|', ']', '\x20', '\x20', 'S', 'p', 'a', 'c', 'i', 'n', 'g', '\n', 'O', 'R', 'E', 'Q', 'U', '\x20', '\x20', '\x20', '\x20', '\x20',
   '\x20', '\x20', '\x20', '\x20', '\x20', '\x20', '<', '-', '\x20', '\x20', '\x20', '\'', '|', '=', '\'', '\x20', '\x20', '\x20', '\x20', '\x20',
   '\x20', 'S', 'p', 'a', 'c', 'i', 'n', 'g', '\n', 'O', 'R', 'O', 'R', '\x20', '\x20', '\x20', '\x20', '\x20', '\x20', '\x20', '\x20', '\x20',
   '\x20', '\x20', '\x20', '<', '-', '\x20', '\x20', '\x20', '\'', '|', '|', '\'', '\x20', '\x20', '\x20', '\x20', '\x20', '\x20', 'S', 'p', 'a', 'c',
   'i', 'n', 'g', '\n', 'P', 'L', 'U', 'S', '\x20', '\x20', '\x20', '\x20', '\x20', '\x20', '\x20', '\x20', '\x20', '\x20', '\x20', '\x20', '<', '-',
   '\x20', '\x20', '\x20', '\'', '+', '\'', '\x20', '!', '[', '=', '+', ']', '\x20', '\x20', 'S', 'p', 'a', 'c', 'i', 'n', 'g', '\n', 'P', 'L', 'U',
   'S', 'E', 'Q', 'U', '\x20', '\x20', '\x20', '\x20', '\x20', '\x20', '\x20', '\x20', '\x20', '<', '-', '\x20', '\x20', '\x20', '\'', '+', '=', '\'',
   '\x20', '\x20', '\x20', '\x20', '\x20', '\x20', 'S', 'p', 'a', 'c', 'i', 'n', 'g', '\n', 'Q', 'U', 'E', 'R', 'Y', '\x20', '\x20', '\x20', '\x20',
   '\x20', '\x20', '\x20', '\x20', '\x20', '\x20', '\x20', '<', '-', '\x20', '\x20', '\x20', '\'', '?', '\'', '\x20', '\x20', '\x20', '\x20', '\x20',
   '\x20', '\x20', 'S', 'p', 'a', 'c', 'i', 'n', 'g', '\n']

/-- `grammars/java.peg:849-862` -/
def javaFile23 : List UInt8 := bytes "RBRK            <-   ']'       Spacing
RPAR            <-   ')'       Spacing
RPOINT          <-   '>'       Spacing
RWING           <-   '}'       Spacing
SEMI            <-   ';'       Spacing
SL              <-   '<<' !'='  Spacing
SLEQU           <-   '<<='     Spacing
SR              <-   '>>' ![=>] Spacing
SREQU           <-   '>>='     Spacing
STAR            <-   '*' !'='   Spacing
STAREQU         <-   '*='      Spacing
TILDA           <-   '~'       Spacing

EOT <- !.
"

theorem java_eq23 : javaFile23 =
  [82, 66, 82, 75, 32, 32, 32, 32, 32, 32, 32, 32, 32, 32, 32, 32, 60, 45, 32, 32, 32, 39, 93, 39, 32, 32, 32, 32, 32, 32, 32, 83, 112, 97, 99, 105,
   110, 103, 10, 82, 80, 65, 82, 32, 32, 32, 32, 32, 32, 32, 32, 32, 32, 32, 32, 60, 45, 32, 32, 32, 39, 41, 39, 32, 32, 32, 32, 32, 32, 32, 83, 112,
   97, 99, 105, 110, 103, 10, 82, 80, 79, 73, 78, 84, 32, 32, 32, 32, 32, 32, 32, 32, 32, 32, 60, 45, 32, 32, 32, 39, 62, 39, 32, 32, 32, 32, 32, 32,
   32, 83, 112, 97, 99, 105, 110, 103, 10, 82, 87, 73, 78, 71, 32, 32, 32, 32, 32, 32, 32, 32, 32, 32, 32, 60, 45, 32, 32, 32, 39, 125, 39, 32, 32,
   32, 32, 32, 32, 32, 83, 112, 97, 99, 105, 110, 103, 10, 83, 69, 77, 73, 32, 32, 32, 32, 32, 32, 32, 32, 32, 32, 32, 32, 60, 45, 32, 32, 32, 39, 59,
   39, 32, 32, 32, 32, 32, 32, 32, 83, 112, 97, 99, 105, 110, 103, 10, 83, 76, 32, 32, 32, 32, 32, 32, 32, 32, 32, 32, 32, 32, 32, 32, 60, 45, 32, 32,
   32, 39, 60, 60, 39, 32, 33, 39, 61, 39, 32, 32, 83, 112, 97, 99, 105, 110, 103, 10, 83, 76, 69, 81, 85, 32, 32, 32, 32, 32, 32, 32, 32, 32, 32, 32,
   60, 45, 32, 32, 32, 39, 60, 60, 61, 39, 32, 32, 32, 32, 32, 83, 112, 97, 99, 105, 110, 103, 10, 83, 82, 32, 32, 32, 32, 32, 32, 32, 32, 32, 32, 32,
   32, 32, 32, 60, 45, 32, 32, 32, 39, 62, 62, 39, 32, 33, 91, 61, 62, 93, 32, 83, 112, 97, 99, 105, 110, 103, 10, 83, 82, 69, 81, 85, 32, 32, 32, 32,
   32, 32, 32, 32, 32, 32, 32, 60, 45, 32, 32, 32, 39, 62, 62, 61, 39, 32, 32, 32, 32, 32, 83, 112, 97, 99, 105, 110, 103, 10, 83, 84, 65, 82, 32, 32,
   32, 32, 32, 32, 32, 32, 32, 32, 32, 32, 60, 45, 32, 32, 32, 39, 42, 39, 32, 33, 39, 61, 39, 32, 32, 32, 83, 112, 97, 99, 105, 110, 103, 10, 83, 84,
   65, 82, 69, 81, 85, 32, 32, 32, 32, 32, 32, 32, 32, 32, 60, 45, 32, 32, 32, 39, 42, 61, 39, 32, 32, 32, 32, 32, 32, 83, 112, 97, 99, 105, 110, 103,
   10, 84, 73, 76, 68, 65, 32, 32, 32, 32, 32, 32, 32, 32, 32, 32, 32, 60, 45, 32, 32, 32, 39, 126, 39, 32, 32, 32, 32, 32, 32, 32, 83, 112, 97, 99,
   105, 110, 103, 10, 10, 69, 79, 84, 32, 60, 45, 32, 33, 46, 10] :=
  bytes_ofList
  ['R', 'B', 'R', 'K', '\x20', '\x20', '\x20', '\x20', '\x20', '\x20', '\x20', '\x20', '\x20', '\x20', '\x20', '\x20', '<', '-', '\x20', '\x20',
   '\x20', '\'', ']', '\'', '\x20', '\x20', '\x20', '\x20', '\x20', '\x20', '\x20', 'S', 'p', 'a', 'c', 'i', 'n', 'g', '\n', 'R', 'P', 'A', 'R',
   '\x20', '\x20', '\x20', '\x20', '\x20', '\x20', '\x20', '\x20', '\x20', '\x20', '\x20', '\x20', '<', '-', '\x20', '\x20', '\x20', '\'', ')', '\'',
   '\x20', '\x20', '\x20', '\x20', '\x20', '\x20', '\x20', 'S', 'p', 'a', 'c', 'i', 'n', 'g', '\n', 'R', 'P', 'O', 'I', 'N', 'T', '\x20', '\x20',
   '\x20', '\x20', '\x20', '\x20', '\x20', '\x20', '\x20', '\x20', '<', '-', '\x20', '\x20', '\x20', '\'', '>', '\'', '\x20', '\x20', '\x20', '\x20',
   '\x20', '\x20', '\x20', 'S', 'p', 'a', 'c', 'i', 'n', 'g', '\n', 'R', 'W', 'I', 'N', 'G', '\x20', '\x20', '\x20', '\x20', '\x20', '\x20', '\x20',
   '\x20', '\x20', '\x20', '\x20', '<', '-', '\x20', '\x20', '\x20', '\'', '}', '\'', '\x20', '\x20', '\x20', '\x20', '\x20', '\x20', '\x20', 'S',
   'p', 'a', 'c', 'i', 'n', 'g', '\n', 'S', 'E', 'M', 'I', '\x20', '\x20', '\x20', '\x20', '\x20', '\x20', '\x20', '\x20', '\x20', '\x20', '\x20',
   '\x20', '<', '-', '\x20', '\x20', '\x20', '\'', ';', '\'', '\x20', '\x20', '\x20', '\x20', '\x20', '\x20', '\x20', 'S', 'p', 'a', 'c', 'i', 'n',
   'g', '\n', 'S', 'L', '\x20', '\x20', '\x20', '\x20', '\x20', '\x20', '\x20', '\x20', '\x20', '\x20', '\x20', '\x20', '\x20', '\x20', '<', '-',
   '\x20', '\x20', '\x20', '\'', '<', '<', '\'', '\x20', '!', '\'', '=', '\'', '\x20', '\x20', 'S', 'p', 'a', 'c', 'i', 'n', 'g', '\n', 'S', 'L', 'E',
   'Q', 'U', '\x20', '\x20', '\x20', '\x20', '\x20', '\x20', '\x20', '\x20', '\x20', '\x20', '\x20', '<', '-', '\x20', '\x20', '\x20', '\'', '<', '<',
   '=', '\'', '\x20', '\x20', '\x20', '\x20', '\x20', 'S', 'p', 'a', 'c', 'i', 'n', 'g', '\n', 'S', 'R', '\x20', '\x20', '\x20', '\x20', '\x20',
   '\x20', '\x20', '\x20', '\x20', '\x20', '\x20', '\x20', '\x20', '\x20', '<', '-', '\x20', '\x20', '\x20', '\'', '>', '>', '\'', '\x20', '!', '[',
   '=', '>', ']', '\x20', 'S', 'p', 'a', 'c', 'i', 'n', 'g', '\n', 'S', 'R', 'E', 'Q', 'U', '\x20', '\x20', '\x20', '\x20', '\x20', '\x20', '\x20',
   '\x20', '\x20', '\x20', '\x20', '<', '-', '\x20', '\x20', '\x20', '\'', '>', '>', '=', '\'', '\x20', '\x20', '\x20', '\x20', '\x20', 'S', 'p', 'a',
   'c', 'i', 'n', 'g', '\n', 'S', 'T', 'A', 'R', '\x20', '\x20', '\x20', '\x20', '\x20', '\x20', '\x20', '\x20', '\x20', '\x20', '\x20', '\x20', '<',
   '-', '\x20', '\x20', '\x20', '\'', '*', '\'', '\x20', '!', '\'', '=', '\'', '\x20', '\x20', '\x20', 'S', 'p', 'a', 'c', 'i', 'n', 'g', '\n', 'S',
   'T', 'A', 'R', 'E', 'Q', 'U', '\x20', '\x20', '\x20', '\x20', '\x20', '\x20', '\x20', '\x20', '\x20', '<', '-', '\x20', '\x20', '\x20', '\'', '*',
   '=', '\'', '\x20', '\x20', '\x20', '\x20', '\x20', '\x20', 'S', 'p', 'a', 'c', 'i', 'n', 'g', '\n', 'T', 'I', 'L', 'D', 'A', '\x20', '\x20',
   '\x20', '\x20', '\x20', '\x20', '\x20', '\x20', '\x20', '\x20', '\x20', '<', '-', '\x20', '\x20', '\x20', '\'', '~', '\'', '\x20', '\x20', '\x20',
   '\x20', '\x20', '\x20', '\x20', 'S', 'p', 'a', 'c', 'i', 'n', 'g', '\n', '\n', 'E', 'O', 'T', '\x20', '<', '-', '\x20', '!', '.', '\n']

/-- `grammars/java.peg`, the whole file. -/
def javaFile : List UInt8 :=
  javaFile1 ++ (javaFile2 ++ (javaFile3 ++ (javaFile4 ++ (javaFile5 ++ (javaFile6 ++ (javaFile7 ++ (javaFile8 ++ (javaFile9 ++ (javaFile10 ++
    (javaFile11 ++ (javaFile12 ++ (javaFile13 ++ (javaFile14 ++ (javaFile15 ++ (javaFile16 ++ (javaFile17 ++ (javaFile18 ++ (javaFile19 ++ (javaFile20
    ++ (javaFile21 ++ (javaFile22 ++ (javaFile23))))))))))))))))))))))

/-- The definitions of `grammars/java.peg`. -/
def javaGram : Gram := [
  (bytes "CompilationUnit", .one (.cons .none (.ident (bytes "Spacing")) .none (.cons .none (.ident (bytes "PackageDeclaration")) .opt (.cons .none
    (.ident (bytes "ImportDeclaration")) .star (.cons .none (.ident (bytes "TypeDeclaration")) .star (.cons .none (.ident (bytes "EOT")) .none
    .nil)))))),
  (bytes "PackageDeclaration", .one (.cons .none (.ident (bytes "Annotation")) .star (.cons .none (.ident (bytes "PACKAGE")) .none (.cons .none
    (.ident (bytes "QualifiedIdentifier")) .none (.cons .none (.ident (bytes "SEMI")) .none .nil))))),
  (bytes "ImportDeclaration", .one (.cons .none (.ident (bytes "IMPORT")) .none (.cons .none (.ident (bytes "STATIC")) .opt (.cons .none (.ident
    (bytes "QualifiedIdentifier")) .none (.cons .none (.paren (.one (.cons .none (.ident (bytes "DOT")) .none (.cons .none (.ident (bytes "STAR"))
    .none .nil)))) .opt (.cons .none (.ident (bytes "SEMI")) .none .nil)))))),
  (bytes "TypeDeclaration", .alt (.cons .none (.ident (bytes "Modifier")) .star (.cons .none (.paren (.alt (.cons .none (.ident (bytes
    "ClassDeclaration")) .none .nil) (.alt (.cons .none (.ident (bytes "EnumDeclaration")) .none .nil) (.alt (.cons .none (.ident (bytes
    "InterfaceDeclaration")) .none .nil) (.one (.cons .none (.ident (bytes "AnnotationTypeDeclaration")) .none .nil)))))) .none .nil)) (.one (.cons
    .none (.ident (bytes "SEMI")) .none .nil))),
  (bytes "ClassDeclaration", .one (.cons .none (.ident (bytes "CLASS")) .none (.cons .none (.ident (bytes "Identifier")) .none (.cons .none (.ident
    (bytes "TypeParameters")) .opt (.cons .none (.paren (.one (.cons .none (.ident (bytes "EXTENDS")) .none (.cons .none (.ident (bytes "ClassType"))
    .none .nil)))) .opt (.cons .none (.paren (.one (.cons .none (.ident (bytes "IMPLEMENTS")) .none (.cons .none (.ident (bytes "ClassTypeList"))
    .none .nil)))) .opt (.cons .none (.ident (bytes "ClassBody")) .none .nil))))))),
  (bytes "ClassBody", .one (.cons .none (.ident (bytes "LWING")) .none (.cons .none (.ident (bytes "ClassBodyDeclaration")) .star (.cons .none (.ident
    (bytes "RWING")) .none .nil)))),
  (bytes "ClassBodyDeclaration", .alt (.cons .none (.ident (bytes "SEMI")) .none .nil) (.alt (.cons .none (.ident (bytes "STATIC")) .opt (.cons .none
    (.ident (bytes "Block")) .none .nil)) (.one (.cons .none (.ident (bytes "Modifier")) .star (.cons .none (.ident (bytes "MemberDecl")) .none
    .nil))))),
  (bytes "MemberDecl", .alt (.cons .none (.ident (bytes "TypeParameters")) .none (.cons .none (.ident (bytes "GenericMethodOrConstructorRest")) .none
    .nil)) (.alt (.cons .none (.ident (bytes "Type")) .none (.cons .none (.ident (bytes "Identifier")) .none (.cons .none (.ident (bytes
    "MethodDeclaratorRest")) .none .nil))) (.alt (.cons .none (.ident (bytes "Type")) .none (.cons .none (.ident (bytes "VariableDeclarators")) .none
    (.cons .none (.ident (bytes "SEMI")) .none .nil))) (.alt (.cons .none (.ident (bytes "VOID")) .none (.cons .none (.ident (bytes "Identifier"))
    .none (.cons .none (.ident (bytes "VoidMethodDeclaratorRest")) .none .nil))) (.alt (.cons .none (.ident (bytes "Identifier")) .none (.cons .none
    (.ident (bytes "ConstructorDeclaratorRest")) .none .nil)) (.alt (.cons .none (.ident (bytes "InterfaceDeclaration")) .none .nil) (.alt (.cons
    .none (.ident (bytes "ClassDeclaration")) .none .nil) (.alt (.cons .none (.ident (bytes "EnumDeclaration")) .none .nil) (.one (.cons .none (.ident
    (bytes "AnnotationTypeDeclaration")) .none .nil)))))))))),
  (bytes "GenericMethodOrConstructorRest", .alt (.cons .none (.paren (.alt (.cons .none (.ident (bytes "Type")) .none .nil) (.one (.cons .none (.ident
    (bytes "VOID")) .none .nil)))) .none (.cons .none (.ident (bytes "Identifier")) .none (.cons .none (.ident (bytes "MethodDeclaratorRest")) .none
    .nil))) (.one (.cons .none (.ident (bytes "Identifier")) .none (.cons .none (.ident (bytes "ConstructorDeclaratorRest")) .none .nil)))),
  (bytes "MethodDeclaratorRest", .one (.cons .none (.ident (bytes "FormalParameters")) .none (.cons .none (.ident (bytes "Dim")) .star (.cons .none
    (.paren (.one (.cons .none (.ident (bytes "THROWS")) .none (.cons .none (.ident (bytes "ClassTypeList")) .none .nil)))) .opt (.cons .none (.paren
    (.alt (.cons .none (.ident (bytes "MethodBody")) .none .nil) (.one (.cons .none (.ident (bytes "SEMI")) .none .nil)))) .none .nil))))),
  (bytes "VoidMethodDeclaratorRest", .one (.cons .none (.ident (bytes "FormalParameters")) .none (.cons .none (.paren (.one (.cons .none (.ident
    (bytes "THROWS")) .none (.cons .none (.ident (bytes "ClassTypeList")) .none .nil)))) .opt (.cons .none (.paren (.alt (.cons .none (.ident (bytes
    "MethodBody")) .none .nil) (.one (.cons .none (.ident (bytes "SEMI")) .none .nil)))) .none .nil)))),
  (bytes "ConstructorDeclaratorRest", .one (.cons .none (.ident (bytes "FormalParameters")) .none (.cons .none (.paren (.one (.cons .none (.ident
    (bytes "THROWS")) .none (.cons .none (.ident (bytes "ClassTypeList")) .none .nil)))) .opt (.cons .none (.ident (bytes "MethodBody")) .none
    .nil)))),
  (bytes "MethodBody", .one (.cons .none (.ident (bytes "Block")) .none .nil)),
  (bytes "InterfaceDeclaration", .one (.cons .none (.ident (bytes "INTERFACE")) .none (.cons .none (.ident (bytes "Identifier")) .none (.cons .none
    (.ident (bytes "TypeParameters")) .opt (.cons .none (.paren (.one (.cons .none (.ident (bytes "EXTENDS")) .none (.cons .none (.ident (bytes
    "ClassTypeList")) .none .nil)))) .opt (.cons .none (.ident (bytes "InterfaceBody")) .none .nil)))))),
  (bytes "InterfaceBody", .one (.cons .none (.ident (bytes "LWING")) .none (.cons .none (.ident (bytes "InterfaceBodyDeclaration")) .star (.cons .none
    (.ident (bytes "RWING")) .none .nil)))),
  (bytes "InterfaceBodyDeclaration", .alt (.cons .none (.ident (bytes "Modifier")) .star (.cons .none (.ident (bytes "InterfaceMemberDecl")) .none
    .nil)) (.one (.cons .none (.ident (bytes "SEMI")) .none .nil))),
  (bytes "InterfaceMemberDecl", .alt (.cons .none (.ident (bytes "InterfaceMethodOrFieldDecl")) .none .nil) (.alt (.cons .none (.ident (bytes
    "InterfaceGenericMethodDecl")) .none .nil) (.alt (.cons .none (.ident (bytes "VOID")) .none (.cons .none (.ident (bytes "Identifier")) .none
    (.cons .none (.ident (bytes "VoidInterfaceMethodDeclaratorRest")) .none .nil))) (.alt (.cons .none (.ident (bytes "InterfaceDeclaration")) .none
    .nil) (.alt (.cons .none (.ident (bytes "AnnotationTypeDeclaration")) .none .nil) (.alt (.cons .none (.ident (bytes "ClassDeclaration")) .none
    .nil) (.one (.cons .none (.ident (bytes "EnumDeclaration")) .none .nil)))))))),
  (bytes "InterfaceMethodOrFieldDecl", .one (.cons .none (.ident (bytes "Type")) .none (.cons .none (.ident (bytes "Identifier")) .none (.cons .none
    (.ident (bytes "InterfaceMethodOrFieldRest")) .none .nil)))),
  (bytes "InterfaceMethodOrFieldRest", .alt (.cons .none (.ident (bytes "ConstantDeclaratorsRest")) .none (.cons .none (.ident (bytes "SEMI")) .none
    .nil)) (.one (.cons .none (.ident (bytes "InterfaceMethodDeclaratorRest")) .none .nil))),
  (bytes "InterfaceMethodDeclaratorRest", .one (.cons .none (.ident (bytes "FormalParameters")) .none (.cons .none (.ident (bytes "Dim")) .star (.cons
    .none (.paren (.one (.cons .none (.ident (bytes "THROWS")) .none (.cons .none (.ident (bytes "ClassTypeList")) .none .nil)))) .opt (.cons .none
    (.ident (bytes "SEMI")) .none .nil))))),
  (bytes "InterfaceGenericMethodDecl", .one (.cons .none (.ident (bytes "TypeParameters")) .none (.cons .none (.paren (.alt (.cons .none (.ident
    (bytes "Type")) .none .nil) (.one (.cons .none (.ident (bytes "VOID")) .none .nil)))) .none (.cons .none (.ident (bytes "Identifier")) .none
    (.cons .none (.ident (bytes "InterfaceMethodDeclaratorRest")) .none .nil))))),
  (bytes "VoidInterfaceMethodDeclaratorRest", .one (.cons .none (.ident (bytes "FormalParameters")) .none (.cons .none (.paren (.one (.cons .none
    (.ident (bytes "THROWS")) .none (.cons .none (.ident (bytes "ClassTypeList")) .none .nil)))) .opt (.cons .none (.ident (bytes "SEMI")) .none
    .nil)))),
  (bytes "ConstantDeclaratorsRest", .one (.cons .none (.ident (bytes "ConstantDeclaratorRest")) .none (.cons .none (.paren (.one (.cons .none (.ident
    (bytes "COMMA")) .none (.cons .none (.ident (bytes "ConstantDeclarator")) .none .nil)))) .star .nil))),
  (bytes "ConstantDeclarator", .one (.cons .none (.ident (bytes "Identifier")) .none (.cons .none (.ident (bytes "ConstantDeclaratorRest")) .none
    .nil))),
  (bytes "ConstantDeclaratorRest", .one (.cons .none (.ident (bytes "Dim")) .star (.cons .none (.ident (bytes "EQU")) .none (.cons .none (.ident
    (bytes "VariableInitializer")) .none .nil)))),
  (bytes "EnumDeclaration", .one (.cons .none (.ident (bytes "ENUM")) .none (.cons .none (.ident (bytes "Identifier")) .none (.cons .none (.paren
    (.one (.cons .none (.ident (bytes "IMPLEMENTS")) .none (.cons .none (.ident (bytes "ClassTypeList")) .none .nil)))) .opt (.cons .none (.ident
    (bytes "EnumBody")) .none .nil))))),
  (bytes "EnumBody", .one (.cons .none (.ident (bytes "LWING")) .none (.cons .none (.ident (bytes "EnumConstants")) .opt (.cons .none (.ident (bytes
    "COMMA")) .opt (.cons .none (.ident (bytes "EnumBodyDeclarations")) .opt (.cons .none (.ident (bytes "RWING")) .none .nil)))))),
  (bytes "EnumConstants", .one (.cons .none (.ident (bytes "EnumConstant")) .none (.cons .none (.paren (.one (.cons .none (.ident (bytes "COMMA"))
    .none (.cons .none (.ident (bytes "EnumConstant")) .none .nil)))) .star .nil))),
  (bytes "EnumConstant", .one (.cons .none (.ident (bytes "Annotation")) .star (.cons .none (.ident (bytes "Identifier")) .none (.cons .none (.ident
    (bytes "Arguments")) .opt (.cons .none (.ident (bytes "ClassBody")) .opt .nil))))),
  (bytes "EnumBodyDeclarations", .one (.cons .none (.ident (bytes "SEMI")) .none (.cons .none (.ident (bytes "ClassBodyDeclaration")) .star .nil))),
  (bytes "LocalVariableDeclarationStatement", .one (.cons .none (.paren (.alt (.cons .none (.ident (bytes "FINAL")) .none .nil) (.one (.cons .none
    (.ident (bytes "Annotation")) .none .nil)))) .star (.cons .none (.ident (bytes "Type")) .none (.cons .none (.ident (bytes "VariableDeclarators"))
    .none (.cons .none (.ident (bytes "SEMI")) .none .nil))))),
  (bytes "VariableDeclarators", .one (.cons .none (.ident (bytes "VariableDeclarator")) .none (.cons .none (.paren (.one (.cons .none (.ident (bytes
    "COMMA")) .none (.cons .none (.ident (bytes "VariableDeclarator")) .none .nil)))) .star .nil))),
  (bytes "VariableDeclarator", .one (.cons .none (.ident (bytes "Identifier")) .none (.cons .none (.ident (bytes "Dim")) .star (.cons .none (.paren
    (.one (.cons .none (.ident (bytes "EQU")) .none (.cons .none (.ident (bytes "VariableInitializer")) .none .nil)))) .opt .nil)))),
  (bytes "FormalParameters", .one (.cons .none (.ident (bytes "LPAR")) .none (.cons .none (.ident (bytes "FormalParameterList")) .opt (.cons .none
    (.ident (bytes "RPAR")) .none .nil)))),
  (bytes "FormalParameter", .one (.cons .none (.paren (.alt (.cons .none (.ident (bytes "FINAL")) .none .nil) (.one (.cons .none (.ident (bytes
    "Annotation")) .none .nil)))) .star (.cons .none (.ident (bytes "Type")) .none (.cons .none (.ident (bytes "VariableDeclaratorId")) .none .nil)))),
  (bytes "LastFormalParameter", .one (.cons .none (.paren (.alt (.cons .none (.ident (bytes "FINAL")) .none .nil) (.one (.cons .none (.ident (bytes
    "Annotation")) .none .nil)))) .star (.cons .none (.ident (bytes "Type")) .none (.cons .none (.ident (bytes "ELLIPSIS")) .none (.cons .none (.ident
    (bytes "VariableDeclaratorId")) .none .nil))))),
  (bytes "FormalParameterList", .alt (.cons .none (.ident (bytes "FormalParameter")) .none (.cons .none (.paren (.one (.cons .none (.ident (bytes
    "COMMA")) .none (.cons .none (.ident (bytes "FormalParameter")) .none .nil)))) .star (.cons .none (.paren (.one (.cons .none (.ident (bytes
    "COMMA")) .none (.cons .none (.ident (bytes "LastFormalParameter")) .none .nil)))) .opt .nil))) (.one (.cons .none (.ident (bytes
    "LastFormalParameter")) .none .nil))),
  (bytes "VariableDeclaratorId", .one (.cons .none (.ident (bytes "Identifier")) .none (.cons .none (.ident (bytes "Dim")) .star .nil))),
  (bytes "Block", .one (.cons .none (.ident (bytes "LWING")) .none (.cons .none (.ident (bytes "BlockStatements")) .none (.cons .none (.ident (bytes
    "RWING")) .none .nil)))),
  (bytes "BlockStatements", .one (.cons .none (.ident (bytes "BlockStatement")) .star .nil)),
  (bytes "BlockStatement", .alt (.cons .none (.ident (bytes "LocalVariableDeclarationStatement")) .none .nil) (.alt (.cons .none (.ident (bytes
    "Modifier")) .star (.cons .none (.paren (.alt (.cons .none (.ident (bytes "ClassDeclaration")) .none .nil) (.one (.cons .none (.ident (bytes
    "EnumDeclaration")) .none .nil)))) .none .nil)) (.one (.cons .none (.ident (bytes "Statement")) .none .nil)))),
  (bytes "Statement", .alt (.cons .none (.ident (bytes "Block")) .none .nil) (.alt (.cons .none (.ident (bytes "ASSERT")) .none (.cons .none (.ident
    (bytes "Expression")) .none (.cons .none (.paren (.one (.cons .none (.ident (bytes "COLON")) .none (.cons .none (.ident (bytes "Expression"))
    .none .nil)))) .opt (.cons .none (.ident (bytes "SEMI")) .none .nil)))) (.alt (.cons .none (.ident (bytes "IF")) .none (.cons .none (.ident (bytes
    "ParExpression")) .none (.cons .none (.ident (bytes "Statement")) .none (.cons .none (.paren (.one (.cons .none (.ident (bytes "ELSE")) .none
    (.cons .none (.ident (bytes "Statement")) .none .nil)))) .opt .nil)))) (.alt (.cons .none (.ident (bytes "FOR")) .none (.cons .none (.ident (bytes
    "LPAR")) .none (.cons .none (.ident (bytes "ForInit")) .opt (.cons .none (.ident (bytes "SEMI")) .none (.cons .none (.ident (bytes "Expression"))
    .opt (.cons .none (.ident (bytes "SEMI")) .none (.cons .none (.ident (bytes "ForUpdate")) .opt (.cons .none (.ident (bytes "RPAR")) .none (.cons
    .none (.ident (bytes "Statement")) .none .nil))))))))) (.alt (.cons .none (.ident (bytes "FOR")) .none (.cons .none (.ident (bytes "LPAR")) .none
    (.cons .none (.ident (bytes "FormalParameter")) .none (.cons .none (.ident (bytes "COLON")) .none (.cons .none (.ident (bytes "Expression")) .none
    (.cons .none (.ident (bytes "RPAR")) .none (.cons .none (.ident (bytes "Statement")) .none .nil))))))) (.alt (.cons .none (.ident (bytes "WHILE"))
    .none (.cons .none (.ident (bytes "ParExpression")) .none (.cons .none (.ident (bytes "Statement")) .none .nil))) (.alt (.cons .none (.ident
    (bytes "DO")) .none (.cons .none (.ident (bytes "Statement")) .none (.cons .none (.ident (bytes "WHILE")) .none (.cons .none (.ident (bytes
    "ParExpression")) .none (.cons .none (.ident (bytes "SEMI")) .none .nil))))) (.alt (.cons .none (.ident (bytes "TRY")) .none (.cons .none (.ident
    (bytes "LPAR")) .none (.cons .none (.ident (bytes "Resource")) .none (.cons .none (.paren (.one (.cons .none (.ident (bytes "SEMI")) .none (.cons
    .none (.ident (bytes "Resource")) .none .nil)))) .star (.cons .none (.ident (bytes "SEMI")) .opt (.cons .none (.ident (bytes "RPAR")) .none (.cons
    .none (.ident (bytes "Block")) .none (.cons .none (.ident (bytes "Catch")) .star (.cons .none (.ident (bytes "Finally")) .opt .nil))))))))) (.alt
    (.cons .none (.ident (bytes "TRY")) .none (.cons .none (.ident (bytes "Block")) .none (.cons .none (.paren (.alt (.cons .none (.ident (bytes
    "Catch")) .plus (.cons .none (.ident (bytes "Finally")) .opt .nil)) (.one (.cons .none (.ident (bytes "Finally")) .none .nil)))) .none .nil)))
    (.alt (.cons .none (.ident (bytes "SWITCH")) .none (.cons .none (.ident (bytes "ParExpression")) .none (.cons .none (.ident (bytes "LWING")) .none
    (.cons .none (.ident (bytes "SwitchBlockStatementGroups")) .none (.cons .none (.ident (bytes "RWING")) .none .nil))))) (.alt (.cons .none (.ident
    (bytes "SYNCHRONIZED")) .none (.cons .none (.ident (bytes "ParExpression")) .none (.cons .none (.ident (bytes "Block")) .none .nil))) (.alt (.cons
    .none (.ident (bytes "RETURN")) .none (.cons .none (.ident (bytes "Expression")) .opt (.cons .none (.ident (bytes "SEMI")) .none .nil))) (.alt
    (.cons .none (.ident (bytes "THROW")) .none (.cons .none (.ident (bytes "Expression")) .none (.cons .none (.ident (bytes "SEMI")) .none .nil)))
    (.alt (.cons .none (.ident (bytes "BREAK")) .none (.cons .none (.ident (bytes "Identifier")) .opt (.cons .none (.ident (bytes "SEMI")) .none
    .nil))) (.alt (.cons .none (.ident (bytes "CONTINUE")) .none (.cons .none (.ident (bytes "Identifier")) .opt (.cons .none (.ident (bytes "SEMI"))
    .none .nil))) (.alt (.cons .none (.ident (bytes "SEMI")) .none .nil) (.alt (.cons .none (.ident (bytes "StatementExpression")) .none (.cons .none
    (.ident (bytes "SEMI")) .none .nil)) (.one (.cons .none (.ident (bytes "Identifier")) .none (.cons .none (.ident (bytes "COLON")) .none (.cons
    .none (.ident (bytes "Statement")) .none .nil))))))))))))))))))))),
  (bytes "Resource", .one (.cons .none (.ident (bytes "Modifier")) .star (.cons .none (.ident (bytes "Type")) .none (.cons .none (.ident (bytes
    "VariableDeclaratorId")) .none (.cons .none (.ident (bytes "EQU")) .none (.cons .none (.ident (bytes "Expression")) .none .nil)))))),
  (bytes "Catch", .one (.cons .none (.ident (bytes "CATCH")) .none (.cons .none (.ident (bytes "LPAR")) .none (.cons .none (.paren (.alt (.cons .none
    (.ident (bytes "FINAL")) .none .nil) (.one (.cons .none (.ident (bytes "Annotation")) .none .nil)))) .star (.cons .none (.ident (bytes "Type"))
    .none (.cons .none (.paren (.one (.cons .none (.ident (bytes "OR")) .none (.cons .none (.ident (bytes "Type")) .none .nil)))) .star (.cons .none
    (.ident (bytes "VariableDeclaratorId")) .none (.cons .none (.ident (bytes "RPAR")) .none (.cons .none (.ident (bytes "Block")) .none .nil))))))))),
  (bytes "Finally", .one (.cons .none (.ident (bytes "FINALLY")) .none (.cons .none (.ident (bytes "Block")) .none .nil))),
  (bytes "SwitchBlockStatementGroups", .one (.cons .none (.ident (bytes "SwitchBlockStatementGroup")) .star .nil)),
  (bytes "SwitchBlockStatementGroup", .one (.cons .none (.ident (bytes "SwitchLabel")) .none (.cons .none (.ident (bytes "BlockStatements")) .none
    .nil))),
  (bytes "SwitchLabel", .alt (.cons .none (.ident (bytes "CASE")) .none (.cons .none (.ident (bytes "ConstantExpression")) .none (.cons .none (.ident
    (bytes "COLON")) .none .nil))) (.alt (.cons .none (.ident (bytes "CASE")) .none (.cons .none (.ident (bytes "EnumConstantName")) .none (.cons
    .none (.ident (bytes "COLON")) .none .nil))) (.one (.cons .none (.ident (bytes "DEFAULT")) .none (.cons .none (.ident (bytes "COLON")) .none
    .nil))))),
  (bytes "ForInit", .alt (.cons .none (.paren (.alt (.cons .none (.ident (bytes "FINAL")) .none .nil) (.one (.cons .none (.ident (bytes "Annotation"))
    .none .nil)))) .star (.cons .none (.ident (bytes "Type")) .none (.cons .none (.ident (bytes "VariableDeclarators")) .none .nil))) (.one (.cons
    .none (.ident (bytes "StatementExpression")) .none (.cons .none (.paren (.one (.cons .none (.ident (bytes "COMMA")) .none (.cons .none (.ident
    (bytes "StatementExpression")) .none .nil)))) .star .nil)))),
  (bytes "ForUpdate", .one (.cons .none (.ident (bytes "StatementExpression")) .none (.cons .none (.paren (.one (.cons .none (.ident (bytes "COMMA"))
    .none (.cons .none (.ident (bytes "StatementExpression")) .none .nil)))) .star .nil))),
  (bytes "EnumConstantName", .one (.cons .none (.ident (bytes "Identifier")) .none .nil)),
  (bytes "StatementExpression", .one (.cons .none (.ident (bytes "Expression")) .none .nil)),
  (bytes "ConstantExpression", .one (.cons .none (.ident (bytes "Expression")) .none .nil)),
  (bytes "Expression", .one (.cons .none (.ident (bytes "ConditionalExpression")) .none (.cons .none (.paren (.one (.cons .none (.ident (bytes
    "AssignmentOperator")) .none (.cons .none (.ident (bytes "ConditionalExpression")) .none .nil)))) .star .nil))),
  (bytes "AssignmentOperator", .alt (.cons .none (.ident (bytes "EQU")) .none .nil) (.alt (.cons .none (.ident (bytes "PLUSEQU")) .none .nil) (.alt
    (.cons .none (.ident (bytes "MINUSEQU")) .none .nil) (.alt (.cons .none (.ident (bytes "STAREQU")) .none .nil) (.alt (.cons .none (.ident (bytes
    "DIVEQU")) .none .nil) (.alt (.cons .none (.ident (bytes "ANDEQU")) .none .nil) (.alt (.cons .none (.ident (bytes "OREQU")) .none .nil) (.alt
    (.cons .none (.ident (bytes "HATEQU")) .none .nil) (.alt (.cons .none (.ident (bytes "MODEQU")) .none .nil) (.alt (.cons .none (.ident (bytes
    "SLEQU")) .none .nil) (.alt (.cons .none (.ident (bytes "SREQU")) .none .nil) (.one (.cons .none (.ident (bytes "BSREQU")) .none .nil))))))))))))),
  (bytes "ConditionalExpression", .one (.cons .none (.ident (bytes "ConditionalOrExpression")) .none (.cons .none (.paren (.one (.cons .none (.ident
    (bytes "QUERY")) .none (.cons .none (.ident (bytes "Expression")) .none (.cons .none (.ident (bytes "COLON")) .none (.cons .none (.ident (bytes
    "ConditionalOrExpression")) .none .nil)))))) .star .nil))),
  (bytes "ConditionalOrExpression", .one (.cons .none (.ident (bytes "ConditionalAndExpression")) .none (.cons .none (.paren (.one (.cons .none
    (.ident (bytes "OROR")) .none (.cons .none (.ident (bytes "ConditionalAndExpression")) .none .nil)))) .star .nil))),
  (bytes "ConditionalAndExpression", .one (.cons .none (.ident (bytes "InclusiveOrExpression")) .none (.cons .none (.paren (.one (.cons .none (.ident
    (bytes "ANDAND")) .none (.cons .none (.ident (bytes "InclusiveOrExpression")) .none .nil)))) .star .nil))),
  (bytes "InclusiveOrExpression", .one (.cons .none (.ident (bytes "ExclusiveOrExpression")) .none (.cons .none (.paren (.one (.cons .none (.ident
    (bytes "OR")) .none (.cons .none (.ident (bytes "ExclusiveOrExpression")) .none .nil)))) .star .nil))),
  (bytes "ExclusiveOrExpression", .one (.cons .none (.ident (bytes "AndExpression")) .none (.cons .none (.paren (.one (.cons .none (.ident (bytes
    "HAT")) .none (.cons .none (.ident (bytes "AndExpression")) .none .nil)))) .star .nil))),
  (bytes "AndExpression", .one (.cons .none (.ident (bytes "EqualityExpression")) .none (.cons .none (.paren (.one (.cons .none (.ident (bytes "AND"))
    .none (.cons .none (.ident (bytes "EqualityExpression")) .none .nil)))) .star .nil))),
  (bytes "EqualityExpression", .one (.cons .none (.ident (bytes "RelationalExpression")) .none (.cons .none (.paren (.one (.cons .none (.paren (.alt
    (.cons .none (.ident (bytes "EQUAL")) .none .nil) (.one (.cons .none (.ident (bytes "NOTEQUAL")) .none .nil)))) .none (.cons .none (.ident (bytes
    "RelationalExpression")) .none .nil)))) .star .nil))),
  (bytes "RelationalExpression", .one (.cons .none (.ident (bytes "ShiftExpression")) .none (.cons .none (.paren (.alt (.cons .none (.paren (.alt
    (.cons .none (.ident (bytes "LE")) .none .nil) (.alt (.cons .none (.ident (bytes "GE")) .none .nil) (.alt (.cons .none (.ident (bytes "LT")) .none
    .nil) (.one (.cons .none (.ident (bytes "GT")) .none .nil)))))) .none (.cons .none (.ident (bytes "ShiftExpression")) .none .nil)) (.one (.cons
    .none (.ident (bytes "INSTANCEOF")) .none (.cons .none (.ident (bytes "ReferenceType")) .none .nil))))) .star .nil))),
  (bytes "ShiftExpression", .one (.cons .none (.ident (bytes "AdditiveExpression")) .none (.cons .none (.paren (.one (.cons .none (.paren (.alt (.cons
    .none (.ident (bytes "SL")) .none .nil) (.alt (.cons .none (.ident (bytes "SR")) .none .nil) (.one (.cons .none (.ident (bytes "BSR")) .none
    .nil))))) .none (.cons .none (.ident (bytes "AdditiveExpression")) .none .nil)))) .star .nil))),
  (bytes "AdditiveExpression", .one (.cons .none (.ident (bytes "MultiplicativeExpression")) .none (.cons .none (.paren (.one (.cons .none (.paren
    (.alt (.cons .none (.ident (bytes "PLUS")) .none .nil) (.one (.cons .none (.ident (bytes "MINUS")) .none .nil)))) .none (.cons .none (.ident
    (bytes "MultiplicativeExpression")) .none .nil)))) .star .nil))),
  (bytes "MultiplicativeExpression", .one (.cons .none (.ident (bytes "UnaryExpression")) .none (.cons .none (.paren (.one (.cons .none (.paren (.alt
    (.cons .none (.ident (bytes "STAR")) .none .nil) (.alt (.cons .none (.ident (bytes "DIV")) .none .nil) (.one (.cons .none (.ident (bytes "MOD"))
    .none .nil))))) .none (.cons .none (.ident (bytes "UnaryExpression")) .none .nil)))) .star .nil))),
  (bytes "UnaryExpression", .alt (.cons .none (.ident (bytes "PrefixOp")) .none (.cons .none (.ident (bytes "UnaryExpression")) .none .nil)) (.alt
    (.cons .none (.ident (bytes "LPAR")) .none (.cons .none (.ident (bytes "Type")) .none (.cons .none (.ident (bytes "RPAR")) .none (.cons .none
    (.ident (bytes "UnaryExpression")) .none .nil)))) (.one (.cons .none (.ident (bytes "Primary")) .none (.cons .none (.paren (.one (.cons .none
    (.ident (bytes "Selector")) .none .nil))) .star (.cons .none (.paren (.one (.cons .none (.ident (bytes "PostfixOp")) .none .nil))) .star
    .nil)))))),
  (bytes "Primary", .alt (.cons .none (.ident (bytes "ParExpression")) .none .nil) (.alt (.cons .none (.ident (bytes "NonWildcardTypeArguments"))
    .none (.cons .none (.paren (.alt (.cons .none (.ident (bytes "ExplicitGenericInvocationSuffix")) .none .nil) (.one (.cons .none (.ident (bytes
    "THIS")) .none (.cons .none (.ident (bytes "Arguments")) .none .nil))))) .none .nil)) (.alt (.cons .none (.ident (bytes "THIS")) .none (.cons
    .none (.ident (bytes "Arguments")) .opt .nil)) (.alt (.cons .none (.ident (bytes "SUPER")) .none (.cons .none (.ident (bytes "SuperSuffix")) .none
    .nil)) (.alt (.cons .none (.ident (bytes "Literal")) .none .nil) (.alt (.cons .none (.ident (bytes "NEW")) .none (.cons .none (.ident (bytes
    "Creator")) .none .nil)) (.alt (.cons .none (.ident (bytes "QualifiedIdentifier")) .none (.cons .none (.ident (bytes "IdentifierSuffix")) .opt
    .nil)) (.alt (.cons .none (.ident (bytes "BasicType")) .none (.cons .none (.ident (bytes "Dim")) .star (.cons .none (.ident (bytes "DOT")) .none
    (.cons .none (.ident (bytes "CLASS")) .none .nil)))) (.one (.cons .none (.ident (bytes "VOID")) .none (.cons .none (.ident (bytes "DOT")) .none
    (.cons .none (.ident (bytes "CLASS")) .none .nil)))))))))))),
  (bytes "IdentifierSuffix", .alt (.cons .none (.ident (bytes "LBRK")) .none (.cons .none (.paren (.alt (.cons .none (.ident (bytes "RBRK")) .none
    (.cons .none (.ident (bytes "Dim")) .star (.cons .none (.ident (bytes "DOT")) .none (.cons .none (.ident (bytes "CLASS")) .none .nil)))) (.one
    (.cons .none (.ident (bytes "Expression")) .none (.cons .none (.ident (bytes "RBRK")) .none .nil))))) .none .nil)) (.alt (.cons .none (.ident
    (bytes "Arguments")) .none .nil) (.one (.cons .none (.ident (bytes "DOT")) .none (.cons .none (.paren (.alt (.cons .none (.ident (bytes "CLASS"))
    .none .nil) (.alt (.cons .none (.ident (bytes "ExplicitGenericInvocation")) .none .nil) (.alt (.cons .none (.ident (bytes "THIS")) .none .nil)
    (.alt (.cons .none (.ident (bytes "SUPER")) .none (.cons .none (.ident (bytes "Arguments")) .none .nil)) (.one (.cons .none (.ident (bytes "NEW"))
    .none (.cons .none (.ident (bytes "NonWildcardTypeArguments")) .opt (.cons .none (.ident (bytes "InnerCreator")) .none .nil))))))))) .none
    .nil))))),
  (bytes "ExplicitGenericInvocation", .one (.cons .none (.ident (bytes "NonWildcardTypeArguments")) .none (.cons .none (.ident (bytes
    "ExplicitGenericInvocationSuffix")) .none .nil))),
  (bytes "NonWildcardTypeArguments", .one (.cons .none (.ident (bytes "LPOINT")) .none (.cons .none (.ident (bytes "ReferenceType")) .none (.cons
    .none (.paren (.one (.cons .none (.ident (bytes "COMMA")) .none (.cons .none (.ident (bytes "ReferenceType")) .none .nil)))) .star (.cons .none
    (.ident (bytes "RPOINT")) .none .nil))))),
  (bytes "ExplicitGenericInvocationSuffix", .alt (.cons .none (.ident (bytes "SUPER")) .none (.cons .none (.ident (bytes "SuperSuffix")) .none .nil))
    (.one (.cons .none (.ident (bytes "Identifier")) .none (.cons .none (.ident (bytes "Arguments")) .none .nil)))),
  (bytes "PrefixOp", .alt (.cons .none (.ident (bytes "INC")) .none .nil) (.alt (.cons .none (.ident (bytes "DEC")) .none .nil) (.alt (.cons .none
    (.ident (bytes "BANG")) .none .nil) (.alt (.cons .none (.ident (bytes "TILDA")) .none .nil) (.alt (.cons .none (.ident (bytes "PLUS")) .none .nil)
    (.one (.cons .none (.ident (bytes "MINUS")) .none .nil))))))),
  (bytes "PostfixOp", .alt (.cons .none (.ident (bytes "INC")) .none .nil) (.one (.cons .none (.ident (bytes "DEC")) .none .nil))),
  (bytes "Selector", .alt (.cons .none (.ident (bytes "DOT")) .none (.cons .none (.ident (bytes "Identifier")) .none (.cons .none (.ident (bytes
    "Arguments")) .opt .nil))) (.alt (.cons .none (.ident (bytes "DOT")) .none (.cons .none (.ident (bytes "ExplicitGenericInvocation")) .none .nil))
    (.alt (.cons .none (.ident (bytes "DOT")) .none (.cons .none (.ident (bytes "THIS")) .none .nil)) (.alt (.cons .none (.ident (bytes "DOT")) .none
    (.cons .none (.ident (bytes "SUPER")) .none (.cons .none (.ident (bytes "SuperSuffix")) .none .nil))) (.alt (.cons .none (.ident (bytes "DOT"))
    .none (.cons .none (.ident (bytes "NEW")) .none (.cons .none (.ident (bytes "NonWildcardTypeArguments")) .opt (.cons .none (.ident (bytes
    "InnerCreator")) .none .nil)))) (.one (.cons .none (.ident (bytes "DimExpr")) .none .nil))))))),
  (bytes "SuperSuffix", .alt (.cons .none (.ident (bytes "Arguments")) .none .nil) (.one (.cons .none (.ident (bytes "DOT")) .none (.cons .none
    (.ident (bytes "Identifier")) .none (.cons .none (.ident (bytes "Arguments")) .opt .nil))))),
  (bytes "BasicType", .one (.cons .none (.paren (.alt (.cons .none (.lit [98, 121, 116, 101]) .none .nil) (.alt (.cons .none (.lit [115, 104, 111,
    114, 116]) .none .nil) (.alt (.cons .none (.lit [99, 104, 97, 114]) .none .nil) (.alt (.cons .none (.lit [105, 110, 116]) .none .nil) (.alt (.cons
    .none (.lit [108, 111, 110, 103]) .none .nil) (.alt (.cons .none (.lit [102, 108, 111, 97, 116]) .none .nil) (.alt (.cons .none (.lit [100, 111,
    117, 98, 108, 101]) .none .nil) (.one (.cons .none (.lit [98, 111, 111, 108, 101, 97, 110]) .none .nil)))))))))) .none (.cons .not (.ident (bytes
    "LetterOrDigit")) .none (.cons .none (.ident (bytes "Spacing")) .none .nil)))),
  (bytes "Arguments", .one (.cons .none (.ident (bytes "LPAR")) .none (.cons .none (.paren (.one (.cons .none (.ident (bytes "Expression")) .none
    (.cons .none (.paren (.one (.cons .none (.ident (bytes "COMMA")) .none (.cons .none (.ident (bytes "Expression")) .none .nil)))) .star .nil))))
    .opt (.cons .none (.ident (bytes "RPAR")) .none .nil)))),
  (bytes "Creator", .alt (.cons .none (.ident (bytes "NonWildcardTypeArguments")) .opt (.cons .none (.ident (bytes "CreatedName")) .none (.cons .none
    (.ident (bytes "ClassCreatorRest")) .none .nil))) (.one (.cons .none (.ident (bytes "NonWildcardTypeArguments")) .opt (.cons .none (.paren (.alt
    (.cons .none (.ident (bytes "ClassType")) .none .nil) (.one (.cons .none (.ident (bytes "BasicType")) .none .nil)))) .none (.cons .none (.ident
    (bytes "ArrayCreatorRest")) .none .nil))))),
  (bytes "CreatedName", .one (.cons .none (.ident (bytes "Identifier")) .none (.cons .none (.ident (bytes "NonWildcardTypeArguments")) .opt (.cons
    .none (.paren (.one (.cons .none (.ident (bytes "DOT")) .none (.cons .none (.ident (bytes "Identifier")) .none (.cons .none (.ident (bytes
    "NonWildcardTypeArguments")) .opt .nil))))) .star .nil)))),
  (bytes "InnerCreator", .one (.cons .none (.ident (bytes "Identifier")) .none (.cons .none (.ident (bytes "ClassCreatorRest")) .none .nil))),
  (bytes "ArrayCreatorRest", .one (.cons .none (.ident (bytes "LBRK")) .none (.cons .none (.paren (.alt (.cons .none (.ident (bytes "RBRK")) .none
    (.cons .none (.ident (bytes "Dim")) .star (.cons .none (.ident (bytes "ArrayInitializer")) .none .nil))) (.one (.cons .none (.ident (bytes
    "Expression")) .none (.cons .none (.ident (bytes "RBRK")) .none (.cons .none (.ident (bytes "DimExpr")) .star (.cons .none (.ident (bytes "Dim"))
    .star .nil))))))) .none .nil))),
  (bytes "ClassCreatorRest", .one (.cons .none (.ident (bytes "Diamond")) .opt (.cons .none (.ident (bytes "Arguments")) .none (.cons .none (.ident
    (bytes "ClassBody")) .opt .nil)))),
  (bytes "Diamond", .one (.cons .none (.ident (bytes "LPOINT")) .none (.cons .none (.ident (bytes "RPOINT")) .none .nil))),
  (bytes "ArrayInitializer", .one (.cons .none (.ident (bytes "LWING")) .none (.cons .none (.paren (.one (.cons .none (.ident (bytes
    "VariableInitializer")) .none (.cons .none (.paren (.one (.cons .none (.ident (bytes "COMMA")) .none (.cons .none (.ident (bytes
    "VariableInitializer")) .none .nil)))) .star .nil)))) .opt (.cons .none (.ident (bytes "COMMA")) .opt (.cons .none (.ident (bytes "RWING")) .none
    .nil))))),
  (bytes "VariableInitializer", .alt (.cons .none (.ident (bytes "ArrayInitializer")) .none .nil) (.one (.cons .none (.ident (bytes "Expression"))
    .none .nil))),
  (bytes "ParExpression", .one (.cons .none (.ident (bytes "LPAR")) .none (.cons .none (.ident (bytes "Expression")) .none (.cons .none (.ident (bytes
    "RPAR")) .none .nil)))),
  (bytes "QualifiedIdentifier", .one (.cons .none (.ident (bytes "Identifier")) .none (.cons .none (.paren (.one (.cons .none (.ident (bytes "DOT"))
    .none (.cons .none (.ident (bytes "Identifier")) .none .nil)))) .star .nil))),
  (bytes "Dim", .one (.cons .none (.ident (bytes "LBRK")) .none (.cons .none (.ident (bytes "RBRK")) .none .nil))),
  (bytes "DimExpr", .one (.cons .none (.ident (bytes "LBRK")) .none (.cons .none (.ident (bytes "Expression")) .none (.cons .none (.ident (bytes
    "RBRK")) .none .nil)))),
  (bytes "Type", .one (.cons .none (.paren (.alt (.cons .none (.ident (bytes "BasicType")) .none .nil) (.one (.cons .none (.ident (bytes "ClassType"))
    .none .nil)))) .none (.cons .none (.ident (bytes "Dim")) .star .nil))),
  (bytes "ReferenceType", .alt (.cons .none (.ident (bytes "BasicType")) .none (.cons .none (.ident (bytes "Dim")) .plus .nil)) (.one (.cons .none
    (.ident (bytes "ClassType")) .none (.cons .none (.ident (bytes "Dim")) .star .nil)))),
  (bytes "ClassType", .one (.cons .none (.ident (bytes "Identifier")) .none (.cons .none (.ident (bytes "TypeArguments")) .opt (.cons .none (.paren
    (.one (.cons .none (.ident (bytes "DOT")) .none (.cons .none (.ident (bytes "Identifier")) .none (.cons .none (.ident (bytes "TypeArguments"))
    .opt .nil))))) .star .nil)))),
  (bytes "ClassTypeList", .one (.cons .none (.ident (bytes "ClassType")) .none (.cons .none (.paren (.one (.cons .none (.ident (bytes "COMMA")) .none
    (.cons .none (.ident (bytes "ClassType")) .none .nil)))) .star .nil))),
  (bytes "TypeArguments", .one (.cons .none (.ident (bytes "LPOINT")) .none (.cons .none (.ident (bytes "TypeArgument")) .none (.cons .none (.paren
    (.one (.cons .none (.ident (bytes "COMMA")) .none (.cons .none (.ident (bytes "TypeArgument")) .none .nil)))) .star (.cons .none (.ident (bytes
    "RPOINT")) .none .nil))))),
  (bytes "TypeArgument", .alt (.cons .none (.ident (bytes "ReferenceType")) .none .nil) (.one (.cons .none (.ident (bytes "QUERY")) .none (.cons .none
    (.paren (.one (.cons .none (.paren (.alt (.cons .none (.ident (bytes "EXTENDS")) .none .nil) (.one (.cons .none (.ident (bytes "SUPER")) .none
    .nil)))) .none (.cons .none (.ident (bytes "ReferenceType")) .none .nil)))) .opt .nil)))),
  (bytes "TypeParameters", .one (.cons .none (.ident (bytes "LPOINT")) .none (.cons .none (.ident (bytes "TypeParameter")) .none (.cons .none (.paren
    (.one (.cons .none (.ident (bytes "COMMA")) .none (.cons .none (.ident (bytes "TypeParameter")) .none .nil)))) .star (.cons .none (.ident (bytes
    "RPOINT")) .none .nil))))),
  (bytes "TypeParameter", .one (.cons .none (.ident (bytes "Identifier")) .none (.cons .none (.paren (.one (.cons .none (.ident (bytes "EXTENDS"))
    .none (.cons .none (.ident (bytes "Bound")) .none .nil)))) .opt .nil))),
  (bytes "Bound", .one (.cons .none (.ident (bytes "ClassType")) .none (.cons .none (.paren (.one (.cons .none (.ident (bytes "AND")) .none (.cons
    .none (.ident (bytes "ClassType")) .none .nil)))) .star .nil))),
  (bytes "Modifier", .alt (.cons .none (.ident (bytes "Annotation")) .none .nil) (.one (.cons .none (.paren (.alt (.cons .none (.lit [112, 117, 98,
    108, 105, 99]) .none .nil) (.alt (.cons .none (.lit [112, 114, 111, 116, 101, 99, 116, 101, 100]) .none .nil) (.alt (.cons .none (.lit [112, 114,
    105, 118, 97, 116, 101]) .none .nil) (.alt (.cons .none (.lit [115, 116, 97, 116, 105, 99]) .none .nil) (.alt (.cons .none (.lit [97, 98, 115,
    116, 114, 97, 99, 116]) .none .nil) (.alt (.cons .none (.lit [102, 105, 110, 97, 108]) .none .nil) (.alt (.cons .none (.lit [110, 97, 116, 105,
    118, 101]) .none .nil) (.alt (.cons .none (.lit [115, 121, 110, 99, 104, 114, 111, 110, 105, 122, 101, 100]) .none .nil) (.alt (.cons .none (.lit
    [116, 114, 97, 110, 115, 105, 101, 110, 116]) .none .nil) (.alt (.cons .none (.lit [118, 111, 108, 97, 116, 105, 108, 101]) .none .nil) (.one
    (.cons .none (.lit [115, 116, 114, 105, 99, 116, 102, 112]) .none .nil))))))))))))) .none (.cons .not (.ident (bytes "LetterOrDigit")) .none
    (.cons .none (.ident (bytes "Spacing")) .none .nil))))),
  (bytes "AnnotationTypeDeclaration", .one (.cons .none (.ident (bytes "AT")) .none (.cons .none (.ident (bytes "INTERFACE")) .none (.cons .none
    (.ident (bytes "Identifier")) .none (.cons .none (.ident (bytes "AnnotationTypeBody")) .none .nil))))),
  (bytes "AnnotationTypeBody", .one (.cons .none (.ident (bytes "LWING")) .none (.cons .none (.ident (bytes "AnnotationTypeElementDeclaration")) .star
    (.cons .none (.ident (bytes "RWING")) .none .nil)))),
  (bytes "AnnotationTypeElementDeclaration", .alt (.cons .none (.ident (bytes "Modifier")) .star (.cons .none (.ident (bytes
    "AnnotationTypeElementRest")) .none .nil)) (.one (.cons .none (.ident (bytes "SEMI")) .none .nil))),
  (bytes "AnnotationTypeElementRest", .alt (.cons .none (.ident (bytes "Type")) .none (.cons .none (.ident (bytes "AnnotationMethodOrConstantRest"))
    .none (.cons .none (.ident (bytes "SEMI")) .none .nil))) (.alt (.cons .none (.ident (bytes "ClassDeclaration")) .none .nil) (.alt (.cons .none
    (.ident (bytes "EnumDeclaration")) .none .nil) (.alt (.cons .none (.ident (bytes "InterfaceDeclaration")) .none .nil) (.one (.cons .none (.ident
    (bytes "AnnotationTypeDeclaration")) .none .nil)))))),
  (bytes "AnnotationMethodOrConstantRest", .alt (.cons .none (.ident (bytes "AnnotationMethodRest")) .none .nil) (.one (.cons .none (.ident (bytes
    "AnnotationConstantRest")) .none .nil))),
  (bytes "AnnotationMethodRest", .one (.cons .none (.ident (bytes "Identifier")) .none (.cons .none (.ident (bytes "LPAR")) .none (.cons .none (.ident
    (bytes "RPAR")) .none (.cons .none (.ident (bytes "DefaultValue")) .opt .nil))))),
  (bytes "AnnotationConstantRest", .one (.cons .none (.ident (bytes "VariableDeclarators")) .none .nil)),
  (bytes "DefaultValue", .one (.cons .none (.ident (bytes "DEFAULT")) .none (.cons .none (.ident (bytes "ElementValue")) .none .nil))),
  (bytes "Annotation", .alt (.cons .none (.ident (bytes "NormalAnnotation")) .none .nil) (.alt (.cons .none (.ident (bytes "SingleElementAnnotation"))
    .none .nil) (.one (.cons .none (.ident (bytes "MarkerAnnotation")) .none .nil)))),
  (bytes "NormalAnnotation", .one (.cons .none (.ident (bytes "AT")) .none (.cons .none (.ident (bytes "QualifiedIdentifier")) .none (.cons .none
    (.ident (bytes "LPAR")) .none (.cons .none (.ident (bytes "ElementValuePairs")) .opt (.cons .none (.ident (bytes "RPAR")) .none .nil)))))),
  (bytes "SingleElementAnnotation", .one (.cons .none (.ident (bytes "AT")) .none (.cons .none (.ident (bytes "QualifiedIdentifier")) .none (.cons
    .none (.ident (bytes "LPAR")) .none (.cons .none (.ident (bytes "ElementValue")) .none (.cons .none (.ident (bytes "RPAR")) .none .nil)))))),
  (bytes "MarkerAnnotation", .one (.cons .none (.ident (bytes "AT")) .none (.cons .none (.ident (bytes "QualifiedIdentifier")) .none .nil))),
  (bytes "ElementValuePairs", .one (.cons .none (.ident (bytes "ElementValuePair")) .none (.cons .none (.paren (.one (.cons .none (.ident (bytes
    "COMMA")) .none (.cons .none (.ident (bytes "ElementValuePair")) .none .nil)))) .star .nil))),
  (bytes "ElementValuePair", .one (.cons .none (.ident (bytes "Identifier")) .none (.cons .none (.ident (bytes "EQU")) .none (.cons .none (.ident
    (bytes "ElementValue")) .none .nil)))),
  (bytes "ElementValue", .alt (.cons .none (.ident (bytes "ConditionalExpression")) .none .nil) (.alt (.cons .none (.ident (bytes "Annotation")) .none
    .nil) (.one (.cons .none (.ident (bytes "ElementValueArrayInitializer")) .none .nil)))),
  (bytes "ElementValueArrayInitializer", .one (.cons .none (.ident (bytes "LWING")) .none (.cons .none (.ident (bytes "ElementValues")) .opt (.cons
    .none (.ident (bytes "COMMA")) .opt (.cons .none (.ident (bytes "RWING")) .none .nil))))),
  (bytes "ElementValues", .one (.cons .none (.ident (bytes "ElementValue")) .none (.cons .none (.paren (.one (.cons .none (.ident (bytes "COMMA"))
    .none (.cons .none (.ident (bytes "ElementValue")) .none .nil)))) .star .nil))),
  (bytes "Spacing", .one (.cons .none (.paren (.alt (.cons .none (.cls false [.one 32, .one 9, .one 13, .one 10]) .plus .nil) (.alt (.cons .none (.lit
    [47, 42]) .none (.cons .none (.paren (.one (.cons .not (.lit [42, 47]) .none (.cons .none .dot .none .nil)))) .star (.cons .none (.lit [42, 47])
    .none .nil))) (.one (.cons .none (.lit [47, 47]) .none (.cons .none (.paren (.one (.cons .not (.cls false [.one 13, .one 10]) .none (.cons .none
    .dot .none .nil)))) .star (.cons .none (.cls false [.one 13, .one 10]) .none .nil))))))) .star .nil)),
  (bytes "Identifier", .one (.cons .not (.ident (bytes "Keyword")) .none (.cons .none (.ident (bytes "Letter")) .none (.cons .none (.ident (bytes
    "LetterOrDigit")) .star (.cons .none (.ident (bytes "Spacing")) .none .nil))))),
  (bytes "Letter", .alt (.cons .none (.cls false [.range 97 122]) .none .nil) (.alt (.cons .none (.cls false [.range 65 90]) .none .nil) (.one (.cons
    .none (.cls false [.one 95, .one 36]) .none .nil)))),
  (bytes "LetterOrDigit", .alt (.cons .none (.cls false [.range 97 122]) .none .nil) (.alt (.cons .none (.cls false [.range 65 90]) .none .nil) (.alt
    (.cons .none (.cls false [.range 48 57]) .none .nil) (.one (.cons .none (.cls false [.one 95, .one 36]) .none .nil))))),
  (bytes "Keyword", .one (.cons .none (.paren (.alt (.cons .none (.lit [97, 98, 115, 116, 114, 97, 99, 116]) .none .nil) (.alt (.cons .none (.lit [97,
    115, 115, 101, 114, 116]) .none .nil) (.alt (.cons .none (.lit [98, 111, 111, 108, 101, 97, 110]) .none .nil) (.alt (.cons .none (.lit [98, 114,
    101, 97, 107]) .none .nil) (.alt (.cons .none (.lit [98, 121, 116, 101]) .none .nil) (.alt (.cons .none (.lit [99, 97, 115, 101]) .none .nil)
    (.alt (.cons .none (.lit [99, 97, 116, 99, 104]) .none .nil) (.alt (.cons .none (.lit [99, 104, 97, 114]) .none .nil) (.alt (.cons .none (.lit
    [99, 108, 97, 115, 115]) .none .nil) (.alt (.cons .none (.lit [99, 111, 110, 115, 116]) .none .nil) (.alt (.cons .none (.lit [99, 111, 110, 116,
    105, 110, 117, 101]) .none .nil) (.alt (.cons .none (.lit [100, 101, 102, 97, 117, 108, 116]) .none .nil) (.alt (.cons .none (.lit [100, 111, 117,
    98, 108, 101]) .none .nil) (.alt (.cons .none (.lit [100, 111]) .none .nil) (.alt (.cons .none (.lit [101, 108, 115, 101]) .none .nil) (.alt
    (.cons .none (.lit [101, 110, 117, 109]) .none .nil) (.alt (.cons .none (.lit [101, 120, 116, 101, 110, 100, 115]) .none .nil) (.alt (.cons .none
    (.lit [102, 97, 108, 115, 101]) .none .nil) (.alt (.cons .none (.lit [102, 105, 110, 97, 108, 108, 121]) .none .nil) (.alt (.cons .none (.lit
    [102, 105, 110, 97, 108]) .none .nil) (.alt (.cons .none (.lit [102, 108, 111, 97, 116]) .none .nil) (.alt (.cons .none (.lit [102, 111, 114])
    .none .nil) (.alt (.cons .none (.lit [103, 111, 116, 111]) .none .nil) (.alt (.cons .none (.lit [105, 102]) .none .nil) (.alt (.cons .none (.lit
    [105, 109, 112, 108, 101, 109, 101, 110, 116, 115]) .none .nil) (.alt (.cons .none (.lit [105, 109, 112, 111, 114, 116]) .none .nil) (.alt (.cons
    .none (.lit [105, 110, 116, 101, 114, 102, 97, 99, 101]) .none .nil) (.alt (.cons .none (.lit [105, 110, 116]) .none .nil) (.alt (.cons .none
    (.lit [105, 110, 115, 116, 97, 110, 99, 101, 111, 102]) .none .nil) (.alt (.cons .none (.lit [108, 111, 110, 103]) .none .nil) (.alt (.cons .none
    (.lit [110, 97, 116, 105, 118, 101]) .none .nil) (.alt (.cons .none (.lit [110, 101, 119]) .none .nil) (.alt (.cons .none (.lit [110, 117, 108,
    108]) .none .nil) (.alt (.cons .none (.lit [112, 97, 99, 107, 97, 103, 101]) .none .nil) (.alt (.cons .none (.lit [112, 114, 105, 118, 97, 116,
    101]) .none .nil) (.alt (.cons .none (.lit [112, 114, 111, 116, 101, 99, 116, 101, 100]) .none .nil) (.alt (.cons .none (.lit [112, 117, 98, 108,
    105, 99]) .none .nil) (.alt (.cons .none (.lit [114, 101, 116, 117, 114, 110]) .none .nil) (.alt (.cons .none (.lit [115, 104, 111, 114, 116])
    .none .nil) (.alt (.cons .none (.lit [115, 116, 97, 116, 105, 99]) .none .nil) (.alt (.cons .none (.lit [115, 116, 114, 105, 99, 116, 102, 112])
    .none .nil) (.alt (.cons .none (.lit [115, 117, 112, 101, 114]) .none .nil) (.alt (.cons .none (.lit [115, 119, 105, 116, 99, 104]) .none .nil)
    (.alt (.cons .none (.lit [115, 121, 110, 99, 104, 114, 111, 110, 105, 122, 101, 100]) .none .nil) (.alt (.cons .none (.lit [116, 104, 105, 115])
    .none .nil) (.alt (.cons .none (.lit [116, 104, 114, 111, 119, 115]) .none .nil) (.alt (.cons .none (.lit [116, 104, 114, 111, 119]) .none .nil)
    (.alt (.cons .none (.lit [116, 114, 97, 110, 115, 105, 101, 110, 116]) .none .nil) (.alt (.cons .none (.lit [116, 114, 117, 101]) .none .nil)
    (.alt (.cons .none (.lit [116, 114, 121]) .none .nil) (.alt (.cons .none (.lit [118, 111, 105, 100]) .none .nil) (.alt (.cons .none (.lit [118,
    111, 108, 97, 116, 105, 108, 101]) .none .nil) (.one (.cons .none (.lit [119, 104, 105, 108, 101]) .none
    .nil))))))))))))))))))))))))))))))))))))))))))))))))))))))) .none (.cons .not (.ident (bytes "LetterOrDigit")) .none .nil))),
  (bytes "ASSERT", .one (.cons .none (.lit [97, 115, 115, 101, 114, 116]) .none (.cons .not (.ident (bytes "LetterOrDigit")) .none (.cons .none
    (.ident (bytes "Spacing")) .none .nil)))),
  (bytes "BREAK", .one (.cons .none (.lit [98, 114, 101, 97, 107]) .none (.cons .not (.ident (bytes "LetterOrDigit")) .none (.cons .none (.ident
    (bytes "Spacing")) .none .nil)))),
  (bytes "CASE", .one (.cons .none (.lit [99, 97, 115, 101]) .none (.cons .not (.ident (bytes "LetterOrDigit")) .none (.cons .none (.ident (bytes
    "Spacing")) .none .nil)))),
  (bytes "CATCH", .one (.cons .none (.lit [99, 97, 116, 99, 104]) .none (.cons .not (.ident (bytes "LetterOrDigit")) .none (.cons .none (.ident (bytes
    "Spacing")) .none .nil)))),
  (bytes "CLASS", .one (.cons .none (.lit [99, 108, 97, 115, 115]) .none (.cons .not (.ident (bytes "LetterOrDigit")) .none (.cons .none (.ident
    (bytes "Spacing")) .none .nil)))),
  (bytes "CONTINUE", .one (.cons .none (.lit [99, 111, 110, 116, 105, 110, 117, 101]) .none (.cons .not (.ident (bytes "LetterOrDigit")) .none (.cons
    .none (.ident (bytes "Spacing")) .none .nil)))),
  (bytes "DEFAULT", .one (.cons .none (.lit [100, 101, 102, 97, 117, 108, 116]) .none (.cons .not (.ident (bytes "LetterOrDigit")) .none (.cons .none
    (.ident (bytes "Spacing")) .none .nil)))),
  (bytes "DO", .one (.cons .none (.lit [100, 111]) .none (.cons .not (.ident (bytes "LetterOrDigit")) .none (.cons .none (.ident (bytes "Spacing"))
    .none .nil)))),
  (bytes "ELSE", .one (.cons .none (.lit [101, 108, 115, 101]) .none (.cons .not (.ident (bytes "LetterOrDigit")) .none (.cons .none (.ident (bytes
    "Spacing")) .none .nil)))),
  (bytes "ENUM", .one (.cons .none (.lit [101, 110, 117, 109]) .none (.cons .not (.ident (bytes "LetterOrDigit")) .none (.cons .none (.ident (bytes
    "Spacing")) .none .nil)))),
  (bytes "EXTENDS", .one (.cons .none (.lit [101, 120, 116, 101, 110, 100, 115]) .none (.cons .not (.ident (bytes "LetterOrDigit")) .none (.cons .none
    (.ident (bytes "Spacing")) .none .nil)))),
  (bytes "FINALLY", .one (.cons .none (.lit [102, 105, 110, 97, 108, 108, 121]) .none (.cons .not (.ident (bytes "LetterOrDigit")) .none (.cons .none
    (.ident (bytes "Spacing")) .none .nil)))),
  (bytes "FINAL", .one (.cons .none (.lit [102, 105, 110, 97, 108]) .none (.cons .not (.ident (bytes "LetterOrDigit")) .none (.cons .none (.ident
    (bytes "Spacing")) .none .nil)))),
  (bytes "FOR", .one (.cons .none (.lit [102, 111, 114]) .none (.cons .not (.ident (bytes "LetterOrDigit")) .none (.cons .none (.ident (bytes
    "Spacing")) .none .nil)))),
  (bytes "IF", .one (.cons .none (.lit [105, 102]) .none (.cons .not (.ident (bytes "LetterOrDigit")) .none (.cons .none (.ident (bytes "Spacing"))
    .none .nil)))),
  (bytes "IMPLEMENTS", .one (.cons .none (.lit [105, 109, 112, 108, 101, 109, 101, 110, 116, 115]) .none (.cons .not (.ident (bytes "LetterOrDigit"))
    .none (.cons .none (.ident (bytes "Spacing")) .none .nil)))),
  (bytes "IMPORT", .one (.cons .none (.lit [105, 109, 112, 111, 114, 116]) .none (.cons .not (.ident (bytes "LetterOrDigit")) .none (.cons .none
    (.ident (bytes "Spacing")) .none .nil)))),
  (bytes "INTERFACE", .one (.cons .none (.lit [105, 110, 116, 101, 114, 102, 97, 99, 101]) .none (.cons .not (.ident (bytes "LetterOrDigit")) .none
    (.cons .none (.ident (bytes "Spacing")) .none .nil)))),
  (bytes "INSTANCEOF", .one (.cons .none (.lit [105, 110, 115, 116, 97, 110, 99, 101, 111, 102]) .none (.cons .not (.ident (bytes "LetterOrDigit"))
    .none (.cons .none (.ident (bytes "Spacing")) .none .nil)))),
  (bytes "NEW", .one (.cons .none (.lit [110, 101, 119]) .none (.cons .not (.ident (bytes "LetterOrDigit")) .none (.cons .none (.ident (bytes
    "Spacing")) .none .nil)))),
  (bytes "PACKAGE", .one (.cons .none (.lit [112, 97, 99, 107, 97, 103, 101]) .none (.cons .not (.ident (bytes "LetterOrDigit")) .none (.cons .none
    (.ident (bytes "Spacing")) .none .nil)))),
  (bytes "RETURN", .one (.cons .none (.lit [114, 101, 116, 117, 114, 110]) .none (.cons .not (.ident (bytes "LetterOrDigit")) .none (.cons .none
    (.ident (bytes "Spacing")) .none .nil)))),
  (bytes "STATIC", .one (.cons .none (.lit [115, 116, 97, 116, 105, 99]) .none (.cons .not (.ident (bytes "LetterOrDigit")) .none (.cons .none (.ident
    (bytes "Spacing")) .none .nil)))),
  (bytes "SUPER", .one (.cons .none (.lit [115, 117, 112, 101, 114]) .none (.cons .not (.ident (bytes "LetterOrDigit")) .none (.cons .none (.ident
    (bytes "Spacing")) .none .nil)))),
  (bytes "SWITCH", .one (.cons .none (.lit [115, 119, 105, 116, 99, 104]) .none (.cons .not (.ident (bytes "LetterOrDigit")) .none (.cons .none
    (.ident (bytes "Spacing")) .none .nil)))),
  (bytes "SYNCHRONIZED", .one (.cons .none (.lit [115, 121, 110, 99, 104, 114, 111, 110, 105, 122, 101, 100]) .none (.cons .not (.ident (bytes
    "LetterOrDigit")) .none (.cons .none (.ident (bytes "Spacing")) .none .nil)))),
  (bytes "THIS", .one (.cons .none (.lit [116, 104, 105, 115]) .none (.cons .not (.ident (bytes "LetterOrDigit")) .none (.cons .none (.ident (bytes
    "Spacing")) .none .nil)))),
  (bytes "THROWS", .one (.cons .none (.lit [116, 104, 114, 111, 119, 115]) .none (.cons .not (.ident (bytes "LetterOrDigit")) .none (.cons .none
    (.ident (bytes "Spacing")) .none .nil)))),
  (bytes "THROW", .one (.cons .none (.lit [116, 104, 114, 111, 119]) .none (.cons .not (.ident (bytes "LetterOrDigit")) .none (.cons .none (.ident
    (bytes "Spacing")) .none .nil)))),
  (bytes "TRY", .one (.cons .none (.lit [116, 114, 121]) .none (.cons .not (.ident (bytes "LetterOrDigit")) .none (.cons .none (.ident (bytes
    "Spacing")) .none .nil)))),
  (bytes "VOID", .one (.cons .none (.lit [118, 111, 105, 100]) .none (.cons .not (.ident (bytes "LetterOrDigit")) .none (.cons .none (.ident (bytes
    "Spacing")) .none .nil)))),
  (bytes "WHILE", .one (.cons .none (.lit [119, 104, 105, 108, 101]) .none (.cons .not (.ident (bytes "LetterOrDigit")) .none (.cons .none (.ident
    (bytes "Spacing")) .none .nil)))),
  (bytes "Literal", .one (.cons .none (.paren (.alt (.cons .none (.ident (bytes "FloatLiteral")) .none .nil) (.alt (.cons .none (.ident (bytes
    "IntegerLiteral")) .none .nil) (.alt (.cons .none (.ident (bytes "CharLiteral")) .none .nil) (.alt (.cons .none (.ident (bytes "StringLiteral"))
    .none .nil) (.alt (.cons .none (.lit [116, 114, 117, 101]) .none (.cons .not (.ident (bytes "LetterOrDigit")) .none .nil)) (.alt (.cons .none
    (.lit [102, 97, 108, 115, 101]) .none (.cons .not (.ident (bytes "LetterOrDigit")) .none .nil)) (.one (.cons .none (.lit [110, 117, 108, 108])
    .none (.cons .not (.ident (bytes "LetterOrDigit")) .none .nil)))))))))) .none (.cons .none (.ident (bytes "Spacing")) .none .nil))),
  (bytes "IntegerLiteral", .one (.cons .none (.paren (.alt (.cons .none (.ident (bytes "HexNumeral")) .none .nil) (.alt (.cons .none (.ident (bytes
    "BinaryNumeral")) .none .nil) (.alt (.cons .none (.ident (bytes "OctalNumeral")) .none .nil) (.one (.cons .none (.ident (bytes "DecimalNumeral"))
    .none .nil)))))) .none (.cons .none (.cls false [.one 108, .one 76]) .opt .nil))),
  (bytes "DecimalNumeral", .alt (.cons .none (.lit [48]) .none .nil) (.one (.cons .none (.cls false [.range 49 57]) .none (.cons .none (.paren (.one
    (.cons .none (.cls false [.one 95]) .star (.cons .none (.cls false [.range 48 57]) .none .nil)))) .star .nil)))),
  (bytes "HexNumeral", .one (.cons .none (.paren (.alt (.cons .none (.lit [48, 120]) .none .nil) (.one (.cons .none (.lit [48, 88]) .none .nil))))
    .none (.cons .none (.ident (bytes "HexDigits")) .none .nil))),
  (bytes "BinaryNumeral", .one (.cons .none (.paren (.alt (.cons .none (.lit [48, 98]) .none .nil) (.one (.cons .none (.lit [48, 66]) .none .nil))))
    .none (.cons .none (.cls false [.one 48, .one 49]) .none (.cons .none (.paren (.one (.cons .none (.cls false [.one 95]) .star (.cons .none (.cls
    false [.one 48, .one 49]) .none .nil)))) .star .nil)))),
  (bytes "OctalNumeral", .one (.cons .none (.lit [48]) .none (.cons .none (.paren (.one (.cons .none (.cls false [.one 95]) .star (.cons .none (.cls
    false [.range 48 55]) .none .nil)))) .plus .nil))),
  (bytes "FloatLiteral", .alt (.cons .none (.ident (bytes "HexFloat")) .none .nil) (.one (.cons .none (.ident (bytes "DecimalFloat")) .none .nil))),
  (bytes "DecimalFloat", .alt (.cons .none (.ident (bytes "Digits")) .none (.cons .none (.lit [46]) .none (.cons .none (.ident (bytes "Digits")) .opt
    (.cons .none (.ident (bytes "Exponent")) .opt (.cons .none (.cls false [.one 102, .one 70, .one 100, .one 68]) .opt .nil))))) (.alt (.cons .none
    (.lit [46]) .none (.cons .none (.ident (bytes "Digits")) .none (.cons .none (.ident (bytes "Exponent")) .opt (.cons .none (.cls false [.one 102,
    .one 70, .one 100, .one 68]) .opt .nil)))) (.alt (.cons .none (.ident (bytes "Digits")) .none (.cons .none (.ident (bytes "Exponent")) .none
    (.cons .none (.cls false [.one 102, .one 70, .one 100, .one 68]) .opt .nil))) (.one (.cons .none (.ident (bytes "Digits")) .none (.cons .none
    (.ident (bytes "Exponent")) .opt (.cons .none (.cls false [.one 102, .one 70, .one 100, .one 68]) .none .nil))))))),
  (bytes "Exponent", .one (.cons .none (.cls false [.one 101, .one 69]) .none (.cons .none (.cls false [.one 43, .one 45]) .opt (.cons .none (.ident
    (bytes "Digits")) .none .nil)))),
  (bytes "HexFloat", .one (.cons .none (.ident (bytes "HexSignificand")) .none (.cons .none (.ident (bytes "BinaryExponent")) .none (.cons .none (.cls
    false [.one 102, .one 70, .one 100, .one 68]) .opt .nil)))),
  (bytes "HexSignificand", .alt (.cons .none (.paren (.alt (.cons .none (.lit [48, 120]) .none .nil) (.one (.cons .none (.lit [48, 88]) .none .nil))))
    .none (.cons .none (.ident (bytes "HexDigits")) .opt (.cons .none (.lit [46]) .none (.cons .none (.ident (bytes "HexDigits")) .none .nil)))) (.one
    (.cons .none (.ident (bytes "HexNumeral")) .none (.cons .none (.lit [46]) .opt .nil)))),
  (bytes "BinaryExponent", .one (.cons .none (.cls false [.one 112, .one 80]) .none (.cons .none (.cls false [.one 43, .one 45]) .opt (.cons .none
    (.ident (bytes "Digits")) .none .nil)))),
  (bytes "Digits", .one (.cons .none (.cls false [.range 48 57]) .none (.cons .none (.paren (.one (.cons .none (.cls false [.one 95]) .star (.cons
    .none (.cls false [.range 48 57]) .none .nil)))) .star .nil))),
  (bytes "HexDigits", .one (.cons .none (.ident (bytes "HexDigit")) .none (.cons .none (.paren (.one (.cons .none (.cls false [.one 95]) .star (.cons
    .none (.ident (bytes "HexDigit")) .none .nil)))) .star .nil))),
  (bytes "HexDigit", .alt (.cons .none (.cls false [.range 97 102]) .none .nil) (.alt (.cons .none (.cls false [.range 65 70]) .none .nil) (.one
    (.cons .none (.cls false [.range 48 57]) .none .nil)))),
  (bytes "CharLiteral", .one (.cons .none (.cls false [.one 39]) .none (.cons .none (.paren (.alt (.cons .none (.ident (bytes "Escape")) .none .nil)
    (.one (.cons .not (.cls false [.one 39, .one 92]) .none (.cons .none .dot .none .nil))))) .none (.cons .none (.cls false [.one 39]) .none .nil)))),
  (bytes "StringLiteral", .one (.cons .none (.lit [34]) .none (.cons .none (.paren (.alt (.cons .none (.ident (bytes "Escape")) .none .nil) (.one
    (.cons .not (.cls false [.one 34, .one 92, .one 10, .one 13]) .none (.cons .none .dot .none .nil))))) .star (.cons .none (.lit [34]) .none
    .nil)))),
  (bytes "Escape", .one (.cons .none (.lit [92]) .none (.cons .none (.paren (.alt (.cons .none (.cls false [.one 98, .one 116, .one 110, .one 102,
    .one 114, .one 34, .one 39, .one 92]) .none .nil) (.alt (.cons .none (.ident (bytes "OctalEscape")) .none .nil) (.one (.cons .none (.ident (bytes
    "UnicodeEscape")) .none .nil))))) .none .nil))),
  (bytes "OctalEscape", .alt (.cons .none (.cls false [.range 48 51]) .none (.cons .none (.cls false [.range 48 55]) .none (.cons .none (.cls false
    [.range 48 55]) .none .nil))) (.alt (.cons .none (.cls false [.range 48 55]) .none (.cons .none (.cls false [.range 48 55]) .none .nil)) (.one
    (.cons .none (.cls false [.range 48 55]) .none .nil)))),
  (bytes "UnicodeEscape", .one (.cons .none (.lit [117]) .plus (.cons .none (.ident (bytes "HexDigit")) .none (.cons .none (.ident (bytes "HexDigit"))
    .none (.cons .none (.ident (bytes "HexDigit")) .none (.cons .none (.ident (bytes "HexDigit")) .none .nil)))))),
  (bytes "AT", .one (.cons .none (.lit [64]) .none (.cons .none (.ident (bytes "Spacing")) .none .nil))),
  (bytes "AND", .one (.cons .none (.lit [38]) .none (.cons .not (.cls false [.one 61, .one 38]) .none (.cons .none (.ident (bytes "Spacing")) .none
    .nil)))),
  (bytes "ANDAND", .one (.cons .none (.lit [38, 38]) .none (.cons .none (.ident (bytes "Spacing")) .none .nil))),
  (bytes "ANDEQU", .one (.cons .none (.lit [38, 61]) .none (.cons .none (.ident (bytes "Spacing")) .none .nil))),
  (bytes "BANG", .one (.cons .none (.lit [33]) .none (.cons .not (.lit [61]) .none (.cons .none (.ident (bytes "Spacing")) .none .nil)))),
  (bytes "BSR", .one (.cons .none (.lit [62, 62, 62]) .none (.cons .not (.lit [61]) .none (.cons .none (.ident (bytes "Spacing")) .none .nil)))),
  (bytes "BSREQU", .one (.cons .none (.lit [62, 62, 62, 61]) .none (.cons .none (.ident (bytes "Spacing")) .none .nil))),
  (bytes "COLON", .one (.cons .none (.lit [58]) .none (.cons .none (.ident (bytes "Spacing")) .none .nil))),
  (bytes "COMMA", .one (.cons .none (.lit [44]) .none (.cons .none (.ident (bytes "Spacing")) .none .nil))),
  (bytes "DEC", .one (.cons .none (.lit [45, 45]) .none (.cons .none (.ident (bytes "Spacing")) .none .nil))),
  (bytes "DIV", .one (.cons .none (.lit [47]) .none (.cons .not (.lit [61]) .none (.cons .none (.ident (bytes "Spacing")) .none .nil)))),
  (bytes "DIVEQU", .one (.cons .none (.lit [47, 61]) .none (.cons .none (.ident (bytes "Spacing")) .none .nil))),
  (bytes "DOT", .one (.cons .none (.lit [46]) .none (.cons .none (.ident (bytes "Spacing")) .none .nil))),
  (bytes "ELLIPSIS", .one (.cons .none (.lit [46, 46, 46]) .none (.cons .none (.ident (bytes "Spacing")) .none .nil))),
  (bytes "EQU", .one (.cons .none (.lit [61]) .none (.cons .not (.lit [61]) .none (.cons .none (.ident (bytes "Spacing")) .none .nil)))),
  (bytes "EQUAL", .one (.cons .none (.lit [61, 61]) .none (.cons .none (.ident (bytes "Spacing")) .none .nil))),
  (bytes "GE", .one (.cons .none (.lit [62, 61]) .none (.cons .none (.ident (bytes "Spacing")) .none .nil))),
  (bytes "GT", .one (.cons .none (.lit [62]) .none (.cons .not (.cls false [.one 61, .one 62]) .none (.cons .none (.ident (bytes "Spacing")) .none
    .nil)))),
  (bytes "HAT", .one (.cons .none (.lit [94]) .none (.cons .not (.lit [61]) .none (.cons .none (.ident (bytes "Spacing")) .none .nil)))),
  (bytes "HATEQU", .one (.cons .none (.lit [94, 61]) .none (.cons .none (.ident (bytes "Spacing")) .none .nil))),
  (bytes "INC", .one (.cons .none (.lit [43, 43]) .none (.cons .none (.ident (bytes "Spacing")) .none .nil))),
  (bytes "LBRK", .one (.cons .none (.lit [91]) .none (.cons .none (.ident (bytes "Spacing")) .none .nil))),
  (bytes "LE", .one (.cons .none (.lit [60, 61]) .none (.cons .none (.ident (bytes "Spacing")) .none .nil))),
  (bytes "LPAR", .one (.cons .none (.lit [40]) .none (.cons .none (.ident (bytes "Spacing")) .none .nil))),
  (bytes "LPOINT", .one (.cons .none (.lit [60]) .none (.cons .none (.ident (bytes "Spacing")) .none .nil))),
  (bytes "LT", .one (.cons .none (.lit [60]) .none (.cons .not (.cls false [.one 61, .one 60]) .none (.cons .none (.ident (bytes "Spacing")) .none
    .nil)))),
  (bytes "LWING", .one (.cons .none (.lit [123]) .none (.cons .none (.ident (bytes "Spacing")) .none .nil))),
  (bytes "MINUS", .one (.cons .none (.lit [45]) .none (.cons .not (.cls false [.one 61, .one 45]) .none (.cons .none (.ident (bytes "Spacing")) .none
    .nil)))),
  (bytes "MINUSEQU", .one (.cons .none (.lit [45, 61]) .none (.cons .none (.ident (bytes "Spacing")) .none .nil))),
  (bytes "MOD", .one (.cons .none (.lit [37]) .none (.cons .not (.lit [61]) .none (.cons .none (.ident (bytes "Spacing")) .none .nil)))),
  (bytes "MODEQU", .one (.cons .none (.lit [37, 61]) .none (.cons .none (.ident (bytes "Spacing")) .none .nil))),
  (bytes "NOTEQUAL", .one (.cons .none (.lit [33, 61]) .none (.cons .none (.ident (bytes "Spacing")) .none .nil))),
  (bytes "OR", .one (.cons .none (.lit [124]) .none (.cons .not (.cls false [.one 61, .one 124]) .none (.cons .none (.ident (bytes "Spacing")) .none
    .nil)))),
  (bytes "OREQU", .one (.cons .none (.lit [124, 61]) .none (.cons .none (.ident (bytes "Spacing")) .none .nil))),
  (bytes "OROR", .one (.cons .none (.lit [124, 124]) .none (.cons .none (.ident (bytes "Spacing")) .none .nil))),
  (bytes "PLUS", .one (.cons .none (.lit [43]) .none (.cons .not (.cls false [.one 61, .one 43]) .none (.cons .none (.ident (bytes "Spacing")) .none
    .nil)))),
  (bytes "PLUSEQU", .one (.cons .none (.lit [43, 61]) .none (.cons .none (.ident (bytes "Spacing")) .none .nil))),
  (bytes "QUERY", .one (.cons .none (.lit [63]) .none (.cons .none (.ident (bytes "Spacing")) .none .nil))),
  (bytes "RBRK", .one (.cons .none (.lit [93]) .none (.cons .none (.ident (bytes "Spacing")) .none .nil))),
  (bytes "RPAR", .one (.cons .none (.lit [41]) .none (.cons .none (.ident (bytes "Spacing")) .none .nil))),
  (bytes "RPOINT", .one (.cons .none (.lit [62]) .none (.cons .none (.ident (bytes "Spacing")) .none .nil))),
  (bytes "RWING", .one (.cons .none (.lit [125]) .none (.cons .none (.ident (bytes "Spacing")) .none .nil))),
  (bytes "SEMI", .one (.cons .none (.lit [59]) .none (.cons .none (.ident (bytes "Spacing")) .none .nil))),
  (bytes "SL", .one (.cons .none (.lit [60, 60]) .none (.cons .not (.lit [61]) .none (.cons .none (.ident (bytes "Spacing")) .none .nil)))),
  (bytes "SLEQU", .one (.cons .none (.lit [60, 60, 61]) .none (.cons .none (.ident (bytes "Spacing")) .none .nil))),
  (bytes "SR", .one (.cons .none (.lit [62, 62]) .none (.cons .not (.cls false [.one 61, .one 62]) .none (.cons .none (.ident (bytes "Spacing")) .none
    .nil)))),
  (bytes "SREQU", .one (.cons .none (.lit [62, 62, 61]) .none (.cons .none (.ident (bytes "Spacing")) .none .nil))),
  (bytes "STAR", .one (.cons .none (.lit [42]) .none (.cons .not (.lit [61]) .none (.cons .none (.ident (bytes "Spacing")) .none .nil)))),
  (bytes "STAREQU", .one (.cons .none (.lit [42, 61]) .none (.cons .none (.ident (bytes "Spacing")) .none .nil))),
  (bytes "TILDA", .one (.cons .none (.lit [126]) .none (.cons .none (.ident (bytes "Spacing")) .none .nil))),
  (bytes "EOT", .one (.cons .not .dot .none .nil))]

/-- The file writes the definitions. -/
theorem java_text : TopS (.gram javaGram) javaFile := by
  rw [javaFile, java_eq1, java_eq2, java_eq3, java_eq4, java_eq5, java_eq6, java_eq7, java_eq8, java_eq9, java_eq10, java_eq11, java_eq12, java_eq13,
    java_eq14, java_eq15, java_eq16, java_eq17, java_eq18, java_eq19, java_eq20, java_eq21, java_eq22, java_eq23]
  exact topGramB_sound (by decide +kernel)

end Gpeg.Re
