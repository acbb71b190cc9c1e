import Verif.Model.Base

/-!
# The tables of the generated parser — `/repo/src/config_file_yacc.c:625-814`

Written by `tools/genbison.py`.
-/

set_option autoImplicit false

namespace Detox

/-- `yytranslate`, config_file_yacc.c:625-655. -/
def yyTranslate : List Int := [
  0, 2, 2, 2, 2, 2, 2, 2, 2, 2, 2, 2, 2, 2, 2, 2, 2, 2, 2, 2, 2, 2, 2, 2, 2, 2, 2, 2, 2, 2,
  2, 2, 2, 2, 2, 2, 2, 2, 2, 2, 2, 2, 2, 2, 2, 2, 2, 2, 2, 2, 2, 2, 2, 2, 2, 2, 2, 2, 2, 2,
  2, 2, 2, 2, 2, 2, 2, 2, 2, 2, 2, 2, 2, 2, 2, 2, 2, 2, 2, 2, 2, 2, 2, 2, 2, 2, 2, 2, 2, 2,
  2, 2, 2, 2, 2, 2, 2, 2, 2, 2, 2, 2, 2, 2, 2, 2, 2, 2, 2, 2, 2, 2, 2, 2, 2, 2, 2, 2, 2, 2,
  2, 2, 2, 2, 2, 2, 2, 2, 2, 2, 2, 2, 2, 2, 2, 2, 2, 2, 2, 2, 2, 2, 2, 2, 2, 2, 2, 2, 2, 2,
  2, 2, 2, 2, 2, 2, 2, 2, 2, 2, 2, 2, 2, 2, 2, 2, 2, 2, 2, 2, 2, 2, 2, 2, 2, 2, 2, 2, 2, 2,
  2, 2, 2, 2, 2, 2, 2, 2, 2, 2, 2, 2, 2, 2, 2, 2, 2, 2, 2, 2, 2, 2, 2, 2, 2, 2, 2, 2, 2, 2,
  2, 2, 2, 2, 2, 2, 2, 2, 2, 2, 2, 2, 2, 2, 2, 2, 2, 2, 2, 2, 2, 2, 2, 2, 2, 2, 2, 2, 2, 2,
  2, 2, 2, 2, 2, 2, 2, 2, 2, 2, 2, 2, 2, 2, 2, 2, 1, 2, 3, 4, 5, 6, 7, 8, 9, 10, 11, 12, 13, 14,
  15, 16, 17, 18, 19, 20, 21]

/-- `yypact`, config_file_yacc.c:710-721. -/
def yyPact : List Int := [
  -29, 1, -29, -10, -15, -29, -29, 24, -29, 4, -29, -29, -29, 6, 35, 10, 36, 37, 45, 39, 41, 3, -29, 47, 49, 50, 51, 52, -15, 18,
  -29, -29, 23, -29, 0, 33, -29, 40, -1, 53, -29, -29, -29, -29, -29, -29, -29, 54, 55, -29, -29, -15, -29, -15, -29, 26, -15, -29, -15, -15,
  -29, -15, -29, 56, -29, -29, -29, 57, 58, 59, 60, 61, 62, 63, 65, 66, 67, 68, 69, 70, 71, 72, -29, -29, -29, -29, -29, -29, -29, -29]

/-- `yydefact`, config_file_yacc.c:726-737. -/
def yyDefact : List Int := [
  2, 0, 1, 0, 0, 3, 4, 0, 5, 0, 37, 43, 42, 0, 18, 0, 33, 26, 0, 22, 30, 0, 9, 0, 0, 0, 0, 0, 0, 0,
  39, 7, 0, 12, 0, 0, 11, 0, 0, 0, 6, 10, 14, 15, 16, 13, 17, 0, 0, 36, 40, 0, 19, 0, 34, 0, 0, 27, 0, 0,
  23, 0, 31, 0, 8, 41, 38, 0, 0, 0, 0, 0, 0, 0, 0, 0, 0, 0, 0, 0, 0, 0, 32, 21, 20, 35, 29, 28, 25, 24]

/-- `yypgoto`, config_file_yacc.c:740-744. -/
def yyPgoto : List Int := [
  -29, -29, -29, -29, -29, -29, -29, 64, -29, -29, -29, -29, -29, -29, -29, -29, -29, 48, -28]

/-- `yydefgoto`, config_file_yacc.c:747-751. -/
def yyDefgoto : List Int := [
  0, 1, 5, 6, 7, 40, 21, 22, 23, 24, 25, 26, 27, 8, 9, 49, 29, 30, 13]

/-- `yytable`, config_file_yacc.c:756-767. -/
def yyTable : List Int := [
  47, 2, 10, 62, 54, 11, 12, 39, 3, 55, 28, 14, 63, 15, 16, 33, 4, 17, 31, 18, 19, 20, 48, 67, 28, 68, 51, 52, 70, 53,
  71, 72, 14, 73, 15, 16, 56, 57, 17, 58, 18, 19, 20, 59, 60, 69, 61, 32, 34, 35, 36, 37, 42, 38, 43, 44, 45, 46, 64, 65,
  66, 74, 75, 76, 77, 78, 79, 80, 81, 82, 83, 84, 85, 86, 87, 88, 89, 50, 0, 0, 0, 0, 0, 0, 0, 41]

/-- `yycheck`, config_file_yacc.c:769-780. -/
def yyCheck : List Int := [
  28, 0, 12, 4, 4, 20, 21, 4, 7, 9, 6, 8, 13, 10, 11, 5, 15, 14, 12, 16, 17, 18, 4, 51, 6, 53, 3, 4, 56, 6,
  58, 59, 8, 61, 10, 11, 3, 4, 14, 6, 16, 17, 18, 3, 4, 19, 6, 12, 12, 12, 5, 12, 5, 12, 5, 5, 5, 5, 5, 5,
  5, 5, 5, 5, 5, 5, 5, 5, 5, 4, 4, 4, 4, 4, 4, 4, 4, 29, -1, -1, -1, -1, -1, -1, -1, 21]

/-- `yyr1`, config_file_yacc.c:798-805. -/
def yyR1 : List Int := [
  0, 22, 23, 23, 24, 24, 25, 26, 27, 28, 28, 29, 29, 29, 29, 29, 29, 29, 30, 30, 30, 30, 31, 31, 31, 31, 32, 32, 32, 32,
  33, 33, 33, 34, 34, 34, 35, 36, 37, 38, 38, 39, 40, 40]

/-- `yyr2`, config_file_yacc.c:808-815. -/
def yyR2 : List Int := [
  0, 2, 0, 2, 1, 1, 3, 3, 2, 1, 2, 2, 2, 2, 2, 2, 2, 2, 1, 3, 6, 6, 1, 3, 6, 6, 1, 3, 6, 6,
  1, 3, 5, 1, 3, 6, 3, 2, 2, 1, 2, 3, 1, 1]

end Detox
