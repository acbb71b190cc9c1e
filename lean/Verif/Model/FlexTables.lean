import Verif.Model.Base

/-!
# The tables of the generated scanner — `/repo/src/config_file_lex.c:365-550`

Written by `tools/genflex.py`.
-/

set_option autoImplicit false

namespace Detox

/-- `yy_accept`, config_file_lex.c:366-380. -/
def yyAccept : List Nat := [
  0, 0, 0, 24, 23, 1, 3, 23, 2, 21, 22, 20, 20, 20, 20, 20, 20, 20, 20, 20, 20, 17, 18, 1, 0, 19, 2, 21, 20, 20,
  20, 20, 20, 20, 20, 20, 20, 20, 20, 20, 20, 20, 20, 20, 20, 20, 20, 20, 20, 20, 20, 20, 20, 20, 20, 20, 20, 20, 20, 20,
  20, 20, 20, 12, 20, 20, 20, 20, 20, 20, 20, 20, 20, 9, 20, 20, 20, 14, 15, 20, 20, 20, 6, 20, 8, 20, 20, 20, 16, 4,
  20, 20, 20, 20, 20, 5, 20, 20, 20, 13, 7, 20, 20, 10, 20, 20, 20, 20, 20, 11, 0]

/-- `yy_ec`, config_file_lex.c:382-412. -/
def yyEc : List Nat := [
  0, 1, 1, 1, 1, 1, 1, 1, 1, 2, 3, 1, 1, 1, 1, 1, 1, 1, 1, 1, 1, 1, 1, 1, 1, 1, 1, 1, 1, 1,
  1, 1, 2, 1, 4, 5, 1, 1, 1, 1, 1, 1, 1, 1, 1, 1, 1, 1, 6, 7, 6, 6, 6, 8, 6, 6, 9, 10, 1, 11,
  1, 1, 1, 1, 1, 12, 13, 14, 15, 16, 17, 18, 19, 20, 15, 15, 21, 22, 23, 24, 25, 26, 27, 28, 29, 30, 31, 32, 33, 15,
  15, 1, 1, 1, 1, 34, 1, 35, 36, 37, 15, 38, 39, 40, 41, 42, 15, 15, 43, 44, 45, 46, 47, 48, 49, 50, 51, 52, 53, 54,
  55, 15, 15, 56, 1, 57, 1, 1, 1, 1, 1, 1, 1, 1, 1, 1, 1, 1, 1, 1, 1, 1, 1, 1, 1, 1, 1, 1, 1, 1,
  1, 1, 1, 1, 1, 1, 1, 1, 1, 1, 1, 1, 1, 1, 1, 1, 1, 1, 1, 1, 1, 1, 1, 1, 1, 1, 1, 1, 1, 1,
  1, 1, 1, 1, 1, 1, 1, 1, 1, 1, 1, 1, 1, 1, 1, 1, 1, 1, 1, 1, 1, 1, 1, 1, 1, 1, 1, 1, 1, 1,
  1, 1, 1, 1, 1, 1, 1, 1, 1, 1, 1, 1, 1, 1, 1, 1, 1, 1, 1, 1, 1, 1, 1, 1, 1, 1, 1, 1, 1, 1,
  1, 1, 1, 1, 1, 1, 1, 1, 1, 1, 1, 1, 1, 1, 1, 1]

/-- `yy_meta`, config_file_lex.c:414-422. -/
def yyMeta : List Nat := [
  0, 1, 1, 2, 1, 1, 3, 3, 3, 3, 3, 1, 3, 3, 3, 3, 3, 3, 3, 3, 3, 3, 3, 3, 3, 3, 3, 3, 3, 3,
  3, 3, 3, 3, 3, 3, 3, 3, 3, 3, 3, 3, 3, 3, 3, 3, 3, 3, 3, 3, 3, 3, 3, 3, 3, 3, 1, 1]

/-- `yy_base`, config_file_lex.c:424-439. -/
def yyBase : List Nat := [
  0, 0, 0, 225, 234, 221, 234, 55, 0, 54, 234, 0, 35, 46, 49, 52, 57, 55, 62, 50, 52, 234, 234, 218, 77, 234, 0, 76, 0, 71,
  75, 79, 79, 81, 73, 73, 85, 91, 83, 96, 95, 89, 94, 100, 93, 209, 101, 104, 177, 97, 106, 93, 114, 176, 119, 111, 123, 120, 200, 119,
  122, 129, 120, 0, 136, 133, 199, 125, 136, 146, 144, 199, 142, 0, 147, 148, 142, 0, 0, 141, 144, 154, 0, 187, 0, 156, 125, 166, 0, 0,
  168, 77, 172, 162, 176, 0, 68, 164, 167, 0, 0, 176, 184, 0, 179, 179, 182, 181, 187, 0, 234, 227, 230, 67]

/-- `yy_def`, config_file_lex.c:441-456. -/
def yyDef : List Nat := [
  0, 110, 1, 110, 110, 110, 110, 111, 112, 110, 110, 113, 113, 113, 113, 113, 113, 113, 113, 113, 113, 110, 110, 110, 111, 110, 112, 110, 113, 113,
  113, 113, 113, 113, 113, 113, 113, 113, 113, 113, 113, 113, 113, 113, 113, 113, 113, 113, 113, 113, 113, 113, 113, 113, 113, 113, 113, 113, 113, 113,
  113, 113, 113, 113, 113, 113, 113, 113, 113, 113, 113, 113, 113, 113, 113, 113, 113, 113, 113, 113, 113, 113, 113, 113, 113, 113, 113, 113, 113, 113,
  113, 113, 113, 113, 113, 113, 113, 113, 113, 113, 113, 113, 113, 113, 113, 113, 113, 113, 113, 113, 0, 110, 110, 110]

/-- `yy_nxt`, config_file_lex.c:458-493. -/
def yyNxt : List Nat := [
  0, 4, 5, 6, 7, 8, 9, 9, 9, 9, 9, 10, 11, 12, 11, 11, 11, 13, 11, 11, 14, 15, 16, 11, 11, 11, 11, 17, 18, 11,
  19, 11, 20, 11, 4, 11, 12, 11, 11, 13, 11, 11, 14, 15, 16, 11, 11, 11, 11, 17, 18, 11, 19, 11, 20, 11, 21, 22, 25, 25,
  27, 27, 27, 27, 27, 29, 30, 31, 33, 35, 28, 36, 41, 39, 37, 100, 34, 32, 38, 40, 25, 25, 27, 27, 27, 27, 27, 29, 30, 31,
  33, 42, 35, 36, 41, 39, 43, 37, 34, 32, 38, 40, 44, 45, 46, 47, 48, 49, 50, 51, 52, 96, 53, 42, 54, 55, 56, 57, 43, 59,
  60, 62, 63, 64, 44, 45, 46, 47, 48, 49, 50, 51, 65, 52, 53, 67, 54, 55, 56, 57, 68, 59, 60, 62, 63, 64, 69, 70, 72, 73,
  74, 75, 76, 77, 65, 79, 80, 67, 81, 93, 82, 84, 68, 85, 86, 87, 88, 89, 69, 70, 72, 73, 74, 75, 76, 77, 90, 79, 80, 92,
  94, 81, 82, 84, 95, 85, 86, 87, 88, 89, 97, 98, 99, 101, 102, 103, 104, 91, 90, 105, 106, 92, 107, 94, 108, 109, 95, 83, 78, 71,
  66, 61, 97, 98, 99, 101, 102, 103, 58, 104, 23, 105, 106, 23, 107, 110, 108, 109, 24, 24, 24, 26, 110, 26, 3, 110, 110, 110, 110, 110,
  110, 110, 110, 110, 110, 110, 110, 110, 110, 110, 110, 110, 110, 110, 110, 110, 110, 110, 110, 110, 110, 110, 110, 110, 110, 110, 110, 110, 110, 110,
  110, 110, 110, 110, 110, 110, 110, 110, 110, 110, 110, 110, 110, 110, 110, 110, 110, 110, 110, 110, 110, 110]

/-- `yy_chk`, config_file_lex.c:495-530. -/
def yyChk : List Nat := [
  0, 1, 1, 1, 1, 1, 1, 1, 1, 1, 1, 1, 1, 1, 1, 1, 1, 1, 1, 1, 1, 1, 1, 1, 1, 1, 1, 1, 1, 1,
  1, 1, 1, 1, 1, 1, 1, 1, 1, 1, 1, 1, 1, 1, 1, 1, 1, 1, 1, 1, 1, 1, 1, 1, 1, 1, 1, 1, 7, 7,
  9, 9, 9, 9, 9, 12, 13, 14, 15, 16, 113, 17, 20, 19, 18, 96, 15, 14, 18, 19, 24, 24, 27, 27, 27, 27, 27, 12, 13, 14,
  15, 29, 16, 17, 20, 19, 30, 18, 15, 14, 18, 19, 31, 32, 33, 34, 35, 36, 37, 38, 39, 91, 40, 29, 41, 42, 43, 44, 30, 46,
  47, 49, 50, 51, 31, 32, 33, 34, 35, 36, 37, 38, 52, 39, 40, 54, 41, 42, 43, 44, 55, 46, 47, 49, 50, 51, 56, 57, 59, 60,
  61, 62, 64, 65, 52, 67, 68, 54, 69, 86, 70, 72, 55, 74, 75, 76, 79, 80, 56, 57, 59, 60, 61, 62, 64, 65, 81, 67, 68, 85,
  87, 69, 70, 72, 90, 74, 75, 76, 79, 80, 92, 93, 94, 97, 98, 101, 102, 83, 81, 104, 105, 85, 106, 87, 107, 108, 90, 71, 66, 58,
  53, 48, 92, 93, 94, 97, 98, 101, 45, 102, 23, 104, 105, 5, 106, 3, 107, 108, 111, 111, 111, 112, 0, 112, 110, 110, 110, 110, 110, 110,
  110, 110, 110, 110, 110, 110, 110, 110, 110, 110, 110, 110, 110, 110, 110, 110, 110, 110, 110, 110, 110, 110, 110, 110, 110, 110, 110, 110, 110, 110,
  110, 110, 110, 110, 110, 110, 110, 110, 110, 110, 110, 110, 110, 110, 110, 110, 110, 110, 110, 110, 110, 110]

end Detox
