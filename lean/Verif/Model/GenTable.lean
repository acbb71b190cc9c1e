import Verif.Model.EscapeUtf8
import Verif.Model.ParseTable

/-!
# generate-builtin-table — `/repo/src/generate_builtin_table.c`

The helper program that turns a table file into C source text. `BUILTIN_TABLE_MULTIPLE` is in builtin_table.h:15.
-/

set_option autoImplicit false

namespace Detox

/-- The loop of `escape_string`, generate_builtin_table.c:35-54. The string is what is left of `in`; `peek` of nothing is the NUL. -/
def escapeStringLoop (o : OutBuf) : Bytes → Res OutBuf
  | [] => .ok o
  | c :: s =>
    if c = 0x22 then do
      let o ← o.push 0x5C
      let o ← o.push c
      escapeStringLoop o s
    else if c = 0x5C then
      if peek s ≠ 0x75 ∧ peek s ≠ 0x55 then do
        let o ← o.push 0x5C
        let o ← o.push c
        escapeStringLoop o s
      else do
        let o ← o.push c
        escapeStringLoop o s
    else do
      let o ← o.push c
      escapeStringLoop o s

/-- `escape_string`, generate_builtin_table.c:30-58. -/
def escapeString (s : Bytes) : Res Bytes := do
  let o ← escapeStringLoop (OutBuf.alloc (s.length * 2 + 1)) s
  o.finish

/-- The digits of a number. The first argument bounds their number. -/
def decDigits : Nat → Nat → Bytes
  | 0, _ => []
  | f + 1, n => if n < 10 then [UInt8.ofNat (0x30 + n)] else decDigits f (n / 10) ++ [UInt8.ofNat (0x30 + n % 10)]

/-- `%d`, for an `int` that is not negative; these have at most 10 digits. -/
def printfDec (n : Nat) : Bytes := decDigits 10 n

/-- Unsigned to `int`, as the argument `hold_table->max_key + 1` of generate_builtin_table.c:68 (which first wraps around). -/
def intOfUnsigned (n : Nat) : Int := if n % 2 ^ 32 < 2 ^ 31 then (n % 2 ^ 32 : Nat) else (n % 2 ^ 32 : Nat) - 2 ^ 32

/-- `basename` of POSIX, used in generate_builtin_table.c:75. -/
def baseName (path : Bytes) : Bytes :=
  let s := (path.reverse.dropWhile (· = 0x2F)).reverse
  if s = [] then (if path = [] then lit "." else lit "/")
  else (s.reverse.takeWhile (· ≠ 0x2F)).reverse

/-- The loop of generate_builtin_table.c:85-99. A row without data would make `strlen` read through a NULL pointer. -/
def generateRows : List Row → Res Bytes
  | [] => .ok []
  | r :: rs =>
    if r.key = 0 then generateRows rs
    else
      match r.data with
      | none => .ub .oobRead
      | some d => do
        let e ← escapeString d
        let out ← generateRows rs
        .ok (lit "    { .key  = 0x" ++ printfHex false 4 r.key ++ lit ", .data = \"" ++ e ++ lit "\" },\n" ++ out)

/-- The argument of generate_builtin_table.c:149: the division is one of integers, so that `ceil` does nothing. -/
def loaderRows (used : Nat) : Nat := (used / 256 + 1) * 256

/-- The line for the default translation, generate_builtin_table.c:128-137. It is not escaped. -/
def defaultText : Option Bytes → Bytes
  | none => lit "    .default_translation = NULL,\n"
  | some d => lit "    .default_translation = \"" ++ d ++ lit "\",\n"

/-- `generate_loader`, generate_builtin_table.c:60-151, after the file has been read. -/
def generateLoader (filename : Bytes) (hold : Table) : Res Bytes := do
  let t := tableResize hold (intOfUnsigned (hold.maxKey + 1)) true
  let rows ← generateRows t.rows
  .ok (lit "\n/**" ++ lit "\n * Generated from " ++ baseName filename ++ lit "\n */\n\n" ++
    lit "static table_row_t builtin_NEW_rows[" ++ printfDec t.used ++ lit "] = {\n" ++
    rows ++
    lit "};\n\n" ++
    lit "static table_t builtin_NEW_table = {\n    .length              = " ++ printfDec t.used ++
    lit ",\n    .used                = " ++ printfDec t.used ++
    lit ",\n    .max_data_length     = " ++ printfDec t.maxDataLength ++
    lit ",\n    .max_key             = 0x" ++ printfHex false 4 t.maxKey ++
    lit ",\n    .hits                = 0,\n    .misses              = 0,\n    .seeks               = 0,\n    .overwrites          = " ++
    printfDec t.overwrites ++
    lit ",\n    .use_hash            = 0,\n    .builtin             = 1,\n    .rows                = builtin_NEW_rows,\n" ++
    defaultText t.defaultTranslation ++
    lit "};\n\n" ++
    lit "table_t *load_builtin_NEW_table(void)\n{\n    return table_resize(&builtin_NEW_table, " ++ printfDec (loaderRows t.used) ++
    lit ", 1);\n}\n")

/-- `main`, generate_builtin_table.c:153-163, with the files that can be read: what is printed. A file that cannot be read makes
`generate_loader` use a NULL pointer. -/
def generateMain (ctype : Bytes) (files : Bytes → Option Bytes) : List Bytes → Res Bytes
  | [] => .exit 255
  | f :: _ =>
    match parseTable ctype files f with
    | none => .ub .oobRead
    | some t => generateLoader f t

end Detox
