import Verif.Spec.CLiteral
import Verif.Model.Table

/-!
# Specification: C source text that defines a table

The values that a C compiler gets from a definition of a table laid out as in builtin_table.c. Only this layout is read.
-/

set_option autoImplicit false

namespace Detox.Spec

/-- What the text defines. -/
structure TableSource where
  /-- declared size of the array of rows -/
  declared : Nat
  rows : List (Nat × Bytes)
  length : Nat
  used : Nat
  maxDataLength : Nat
  maxKey : Nat
  overwrites : Nat
  dflt : Option Bytes
  /-- size of the table that the loader makes -/
  loaderRows : Nat
  deriving DecidableEq, Repr

/-- What is behind a fixed text. -/
def strip : Bytes → Bytes → Option Bytes
  | [], s => some s
  | _ :: _, [] => none
  | p :: ps, c :: s => if p = c then strip ps s else none

/-- What is behind the end of a comment. -/
def skipComment : Bytes → Option Bytes
  | [] => none
  | c :: s => if c = 0x2A ∧ s.head? = some 0x2F then some s.tail else skipComment s

/-- A decimal digit. -/
def isDecDigit (c : Byte) : Bool := 0x30 ≤ c.toNat && c.toNat ≤ 0x39

/-- A decimal constant (C11 6.4.4.1), or 0. With a leading zero it would be octal. -/
def decConst (s : Bytes) : Option (Nat × Bytes) :=
  if s.takeWhile isDecDigit = [] then none
  else if s.head? = some 0x30 ∧ s.takeWhile isDecDigit ≠ [0x30] then none
  else some (numeral 10 (s.takeWhile isDecDigit), s.dropWhile isDecDigit)

/-- The digits of a hexadecimal constant, after the `0x`. -/
def hexConst (s : Bytes) : Option (Nat × Bytes) :=
  if s.takeWhile isHexDigit = [] then none else some (numeral 16 (s.takeWhile isHexDigit), s.dropWhile isHexDigit)

/-- A string literal, after the opening quote. -/
def stringLit (s : Bytes) : Option (Bytes × Bytes) := cString s.length s

/-- One row. -/
def readRow (s : Bytes) : Option ((Nat × Bytes) × Bytes) := do
  let s ← strip (lit "    { .key  = 0x") s
  let (k, s) ← hexConst s
  let s ← strip (lit ", .data = \"") s
  let (d, s) ← stringLit s
  let s ← strip (lit " },\n") s
  some ((k, d), s)

/-- The rows, to the end of the array. The first argument bounds their number. -/
def readRows : Nat → Bytes → Option (List (Nat × Bytes) × Bytes)
  | 0, _ => none
  | n + 1, s =>
    match strip (lit "};\n\n") s with
    | some s => some ([], s)
    | none => do
      let (r, s) ← readRow s
      let (rs, s) ← readRows n s
      some (r :: rs, s)

/-- The default translation. -/
def readDefault (s : Bytes) : Option (Option Bytes × Bytes) :=
  match strip (lit "    .default_translation = NULL,\n") s with
  | some s => some (none, s)
  | none => do
    let s ← strip (lit "    .default_translation = \"") s
    let (d, s) ← stringLit s
    let s ← strip (lit ",\n") s
    some (some d, s)

/-- The whole text. -/
def readSource (s : Bytes) : Option TableSource := do
  let s ← strip (lit "\n/**") s
  let s ← skipComment s
  let s ← strip (lit "\n\nstatic table_row_t builtin_NEW_rows[") s
  let (declared, s) ← decConst s
  let s ← strip (lit "] = {\n") s
  let (rows, s) ← readRows s.length s
  let s ← strip (lit "static table_t builtin_NEW_table = {\n    .length              = ") s
  let (length, s) ← decConst s
  let s ← strip (lit ",\n    .used                = ") s
  let (used, s) ← decConst s
  let s ← strip (lit ",\n    .max_data_length     = ") s
  let (maxDataLength, s) ← decConst s
  let s ← strip (lit ",\n    .max_key             = 0x") s
  let (maxKey, s) ← hexConst s
  let s ← strip (lit ",\n    .hits                = 0,\n    .misses              = 0,\n    .seeks               = 0,\n    .overwrites          = ") s
  let (overwrites, s) ← decConst s
  let s ← strip (lit ",\n    .use_hash            = 0,\n    .builtin             = 1,\n    .rows                = builtin_NEW_rows,\n") s
  let (dflt, s) ← readDefault s
  let s ← strip (lit "};\n\n") s
  let s ← strip (lit "table_t *load_builtin_NEW_table(void)\n{\n    return table_resize(&builtin_NEW_table, ") s
  let (loaderRows, s) ← decConst s
  let s ← strip (lit ", 1);\n}\n") s
  if s = [] then some { declared, rows, length, used, maxDataLength, maxKey, overwrites, dflt, loaderRows } else none

/-- The array that the compiler makes: elements without initialiser are zero, and there must not be too many (C11 6.7.9). -/
def TableSource.array (src : TableSource) : List Row :=
  src.rows.map (fun p => ⟨p.1, some p.2⟩) ++ List.replicate (src.declared - src.rows.length) Row.empty

/-- The static table that the compiler makes. -/
def TableSource.static (src : TableSource) : Table :=
  { rows := src.array
    used := src.used
    maxDataLength := src.maxDataLength
    maxKey := src.maxKey
    overwrites := src.overwrites
    useHash := false
    builtin := true
    defaultTranslation := src.dflt }

/-- The table that the loader returns. -/
def TableSource.load (src : TableSource) : Table := tableResize src.static src.loaderRows true

end Detox.Spec
