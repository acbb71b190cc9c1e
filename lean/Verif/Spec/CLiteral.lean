import Verif.Spec.UEscape

/-!
# Specification: escapes and C string literals

`readText` undoes escapes with a fixed number of digits. `cString` is what a C compiler makes of the characters after the opening
quote of a string literal (C11 6.4.4.4, 6.4.5; UTF-8 as execution character set, no trigraphs).
-/

set_option autoImplicit false

namespace Detox.Spec

/-- A hexadecimal digit. -/
def hexDigit (upper : Bool) (d : Nat) : Byte := UInt8.ofNat (if d < 10 then 0x30 + d else if upper then 0x37 + d else 0x57 + d)

/-- The last `w` hexadecimal digits of a number. -/
def hexFixed (upper : Bool) : Nat → Nat → Bytes
  | 0, _ => []
  | w + 1, n => hexFixed upper w (n / 16) ++ [hexDigit upper (n % 16)]

/-- The simple escapes: the characters that `\a`, `\b`, ... stand for. -/
def simpleEscape (c : Byte) : Option Byte :=
  if c = 0x61 then some 0x07 else if c = 0x62 then some 0x08 else if c = 0x74 then some 0x09 else if c = 0x6E then some 0x0A
  else if c = 0x76 then some 0x0B else if c = 0x66 then some 0x0C else if c = 0x72 then some 0x0D
  else if c = 0x22 ∨ c = 0x27 ∨ c = 0x3F ∨ c = 0x5C then some c else none

/-- A character escaped: simple escapes where there are any, `\x` and two digits for the other control characters, printable ASCII as
it is, `\u` and four or `\U` and eight digits for the rest. -/
def cEscape (cp : Nat) : Bytes :=
  if cp = 0x07 then lit "\\a" else if cp = 0x08 then lit "\\b" else if cp = 0x09 then lit "\\t" else if cp = 0x0A then lit "\\n"
  else if cp = 0x0B then lit "\\v" else if cp = 0x0C then lit "\\f" else if cp = 0x0D then lit "\\r"
  else if cp = 0x22 ∨ cp = 0x27 ∨ cp = 0x3F ∨ cp = 0x5C then [0x5C, UInt8.ofNat cp]
  else if cp < 0x20 ∨ cp = 0x7F then lit "\\x" ++ hexFixed false 2 cp
  else if cp < 0x7F then [UInt8.ofNat cp]
  else if cp < 0x10000 then lit "\\u" ++ hexFixed true 4 cp
  else lit "\\U" ++ hexFixed true 8 cp

/-- Exactly `w` hexadecimal digits. -/
def readHex : Nat → Nat → Bytes → Option (Nat × Bytes)
  | 0, acc, s => some (acc, s)
  | _ + 1, _, [] => none
  | w + 1, acc, c :: s => (hexOf c).bind fun d => readHex w (16 * acc + d) s

/-- One character, possibly escaped; `\x` has two digits. -/
def readChar : Bytes → Option (Nat × Bytes)
  | [] => none
  | c :: s =>
    if c = 0x5C then
      match s with
      | [] => none
      | e :: r =>
        if e = 0x78 then readHex 2 0 r
        else if e = 0x75 then readHex 4 0 r
        else if e = 0x55 then readHex 8 0 r
        else (simpleEscape e).map fun v => (v.toNat, r)
    else some (c.toNat, s)

/-- A whole text. The first argument bounds the number of characters. -/
def readText : Nat → Bytes → Option (List Nat)
  | _, [] => some []
  | 0, _ :: _ => none
  | n + 1, c :: s => (readChar (c :: s)).bind fun p => (readText n p.2).map fun l => p.1 :: l

/-! ### C string literals -/

/-- A hexadecimal digit. -/
def isHexDigit (c : Byte) : Bool := (hexOf c).isSome

/-- An octal digit. -/
def isOctDigit (c : Byte) : Bool := 0x30 ≤ c.toNat && c.toNat ≤ 0x37

/-- The value of digits. -/
def numeral (base : Nat) (ds : Bytes) : Nat := ds.foldl (fun a c => base * a + (hexOf c).getD 0) 0

/-- The characters that can be named by `\u` and `\U` (C11 6.4.3). -/
def Nameable (cp : Nat) : Prop := (0xA0 ≤ cp ∨ cp = 0x24 ∨ cp = 0x40 ∨ cp = 0x60) ∧ Scalar cp

instance (cp : Nat) : Decidable (Nameable cp) := by unfold Nameable; infer_instance

/-- The character named by `w` digits, and what is behind them. -/
def named (w : Nat) (s : Bytes) : Option (Bytes × Bytes) :=
  (readHex w 0 s).bind fun p => if Nameable p.1 then some (encode p.1, p.2) else none

/-- A number as a byte of the string. -/
def byteEscape (base : Nat) (ds rest : Bytes) : Option (Bytes × Bytes) :=
  if numeral base ds < 256 then some ([UInt8.ofNat (numeral base ds)], rest) else none

/-- What an escape denotes, from the character after the `\` on; and what is behind. `\x` takes all digits there are. -/
def cEscaped : Bytes → Option (Bytes × Bytes)
  | [] => none
  | e :: r =>
    if e = 0x78 then
      (if r.takeWhile isHexDigit = [] then none else byteEscape 16 (r.takeWhile isHexDigit) (r.dropWhile isHexDigit))
    else if isOctDigit e then
      byteEscape 8 (((e :: r).take 3).takeWhile isOctDigit) ((e :: r).drop (((e :: r).take 3).takeWhile isOctDigit).length)
    else if e = 0x75 then named 4 r
    else if e = 0x55 then named 8 r
    else (simpleEscape e).map fun v => ([v], r)

/-- The bytes that a literal denotes, and what is behind its closing quote. `none`: not a literal. The first argument bounds the
number of characters. -/
def cString : Nat → Bytes → Option (Bytes × Bytes)
  | _, [] => none
  | 0, _ :: _ => none
  | n + 1, c :: s =>
    if c = 0x22 then some ([], s)
    else if c = 0x0A then none
    else if c = 0x5C then (cEscaped s).bind fun p => (cString n p.2).map fun q => (p.1 ++ q.1, q.2)
    else (cString n s).map fun q => (c :: q.1, q.2)

/-- A text with the characters named by `\u` and `\U` put in, and all else as it is. `none`: there is no such character. The first
argument bounds the number of characters. -/
def expandNames : Nat → Bytes → Option Bytes
  | _, [] => some []
  | 0, _ :: _ => none
  | n + 1, c :: s =>
    if c = 0x5C ∧ s.head? = some 0x75 then (named 4 s.tail).bind fun p => (expandNames n p.2).map (p.1 ++ ·)
    else if c = 0x5C ∧ s.head? = some 0x55 then (named 8 s.tail).bind fun p => (expandNames n p.2).map (p.1 ++ ·)
    else (expandNames n s).map (c :: ·)

end Detox.Spec
