import Verif.Model.Inline

/-!
# escape-utf-8 — `/repo/src/escape_utf_8.c`

The helper program that prints text with everything but printable ASCII escaped. The `DEBUG` parts are left out.
-/

set_option autoImplicit false

namespace Detox

/-- `builtin_c_escape_rows`, escape_utf_8.c:30-67. -/
def builtin_c_escape_rows : List Row := [
  ⟨0x0001, some [0x5C, 0x78, 0x30, 0x31]⟩,
  ⟨0x0002, some [0x5C, 0x78, 0x30, 0x32]⟩,
  ⟨0x0003, some [0x5C, 0x78, 0x30, 0x33]⟩,
  ⟨0x0004, some [0x5C, 0x78, 0x30, 0x34]⟩,
  ⟨0x0005, some [0x5C, 0x78, 0x30, 0x35]⟩,
  ⟨0x0006, some [0x5C, 0x78, 0x30, 0x36]⟩,
  ⟨0x0007, some [0x5C, 0x61]⟩,
  ⟨0x0008, some [0x5C, 0x62]⟩,
  ⟨0x0009, some [0x5C, 0x74]⟩,
  ⟨0x000a, some [0x5C, 0x6E]⟩,
  ⟨0x000b, some [0x5C, 0x76]⟩,
  ⟨0x000c, some [0x5C, 0x66]⟩,
  ⟨0x000d, some [0x5C, 0x72]⟩,
  ⟨0x000e, some [0x5C, 0x78, 0x30, 0x65]⟩,
  ⟨0x000f, some [0x5C, 0x78, 0x30, 0x66]⟩,
  ⟨0x0010, some [0x5C, 0x78, 0x31, 0x30]⟩,
  ⟨0x0011, some [0x5C, 0x78, 0x31, 0x31]⟩,
  ⟨0x0012, some [0x5C, 0x78, 0x31, 0x32]⟩,
  ⟨0x0013, some [0x5C, 0x78, 0x31, 0x33]⟩,
  ⟨0x0014, some [0x5C, 0x78, 0x31, 0x34]⟩,
  ⟨0x0015, some [0x5C, 0x78, 0x31, 0x35]⟩,
  ⟨0x0016, some [0x5C, 0x78, 0x31, 0x36]⟩,
  ⟨0x0017, some [0x5C, 0x78, 0x31, 0x37]⟩,
  ⟨0x0018, some [0x5C, 0x78, 0x31, 0x38]⟩,
  ⟨0x0019, some [0x5C, 0x78, 0x31, 0x39]⟩,
  ⟨0x001a, some [0x5C, 0x78, 0x31, 0x61]⟩,
  ⟨0x001b, some [0x5C, 0x78, 0x31, 0x62]⟩,
  ⟨0x001c, some [0x5C, 0x78, 0x31, 0x63]⟩,
  ⟨0x001d, some [0x5C, 0x78, 0x31, 0x64]⟩,
  ⟨0x001e, some [0x5C, 0x78, 0x31, 0x65]⟩,
  ⟨0x001f, some [0x5C, 0x78, 0x31, 0x66]⟩,
  ⟨0x0022, some [0x5C, 0x22]⟩,
  ⟨0x0027, some [0x5C, 0x27]⟩,
  ⟨0x003f, some [0x5C, 0x3F]⟩,
  ⟨0x005c, some [0x5C, 0x5C]⟩,
  ⟨0x007f, some [0x5C, 0x78, 0x37, 0x66]⟩]

/-- `builtin_c_escape_table`, escape_utf_8.c:69-82. -/
def builtin_c_escape_table : Table :=
  { rows := builtin_c_escape_rows, used := 36, maxDataLength := 4, maxKey := 0x007f,
    hits := 0, misses := 0, seeks := 0, overwrites := 0,
    useHash := false, builtin := true, defaultTranslation := none }

/-- A hexadecimal digit of `printf`. -/
def hexChar (upper : Bool) (d : Nat) : Byte := UInt8.ofNat (if d < 10 then 0x30 + d else (if upper then 0x41 else 0x61) + (d - 10))

/-- `%x` and `%X`: the digits of a number. The first argument bounds their number; an `unsigned int` has at most 8. -/
def hexDigits (upper : Bool) : Nat → Nat → Bytes
  | 0, _ => []
  | f + 1, n => if n < 16 then [hexChar upper n] else hexDigits upper f (n / 16) ++ [hexChar upper (n % 16)]

/-- `%0wx` and `%0wX`. -/
def printfHex (upper : Bool) (w n : Nat) : Bytes := List.leftpad w 0x30 (hexDigits upper 8 n)

/-- `MAX_LENGTH`, escape_utf_8.c:25. -/
def escapeMaxLength : Nat := 16

/-- The loop of escape_utf_8.c:103-108. -/
def escapePrintable : List Nat → Table → Table
  | [], t => t
  | i :: is, t => escapePrintable is (if tableGet t i = none then (tablePut t i ([UInt8.ofNat i].take (escapeMaxLength - 1))).1 else t)

/-- The loops of escape_utf_8.c:110-113 and 115-118; `f i` is what `snprintf` makes. -/
def escapeOthers (f : Nat → Bytes) : List Nat → Table → Table
  | [], t => t
  | i :: is, t => escapeOthers f is (tablePut t i ((f i).take (escapeMaxLength - 1))).1

/-- `generate_c_escape_table`, escape_utf_8.c:93-127. -/
def generateCEscapeTable : Table :=
  let t := tableResize builtin_c_escape_table 0x110000 true
  let t := escapePrintable (List.range' 0x20 (0x7F - 0x20)) t
  let t := escapeOthers (fun i => lit "\\u" ++ printfHex true 4 i) (List.range' 0x80 (0x10000 - 0x80)) t
  escapeOthers (fun i => lit "\\U" ++ printfHex true 8 i) (List.range' 0x10000 (0x110000 - 0x10000)) t

/-- The options `main` sets up, escape_utf_8.c:144-151. -/
def escapeOptions : Options :=
  { sequenceToUse := some
      { name := lit "utf_8-escape", sourceFilename := some (lit "escape_utf_8.c"),
        filters := [{ filterInit .utf8 with filename := some (lit "escape_utf_8.c"), table := some generateCEscapeTable }] } }

/-- `main`, escape_utf_8.c:135-160. -/
def escapeMain (P : Platform) : Prog Unit := parseInline P escapeOptions none

end Detox
