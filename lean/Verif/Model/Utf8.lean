import Verif.Model.Clean

/-!
# The UTF-8 filter — `/repo/src/clean_utf_8.c`
-/

set_option autoImplicit false

namespace Detox

/-- `is_utf_8_cont`, clean_utf_8.c:242-245. -/
def isUtf8Cont (c : Byte) : Bool := c &&& 0xC0 == 0x80

/-- `is_utf_8_start`, clean_utf_8.c:254-257. -/
def isUtf8Start (c : Byte) : Bool := c &&& 0xC0 == 0xC0

/-- `get_utf_8_width`, clean_utf_8.c:217-232; `none` is the C result -1. -/
def utf8Width (c : Byte) : Option Nat :=
  if isUtf8Start c && (c &&& 0xE0 == 0xC0) then some 2
  else if isUtf8Start c && (c &&& 0xF0 == 0xE0) then some 3
  else if isUtf8Start c && (c &&& 0xF8 == 0xF0) then some 4
  else if isUtf8Start c && (c &&& 0xFC == 0xF8) then some 5
  else if isUtf8Start c && (c &&& 0xFE == 0xFC) then some 6
  else if c &&& 0x80 == 0x80 then none
  else some 1

/-- The `switch` of clean_utf_8.c:86-116: payload bits of the first byte
(`unpack_start`, line 49; for width 1 the byte itself, line 88). -/
def unpackStart (width : Nat) (c : Byte) : Nat :=
  match width with
  | 2 => (c &&& 0x1F).toNat
  | 3 => (c &&& 0x0F).toNat
  | 4 => (c &&& 0x07).toNat
  | 5 => (c &&& 0x03).toNat
  | 6 => (c &&& 0x01).toNat
  | _ => c.toNat

/-- `unpack_cont`, clean_utf_8.c:48. -/
def unpackCont (c : Byte) : Nat := (c &&& 0x3F).toNat

/-- The continuation loop, clean_utf_8.c:123-143. Arguments: `expected_chars`, `new_value`, and the
suffix after the last byte consumed. Result: the code value (`none` when `failed`) and the suffix at
which the outer loop resumes. At most 31 value bits arise, so 32-bit arithmetic does not wrap and
`new_value` is a `Nat`. -/
def eatCont : Nat → Nat → Bytes → Option Nat × Bytes
  | 0, v, rest => (some v, rest)
  | _ + 1, _, [] => (none, [])
  | n + 1, v, c :: rest =>
    if isUtf8Cont c then eatCont n (v * 64 + unpackCont c) rest else (none, c :: rest)

/-- `null_replacement`, clean_utf_8.c:22: `"_hidden_null_"`. -/
def nullReplacement : Bytes := lit "_hidden_null_"

/-- `invalid_replacement[0]`, clean_utf_8.c:23: `'_'`. -/
def invalidReplacement : Byte := 0x5F

/-- `UNICODE_MAX_VALUE`, clean_utf_8.c:20. -/
def unicodeMax : Nat := 0x10FFFF

/-- Choice of the replacement, clean_utf_8.c:158-181. `none`: leave the character alone. -/
def utf8Replacement (t : Table) (v : Nat) : Option Bytes :=
  let r := tableGet t v
  let r := if r = none ∧ v = 0 then some nullReplacement else r
  let r := if r = none ∧ v > unicodeMax then some [invalidReplacement] else r
  if r = none then t.defaultTranslation else r

/-- The main loop of `clean_utf_8`, clean_utf_8.c:83-201. The first argument bounds the number of
iterations. The warnings printed on stderr are not modelled. Stepping `input_walk` back by
`characters_eaten` and copying (lines 188-193) re-reads the `w` bytes of this character. -/
def cleanUtf8Loop (t : Table) : Nat → OutBuf → Bytes → Res OutBuf
  | _, o, [] => .ok o
  | 0, _, _ :: _ => .stuck
  | n + 1, o, c :: rest =>
    match utf8Width c with
    | none => do
      let o ← o.push invalidReplacement
      cleanUtf8Loop t n o rest
    | some w =>
      match eatCont (w - 1) (unpackStart w c) rest with
      | (none, rest') => do
        let o ← o.push invalidReplacement
        cleanUtf8Loop t n o rest'
      | (some v, rest') =>
        match utf8Replacement t v with
        | none => do
          let o ← o.pushStr ((c :: rest).take w)
          cleanUtf8Loop t n o rest'
        | some r => do
          let o ← o.pushStr r
          cleanUtf8Loop t n o rest'

/-- `clean_utf_8`, clean_utf_8.c:60-206. -/
def cleanUtf8 (t : Option Table) (s : Bytes) : Res Bytes :=
  match t with
  | none => .exit 1
  | some t => do
    let o ← cleanUtf8Loop t s.length (OutBuf.alloc (s.length * t.maxDataLength + 1)) s
    o.finish

end Detox
