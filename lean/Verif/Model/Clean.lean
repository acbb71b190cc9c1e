import Verif.Model.Table

/-!
# Cleaning filters — `/repo/src/clean_string.c`

A pointer into a string is modelled by the suffix it points at. All functions take the content of a
non-NULL C string; the `NULL` case is handled by the caller model (`Model/Filter.lean`).
-/

set_option autoImplicit false

namespace Detox

/-- `isxdigit` in the C/UTF-8 locale, on the byte pattern. -/
def isXDigitC (c : Byte) : Bool :=
  (48 ≤ c.toNat && c.toNat ≤ 57) || (65 ≤ c.toNat && c.toNat ≤ 70) || (97 ≤ c.toNat && c.toNat ≤ 102)

/-- `isupper` in the C/UTF-8 locale. -/
def isUpperC (c : Byte) : Bool := 65 ≤ c.toNat && c.toNat ≤ 90

/-- `tolower` in the C/UTF-8 locale. -/
def toLowerC (c : Byte) : Byte := if isUpperC c then c + 32 else c

/-- A ctype call `f((int) c)` on a plain `char`: ISO C makes it undefined for negative values. -/
def ctypeCall (P : Platform) {α : Type} (f : Byte → α) (c : Byte) : Res α :=
  if P.charSigned && 128 ≤ c.toNat && !P.ctypeNegDefined then .ub .ctypeArg else .ok (f c)

/-- Value of a hex digit (used for `strtol(conv, NULL, 16)` on two digits). -/
def hexVal (c : Byte) : Nat :=
  if c.toNat ≤ 57 then c.toNat - 48
  else if c.toNat ≤ 70 then c.toNat - 55
  else c.toNat - 87

/-- The loop of `clean_iso8859_1`, clean_string.c:48-75. -/
def cleanIsoLoop (t : Table) (o : OutBuf) : Bytes → Res OutBuf
  | [] => .ok o
  | c :: rest =>
    if c &&& 0x80 = 0 then do
      let o ← o.push c
      cleanIsoLoop t o rest
    else
      match tableGet t c.toNat with
      | some r => do
        let o ← o.pushStr r
        cleanIsoLoop t o rest
      | none =>
        match t.defaultTranslation with
        | none => do
          let o ← o.push c
          cleanIsoLoop t o rest
        | some d => do
          let o ← o.pushStr d
          cleanIsoLoop t o rest

/-- `clean_iso8859_1`, clean_string.c:29-80. `table == NULL` exits (lines 38-41). -/
def cleanIso (t : Option Table) (s : Bytes) : Res Bytes :=
  match t with
  | none => .exit 1
  | some t => do
    let o ← cleanIsoLoop t (OutBuf.alloc (s.length * t.maxDataLength + 1)) s
    o.finish

/-- The loop of `clean_safe`, clean_string.c:108-128. Note that the key is the plain `char`
converted to `unsigned int` (line 109), i.e. sign-extended where `char` is signed. -/
def cleanSafeLoop (P : Platform) (t : Table) (o : OutBuf) : Bytes → Res OutBuf
  | [] => .ok o
  | c :: rest =>
    match tableGet t (P.charToUInt c) with
    | some r => do
      let o ← o.pushStr r
      cleanSafeLoop P t o rest
    | none =>
      match t.defaultTranslation with
      | none => do
        let o ← o.push c
        cleanSafeLoop P t o rest
      | some d => do
        let o ← o.pushStr d
        cleanSafeLoop P t o rest

/-- `clean_safe`, clean_string.c:90-133. -/
def cleanSafe (P : Platform) (t : Option Table) (s : Bytes) : Res Bytes :=
  match t with
  | none => .exit 1
  | some t => do
    let o ← cleanSafeLoop P t (OutBuf.alloc (s.length * t.maxDataLength + 1)) s
    o.finish

/-- `*p` for a pointer to the suffix `s` of a C string. -/
def peek (s : Bytes) : Byte := s.headD 0

/-- The test of clean_string.c:158 on `input_walk = '%' :: rest`, with C short-circuiting:
`isxdigit(input_walk[1]) && isxdigit(input_walk[2])`. -/
def uncgiTest (P : Platform) (rest : Bytes) : Res Bool := do
  let a ← ctypeCall P isXDigitC (peek rest)
  if a then ctypeCall P isXDigitC (peek rest.tail) else pure false

/-- The whole condition of clean_string.c:158 at `c :: rest`. -/
def uncgiEsc (P : Platform) (c : Byte) (rest : Bytes) : Res Bool :=
  if c = 0x25 then uncgiTest P rest else .ok false

/-- The loop of `clean_uncgi`, clean_string.c:157-170. The first argument bounds the number of
iterations (the caller passes the length of the string). -/
def cleanUncgiLoop (P : Platform) : Nat → OutBuf → Bytes → Res OutBuf
  | _, o, [] => .ok o
  | 0, _, _ :: _ => .stuck
  | n + 1, o, c :: rest => do
    let esc ← uncgiEsc P c rest
    if esc then
      let v := hexVal (peek rest) * 16 + hexVal (peek rest.tail)
      let o ← o.push (UInt8.ofNat v)
      cleanUncgiLoop P n o (rest.drop 2)
    else if c = 0x2B then do
      let o ← o.push 0x20
      cleanUncgiLoop P n o rest
    else do
      let o ← o.push c
      cleanUncgiLoop P n o rest

/-- `clean_uncgi`, clean_string.c:143-175. -/
def cleanUncgi (P : Platform) (s : Bytes) : Res Bytes := do
  let o ← cleanUncgiLoop P s.length (OutBuf.alloc (s.length + 1)) s
  o.finish

/-- The leading `-`, `_`, `#` removal, clean_string.c:204-206. -/
def wipeLead : Bytes → Bytes
  | [] => []
  | c :: rest => if c = 0x2D ∨ c = 0x5F ∨ c = 0x23 then wipeLead rest else c :: rest

/-- `search`, clean_string.c:210: `".-_"` or `"-_"`. -/
def wipeSearch (removeTrailing : Bool) : Bytes :=
  if removeTrailing then [0x2E, 0x2D, 0x5F] else [0x2D, 0x5F]

/-- The loop of `clean_wipeup`, clean_string.c:216-238, including the final flush at 236-238.
`current` is the offset of the pointer `current` in `search` (`none` for NULL). -/
def cleanWipeupLoop (search : Bytes) (o : OutBuf) (current : Option Nat) : Bytes → Res OutBuf
  | [] =>
    match current with
    | none => .ok o
    | some i => o.push (search.getD i 0)
  | c :: rest =>
    match search.findIdx? (· = c) with
    | some seek =>
      let current :=
        match current with
        | none => some seek
        | some i => if seek < i then some seek else some i
      cleanWipeupLoop search o current rest
    | none => do
      let o ← match current with
        | none => pure o
        | some i => o.push (search.getD i 0)
      let o ← o.push c
      cleanWipeupLoop search o none rest

/-- `clean_wipeup`, clean_string.c:194-245. -/
def cleanWipeup (removeTrailing : Bool) (s : Bytes) : Res Bytes := do
  let s := wipeLead s
  let o ← cleanWipeupLoop (wipeSearch removeTrailing) (OutBuf.alloc (s.length + 1)) none s
  o.finish

/-- `strrchr(s, c) - s`. -/
def strrchrIdx (c : Byte) : Bytes → Option Nat
  | [] => none
  | x :: xs =>
    match strrchrIdx c xs with
    | some i => some (i + 1)
    | none => if x = c then some 0 else none

/-- The look-back loop of `clean_max_length`, clean_string.c:286-295. `ext` is
`extension - filename`, the second argument is `input_walk - filename` before the decrement. The
result is the new `extension - filename`. Decrementing a pointer that is at the start of the string
is undefined in ISO C; on flat memory the comparison with `filename` then fails. -/
def lookBack (P : Platform) (s : Bytes) (ext : Nat) : Nat → Res Nat
  | 0 => if P.ptrBelowDefined then .ok ext else .ub .ptrBelow
  | i + 1 =>
    -- input_walk is now i
    if 0 < i then
      if ext - i > 5 then .ok ext
      else if s.getD i 0 = 0x2E then .ok i
      else lookBack P s ext i
    else .ok ext

/-- `clean_max_length`, clean_string.c:250-309. `snprintf(output, max_length + 1, "%s", filename)`
stores the first `max_length` bytes; line 306 overwrites the tail of that block from `body_length`
on with the extension. The warning text on stderr is not modelled. -/
def cleanMaxLength (P : Platform) (maxLength : Nat) (s : Bytes) : Res Bytes :=
  let maxLength := if maxLength = 0 then 256 else maxLength
  if s.length ≤ maxLength then .ok s
  else
    let output := s.take maxLength
    match strrchrIdx 0x2E s with
    | none => .ok output
    | some ext0 =>
      if (s.drop ext0).length = 1 then .ok output
      else do
        let ext ← lookBack P s ext0 ext0
        let extension := s.drop ext
        if maxLength ≤ extension.length then .ok s
        else
          let bodyLength := maxLength - extension.length
          .ok (output.take bodyLength ++ extension)

/-- The loop of `clean_lower`, clean_string.c:331-337. -/
def cleanLowerLoop (P : Platform) (o : OutBuf) : Bytes → Res OutBuf
  | [] => .ok o
  | c :: rest => do
    let up ← ctypeCall P isUpperC c
    if up then do
      let o ← o.push (toLowerC c)
      cleanLowerLoop P o rest
    else do
      let o ← o.push c
      cleanLowerLoop P o rest

/-- `clean_lower`, clean_string.c:318-342. -/
def cleanLower (P : Platform) (s : Bytes) : Res Bytes := do
  let o ← cleanLowerLoop P (OutBuf.alloc (s.length + 1)) s
  o.finish

end Detox
