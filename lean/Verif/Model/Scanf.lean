import Verif.Model.Clean

/-!
# The parts of C stdio that `parse_table` uses

`fgets` on a byte stream and the conversions ` %s`, ` %n`, `%i`, `%[^q]` of `sscanf`, as in glibc
(C or UTF-8 locale). A C string is the list of its bytes; "the rest" after a conversion stands for the
pointer `work + offset`.
-/

set_option autoImplicit false

namespace Detox

/-- `isspace`: space, `\t`, `\n`, `\v`, `\f`, `\r`. -/
def isSpaceC (c : Byte) : Bool := c = 0x20 || (0x09 ≤ c.toNat && c.toNat ≤ 0x0D)

/-- White space in a `scanf` format. -/
def skipWs (s : Bytes) : Bytes := s.dropWhile isSpaceC

/-- `fgets(buf, n + 1, f)`: at most `n` bytes, up to and including a newline. -/
def takeLine : Nat → Bytes → Bytes × Bytes
  | 0, s => ([], s)
  | _, [] => ([], [])
  | n + 1, c :: s =>
    if c = 0x0A then ([c], s)
    else ((c :: (takeLine n s).1), (takeLine n s).2)

/-- Conversion ` %s `: skip white space, read a token, skip white space. `none`: input ended first. -/
def scanToken (s : Bytes) : Option (Bytes × Bytes) :=
  match skipWs s with
  | [] => none
  | c :: r =>
    let tok := (c :: r).takeWhile (fun c => !isSpaceC c)
    let rest := (c :: r).dropWhile (fun c => !isSpaceC c)
    some (tok, skipWs rest)

/-- Conversion `%[^q]`: the longest run without `q`; `none` when it is empty (the argument is then
left unchanged). -/
def scanUntil (q : Byte) (s : Bytes) : Option Bytes :=
  match s.takeWhile (· ≠ q) with
  | [] => none
  | t => some t

/-- Digits in the given base. -/
def isDigitIn (base : Nat) (c : Byte) : Bool := isXDigitC c && hexVal c < base

/-- Value of a run of digits. -/
def digitsVal (base : Nat) (ds : Bytes) : Nat := ds.foldl (fun a c => a * base + hexVal c) 0

/-- `strtol` clamps to the range of `long` (64 bit); storing through an `int *` keeps the low 32 bits. -/
def intOfLong (v : Int) : Int :=
  let l : Int := if v > 2 ^ 63 - 1 then 2 ^ 63 - 1 else if v < -(2 ^ 63) then -(2 ^ 63) else v
  let m := l % 2 ^ 32
  if m ≥ 2 ^ 31 then m - 2 ^ 32 else m

/-- Conversion `%i ` (integer with base detection, then white space). `none`: no conversion. As in
glibc, `0x` without digits converts to 0. -/
def scanInt (s : Bytes) : Option (Int × Bytes) :=
  let s := skipWs s
  let neg := peek s = 0x2D
  let s := if peek s = 0x2D ∨ peek s = 0x2B then s.tail else s
  let finish (base : Nat) (body : Bytes) : Int × Bytes :=
    let ds := body.takeWhile (isDigitIn base)
    let v : Int := digitsVal base ds
    (intOfLong (if neg then -v else v), skipWs (body.dropWhile (isDigitIn base)))
  if peek s = 0x30 then
    if peek s.tail = 0x78 ∨ peek s.tail = 0x58 then some (finish 16 s.tail.tail)
    else some (finish 8 s.tail)
  else if isDigitIn 10 (peek s) then some (finish 10 s)
  else none

/-- `strncasecmp(a, b, n) == 0` on C strings (ASCII case folding). -/
def strncaseeq : Nat → Bytes → Bytes → Bool
  | 0, _, _ => true
  | n + 1, a, b =>
    if toLowerC (peek a) ≠ toLowerC (peek b) then false
    else if peek a = 0 then true
    else strncaseeq n a.tail b.tail

end Detox
