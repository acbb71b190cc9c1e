import Verif.Model.File
import Verif.Model.Scanf

/-!
# Inline mode — `/repo/src/file.c:234-426`, `/repo/src/detox.c:112-129`

The input is read by one `slurp` at the start; in the C code reading and writing alternate, which nobody can observe as long as
the input is not the output. Read errors are not modelled (they look like the end of the input).
`out_filename` is always NULL.
-/

set_option autoImplicit false

namespace Detox

/-- `INLINE_BUF_SIZE`, file.h:15. -/
def inlineBufSize : Nat := 1024

/-- `INLINE_BUF_PADDING`, file.h:16. -/
def inlineBufPadding : Nat := 16

/-- The loop of file.c:293-307. The second argument is `hold - seek`; `*seek` is `base[strlen(base) - d]`, which is outside the
buffer for `d > strlen(base)`. The result is `hold - seek` after the loop. The first argument bounds the iterations. -/
def seekBack (base : Bytes) : Nat → Nat → Res Nat
  | 0, _ => .stuck
  | n + 1, d =>
    if base.length < d then .ub .oobRead
    else if isUtf8Cont (base.getD (base.length - d) 0) && d < 6 then seekBack base n (d + 1)
    else .ok d

/-- The loop of file.c:318-324 after its first round: `remaining` and what is left of the string at `seek`. -/
def skipConts : Nat → Bytes → Nat × Bytes
  | 0, s => (0, s)
  | n + 1, [] => (n + 1, [])
  | n + 1, c :: s => if isUtf8Cont c then skipConts n s else (n + 1, c :: s)

/-- The loop of file.c:336-368: bytes taken from the stream, what is left of it, and whether pushing back a byte failed.
`ungetc` gets a plain `char`; where that is signed, byte FF is `EOF` and cannot be pushed back. -/
def fetchConts (P : Platform) : Nat → Bytes → Bytes × Bytes × Bool
  | 0, s => ([], s, false)
  | _ + 1, [] => ([], [], false)
  | n + 1, c :: s =>
    if isUtf8Cont c then
      let r := fetchConts P n s
      (c :: r.1, r.2)
    else if P.charSigned && c = 0xFF then ([c], s, true)
    else ([], c :: s, false)

/-- What parse_inline does if the buffer has no newline, file.c:283-376: the string in the buffer, the rest of the stream,
and whether a warning was printed. -/
def completeChunk (P : Platform) (base rest : Bytes) : Res (Bytes × Bytes × Bool) := do
  let d ← seekBack base 7 1
  let c := base.getD (base.length - d) 0
  if isUtf8Start c then
    let r := skipConts ((utf8Width c).getD 0 - 1) (base.drop (base.length - d + 1))
    if 0 < r.1 ∧ r.2 = [] then
      let f := fetchConts P r.1 rest
      if base.length + f.1.length < inlineBufSize then pure (base ++ f.1, f.2.1, f.2.2) else .ub .oobWrite
    else pure (base, rest, false)
  else pure (base, rest, false)

/-- The text of the buffer up to the last newline, and whether there is one, file.c:381-388. -/
def cutNewline (base : Bytes) : Bytes × Bool :=
  match strrchrIdx 0x0A base with
  | none => (base, false)
  | some i => (base.take i, true)

/-- One round of the loop up to line 388: `fgets`, completion of a cut UTF-8 character, removal of the newline. The result
is the text, whether a newline was removed, whether a warning was printed, and the rest of the stream. -/
def nextChunk (P : Platform) (s : Bytes) : Res (Bytes × Bool × Bool × Bytes) := do
  let p := takeLine (inlineBufSize - inlineBufPadding - 1) s
  let base := cstr p.1
  if strrchrIdx 0x0A base = none then
    let r ← completeChunk P base p.2
    let q := cutNewline r.1
    pure (q.1, q.2, r.2.2, r.2.1)
  else
    let q := cutNewline base
    pure (q.1, q.2, false, p.2)

/-- One round of the loop from line 390 on. -/
def printChunk (P : Platform) (o : Options) (text : Bytes) (newline : Bool) (k : Prog Unit) : Prog Unit :=
  let work := if isProtected text then none else some text
  (Prog.ofRes (sequenceRunFilters P o.sequenceToUse work)).bind fun hold =>
    .out (match hold with | some w => w | none => text) (if newline then .out [0x0A] k else k)

/-- The loop of `parse_inline`, file.c:279-417. The first argument bounds the rounds. -/
def inlineLoop (P : Platform) (o : Options) : Nat → Bytes → Prog Unit
  | _, [] => .ret ()
  | 0, _ :: _ => .stuck
  | n + 1, c :: s =>
    (Prog.ofRes (nextChunk P (c :: s))).bind fun r =>
      let next := printChunk P o r.1 r.2.1 (inlineLoop P o n r.2.2.2)
      if r.2.2.1 then .err (lit "detox: warning: stream push back failed\n") next else next

/-- `parse_inline`, file.c:242-426; `none` is stdin. -/
def parseInline (P : Platform) (o : Options) (inFilename : Option Bytes) : Prog Unit :=
  .slurp inFilename fun r =>
    match r with
    | none => .err (inFilename.getD [] ++ lit ": ") (.ret ())
    | some s => inlineLoop P o s.length s

/-- One argument in inline mode, detox.c:115-124. -/
def inlineArg (P : Platform) (o : Options) (file : Bytes) : Prog Unit :=
  .lstat file fun r =>
    match r with
    | none => .err (file ++ lit ": ") (.ret ())
    | some st => if st.kind = .dir then .err (file ++ lit ": is a directory\n") (.ret ()) else parseInline P o (some file)

/-- The loop over the arguments in inline mode, detox.c:114-125. -/
def inlineFileLoop (P : Platform) (o : Options) : Nat → Filelist → Prog Unit
  | 0, _ => .stuck
  | n + 1, l =>
    (Prog.ofRes (filelistGet l)).bind fun p =>
      match p.2 with
      | none => .ret ()
      | some file => (inlineArg P o file).bind fun _ => inlineFileLoop P o n p.1

/-- The inline branch of `main`, detox.c:112-129. -/
def inlineMain (P : Platform) (o : Options) (files : Option Filelist) : Prog Unit :=
  match files with
  | none => parseInline P o none
  | some l => if filelistCount (some l) > 0 then inlineFileLoop P o (l.count + 1) l else parseInline P o none

end Detox
