import Verif.Model.Main
import Verif.Model.Flow

/-!
# Inline mode with its input read piece by piece — `/repo/src/file.c:242-426`, `/repo/src/detox.c:112-129`

In `Model/Inline.lean` the text of a file is there as a whole before anything is printed. Here it comes in pieces, as `read` delivers
them, whenever the buffer of the stream is empty; between two reads lines are cleaned and printed. A read may fail.

`fgets`, `fgetc` and `ungetc` are those of glibc (2.28 or later): the end of the file is remembered, a failure is not. `fgets` answers
NULL if it got nothing, or if a read failed while it was at work, unless the failure is `EAGAIN` (`_IO_fgets`, iofgets.c); what it had
got is then gone. `fclose` makes no difference and is left out. The result of `fopen` is an event of its own.
-/

set_option autoImplicit false

namespace Detox

/-- What `FILE` has of an input stream: bytes read and not yet taken, and whether the end was seen. -/
structure Stream where
  buf : Bytes
  eof : Bool

/-- `fgetc`, file.c:337: `none` is `EOF`. -/
def streamGetc (path : Option Bytes) (st : Stream) : Flow (Option Byte × Stream) :=
  match st.buf with
  | c :: s => .ret (some c, { st with buf := s })
  | [] =>
    if st.eof then .ret (none, st)
    else .read path fun r =>
      match r with
      | .data (c :: s) => .ret (some c, { st with buf := s })
      | .data [] => .ret (none, { st with eof := true })
      | .fail _ => .ret (none, st)

/-- `fgets(base, n + 1, in_fp)`, file.c:279, when `got` is in the buffer already and there is room for `n` more bytes; `none` is
NULL. -/
def streamGets (path : Option Bytes) : Nat → Bytes → Stream → Flow (Option Bytes × Stream)
  | 0, got, st => .ret (some got, st)
  | n + 1, got, st =>
    match st.buf with
    | c :: s =>
      if c = 0x0A then .ret (some (got ++ [c]), { st with buf := s })
      else streamGets path n (got ++ [c]) { st with buf := s }
    | [] =>
      if st.eof then .ret (if got = [] then none else some got, st)
      else .read path fun r =>
        match r with
        | .data (c :: s) =>
          if c = 0x0A then .ret (some (got ++ [c]), { st with buf := s })
          else streamGets path n (got ++ [c]) { st with buf := s }
        | .data [] => .ret (if got = [] then none else some got, { st with eof := true })
        | .fail again => .ret (if again ∧ got ≠ [] then some got else none, st)

/-- The loop of file.c:336-368: the bytes taken, the stream, and whether pushing back a byte failed (as in `fetchConts`). `ungetc`
puts the byte back into the buffer and forgets the end of the file, which was not seen here. -/
def streamConts (P : Platform) (path : Option Bytes) : Nat → Stream → Flow (Bytes × Stream × Bool)
  | 0, st => .ret ([], st, false)
  | n + 1, st =>
    (streamGetc path st).bind fun r =>
      match r.1 with
      | none => .ret ([], r.2, false)
      | some c =>
        if isUtf8Cont c then
          (streamConts P path n r.2).bind fun q => .ret (c :: q.1, q.2)
        else if P.charSigned && c = 0xFF then .ret ([c], r.2, true)
        else .ret ([], ⟨c :: r.2.buf, false⟩, false)

/-- What parse_inline does if the buffer has no newline, file.c:283-376 (`completeChunk`). -/
def streamComplete (P : Platform) (path : Option Bytes) (base : Bytes) (st : Stream) : Flow (Bytes × Stream × Bool) :=
  (Flow.ofRes (seekBack base 7 1)).bind fun d =>
    let c := base.getD (base.length - d) 0
    if isUtf8Start c then
      let r := skipConts ((utf8Width c).getD 0 - 1) (base.drop (base.length - d + 1))
      if 0 < r.1 ∧ r.2 = [] then
        (streamConts P path r.1 st).bind fun f =>
          if base.length + f.1.length < inlineBufSize then .ret (base ++ f.1, f.2) else .ub .oobWrite
      else .ret (base, st, false)
    else .ret (base, st, false)

/-- One round of the loop from line 390 on (`printChunk`). -/
def streamPrint (P : Platform) (o : Options) (text : Bytes) (newline : Bool) : Flow Unit :=
  let work := if isProtected text then none else some text
  (Flow.ofRes (sequenceRunFilters P o.sequenceToUse work)).bind fun hold =>
    .out (match hold with | some w => w | none => text) (if newline then .out [0x0A] (.ret ()) else .ret ())

/-- One round of the loop after `fgets`, file.c:281-416, with `line` in the buffer. -/
def streamRound (P : Platform) (o : Options) (path : Option Bytes) (line : Bytes) (st : Stream) : Flow Stream :=
  let base := cstr line
  (if strrchrIdx 0x0A base = none then streamComplete P path base st else .ret (base, st, false)).bind fun r =>
    let next := (streamPrint P o (cutNewline r.1).1 (cutNewline r.1).2).bind fun _ => .ret r.2.1
    if r.2.2 then .err (lit "detox: warning: stream push back failed\n") next else next

/-- The loop of `parse_inline`, file.c:279-417. The first argument bounds the rounds. -/
def streamLoop (P : Platform) (o : Options) (path : Option Bytes) : Nat → Stream → Flow Unit
  | 0, _ => .stuck
  | n + 1, st =>
    (streamGets path (inlineBufSize - inlineBufPadding - 1) [] st).bind fun r =>
      match r.1 with
      | none => .ret ()
      | some line => (streamRound P o path line r.2).bind fun st' => streamLoop P o path n st'

/-- `parse_inline`, file.c:242-426. -/
def parseStream (P : Platform) (o : Options) (rounds : Nat) (inFilename : Option Bytes) : Flow Unit :=
  match inFilename with
  | none => streamLoop P o none rounds ⟨[], false⟩
  | some file => .fopen file fun ok =>
    if ok then streamLoop P o (some file) rounds ⟨[], false⟩ else .err (file ++ lit ": ") (.ret ())

/-- One argument in inline mode, detox.c:115-124. -/
def streamArg (P : Platform) (o : Options) (rounds : Nat) (file : Bytes) : Flow Unit :=
  .lstat file fun r =>
    match r with
    | none => .err (file ++ lit ": ") (.ret ())
    | some st => if st.kind = .dir then .err (file ++ lit ": is a directory\n") (.ret ()) else parseStream P o rounds (some file)

/-- The loop over the arguments in inline mode, detox.c:114-125. -/
def streamFileLoop (P : Platform) (o : Options) (rounds : Nat) : Nat → Filelist → Flow Unit
  | 0, _ => .stuck
  | n + 1, l =>
    (Flow.ofRes (filelistGet l)).bind fun p =>
      match p.2 with
      | none => .ret ()
      | some file => (streamArg P o rounds file).bind fun _ => streamFileLoop P o rounds n p.1

/-- The inline branch of `main`, detox.c:112-129. -/
def streamMain (P : Platform) (o : Options) (rounds : Nat) (files : Option Filelist) : Flow Unit :=
  match files with
  | none => parseStream P o rounds none
  | some l => if filelistCount (some l) > 0 then streamFileLoop P o rounds (l.count + 1) l else parseStream P o rounds none

/-- The work, detox.c:88-129: in inline mode what is left to do, otherwise nothing is left. -/
def streamWork (P : Platform) (o : Options) (fuel rounds : Nat) : Prog (Flow Unit) :=
  if o.isInlineMode then .ret (streamMain P o rounds o.files)
  else (detoxWork P o fuel).bind fun _ => .ret (.ret ())

/-- `main` after the options, detox.c:43-86. -/
def streamConfigured (P : Platform) (I : Invocation) (o : Options) (fuel rounds : Nat) : Prog (Flow Unit) :=
  (configFileLoad I.config o.checkConfigFile).bind fun c =>
    if o.listSequences then
      (Prog.ofRes (dumpConfigFile c o)).bind fun t => .out t (.exit 0)
    else
      match sequenceChooseDefault c.sequences o.sequenceName with
      | none => .err (lit "detox: no sequence to work with\n") (.exit 1)
      | some q =>
        (reviewSequence I.ctype I.datadir q).bind fun q' =>
          streamWork P { o with
            filesToIgnore := c.filesToIgnore, sequenceToUse := some q' } fuel rounds

/-- `main`, detox.c:25-132: what it does before inline mode, with inline mode as the result. -/
def detoxMainStream (P : Platform) (I : Invocation) (fuel rounds : Nat) : Prog (Flow Unit) :=
  (parseOptions I.program I.args I.sequence I.posixlyCorrect).bind fun o => streamConfigured P I o fuel rounds

/-- The executions of a program that continues with another one. -/
inductive StreamTrace (p : Prog (Flow Unit)) : List FlowEvent → Outcome Unit → Prop
  | before (tr : List Event) : Trace p tr .running → StreamTrace p (tr.map .sys) .running
  | exit (tr : List Event) (n : Nat) : Trace p tr (.exit n) → StreamTrace p (tr.map .sys) (.exit n)
  | ub (tr : List Event) (u : UB) : Trace p tr (.ub u) → StreamTrace p (tr.map .sys) (.ub u)
  | stuck (tr : List Event) : Trace p tr .stuck → StreamTrace p (tr.map .sys) .stuck
  | andThen (tr : List Event) (q : Flow Unit) (tr' : List FlowEvent) (o : Outcome Unit) :
      Trace p tr (.ret q) → FlowTrace q tr' o → StreamTrace p (tr.map .sys ++ tr') o

end Detox
