import Verif.Model.Inline
import Verif.Model.Main

/-!
# How much memory is lost

The programs of `Model/File.lean` and `Model/Inline.lean` once more, with the number of strings that nobody refers to any more, although they were
never freed, as a second result. That they are the same programs otherwise is `Lemmas/Leaks.lean`.
-/

set_option autoImplicit false

namespace Detox.Spec

open Detox

/-- `parse_file` loses one string if the name is `.` or `..`, or if the filters leave it as it is. -/
def fileLeaks (P : Platform) (o : Options) (filename : Bytes) : Nat :=
  if isProtected (basePart filename) = true ∨ sequenceRunFilters P o.sequenceToUse (some (basePart filename)) = .ok (some (basePart filename)) then 1
  else 0

/-- The names in a directory: what `parse_file` loses for each. -/
def dirLoopLost (P : Platform) (o : Options) (recDir : Option Filelist → Bytes → Prog (Option Filelist × Nat))
    (h : Nat) (filename : Bytes) : Nat → Stat → Option Filelist → Nat → Prog (Option Filelist × Nat)
  | 0, _, _, _ => .stuck
  | m + 1, st, ign, k =>
    .readdir h fun e =>
      match e with
      | none => .closedir h (.ret (ign, k))
      | some name =>
        (Prog.ofRes (ignoreFile name ign)).bind fun p =>
          if p.2 then dirLoopLost P o recDir h filename m st p.1 k
          else
            let newFile := (filename ++ [0x2F] ++ name).take (filename.length + 1023)
            .lstat newFile fun r =>
              let st' := r.getD st
              if st'.kind = .dir then
                (parseFile P o newFile).bind fun work =>
                  if o.recurse then
                    (recDir p.1 work).bind fun r => dirLoopLost P o recDir h filename m st' r.1 (k + fileLeaks P o newFile + r.2)
                  else dirLoopLost P o recDir h filename m st' p.1 (k + fileLeaks P o newFile)
              else if st'.kind = .reg || o.special then
                (parseFile P o newFile).bind fun _ => dirLoopLost P o recDir h filename m st' p.1 (k + fileLeaks P o newFile)
              else dirLoopLost P o recDir h filename m st' p.1 k

/-- A directory that is opened costs one string more, for the paths. -/
def parseDirLost (P : Platform) (o : Options) : Nat → Option Filelist → Bytes → Prog (Option Filelist × Nat)
  | 0, _, _ => .stuck
  | n + 1, ign, filename =>
    .lstat filename fun r =>
      match r with
      | none => .ret (ign, 0)
      | some st =>
        if st.kind ≠ .dir then .ret (ign, 0)
        else
          .opendir filename fun d =>
            match d with
            | .ok h => dirLoopLost P o (parseDirLost P o n) h filename n st ign 1
            | .fail => .err (lit "unable to parse: ") (.ret (ign, 0))
            | .emfile => .err (lit "unable to parse: ") (.exit 1)

/-- One argument: the new path is lost as well, unless it is a directory. -/
def processArgLost (P : Platform) (o : Options) (fuel : Nat) (ign : Option Filelist) (file : Bytes) : Prog (Option Filelist × Nat) :=
  let body : Prog (Option Filelist × Nat) :=
    .lstat file fun r =>
      match r with
      | none => .err (file ++ lit ": ") (.ret (ign, 0))
      | some st =>
        if st.kind = .dir then
          (parseFile P o file).bind fun work => (parseDirLost P o fuel ign work).bind fun r => .ret (r.1, fileLeaks P o file + r.2)
        else if st.kind = .reg then (parseFile P o file).bind fun _ => .ret (ign, fileLeaks P o file + 1)
        else if o.special then (parseFile P o file).bind fun _ => .ret (ign, fileLeaks P o file + 1)
        else .ret (ign, 0)
  if o.verbose ≠ 0 then .out (lit "Scanning: " ++ file ++ [0x0A]) body else body

/-- All arguments. -/
def fileLoopLost (P : Platform) (o : Options) (fuel : Nat) : Nat → Filelist → Option Filelist → Nat → Prog Nat
  | 0, _, _, _ => .stuck
  | n + 1, l, ign, k =>
    (Prog.ofRes (filelistGet l)).bind fun p =>
      match p.2 with
      | none => .ret k
      | some file => (processArgLost P o fuel ign file).bind fun r => fileLoopLost P o fuel n p.1 r.1 (k + r.2)

/-- Inline mode: a line that is `.` or `..` is lost. -/
def inlineLoopLost (P : Platform) (o : Options) : Nat → Bytes → Nat → Prog Nat
  | _, [], k => .ret k
  | 0, _ :: _, _ => .stuck
  | n + 1, c :: s, k =>
    (Prog.ofRes (nextChunk P (c :: s))).bind fun r =>
      let work := if isProtected r.1 then none else some r.1
      let rest := inlineLoopLost P o n r.2.2.2 (k + if isProtected r.1 then 1 else 0)
      let next := (Prog.ofRes (sequenceRunFilters P o.sequenceToUse work)).bind fun hold =>
        .out (match hold with | some w => w | none => r.1) (if r.2.1 then .out [0x0A] rest else rest)
      if r.2.2.1 then .err (lit "detox: warning: stream push back failed\n") next else next

/-- The buffer of `parse_inline` is lost. -/
def parseInlineLost (P : Platform) (o : Options) (inFilename : Option Bytes) : Prog Nat :=
  .slurp inFilename fun r =>
    match r with
    | none => .err (inFilename.getD [] ++ lit ": ") (.ret 0)
    | some s => inlineLoopLost P o s.length s 1

/-- One argument in inline mode. -/
def inlineArgLost (P : Platform) (o : Options) (file : Bytes) : Prog Nat :=
  .lstat file fun r =>
    match r with
    | none => .err (file ++ lit ": ") (.ret 0)
    | some st => if st.kind = .dir then .err (file ++ lit ": is a directory\n") (.ret 0) else parseInlineLost P o (some file)

/-- All arguments in inline mode. -/
def inlineFileLoopLost (P : Platform) (o : Options) : Nat → Filelist → Nat → Prog Nat
  | 0, _, _ => .stuck
  | n + 1, l, k =>
    (Prog.ofRes (filelistGet l)).bind fun p =>
      match p.2 with
      | none => .ret k
      | some file => (inlineArgLost P o file).bind fun r => inlineFileLoopLost P o n p.1 (k + r)

/-- The work of detox. -/
def detoxWorkLost (P : Platform) (o : Options) (fuel : Nat) : Prog Nat :=
  if o.isInlineMode then
    match o.files with
    | none => parseInlineLost P o none
    | some l => if filelistCount (some l) > 0 then inlineFileLoopLost P o (l.count + 1) l 0 else parseInlineLost P o none
  else
    match o.files with
    | none => .ret 0
    | some l => fileLoopLost P o fuel (l.count + 1) l o.filesToIgnore 0

end Detox.Spec
