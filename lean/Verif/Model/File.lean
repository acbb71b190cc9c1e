import Verif.Model.Sys
import Verif.Model.ConfigFile

/-!
# Renaming files and scanning directories — `/repo/src/file.c:33-232`, `/repo/src/detox.c:91-111`

Texts obtained from `strerror` are left out of the messages. Memory management is not modelled.
-/

set_option autoImplicit false

namespace Detox

/-- `options_t`, detox_struct.h:90-107. `verbose` counts `-v`; only whether it is zero matters. -/
structure Options where
  dryRun : Bool := false
  isInlineBin : Bool := false
  isInlineMode : Bool := false
  listSequences : Bool := false
  recurse : Bool := false
  special : Bool := false
  verbose : Nat := 0
  sequenceToUse : Option Sequence := none
  filesToIgnore : Option Filelist := none
  sequenceName : Option Bytes := none
  checkConfigFile : Option Bytes := none
  files : Option Filelist := none
  deriving DecidableEq, Repr

/-- The comparing loop of `ignore_file`, file.c:41-45. The first argument bounds the iterations. -/
def ignoreLoop (filename : Bytes) : Nat → Filelist → Res (Filelist × Bool)
  | 0, _ => .stuck
  | n + 1, l => do
    let p ← filelistGet l
    match p with
    | (l', none) => pure (l', false)
    | (l', some w) => if filename = w then pure (l', true) else ignoreLoop filename n l'

/-- `ignore_file`, file.c:33-48. The ignore list is returned because its cursor moves. -/
def ignoreFile (filename : Bytes) (l : Option Filelist) : Res (Option Filelist × Bool) :=
  if filename.head? = some 0x2E then .ok (l, true)
  else
    match l with
    | none => .ok (none, false)
    | some l => do
      let p ← ignoreLoop filename (l.count + 1) l
      pure (some p.1, p.2)

/-- `is_protected`, file.c:57-64, for a non-NULL name. -/
def isProtected (filename : Bytes) : Bool := filename = [0x2E] || filename = [0x2E, 0x2E]

/-- The part of a path up to and including the last `/`, as `strrchr` finds it, file.c:84-90. -/
def dirPart (path : Bytes) : Bytes := (path.reverse.dropWhile (· ≠ 0x2F)).reverse

/-- The part after the last `/`. -/
def basePart (path : Bytes) : Bytes := (path.reverse.takeWhile (· ≠ 0x2F)).reverse

/-- The existence test of file.c:130-140: the new name is taken, and not by this very file. -/
def isTaken (old : Stat) (new : Option Stat) : Bool :=
  match new with
  | none => false
  | some n => old.dev ≠ n.dev || old.ino ≠ n.ino || old.nlink > 1

/-- The last step of `parse_file`, file.c:151-160. -/
def doRename (old new : Bytes) : Prog Bytes :=
  .rename old new fun ok =>
    if ok then .ret new
    else .err (lit "Cannot rename " ++ old ++ lit " to " ++ new ++ lit ": ") (.ret old)

/-- `parse_file` after the new name has been checked, file.c:142-160. -/
def announceAndRename (o : Options) (old new : Bytes) : Prog Bytes :=
  let next : Prog Bytes := if o.dryRun then .ret old else doRename old new
  if o.verbose ≠ 0 || o.dryRun then .out (old ++ lit " -> " ++ new ++ [0x0A]) next else next

/-- `parse_file` from the two `lstat` calls on, file.c:124-160. -/
def checkAndRename (o : Options) (old new : Bytes) : Prog Bytes :=
  .lstat old fun r =>
    match r with
    | none => .ret old
    | some so =>
      .lstat new fun rn =>
        if isTaken so rn then
          .err (lit "Cannot rename " ++ old ++ lit " to " ++ new ++ lit ": file already exists\n") (.ret old)
        else announceAndRename o old new

/-- `parse_file`, file.c:69-161. -/
def parseFile (P : Platform) (o : Options) (filename : Bytes) : Prog Bytes :=
  let base := basePart filename
  let work := if isProtected base then none else some base
  (Prog.ofRes (sequenceRunFilters P o.sequenceToUse work)).bind fun hold =>
    match hold with
    | none => .ret filename
    | some w =>
      if base = w then .ret filename
      else checkAndRename o filename (dirPart filename ++ w)

/-- The loop of `parse_dir`, file.c:205-231. `recDir` is the recursive call; `st` is `stat_info`, which a
failing `lstat` (line 217) leaves as it was; the path is cut off at the size of `new_file` (lines 185,
215). The first argument bounds the number of entries. -/
def dirLoop (P : Platform) (o : Options) (recDir : Option Filelist → Bytes → Prog (Option Filelist))
    (h : Nat) (filename : Bytes) : Nat → Stat → Option Filelist → Prog (Option Filelist)
  | 0, _, _ => .stuck
  | m + 1, st, ign =>
    .readdir h fun e =>
      match e with
      | none => .closedir h (.ret ign)
      | some name =>
        (Prog.ofRes (ignoreFile name ign)).bind fun p =>
          if p.2 then dirLoop P o recDir h filename m st p.1
          else
            let newFile := (filename ++ [0x2F] ++ name).take (filename.length + 1023)
            .lstat newFile fun r =>
              let st' := r.getD st
              if st'.kind = .dir then
                (parseFile P o newFile).bind fun work =>
                  if o.recurse then
                    (recDir p.1 work).bind fun ign' => dirLoop P o recDir h filename m st' ign'
                  else dirLoop P o recDir h filename m st' p.1
              else if st'.kind = .reg || o.special then
                (parseFile P o newFile).bind fun _ => dirLoop P o recDir h filename m st' p.1
              else dirLoop P o recDir h filename m st' p.1

/-- `parse_dir`, file.c:166-232. The first argument bounds recursion depth and directory size. -/
def parseDir (P : Platform) (o : Options) : Nat → Option Filelist → Bytes → Prog (Option Filelist)
  | 0, _, _ => .stuck
  | n + 1, ign, filename =>
    .lstat filename fun r =>
      match r with
      | none => .ret ign
      | some st =>
        if st.kind ≠ .dir then .ret ign
        else
          .opendir filename fun d =>
            match d with
            | .ok h => dirLoop P o (parseDir P o n) h filename n st ign
            | .fail => .err (lit "unable to parse: ") (.ret ign)
            | .emfile => .err (lit "unable to parse: ") (.exit 1)

/-- One command line argument, detox.c:93-110. The result is the ignore list. -/
def processArg (P : Platform) (o : Options) (fuel : Nat) (ign : Option Filelist) (file : Bytes) :
    Prog (Option Filelist) :=
  let body : Prog (Option Filelist) :=
    .lstat file fun r =>
      match r with
      | none => .err (file ++ lit ": ") (.ret ign)
      | some st =>
        if st.kind = .dir then
          (parseFile P o file).bind fun work => parseDir P o fuel ign work
        else if st.kind = .reg then (parseFile P o file).bind fun _ => .ret ign
        else if o.special then (parseFile P o file).bind fun _ => .ret ign
        else .ret ign
  if o.verbose ≠ 0 then .out (lit "Scanning: " ++ file ++ [0x0A]) body else body

/-- The loop over the arguments, detox.c:92-111. The first argument bounds the iterations; `fuel` bounds
each directory scan. -/
def fileLoop (P : Platform) (o : Options) (fuel : Nat) : Nat → Filelist → Option Filelist → Prog (Option Filelist)
  | 0, _, _ => .stuck
  | n + 1, l, ign =>
    (Prog.ofRes (filelistGet l)).bind fun p =>
      match p.2 with
      | none => .ret ign
      | some file => (processArg P o fuel ign file).bind fun ign' => fileLoop P o fuel n p.1 ign'

end Detox
