import Verif.Model.Flex

/-!
# The input buffer of the generated scanner — `/repo/src/config_file_lex.c:665-697, 764-1308, 1426-1586`

`Model/Flex.lean` has the matching of the generated scanner on a list. Here is `yylex` as it is: it matches in a block of memory
(`yy_ch_buf`), ends the text of a token with a NUL and puts the character back later (`yy_hold_char`), finds the end of the block by
NULs and has to tell them from the NULs of the text, and moves, enlarges and refills the block. Pointers into the block are positions
in it. Every access is checked: a position behind the block, and a byte that was never written, are a `fault`.

`fread` and `getc` are those of glibc, down to `read`: a block is read into the buffer of the stream, or directly if at least as much is
wanted. `yy_is_interactive` may be set or not at any time (it is that of the file for which the buffer was last initialised). A file does
not change while it is read: at its end `read` gives nothing, then and later. After the end was seen glibc may spare a `read`; this is the
same as one that gives nothing. A read is interrupted only finitely often.

Left out: `yy_fill_buffer` (always 1 here), `yyout` (`/dev/null`), and what only other scanners use (`yyunput`, `input`, the stack of
buffers).
-/

set_option autoImplicit false

namespace Detox

/-- What a part of the scanner ends with. `fatal` is `yy_fatal_error`, which prints a message and exits with
status 2 (config_file_lex.c:1770-1778); `fault` is undefined behaviour;
`stuck`: the bound on the number of rounds was reached. -/
inductive Yy (α : Type) where
  | ok (a : α)
  | fatal (msg : Bytes)
  | fault
  | stuck
  deriving DecidableEq, Repr

def Yy.bind {α β : Type} (x : Yy α) (k : α → Yy β) : Yy β :=
  match x with
  | .ok a => k a
  | .fatal m => .fatal m
  | .fault => .fault
  | .stuck => .stuck

/-- An access that can fail. -/
def yyGet {α : Type} : Option α → Yy α
  | some a => .ok a
  | none => .fault

/-- A block of memory; `none` is a byte that was never written. -/
abbrev Cells := List (Option Byte)

/-- `yy_buffer_status`, config_file_lex.c:229-243. -/
inductive BufStatus where
  | fresh | normal | eofPending
  deriving DecidableEq, Repr

/-- The buffer (`struct yy_buffer_state`, config_file_lex.c:184-245) and the variables of the scanner (lines 268-278, 532-533).
`lastCpos` is `none` when it is NULL, or points into a block that is no longer there. -/
structure Flex where
  buf : Cells
  bufSize : Nat
  bufChars : Nat
  status : BufStatus
  nChars : Nat
  cBufP : Nat
  text : Nat
  hold : Byte
  lastState : Nat
  lastCpos : Option Nat
  lineno : Nat

/-- `yyin`: what `read` has not yet given of the file, what is in the buffer of the stream, `feof`; how many reads and enlargements there
were, and how many reads since the indicators of the stream were cleared. -/
structure Source where
  left : Bytes
  buffer : Bytes := []
  feof : Bool := false
  reads : Nat := 0
  since : Nat := 0
  allocs : Nat := 0

/-- What is left of the file. -/
def Source.rest (src : Source) : Bytes := src.buffer ++ src.left

/-- How `read` answers: with so many bytes at most, or it fails, because it was interrupted (`EINTR`) or for another reason. -/
inductive SysRead where
  | upto (k : Nat)
  | fail (interrupted : Bool)
  deriving DecidableEq, Repr

/-- How the system answers: the n-th read (from `calm` on none is interrupted), and whether the n-th `realloc` succeeds; `block` is the
size of the buffer of a stream, `interactive` is `yy_is_interactive` after so many reads. -/
structure YyWorld where
  read : Nat → SysRead
  memory : Nat → Bool
  calm : Nat := 0
  block : Nat := 4096
  interactive : Nat → Bool := fun _ => false

/-- `*p` -/
def Flex.cell (f : Flex) (i : Nat) : Yy Byte := yyGet (f.buf[i]?).join

/-- `*p = c` -/
def Flex.setCell (f : Flex) (i : Nat) (c : Byte) : Yy Flex :=
  if i < f.buf.length then .ok { f with buf := f.buf.set i (some c) } else .fault

/-- `yy_load_buffer_state`, config_file_lex.c:1474-1480; `yy_buf_pos` is always the begin of the block here. -/
def yyLoadBufferState (f : Flex) : Yy Flex :=
  let f := { f with nChars := f.bufChars, text := 0, cBufP := 0 }
  (f.cell 0).bind fun c => .ok { f with hold := c }

/-- `yyrestart`, config_file_lex.c:1426-1437, with `yy_init_buffer` and `yy_flush_buffer`, lines 1535-1584. The buffer is the current
one. -/
def yyRestart (f : Flex) : Yy Flex :=
  let f := { f with bufChars := 0 }
  (f.setCell 0 0).bind fun f =>
  (f.setCell 1 0).bind fun f =>
  (yyLoadBufferState { f with status := .fresh }).bind fun f => yyLoadBufferState f

/-- `YY_BUF_SIZE`, config_file_lex.c:139. -/
def yyBufSize : Nat := 16384

/-- `YY_READ_BUF_SIZE`, config_file_lex.c:645-652. -/
def yyReadBufSize : Nat := 8192

/-- The first call of `yylex`, config_file_lex.c:754-777, with `yyensure_buffer_stack`, lines 1642-1662, and `yy_create_buffer`, lines
1488-1510: three blocks, and of the one for the text only the first two bytes are written. -/
def yyInit (w : YyWorld) (lineno allocs : Nat) : Yy (Flex × Nat) :=
  if ¬ w.memory allocs then .fatal (lit "out of dynamic memory in yyensure_buffer_stack()")
  else if ¬ w.memory (allocs + 1) then .fatal (lit "out of dynamic memory in yy_create_buffer()")
  else if ¬ w.memory (allocs + 2) then .fatal (lit "out of dynamic memory in yy_create_buffer()")
  else
    let f : Flex :=
      { buf := List.replicate (yyBufSize + 2) none, bufSize := yyBufSize, bufChars := 0, status := .fresh, nChars := 0, cBufP := 0, text := 0,
        hold := 0, lastState := 0, lastCpos := none, lineno := lineno }
    (f.setCell 0 0).bind fun f =>
    (f.setCell 1 0).bind fun f =>
    (yyLoadBufferState f).bind fun f => .ok (f, allocs + 3)

/-- The loop of config_file_lex.c:799-816 from position `cp` in state `s`, over the cells from there on: the state at the end, the
position, and the last accepting state and position. -/
def yyScan : Nat → Nat → Nat × Option Nat → Cells → Yy (Nat × Nat × (Nat × Option Nat))
  | _, _, _, [] => .fault
  | _, _, _, none :: _ => .fault
  | s, cp, last, some c :: rest =>
    (yyGet yyEc[c.toNat]?).bind fun e =>
    (yyGet yyAccept[s]?).bind fun a =>
    (yyGet (yyNextState 4 s e)).bind fun s' =>
    (yyGet yyBase[s']?).bind fun b =>
      let last' := if a ≠ 0 then (s, some cp) else last
      if b ≠ 234 then yyScan s' (cp + 1) last' rest else .ok (s', cp + 1, last')

/-- The loop of `yy_get_previous_state`, config_file_lex.c:1250-1277, over the cells from `yytext_ptr` to `yy_c_buf_p`. -/
def yyPrev : Nat → Nat → Nat × Option Nat → Cells → Yy (Nat × (Nat × Option Nat))
  | s, _, last, [] => .ok (s, last)
  | _, _, _, none :: _ => .fault
  | s, cp, last, some c :: rest =>
    (yyGet (yyClass c)).bind fun e =>
    (yyGet yyAccept[s]?).bind fun a =>
    (yyGet (yyNextState 4 s e)).bind fun s' => yyPrev s' (cp + 1) (if a ≠ 0 then (s, some cp) else last) rest

/-- The cells from one position to another. -/
def Flex.between (f : Flex) (i j : Nat) : Yy Cells := if j ≤ f.buf.length then .ok ((f.buf.drop i).take (j - i)) else .fault

/-- `yy_get_previous_state`, config_file_lex.c:1250-1277: the state, and the variables changed. -/
def yyGetPreviousState (f : Flex) : Yy (Nat × Flex) :=
  (f.between f.text f.cBufP).bind fun cs =>
  (yyPrev 1 f.text (f.lastState, f.lastCpos) cs).bind fun r => .ok (r.1, { f with lastState := r.2.1, lastCpos := r.2.2 })

/-- `yy_try_NUL_trans`, config_file_lex.c:1284-1306: the state, 0 if there is none, and the variables changed. -/
def yyTryNulTrans (s : Nat) (f : Flex) : Yy (Nat × Flex) :=
  (yyGet yyAccept[s]?).bind fun a =>
  let f := if a ≠ 0 then { f with lastState := s, lastCpos := some f.cBufP } else f
  (yyGet (yyNextState 4 s 1)).bind fun s' => .ok (if s' = 110 then 0 else s', f)

/-- The loop of config_file_lex.c:1148-1149, which copies `n` bytes from `source` to `dest`, one by one. -/
def yyMove : Nat → Nat → Nat → Cells → Yy Cells
  | 0, _, _, cs => .ok cs
  | n + 1, dest, source, cs =>
    (yyGet (cs[source]?).join).bind fun c =>
      if dest < cs.length then yyMove n (dest + 1) (source + 1) (cs.set dest (some c)) else .fault

/-- The loop of config_file_lex.c:1159-1199: enlarge the block until there is room for another byte. `int` overflow is a fault. After
`realloc` the bytes behind the old ones are not written, and `yy_last_accepting_cpos` points to a block that is gone. -/
def yyGrow (w : YyWorld) (moved : Nat) : Nat → Flex → Source → Yy (Flex × Source)
  | 0, _, _ => .stuck
  | n + 1, f, src =>
    if moved + 1 < f.bufSize then .ok (f, src)
    else if f.bufSize * 2 > intMax then .fault
    else if w.memory src.allocs then
      yyGrow w moved n
        { f with bufSize := f.bufSize * 2, buf := f.buf ++ List.replicate (f.bufSize * 2 + 2 - f.buf.length) none, lastCpos := none }
        { src with allocs := src.allocs + 1 }
    else .fatal (lit "fatal error - scanner input buffer overflow")

/-- Store what was read at position `i`. -/
def yyStore : Nat → Bytes → Cells → Yy Cells
  | _, [], cs => .ok cs
  | i, c :: rest, cs => if i < cs.length then yyStore (i + 1) rest (cs.set i (some c)) else .fault

/-- `read`, for at most `size` bytes (at least one): the bytes, or whether it was interrupted. -/
def yySysRead (w : YyWorld) (size : Nat) (src : Source) : (Bytes ⊕ Bool) × Source :=
  match w.read src.reads with
  | .fail i => (.inr (i && src.reads < w.calm), { src with reads := src.reads + 1, since := src.since + 1 })
  | .upto k =>
    let m := min (max 1 size) (max 1 k)
    (.inl (src.left.take m), { src with
      left := src.left.drop m, feof := src.feof || (src.left.take m).isEmpty, reads := src.reads + 1, since := src.since + 1 })

/-- `ferror`: a read has failed since the indicators were cleared. -/
def Source.ferror (w : YyWorld) (src : Source) : Bool :=
  (List.range' (src.reads - src.since) src.since).any fun n => match w.read n with | .fail _ => true | .upto _ => false

/-- `fread(buf, 1, want, yyin)` when it has `got` already: what it has got in the end, and whether a read was interrupted or failed
otherwise (`none`: no read failed). Every round gets something, so the number of rounds, the first argument, can be `want`. -/
def yyFread (w : YyWorld) : Nat → Nat → Bytes → Source → Bytes × Option Bool × Source
  | 0, _, got, src => (got, none, src)
  | n + 1, want, got, src =>
    if want = 0 then (got, none, src)
    else if src.buffer ≠ [] then
      yyFread w n (want - src.buffer.length) (got ++ src.buffer.take want) { src with buffer := src.buffer.drop want }
    else
      match yySysRead w (if want < w.block then w.block else want - want % w.block) src with
      | (.inr i, src) => (got, some i, src)
      | (.inl c, src) =>
        if c = [] then (got, none, src)
        else yyFread w n (want - c.length) (got ++ c.take want) { src with buffer := c.drop want }

/-- `YY_INPUT` for a terminal, config_file_lex.c:671-680: at most `n` bytes until the end of the line. -/
def yyInputLine (w : YyWorld) : Nat → Bytes → Source → Yy (Bytes × Source)
  | 0, got, src => .ok (got, src)
  | n + 1, got, src =>
    match src.buffer with
    | c :: b => if c = 0x0A then .ok (got ++ [c], { src with buffer := b }) else yyInputLine w n (got ++ [c]) { src with buffer := b }
    | [] =>
      match yySysRead w w.block src with
      | (.inr _, _) => .fatal (lit "input in flex scanner failed")
      | (.inl [], src) => if src.ferror w then .fatal (lit "input in flex scanner failed") else .ok (got, src)
      | (.inl (c :: b), src) =>
        if c = 0x0A then .ok (got ++ [c], { src with buffer := b }) else yyInputLine w n (got ++ [c]) { src with buffer := b }

/-- `YY_INPUT` otherwise, config_file_lex.c:683-693. The first argument bounds the number of interruptions that can still come: when it is
0 there are none. -/
def yyInputBlock (w : YyWorld) (n : Nat) : Nat → Source → Yy (Bytes × Source)
  | 0, src =>
    let r := yyFread w n n [] src
    if r.1 = [] ∧ r.2.2.ferror w then .fatal (lit "input in flex scanner failed") else .ok (r.1, r.2.2)
  | m + 1, src =>
    let r := yyFread w n n [] src
    if r.1 = [] ∧ r.2.2.ferror w then
      if r.2.1 = some true then yyInputBlock w n m { r.2.2 with feof := false, since := 0 }
      else .fatal (lit "input in flex scanner failed")
    else .ok (r.1, r.2.2)

/-- `YY_INPUT`, config_file_lex.c:667-696: at most `n` bytes of the file. -/
def yyInput (w : YyWorld) (n : Nat) (src : Source) : Yy (Bytes × Source) :=
  if w.interactive src.reads then yyInputLine w n [] src else yyInputBlock w n (w.calm - src.reads) src

/-- The results of `yy_get_next_buffer`, config_file_lex.c:161-163. -/
inductive EobAct where
  | continueScan | endOfFile | lastMatch
  deriving DecidableEq, Repr

/-- Lines 1148-1209 of `yy_get_next_buffer`: make room and read; how many bytes there are is then in `yy_n_chars`. -/
def yyRefill (w : YyWorld) (moved : Nat) (f : Flex) (src : Source) : Yy (Flex × Source) :=
  if f.status = .eofPending then .ok ({ f with bufChars := 0, nChars := 0 }, src)
  else
    (yyGrow w moved (moved + 2) f src).bind fun r =>
    (yyInput w (min (r.1.bufSize - moved - 1) yyReadBufSize) r.2).bind fun i =>
    (yyStore moved i.1 r.1.buf).bind fun cs =>
      .ok ({ r.1 with buf := cs, nChars := i.1.length, bufChars := i.1.length }, i.2)

/-- Lines 1211-1226 of `yy_get_next_buffer`. -/
def yyNextAct (moved : Nat) (f : Flex) : Yy (EobAct × Flex) :=
  if f.nChars = 0 then
    if moved = 0 then (yyRestart f).bind fun f => .ok (.endOfFile, f)
    else .ok (.lastMatch, { f with status := .eofPending })
  else .ok (.continueScan, f)

/-- Lines 1228-1238 of `yy_get_next_buffer`. -/
def yyExtend (w : YyWorld) (moved : Nat) (f : Flex) (src : Source) : Yy (Flex × Source) :=
  if f.nChars + moved > f.bufSize then
    let n := f.nChars + moved + f.nChars / 2
    if w.memory src.allocs then
      .ok ({ f with buf := f.buf.take n ++ List.replicate (n - f.buf.length) none, bufSize := n - 2, lastCpos := none },
        { src with allocs := src.allocs + 1 })
    else .fatal (lit "out of dynamic memory in yy_get_next_buffer()")
  else .ok (f, src)

/-- `yy_get_next_buffer`, config_file_lex.c:1113-1247. -/
def yyGetNextBuffer (w : YyWorld) (f : Flex) (src : Source) : Yy (EobAct × Flex × Source) :=
  if f.cBufP > f.nChars + 1 then .fatal (lit "fatal flex scanner internal error--end of buffer missed")
  else if f.cBufP ≤ f.text then .fault
  else
    let moved := f.cBufP - f.text - 1
    (yyMove moved 0 f.text f.buf).bind fun cs =>
    (yyRefill w moved { f with buf := cs } src).bind fun r =>
    (yyNextAct moved r.1).bind fun a =>
    (yyExtend w moved a.2 r.2).bind fun r =>
    let f := { r.1 with nChars := r.1.nChars + moved }
    (f.setCell f.nChars 0).bind fun f =>
    (f.setCell (f.nChars + 1) 0).bind fun f => .ok (a.1, { f with text := 0 }, r.2)

/-- The labels of `yylex`: the begin of the `while` (line 786), `yy_match` and `yy_find_action`, with `yy_current_state`, `yy_cp` and
`yy_bp`. -/
inductive YyLabel where
  | top
  | scan (s cp bp : Nat)
  | find (s cp bp : Nat)

/-- Where `yylex` goes on, or what it returns: a token, or nothing at the end of the file. -/
inductive YyNext where
  | goto (l : YyLabel) (f : Flex) (src : Source)
  | done (t : Option Located) (f : Flex) (src : Source)

/-- The bytes of a range of cells, all of them written. -/
def yyBytes : Cells → Yy Bytes
  | [] => .ok []
  | none :: _ => .fault
  | some c :: cs => (yyBytes cs).bind fun r => .ok (c :: r)

/-- `case YY_END_OF_BUFFER` from line 985 on, config_file_lex.c:985-1091, with `yy_amount_of_matched_text`. `yywrap()` is 1. -/
def yyEobAction (w : YyWorld) (amount : Nat) (f : Flex) (src : Source) : Yy YyNext :=
  let f := if f.status = .fresh then { f with nChars := f.bufChars, status := .normal } else f
  if f.cBufP ≤ f.nChars then
    (yyGetPreviousState { f with cBufP := f.text + amount }).bind fun p =>
    (yyTryNulTrans p.1 p.2).bind fun q =>
      if q.1 ≠ 0 then
        let f := { q.2 with cBufP := q.2.cBufP + 1 }
        .ok (.goto (.scan q.1 f.cBufP f.text) f src)
      else .ok (.goto (.find p.1 q.2.cBufP q.2.text) q.2 src)
  else
    (yyGetNextBuffer w f src).bind fun r =>
      match r with
      | (.endOfFile, f, src) => .ok (.done none { f with cBufP := f.text } src)
      | (.continueScan, f, src) =>
        (yyGetPreviousState { f with cBufP := f.text + amount }).bind fun p => .ok (.goto (.scan p.1 p.2.cBufP p.2.text) p.2 src)
      | (.lastMatch, f, src) =>
        (yyGetPreviousState { f with cBufP := f.nChars }).bind fun p => .ok (.goto (.find p.1 p.2.cBufP p.2.text) p.2 src)

/-- `case YY_END_OF_BUFFER`, config_file_lex.c:976-1091. -/
def yyEndOfBuffer (w : YyWorld) (cp : Nat) (f : Flex) (src : Source) : Yy YyNext :=
  if cp ≤ f.text then .fault else (f.setCell cp f.hold).bind fun f => yyEobAction w (cp - f.text - 1) f src

/-- From one label to the next, config_file_lex.c:786-1102. -/
def yyJump (w : YyWorld) (f : Flex) (src : Source) : YyLabel → Yy YyNext
  | .top => (f.setCell f.cBufP f.hold).bind fun f => .ok (.goto (.scan 1 f.cBufP f.cBufP) f src)
  | .scan s cp bp =>
    (yyScan s cp (f.lastState, f.lastCpos) (f.buf.drop cp)).bind fun r =>
      .ok (.goto (.find r.1 r.2.1 bp) { f with lastState := r.2.2.1, lastCpos := r.2.2.2 } src)
  | .find s cp bp =>
    (yyGet yyAccept[s]?).bind fun a =>
    (if a = 0 then
      (yyGet f.lastCpos).bind fun cp => (yyGet yyAccept[f.lastState]?).bind fun a => .ok (a, cp)
     else .ok (a, cp)).bind fun m =>
    -- YY_DO_BEFORE_ACTION, lines 351-356
    (f.cell m.2).bind fun h =>
    (({ f with text := bp, hold := h, cBufP := m.2 } : Flex).setCell m.2 0).bind fun f =>
      if m.1 = 0 then
        (f.setCell m.2 f.hold).bind fun f => (yyGet f.lastCpos).bind fun cp => .ok (.goto (.find f.lastState cp bp) f src)
      else if m.1 = 24 then yyEndOfBuffer w m.2 f src
      else
        (f.between bp m.2).bind fun cs =>
        (yyBytes cs).bind fun text =>
          match flexAction text m.1 with
          | none => .fatal (lit "fatal flex scanner internal error--no action found")
          | some i =>
            let f := if m.1 = 3 then { f with lineno := f.lineno + 1 } else f
            match i with
            | none => .ok (.goto .top f src)
            | some i => .ok (.done (some { item := i, text := text, line := f.lineno }) f src)

/-- `yylex` from a label on. The first argument bounds the number of jumps. -/
def yyGo (w : YyWorld) : Nat → YyLabel → Flex → Source → Yy (Option Located × Flex × Source)
  | 0, _, _, _ => .stuck
  | n + 1, l, f, src =>
    (yyJump w f src l).bind fun r =>
      match r with
      | .goto l f src => yyGo w n l f src
      | .done t f src => .ok (t, f, src)

/-- `yylex`, config_file_lex.c:745-1104, after the first call's initialization. -/
def yylex (w : YyWorld) (n : Nat) (f : Flex) (src : Source) : Yy (Option Located × Flex × Source) := yyGo w n .top f src

end Detox
