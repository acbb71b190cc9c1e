import Verif.Model.Stream
import Verif.Model.Warnings

/-!
# A table file read piece by piece — `/repo/src/parse_table.c`

In `Model/ParseTable.lean` a table file is there as a whole, and `stat` gives its true size. Here the size is whatever `stat` says
(0 for a pipe, something else for a file that is being written), and the text comes in pieces, as `read` delivers them. A read may fail.
-/

set_option autoImplicit false

namespace Detox

/-- Number of rows to allocate, parse_table.c:54-67: the value of `size`, an `int`, to which a larger `off_t` is cut (as gcc does). -/
def tableRowsOf (stSize : Int) : Int :=
  let size := if stSize > 0 then intOfLong (stSize / lineLength) else 0
  if size < 500 then 500 else size

/-- The loop of `parse_table`, parse_table.c:86-195, and what follows it. The first argument bounds the rounds. -/
def tableLoop (ctype path : Bytes) : Nat → Bool × Table → Stream → Flow (Option Table)
  | 0, _, _ => .stuck
  | n + 1, state, st =>
    (streamGets (some path) 1023 [] st).bind fun r =>
      match r.1 with
      | none => .ret (some state.2)
      | some line =>
        match parseTableLine ctype state (cstr line) with
        | some state' => tableLoop ctype path n state' r.2
        | none =>
          match insideLine (cstr line) with
          | .row k d => .err (rowMessage k d) (.ret none)
          | _ => .ret none

/-- `parse_table`, parse_table.c:27-202. `stSize` is the answer of `stat`: the size, or failure. -/
def parseTableStream (ctype : Bytes) (rounds : Nat) (path : Bytes) (stSize : Option Int) : Flow (Option Table) :=
  match stSize with
  | none => .ret none
  | some size => .fopen path fun ok =>
    if ok then tableLoop ctype path rounds (false, tableInit (tableRowsOf size)) ⟨[], false⟩
    else .err (lit "Unable to open translation table: ") (.ret none)

/-- The result of `parse_table`, parse_table.c:27-202, for a file that holds `content` when `stat` says that it has `stSize` bytes. -/
def parseTableSized (ctype : Bytes) (stSize : Int) (content : Bytes) : Option Table :=
  (parseTableLines ctype (false, tableInit (tableRowsOf stSize)) (fileLines content.length content)).map Prod.snd

end Detox
