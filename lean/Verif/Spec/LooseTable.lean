import Verif.Spec.TableFile

/-!
# Specification: table files in which a quoted word after `default` or `start` may be empty

detox.tbl(5) allows `default ""`; the same can be written after `start`.
-/

set_option autoImplicit false

namespace Detox.Spec

/-- `line` is the keyword `kw`, spelled `k`, followed by an empty quoted word and a remark. -/
inductive EmptyWordLine (kw : Bytes) : Bytes → Bytes → Prop
  | mk (ws k ws' : Bytes) (q : Byte) (remark : Bytes) : Blanks ws → k.map fold = kw → Blanks ws' → ws' ≠ [] →
      q = 0x22 ∨ q = 0x27 → EmptyWordLine kw (ws ++ k ++ ws' ++ q :: q :: remark) k

/-- The lines of a file, in which `default ""` and `start ""` may occur. Each of them is listed as if its
own keyword, as spelled there, were the word. -/
inductive LooseLines : List Bytes → List Section → Prop
  | nil : LooseLines [] []
  | cons (ls : List Bytes) (sec : Section) (rest : List Bytes) (secs : List Section) :
      Section.Text ls sec → LooseLines rest secs → LooseLines (ls ++ rest) (sec :: secs)
  | emptyDefault (l k : Bytes) (rest : List Bytes) (secs : List Section) :
      EmptyWordLine kwDefault l k → LooseLines rest secs → LooseLines (l :: rest) (.dflt k :: secs)
  | emptyStart (l k : Bytes) (body : List Bytes) (rows : List (Nat × Bytes)) (e : Bytes)
      (rest : List Bytes) (secs : List Section) :
      EmptyWordLine kwStart l k → Entries body rows → KeywordLine kwEnd e → LooseLines rest secs →
      LooseLines (l :: body ++ [e] ++ rest) (.langBlock k rows :: secs)

end Detox.Spec
