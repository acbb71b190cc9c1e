import Verif.Spec.Config
import Verif.Spec.Options
import Verif.Model.ParseTable

/-!
# What a run of the whole program is made of
-/

set_option autoImplicit false

namespace Detox.Spec

/-- Reading files and writing messages: calls that change nothing and look at no directory. -/
inductive Harmless : Event → Prop
  | slurp (p r : Option Bytes) : Harmless (.slurp p r)
  | out (s : Bytes) : Harmless (.out s)
  | err (s : Bytes) : Harmless (.err s)

/-! ### Choosing a sequence -/

/-- The first sequence of that name. -/
def FirstNamed (n : Bytes) (qs : List Sequence) (q : Sequence) : Prop :=
  ∃ before after, qs = before ++ q :: after ∧ q.name = n ∧ ∀ p ∈ before, p.name ≠ n

/-- The sequence to use: the one of the given name; if none is given `default`, or else the first. -/
def Chosen (qs : List Sequence) : Option Bytes → Sequence → Prop
  | some n, q => FirstNamed n qs q
  | none, q => FirstNamed (lit "default") qs q ∨ ((∀ p ∈ qs, p.name ≠ lit "default") ∧ qs.head? = some q)

/-! ### Finding tables -/

/-- The tables that are compiled in, by name. -/
inductive BuiltinNamed : Bytes → Table → Prop
  | iso8859_1 : BuiltinNamed (lit "iso8859_1") load_builtin_iso8859_1_table
  | unicode : BuiltinNamed (lit "unicode") load_builtin_unicode_table
  | safe : BuiltinNamed (lit "safe") load_builtin_safe_table
  | cp1252 : BuiltinNamed (lit "cp1252") load_builtin_cp1252_table

/-- The table a cleaner uses if it is given none. -/
inductive UsualTable : Cleaner → Bytes → Prop
  | iso8859_1 : UsualTable .iso8859_1 (lit "iso8859_1")
  | utf8 : UsualTable .utf8 (lit "unicode")
  | safe : UsualTable .safe (lit "safe")

/-- Where its file is looked for. -/
def tablePaths (datadir : Option Bytes) (name : Bytes) : List Bytes :=
  inDir datadir (lit "/detox/" ++ name ++ lit ".tbl") ++ short (lit "/usr/share/detox/" ++ name ++ lit ".tbl") ++
    short (lit "/usr/local/share/detox/" ++ name ++ lit ".tbl")

/-- The contents of a file (`none`: cannot be read) are not a table. -/
def NoTable (ctype : Bytes) (r : Option Bytes) : Prop := ∀ text, r = some text → parseTableContent ctype text = none

/-- `TableFor ctype datadir f reads t`: loading the table of `f` reads these files and gives `t`. -/
inductive TableFor (ctype : Bytes) (datadir : Option Bytes) (f : Filter) : List (Bytes × Option Bytes) → Option Table → Prop
  /-- cleaners without table -/
  | untabled : (∀ n, ¬ UsualTable f.cleaner n) → TableFor ctype datadir f [] none
  /-- `builtin "cp1252";` -/
  | builtin (n b : Bytes) (t : Table) : UsualTable f.cleaner n → f.builtin = some b → BuiltinNamed b t →
      TableFor ctype datadir f [] (some t)
  /-- `filename "my.tbl";` -/
  | filename (n path text : Bytes) (t : Table) : UsualTable f.cleaner n → f.builtin = none → f.filename = some path →
      parseTableContent ctype text = some t → TableFor ctype datadir f [(path, some text)] (some t)
  /-- neither: the first of the usual places with a table in it -/
  | found (n path text : Bytes) (t : Table) (before after : List Bytes) (reads : List (Bytes × Option Bytes)) :
      UsualTable f.cleaner n → f.builtin = none → f.filename = none → tablePaths datadir n = before ++ path :: after →
      reads.map Prod.fst = before → (∀ x ∈ reads, NoTable ctype x.2) → parseTableContent ctype text = some t →
      TableFor ctype datadir f (reads ++ [(path, some text)]) (some t)
  /-- none there: the one compiled in -/
  | fallback (n : Bytes) (t : Table) (reads : List (Bytes × Option Bytes)) :
      UsualTable f.cleaner n → f.builtin = none → f.filename = none → reads.map Prod.fst = tablePaths datadir n →
      (∀ x ∈ reads, NoTable ctype x.2) → BuiltinNamed n t → TableFor ctype datadir f reads (some t)

/-- The tables of a list of filters, one after the other. -/
inductive TablesFor (ctype : Bytes) (datadir : Option Bytes) : List Filter → List (Bytes × Option Bytes) → List Filter → Prop
  | nil : TablesFor ctype datadir [] [] []
  | cons (f : Filter) (r rs : List (Bytes × Option Bytes)) (t : Option Table) (fs fs' : List Filter) :
      TableFor ctype datadir f r t → TablesFor ctype datadir fs rs fs' →
      TablesFor ctype datadir (f :: fs) (r ++ rs) ({ f with table := t.or f.table } :: fs')

/-- The reads are those of fixed files. -/
def ReadsFrom (files : Bytes → Option Bytes) (reads : List (Bytes × Option Bytes)) : Prop := ∀ x ∈ reads, x.2 = files x.1

end Detox.Spec
