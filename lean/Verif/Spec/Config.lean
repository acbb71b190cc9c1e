import Verif.Model.Config
import Verif.Spec.TableFile

/-!
# Config files: grammar, meaning, layout

The grammar is the one of `/repo/src/config_file_yacc.y:73-173`, production by production; the layout is what
`/repo/man/detoxrc.5` calls "C-like".
-/

set_option autoImplicit false

namespace Detox.Spec

/-! ### Grammar -/

/-- A rule of a config file. -/
inductive Rule where
  | sequence (name : Bytes) (filters : List Filter)
  | ignore (files : List Bytes)
  deriving DecidableEq

/-- `string` -/
inductive StringG : Tok → Bytes → Prop
  | qstring (s : Bytes) : StringG (.qstring s) s
  | ident (s : Bytes) : StringG (.ident s) s

/-- The keywords of the three methods that have a table. -/
inductive TabledG : Kw → Cleaner → Prop
  | iso8859_1 : TabledG .iso8859_1 .iso8859_1
  | utf8 : TabledG .utf8 .utf8
  | safe : TabledG .safe .safe

/-- `method` -/
inductive MethodG : List Tok → Filter → Prop
  | uncgi : MethodG [.kw .uncgi, .eol] { cleaner := .uncgi }
  | lower : MethodG [.kw .lower, .eol] { cleaner := .lower }
  | wipeup : MethodG [.kw .wipeup, .eol] { cleaner := .wipeup }
  | wipeupBlock : MethodG [.kw .wipeup, .opn, .cls, .eol] { cleaner := .wipeup }
  | wipeupTrailing : MethodG [.kw .wipeup, .opn, .kw .removeTrailing, .eol, .cls, .eol]
      { cleaner := .wipeup, removeTrailing := true }
  | tabled (k : Kw) (c : Cleaner) : TabledG k c → MethodG [.kw k, .eol] { cleaner := c }
  | tabledBlock (k : Kw) (c : Cleaner) : TabledG k c → MethodG [.kw k, .opn, .cls, .eol] { cleaner := c }
  | tabledFile (k : Kw) (c : Cleaner) (t : Tok) (s : Bytes) : TabledG k c → StringG t s →
      MethodG [.kw k, .opn, .kw .filename, t, .eol, .cls, .eol] { cleaner := c, filename := some s }
  | tabledBuiltin (k : Kw) (c : Cleaner) (t : Tok) (s : Bytes) : TabledG k c → StringG t s →
      MethodG [.kw k, .opn, .kw .builtin, t, .eol, .cls, .eol] { cleaner := c, builtin := some s }
  | maxLength : MethodG [.kw .maxLength, .eol] { cleaner := .maxLength }
  | maxLengthBlock : MethodG [.kw .maxLength, .opn, .cls, .eol] { cleaner := .maxLength }
  | maxLengthValue (n : Nat) : MethodG [.kw .maxLength, .opn, .kw .length, .nvalue n, .eol, .cls, .eol]
      { cleaner := .maxLength, maxLength := n }

/-- `method_list` -/
inductive MethodsG : List Tok → List Filter → Prop
  | one (m : List Tok) (f : Filter) : MethodG m f → MethodsG m [f]
  | more (ms m : List Tok) (fs : List Filter) (f : Filter) : MethodsG ms fs → MethodG m f → MethodsG (ms ++ m) (fs ++ [f])

/-- `ignore_list` -/
inductive IgnoresG : List Tok → List Bytes → Prop
  | one (t : Tok) (s : Bytes) : StringG t s → IgnoresG [.kw .filename, t, .eol] [s]
  | more (is : List Tok) (ws : List Bytes) (t : Tok) (s : Bytes) : IgnoresG is ws → StringG t s →
      IgnoresG (is ++ [.kw .filename, t, .eol]) (ws ++ [s])

/-- `rule` -/
inductive RuleG : List Tok → Rule → Prop
  | sequence (t : Tok) (name : Bytes) (ms : List Tok) (fs : List Filter) : StringG t name → MethodsG ms fs →
      RuleG ([.kw .sequence, t, .opn] ++ ms ++ [.cls, .eol]) (.sequence name fs)
  | ignore (is : List Tok) (ws : List Bytes) : IgnoresG is ws → RuleG ([.kw .ignore, .opn] ++ is ++ [.cls, .eol]) (.ignore ws)

/-- `configfile` -/
inductive ConfigG : List Tok → List Rule → Prop
  | nil : ConfigG [] []
  | more (ts r : List Tok) (rs : List Rule) (rule : Rule) : ConfigG ts rs → RuleG r rule → ConfigG (ts ++ r) (rs ++ [rule])

/-! ### Meaning -/

/-- The sequences a list of rules defines, in order. -/
def definitions (file : Bytes) : List Rule → List Sequence
  | [] => []
  | .sequence name fs :: rs => { name := name, filters := fs, sourceFilename := some file } :: definitions file rs
  | .ignore _ :: rs => definitions file rs

/-- The names a list of rules says to ignore, in order. -/
def ignored : List Rule → List Bytes
  | [] => []
  | .sequence _ _ :: rs => ignored rs
  | .ignore ws :: rs => ws ++ ignored rs

/-- The distinct elements in the order of their first occurrences. -/
def firsts : List Bytes → List Bytes
  | [] => []
  | x :: xs => x :: (firsts xs).filter (· ≠ x)

/-- The last definition of a name. -/
def lastDefinition (ds : List Sequence) (name : Bytes) : Option Sequence := ds.reverse.find? (·.name = name)

/-- The sequences in effect after a series of definitions: one per name, ordered by first definition, each as last defined. -/
def inEffect (ds : List Sequence) : List Sequence := (firsts (ds.map (·.name))).filterMap (lastDefinition ds)

/-! ### Layout -/

/-- Text between tokens: blanks, tabs, newlines, comments up to the end of the line. -/
inductive Gap : Bytes → Prop
  | nil : Gap []
  | blank (c : Byte) (g : Bytes) : c = 0x20 ∨ c = 0x09 ∨ c = 0x0A → Gap g → Gap (c :: g)
  | comment (text g : Bytes) : (0x0A : Byte) ∉ text → Gap g → Gap (0x23 :: text ++ 0x0A :: g)

/-- How a token may be written. -/
inductive Spelling : Tok → Bytes → Prop
  | kw (k : Kw) (w : Bytes) : (w.map fold, k) ∈ keywords → Spelling (.kw k) w
  | opn : Spelling .opn (lit "{")
  | cls : Spelling .cls (lit "}")
  | eol : Spelling .eol (lit ";")
  | nvalue (d : Bytes) : d ≠ [] → (∀ c ∈ d, isDigitByte c = true) → decimal d ≤ 2147483647 → Spelling (.nvalue (decimal d)) d
  | ident (c : Byte) (s : Bytes) : isLetter c = true → (∀ x ∈ s, isWordByte x = true) → (∀ k, ((c :: s).map fold, k) ∉ keywords) →
      Spelling (.ident (c :: s)) (c :: s)
  | qstring (s : Bytes) : (0x22 : Byte) ∉ s → (0x0A : Byte) ∉ s → (0x00 : Byte) ∉ s → Spelling (.qstring s) (lit "\"" ++ s ++ lit "\"")

/-- A token ends where the following text begins: words do not run into each other. -/
def Ends : Tok → Bytes → Prop
  | .kw _, rest => ∀ c, rest.head? = some c → isWordByte c = false
  | .ident _, rest => ∀ c, rest.head? = some c → isWordByte c = false
  | .nvalue _, rest => ∀ c, rest.head? = some c → isDigitByte c = false
  | _, _ => True

/-- A text that consists of these tokens, in any layout. -/
inductive Spells : List Tok → Bytes → Prop
  | done (g : Bytes) : Gap g → Spells [] g
  | comment (g text : Bytes) : Gap g → (0x0A : Byte) ∉ text → Spells [] (g ++ 0x23 :: text)
  | tok (g : Bytes) (t : Tok) (w : Bytes) (ts : List Tok) (rest : Bytes) : Gap g → Spelling t w → Ends t rest → Spells ts rest →
      Spells (t :: ts) (g ++ w ++ rest)

/-- The text is written in the documented syntax and says these rules. -/
def Means (text : Bytes) (rs : List Rule) : Prop := ∃ ts, Spells ts text ∧ ConfigG ts rs

/-! ### Search -/

/-- The files a run opened for reading, and their contents (`none`: could not be opened). -/
def filesRead : List Event → List (Bytes × Option Bytes)
  | [] => []
  | .slurp (some p) r :: tr => (p, r) :: filesRead tr
  | _ :: tr => filesRead tr

/-- A path that fits the buffer. -/
def short (path : Bytes) : List Bytes := if path.length < 256 then [path] else []

/-- A file in a directory that may not be given. -/
def inDir (dir : Option Bytes) (file : Bytes) : List Bytes :=
  match dir with
  | some d => short (d ++ file)
  | none => []

/-- The system-wide config files, most preferred first. -/
def systemFiles (E : ConfigEnv) : List Bytes :=
  inDir E.sysconfdir (lit "/detoxrc") ++ [lit "/etc/detoxrc"] ++ [lit "/usr/local/etc/detoxrc"]

/-- The config files of the user, in the order they are read. -/
def userFiles (E : ConfigEnv) : List Bytes := inDir E.home (lit "/.detoxrc") ++ inDir E.xdg (lit "/detox/detoxrc")

/-- Trying one file after the other until one exists. -/
inductive FirstOf : List Bytes → List (Bytes × Option Bytes) → List (Bytes × Bytes) → Prop
  | nothing : FirstOf [] [] []
  | found (p : Bytes) (ps : List Bytes) (text : Bytes) : FirstOf (p :: ps) [(p, some text)] [(p, text)]
  | missing (p : Bytes) (ps : List Bytes) (reads : List (Bytes × Option Bytes)) (r : List (Bytes × Bytes)) :
      FirstOf ps reads r → FirstOf (p :: ps) ((p, none) :: reads) r

/-- Trying all files. -/
inductive AllOf : List Bytes → List (Bytes × Option Bytes) → List (Bytes × Bytes) → Prop
  | nothing : AllOf [] [] []
  | found (p : Bytes) (ps : List Bytes) (text : Bytes) (reads : List (Bytes × Option Bytes)) (r : List (Bytes × Bytes)) :
      AllOf ps reads r → AllOf (p :: ps) ((p, some text) :: reads) ((p, text) :: r)
  | missing (p : Bytes) (ps : List Bytes) (reads : List (Bytes × Option Bytes)) (r : List (Bytes × Bytes)) :
      AllOf ps reads r → AllOf (p :: ps) ((p, none) :: reads) r

/-! ### Writing -/

/-- A string that can be written in quotes. -/
def Quotable (s : Bytes) : Prop := (0x22 : Byte) ∉ s ∧ (0x0A : Byte) ∉ s ∧ (0x00 : Byte) ∉ s

/-- The filters that can be written in a config file. -/
inductive Writable : Filter → Prop
  | uncgi : Writable { cleaner := .uncgi }
  | lower : Writable { cleaner := .lower }
  | wipeup (trailing : Bool) : Writable { cleaner := .wipeup, removeTrailing := trailing }
  | maxLength (n : Nat) : n ≤ 2147483647 → Writable { cleaner := .maxLength, maxLength := n }
  | tabled (k : Kw) (c : Cleaner) : TabledG k c → Writable { cleaner := c }
  | filename (k : Kw) (c : Cleaner) (s : Bytes) : TabledG k c → Quotable s → Writable { cleaner := c, filename := some s }
  | builtin (k : Kw) (c : Cleaner) (s : Bytes) : TabledG k c → Quotable s → Writable { cleaner := c, builtin := some s }

/-- The options of a method with a table. -/
def tableToks (f : Filter) : List Tok :=
  match f.filename, f.builtin with
  | some s, _ => [.opn, .kw .filename, .qstring s, .eol, .cls, .eol]
  | none, some s => [.opn, .kw .builtin, .qstring s, .eol, .cls, .eol]
  | none, none => [.eol]

/-- A filter, written as a method. -/
def methodToks (f : Filter) : List Tok :=
  match f.cleaner with
  | .uncgi => [.kw .uncgi, .eol]
  | .lower => [.kw .lower, .eol]
  | .wipeup => if f.removeTrailing then [.kw .wipeup, .opn, .kw .removeTrailing, .eol, .cls, .eol] else [.kw .wipeup, .eol]
  | .maxLength => [.kw .maxLength, .opn, .kw .length, .nvalue f.maxLength, .eol, .cls, .eol]
  | .iso8859_1 => .kw .iso8859_1 :: tableToks f
  | .utf8 => .kw .utf8 :: tableToks f
  | .safe => .kw .safe :: tableToks f

/-- A sequence, written as a rule. -/
def sequenceToks (q : Sequence) : List Tok :=
  [.kw .sequence, .qstring q.name, .opn] ++ q.filters.flatMap methodToks ++ [.cls, .eol]

/-- A list of names to ignore, written as a rule. -/
def ignoreToks (ws : List Bytes) : List Tok :=
  if ws = [] then [] else [.kw .ignore, .opn] ++ ws.flatMap (fun s => [.kw .filename, .qstring s, .eol]) ++ [.cls, .eol]

/-- A configuration in writing. -/
def configToks (qs : List Sequence) (ws : List Bytes) : List Tok := qs.flatMap sequenceToks ++ ignoreToks ws

/-- A number in decimal; the first argument bounds the digits. -/
def digitsOf : Nat → Nat → Bytes
  | 0, _ => []
  | k + 1, n => (if n < 10 then [] else digitsOf k (n / 10)) ++ [0x30 + UInt8.ofNat (n % 10)]

/-- One way to write a token. -/
def writeTok : Tok → Bytes
  | .kw .builtin => lit "builtin"
  | .kw .filename => lit "filename"
  | .kw .ignore => lit "ignore"
  | .kw .iso8859_1 => lit "iso8859_1"
  | .kw .length => lit "length"
  | .kw .lower => lit "lower"
  | .kw .maxLength => lit "max_length"
  | .kw .removeTrailing => lit "remove_trailing"
  | .kw .safe => lit "safe"
  | .kw .sequence => lit "sequence"
  | .kw .uncgi => lit "uncgi"
  | .kw .utf8 => lit "utf_8"
  | .kw .wipeup => lit "wipeup"
  | .opn => lit "{"
  | .cls => lit "}"
  | .eol => lit ";"
  | .nvalue n => digitsOf (n + 1) n
  | .ident s => s
  | .qstring s => lit "\"" ++ s ++ lit "\""

/-- One way to write a list of tokens: a blank after each. -/
def writeToks (ts : List Tok) : Bytes := ts.flatMap fun t => writeTok t ++ lit " "

/-- A configuration that can be written: at least one filter per sequence, no two sequences of the same name. -/
structure WritableConfig (qs : List Sequence) (ws : List Bytes) : Prop where
  names : ∀ q ∈ qs, Quotable q.name
  filters : ∀ q ∈ qs, q.filters ≠ [] ∧ ∀ f ∈ q.filters, Writable f
  distinct : (qs.map (·.name)).Nodup
  ignore : ∀ w ∈ ws, Quotable w

end Detox.Spec
