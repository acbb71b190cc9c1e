import Verif.Lemmas.Denote
import Verif.Lemmas.Pieces
import Verif.Props.EndToEnd

/-!
# C96: a configuration means what it says, from the texts of the files to the new names
-/

set_option autoImplicit false

namespace Detox
open Spec

/-- **C96.** Whatever is written, it can say only one thing. -/
theorem C96_only_one_meaning {P : Platform} {locale : Bytes} {datadir : Option Bytes} {files : Bytes → Option Bytes} {fs : List Filter}
    {s a b : Bytes} (h : FiltersSay P locale datadir files fs s a) (h' : FiltersSay P locale datadir files fs s b) : a = b :=
  filtersSay_unique h h'

theorem firstNamed_unique {n : Bytes} {qs : List Sequence} {p q : Sequence} (h : FirstNamed n qs p) (h' : FirstNamed n qs q) : p = q := by
  obtain ⟨a, b, h1, h2, h3⟩ := h
  obtain ⟨a', b', h1', h2', h3'⟩ := h'
  rw [h1] at h1'
  rcases List.append_eq_append_iff.1 h1' with ⟨as, ha, hb⟩ | ⟨bs, ha, hb⟩
  · cases as with
    | nil => exact (List.cons.inj hb).1
    | cons x as =>
      have := h3' p (by rw [ha, (List.cons.inj hb).1]; simp)
      exact absurd h2 this
  · cases bs with
    | nil => exact (List.cons.inj hb).1.symm
    | cons x bs =>
      have := h3 q (by rw [ha, (List.cons.inj hb).1]; simp)
      exact absurd h2' this

theorem chosen_unique {qs : List Sequence} {n : Option Bytes} {p q : Sequence} (h : Chosen qs n p) (h' : Chosen qs n q) : p = q := by
  cases n with
  | some n => exact firstNamed_unique h h'
  | none =>
    rcases h with h | ⟨h1, h2⟩
    · rcases h' with h' | ⟨h1', _⟩
      · exact firstNamed_unique h h'
      · obtain ⟨a, b, e1, e2, _⟩ := h
        exact absurd e2 (h1' p (by rw [e1]; simp))
    · rcases h' with h' | ⟨_, h2'⟩
      · obtain ⟨a, b, e1, e2, _⟩ := h'
        exact absurd e2 (h1 q (by rw [e1]; simp))
      · rw [h2] at h2'
        exact Option.some.inj h2'

/-- **C96.** Files with these contents, config files that are well written, and tables that are well written: whenever detox renames
a file, the new name is what the sequence asked for says, filter by filter, by the texts of the tables. -/
theorem C96_renames_as_written {P : Platform} (hP : P.Benign) {I : Invocation} {fuel : Nat} {ss : List Setting} {ws : List Bytes}
    (hc : CommandLine I.posixlyCorrect I.args ss ws) {tr : List Event} {out : Outcome Unit} (h : Trace (detoxMain P I fuel) tr out)
    {files : Bytes → Option Bytes} (hfiles : ∀ p r, Event.slurp (some p) r ∈ tr → r = files p)
    {conf : List (Bytes × Bytes × List Rule)} (hne : conf ≠ [])
    (hconf : (conf.map fun f => (f.1, f.2.1)) = configsInEffect I.config (lastConfig ss) files) (hm : ∀ f ∈ conf, Means f.2.1 f.2.2)
    {q : Sequence} (hq : Chosen (inEffect (conf.flatMap fun f => definitions f.1 f.2.2)) (requested I ss) q)
    (ht : ∀ f ∈ q.filters, ∀ n, UsualTable f.cleaner n → ∃ m, TableSays I.ctype I.datadir files f m)
    {old new : Bytes} {ok : Bool} (hmem : Event.rename old new ok ∈ tr) (hold : NulFree old) :
    ∃ dir name cleaned, SplitsAs old dir name ∧ new = dir ++ cleaned ∧ cleaned ≠ name ∧
      FiltersSay P I.ctype I.datadir files q.filters name cleaned := by
  obtain ⟨pre, post, htr⟩ := List.append_of_mem hmem
  obtain ⟨c, q0, q', r1, r2, rest, hp, h1, h2, h3, dir, name, cleaned, _, _, _, _, _, a, b, c', d, _⟩ :=
    C66_renames_are_guarded hc h pre post old new ok htr
  refine ⟨dir, name, cleaned, a, b, c', ?_⟩
  have hsub : ∀ r, (∀ e ∈ r, e ∈ tr) → ReadsFrom files (filesRead r) := fun r hr x hx => hfiles _ _ (hr _ (filesRead_mem hx))
  obtain ⟨h4, _⟩ := config_loaded h1 (hsub r1 (fun e he => by rw [htr, hp]; simp [he])) hne hconf hm
  rw [h4] at h2
  cases chosen_unique h2 hq
  obtain ⟨h5, _⟩ := C67_tables_loaded h3
  exact filters_say hP h5 (hsub r2 (fun e he => by rw [htr, hp]; simp [he])) ht
    (fun hz => hold (by rw [a.1]; exact List.mem_append_right _ hz)) d

/-! ### Chained tables -/

/-- **C96.** Two `safe` tables, one after the other, the first without default, its translations left alone by the second: a
character has the translation of the first table that has one. -/
theorem C96_chained_safe_tables {P : Platform} {locale : Bytes} {datadir : Option Bytes} {files : Bytes → Option Bytes} {f g : Filter}
    (hf : f.cleaner = .safe) (hg : g.cleaner = .safe) {m m' : TableText} (hm : TableSays locale datadir files f m)
    (hm' : TableSays locale datadir files g m') (hd : m.dflt = none)
    (hfix : ∀ k d, m.row k = some d → ∀ x ∈ d, m'.says (safeCode P x) [x] = [x]) (s : Bytes) :
    FiltersSay P locale datadir files [f, g] s
      (s.flatMap fun c => match (safeCode P c).bind m.row with
        | some d => d
        | none => m'.says (safeCode P c) [c]) := by
  have key : (s.flatMap fun c => match (safeCode P c).bind m.row with
        | some d => d
        | none => m'.says (safeCode P c) [c]) = ((s.flatMap fun c => m.says (safeCode P c) [c]).flatMap fun c => m'.says (safeCode P c) [c]) := by
    rw [List.flatMap_assoc]
    refine congrArg (List.flatMap · s) (funext fun c => ?_)
    cases hk : (safeCode P c).bind m.row with
    | none =>
      have : m.says (safeCode P c) [c] = [c] := by
        unfold TableText.says
        rw [hk, hd]
        rfl
      simp [this]
    | some d =>
      have : m.says (safeCode P c) [c] = d := by
        unfold TableText.says
        rw [hk]
      rw [this]
      obtain ⟨k, _, hk'⟩ := Option.bind_eq_some_iff.1 hk
      have hx := hfix k d hk'
      clear hk hk' this
      induction d with
      | nil => rfl
      | cons x d ih =>
        rw [List.flatMap_cons, hx x (by simp), ← ih (fun y hy => hx y (by simp [hy]))]
        rfl
  rw [key]
  exact .cons _ _ _ _ _ (.safe m hf hm) (.cons _ _ _ _ _ (.safe m' hg hm') (.nil _))

/-- **C96.** The same for `iso8859_1` tables; it is enough that the translations of the first are ASCII. -/
theorem C96_chained_iso_tables {P : Platform} {locale : Bytes} {datadir : Option Bytes} {files : Bytes → Option Bytes} {f g : Filter}
    (hf : f.cleaner = .iso8859_1) (hg : g.cleaner = .iso8859_1) {m m' : TableText} (hm : TableSays locale datadir files f m)
    (hm' : TableSays locale datadir files g m') (hd : m.dflt = none) (hfix : ∀ k d, m.row k = some d → ∀ x ∈ d, x.toNat < 128) (s : Bytes) :
    FiltersSay P locale datadir files [f, g] s
      (s.flatMap fun c => if c.toNat < 128 then [c] else
        match m.row c.toNat with
        | some d => d
        | none => m'.says (some c.toNat) [c]) := by
  have key : (s.flatMap fun c => if c.toNat < 128 then [c] else
        match m.row c.toNat with
        | some d => d
        | none => m'.says (some c.toNat) [c]) =
      ((s.flatMap fun c => if c.toNat < 128 then [c] else m.says (some c.toNat) [c]).flatMap
        fun c => if c.toNat < 128 then [c] else m'.says (some c.toNat) [c]) := by
    rw [List.flatMap_assoc]
    refine congrArg (List.flatMap · s) (funext fun c => ?_)
    by_cases hc : c.toNat < 128
    · simp [hc]
    · simp only [hc, if_false]
      conv => rhs; unfold TableText.says
      simp only [Option.bind_some]
      cases hk : m.row c.toNat with
      | none => simp [hd, hc, TableText.says]
      | some d =>
        have hx := hfix _ d hk
        clear hk
        simp only
        induction d with
        | nil => rfl
        | cons x d ih =>
          rw [List.flatMap_cons, ← ih (fun y hy => hx y (by simp [hy])), if_pos (hx x (by simp))]
          rfl
  rw [key]
  exact .cons _ _ _ _ _ (.iso8859_1 m hf hm) (.cons _ _ _ _ _ (.iso8859_1 m' hg hm') (.nil _))

/-! ### Signed characters -/

/-- **C96.** Where `char` is signed, the rows of a `safe` table for bytes from 0x80 mean nothing. -/
theorem C96_signed_char_ignores_rows {P : Platform} (hP : P.charSigned = true) {locale : Bytes} {datadir : Option Bytes}
    {files : Bytes → Option Bytes} {f : Filter} (hf : f.cleaner = .safe) {m : TableText} (hm : TableSays locale datadir files f m) {s out : Bytes}
    (h : FilterSays P locale datadir files f s out) :
    out = s.flatMap fun c => if c.toNat < 128 then m.says (some c.toNat) [c] else m.dflt.getD [c] := by
  rw [filterSays_unique h (.safe m hf hm)]
  refine congrArg (List.flatMap · s) (funext fun c => ?_)
  unfold safeCode TableText.says
  by_cases hc : c.toNat < 128
  · have : ¬ (P.charSigned = true ∧ 128 ≤ c.toNat) := by omega
    rw [if_pos hc, if_neg this]
  · rw [if_neg hc, if_pos ⟨hP, by omega⟩]
    rfl

/-! ### The example of the manual -/

/-- The table of `/repo/man/detox.tbl.5:52-86`, line by line. -/
def manualLines : List Bytes :=
  [lit "#",
   lit "# This is a simple example of a \"safe\" table.  It only translates 4 characters.",
   lit "#",
   lit "# The default is commented out, so any character that is not in this table will",
   lit "# be ignored.",
   lit "#",
   lit "",
   lit "# default   _",
   lit "",
   lit "#",
   lit "# This is the main replacement block.  Each line specifies a character and a",
   lit "# string to replace it with.",
   lit "#",
   lit "",
   lit "start",
   lit "0x09\t_tab_\t\t# comments work on lines, too",
   lit "0x24\t_dollar_\t# $$$",
   lit "0x26\t_and_\t\t# ampersand",
   lit "end",
   lit "",
   lit "#",
   lit "# Starts an optional, language-specific translation block.  detox will read",
   lit "# your locale and load the block if the word after start matches the language",
   lit "# portion of your locale.",
   lit "#",
   lit "# In the example here, the character $ will be replaced with \"_money_\" if the",
   lit "# user is working in English.  If the user is using a different language, $",
   lit "# will be replaced with the value configured in the previous block, \"_dollar_\".",
   lit "#",
   lit "",
   lit "start en",
   lit "0x24\t_money_\t\t# money money",
   lit "end",
   lit "",
   lit "# EOF"]

def manualTable : Bytes := (manualLines.map (· ++ [0x0A])).flatten

def manualSections : List Section :=
  [.note, .note, .note, .note, .note, .note, .note, .note, .note, .note, .note, .note, .note, .note, .block [(0x09, lit "_tab_"), (0x24, lit "_dollar_"), (0x26, lit "_and_")], .note, .note, .note, .note, .note, .note, .note, .note, .note, .note, .note, .langBlock (lit "en") [(0x24, lit "_money_")], .note, .note]

theorem manual_lines : FileLines manualLines manualSections := by
  refine .cons [lit "#"] _ _ _ (.note _ (.comment _)) ?_
  refine .cons [lit "# This is a simple example of a \"safe\" table.  It only translates 4 characters."] _ _ _ (.note _ (.comment _)) ?_
  refine .cons [lit "#"] _ _ _ (.note _ (.comment _)) ?_
  refine .cons [lit "# The default is commented out, so any character that is not in this table will"] _ _ _ (.note _ (.comment _)) ?_
  refine .cons [lit "# be ignored."] _ _ _ (.note _ (.comment _)) ?_
  refine .cons [lit "#"] _ _ _ (.note _ (.comment _)) ?_
  refine .cons [lit ""] _ _ _ (.note _ (.blank [] (by decide +kernel))) ?_
  refine .cons [lit "# default   _"] _ _ _ (.note _ (.comment _)) ?_
  refine .cons [lit ""] _ _ _ (.note _ (.blank [] (by decide +kernel))) ?_
  refine .cons [lit "#"] _ _ _ (.note _ (.comment _)) ?_
  refine .cons [lit "# This is the main replacement block.  Each line specifies a character and a"] _ _ _ (.note _ (.comment _)) ?_
  refine .cons [lit "# string to replace it with."] _ _ _ (.note _ (.comment _)) ?_
  refine .cons [lit "#"] _ _ _ (.note _ (.comment _)) ?_
  refine .cons [lit ""] _ _ _ (.note _ (.blank [] (by decide +kernel))) ?_
  refine .cons [lit "start", lit "0x09\t_tab_\t\t# comments work on lines, too", lit "0x24\t_dollar_\t# $$$", lit "0x26\t_and_\t\t# ampersand", lit "end"] _ _ _
    (.block _ [lit "0x09\t_tab_\t\t# comments work on lines, too", lit "0x24\t_dollar_\t# $$$", lit "0x26\t_and_\t\t# ampersand"] _ _ (.mk [] (lit "start") [] (by decide +kernel) (by decide +kernel) (by decide +kernel)) (.row _ _ (0x09, lit "_tab_") _
      (.row [] (lit "0x09") (lit "\t") (lit "_tab_\t\t# comments work on lines, too") _ _ (by decide +kernel)
        (.hex 0x78 (lit "09") 0x09 (Or.inl rfl) (by decide +kernel) (digits_hex2 _ _ 0 9 16 (by decide +kernel) (by decide +kernel) (by decide +kernel) (by decide +kernel)))
        (by decide +kernel) (by decide +kernel) (.bare 0x5F (lit "tab_") (lit "\t\t# comments work on lines, too") (by decide +kernel) (by decide +kernel) (by decide +kernel) (Or.inr ⟨0x09, lit "\t# comments work on lines, too", rfl, by decide +kernel⟩)) (by decide +kernel) (by decide +kernel))
      (.row _ _ (0x24, lit "_dollar_") _
      (.row [] (lit "0x24") (lit "\t") (lit "_dollar_\t# $$$") _ _ (by decide +kernel)
        (.hex 0x78 (lit "24") 0x24 (Or.inl rfl) (by decide +kernel) (digits_hex2 _ _ 2 4 16 (by decide +kernel) (by decide +kernel) (by decide +kernel) (by decide +kernel)))
        (by decide +kernel) (by decide +kernel) (.bare 0x5F (lit "dollar_") (lit "\t# $$$") (by decide +kernel) (by decide +kernel) (by decide +kernel) (Or.inr ⟨0x09, lit "# $$$", rfl, by decide +kernel⟩)) (by decide +kernel) (by decide +kernel))
      (.row _ _ (0x26, lit "_and_") _
      (.row [] (lit "0x26") (lit "\t") (lit "_and_\t\t# ampersand") _ _ (by decide +kernel)
        (.hex 0x78 (lit "26") 0x26 (Or.inl rfl) (by decide +kernel) (digits_hex2 _ _ 2 6 16 (by decide +kernel) (by decide +kernel) (by decide +kernel) (by decide +kernel)))
        (by decide +kernel) (by decide +kernel) (.bare 0x5F (lit "and_") (lit "\t\t# ampersand") (by decide +kernel) (by decide +kernel) (by decide +kernel) (Or.inr ⟨0x09, lit "\t# ampersand", rfl, by decide +kernel⟩)) (by decide +kernel) (by decide +kernel))
      .nil))) (.mk [] (lit "end") [] (by decide +kernel) (by decide +kernel) (by decide +kernel))) ?_
  refine .cons [lit ""] _ _ _ (.note _ (.blank [] (by decide +kernel))) ?_
  refine .cons [lit "#"] _ _ _ (.note _ (.comment _)) ?_
  refine .cons [lit "# Starts an optional, language-specific translation block.  detox will read"] _ _ _ (.note _ (.comment _)) ?_
  refine .cons [lit "# your locale and load the block if the word after start matches the language"] _ _ _ (.note _ (.comment _)) ?_
  refine .cons [lit "# portion of your locale."] _ _ _ (.note _ (.comment _)) ?_
  refine .cons [lit "#"] _ _ _ (.note _ (.comment _)) ?_
  refine .cons [lit "# In the example here, the character $ will be replaced with \"_money_\" if the"] _ _ _ (.note _ (.comment _)) ?_
  refine .cons [lit "# user is working in English.  If the user is using a different language, $"] _ _ _ (.note _ (.comment _)) ?_
  refine .cons [lit "# will be replaced with the value configured in the previous block, \"_dollar_\"."] _ _ _ (.note _ (.comment _)) ?_
  refine .cons [lit "#"] _ _ _ (.note _ (.comment _)) ?_
  refine .cons [lit ""] _ _ _ (.note _ (.blank [] (by decide +kernel))) ?_
  refine .cons [lit "start en", lit "0x24\t_money_\t\t# money money", lit "end"] _ _ _
    (.langBlock _ _ [lit "0x24\t_money_\t\t# money money"] _ _ (.mk [] (lit "start") (lit " ") (lit "en") (lit "en") (by decide +kernel) (by decide +kernel) (by decide +kernel) (by decide +kernel)
      (.bare 0x65 (lit "n") [] (by decide +kernel) (by decide +kernel) (by decide +kernel) (Or.inl rfl)) (by decide +kernel)) (.row _ _ (0x24, lit "_money_") _
      (.row [] (lit "0x24") (lit "\t") (lit "_money_\t\t# money money") _ _ (by decide +kernel)
        (.hex 0x78 (lit "24") 0x24 (Or.inl rfl) (by decide +kernel) (digits_hex2 _ _ 2 4 16 (by decide +kernel) (by decide +kernel) (by decide +kernel) (by decide +kernel)))
        (by decide +kernel) (by decide +kernel) (.bare 0x5F (lit "money_") (lit "\t\t# money money") (by decide +kernel) (by decide +kernel) (by decide +kernel) (Or.inr ⟨0x09, lit "\t# money money", rfl, by decide +kernel⟩)) (by decide +kernel) (by decide +kernel))
      .nil) (.mk [] (lit "end") [] (by decide +kernel) (by decide +kernel) (by decide +kernel))) ?_
  refine .cons [lit ""] _ _ _ (.note _ (.blank [] (by decide +kernel))) ?_
  refine .cons [lit "# EOF"] _ _ _ (.note _ (.comment _)) ?_
  exact .nil

theorem manual_table (locale : Bytes) : SaysTable locale manualTable
    ⟨lastOf ([(0x09, lit "_tab_"), (0x24, lit "_dollar_"), (0x26, lit "_and_")] ++
      if LangMatches (lit "en") locale then [(0x24, lit "_money_")] else []), none⟩ := by
  refine ⟨manualLines, manualSections, ⟨by unfold GoodLine; decide +kernel, .inl rfl⟩, manual_lines, ?_, ?_⟩
  · show (effectiveRows locale manualSections).length ≤ _
    simp only [manualSections, effectiveRows]
    split <;> simp <;> omega
  · simp only [manualSections, effectiveRows, effectiveDefault]
    simp

/-- The config file of `/repo/man/detox.tbl.5:94-104`. -/
def manualConfig : Bytes :=
  lit "# Sample detoxrc\n\nsequence default {\n\tsafe {\n\t\tfilename \"/home/MYUSERNAME/.local/share/detox/safe.tbl\";\n\t};\n\tsafe;\n\twipeup;\n};\n\n# EOF\n"

/-- Its gaps and tokens. -/
def manualPieces : List (Bytes × Tok × Bytes) :=
  [(lit "# Sample detoxrc\n\n", .kw .sequence, lit "sequence"), (lit " ", .ident (lit "default"), lit "default"), (lit " ", .opn, lit "{"),
   (lit "\n\t", .kw .safe, lit "safe"), (lit " ", .opn, lit "{"), (lit "\n\t\t", .kw .filename, lit "filename"),
   (lit " ", .qstring (lit "/home/MYUSERNAME/.local/share/detox/safe.tbl"), lit "\"/home/MYUSERNAME/.local/share/detox/safe.tbl\""), ([], .eol, lit ";"),
   (lit "\n\t", .cls, lit "}"), ([], .eol, lit ";"), (lit "\n\t", .kw .safe, lit "safe"), ([], .eol, lit ";"),
   (lit "\n\t", .kw .wipeup, lit "wipeup"), ([], .eol, lit ";"), (lit "\n", .cls, lit "}"), ([], .eol, lit ";")]

/-- Its three filters. -/
def manualFilters : List Filter :=
  [{ cleaner := .safe, filename := some (lit "/home/MYUSERNAME/.local/share/detox/safe.tbl") }, { cleaner := .safe }, { cleaner := .wipeup }]

theorem manual_config : Means manualConfig [.sequence (lit "default") manualFilters] := by
  refine ⟨manualPieces.map fun p => p.2.1, ?_, ?_⟩
  · have h := spells_pieces (ps := manualPieces) (tail := lit "\n\n# EOF\n") (by decide +kernel)
    rw [show manualConfig = piecesText manualPieces (lit "\n\n# EOF\n") by decide +kernel]
    exact h
  · exact .more [] _ [] _ .nil (.sequence (.ident (lit "default")) _ _ _ (.ident _)
      (.more _ _ _ _ (.more _ _ _ _ (.one _ _ (.tabledFile .safe .safe (.qstring _) _ .safe (.qstring _))) (.tabled .safe .safe .safe)) .wipeup))

attribute [irreducible] manualConfig manualTable

/-- The files of the example: `~/.detoxrc` and the table it names. -/
def manualFiles (p : Bytes) : Option Bytes :=
  if p = lit "/home/MYUSERNAME/.detoxrc" then some manualConfig
  else if p = lit "/home/MYUSERNAME/.local/share/detox/safe.tbl" then some manualTable
  else none

/-- What the example does to a character: the three of its own table, and all others as the compiled-in `safe` table has them. -/
def manualSays (locale : Bytes) (c : Byte) : Bytes :=
  if c = 0x09 then lit "_tab_"
  else if c = 0x24 then (if LangMatches (lit "en") locale then lit "_money_" else lit "_dollar_")
  else if c = 0x26 then lit "_and_"
  else (lastOf (writtenRows builtin_safe_rows) c.toNat).getD [c]

theorem FiltersSay.split {P : Platform} {locale : Bytes} {datadir : Option Bytes} {files : Bytes → Option Bytes} {fs gs : List Filter} {s out : Bytes}
    (h : FiltersSay P locale datadir files (fs ++ gs) s out) :
    ∃ mid, FiltersSay P locale datadir files fs s mid ∧ FiltersSay P locale datadir files gs mid out := by
  induction fs generalizing s with
  | nil => exact ⟨s, .nil s, h⟩
  | cons f fs ih =>
    cases h with
    | cons _ _ _ m _ h1 h2 =>
      obtain ⟨mid, h3, h4⟩ := ih h2
      exact ⟨mid, .cons f fs s m mid h1 h3, h4⟩

theorem manualFiles_table : manualFiles (lit "/home/MYUSERNAME/.local/share/detox/safe.tbl") = some manualTable := by
  unfold manualFiles
  rw [if_neg (by decide +kernel), if_pos rfl]

theorem manualFiles_config : manualFiles (lit "/home/MYUSERNAME/.detoxrc") = some manualConfig := by
  unfold manualFiles
  rw [if_pos rfl]

theorem manualFiles_none {p : Bytes} (h1 : p ≠ lit "/home/MYUSERNAME/.detoxrc") (h2 : p ≠ lit "/home/MYUSERNAME/.local/share/detox/safe.tbl") :
    manualFiles p = none := by
  unfold manualFiles
  rw [if_neg h1, if_neg h2]

theorem manual_usual : ∀ p ∈ tablePaths none (lit "safe"), manualFiles p = none := by
  have h : ∀ p ∈ tablePaths none (lit "safe"), p ≠ lit "/home/MYUSERNAME/.detoxrc" ∧ p ≠ lit "/home/MYUSERNAME/.local/share/detox/safe.tbl" := by
    decide +kernel
  exact fun p hp => manualFiles_none (h p hp).1 (h p hp).2

theorem manual_in_effect : configsInEffect { sysconfdir := none, home := some (lit "/home/MYUSERNAME"), xdg := none } none manualFiles =
    [(lit "/home/MYUSERNAME/.detoxrc", manualConfig)] := by
  have h1 : systemFiles { sysconfdir := none, home := some (lit "/home/MYUSERNAME"), xdg := none } = [lit "/etc/detoxrc", lit "/usr/local/etc/detoxrc"] := by
    decide +kernel
  have h2 : userFiles { sysconfdir := none, home := some (lit "/home/MYUSERNAME"), xdg := none } = [lit "/home/MYUSERNAME/.detoxrc"] := by
    decide +kernel
  unfold configsInEffect
  simp only
  rw [h1, h2]
  unfold present
  rw [List.filterMap_cons, List.filterMap_cons, List.filterMap_cons, manualFiles_none (by decide +kernel) (by decide +kernel),
    manualFiles_none (by decide +kernel) (by decide +kernel), manualFiles_config]
  rfl

theorem one_means (p : Bytes) {text : Bytes} {rs : List Rule} (h : Means text rs) : ∀ f ∈ [(p, text, rs)], Means f.2.1 f.2.2 := by
  intro f hf
  rw [List.mem_singleton.1 hf]
  exact h

theorem manual_tables (locale : Bytes) : ∀ f ∈ manualFilters, ∀ n, UsualTable f.cleaner n → ∃ m, TableSays locale none manualFiles f m := by
  intro f hf n hu
  simp only [manualFilters, List.mem_cons, List.not_mem_nil, or_false] at hf
  rcases hf with rfl | rfl | rfl
  · exact ⟨_, .filename _ manualTable _ rfl rfl manualFiles_table (manual_table locale)⟩
  · exact ⟨_, .fallback _ _ .safe rfl rfl manual_usual .safe⟩
  · cases hu

theorem manual_row (locale : Bytes) (k : Nat) : lastOf ([(0x09, lit "_tab_"), (0x24, lit "_dollar_"), (0x26, lit "_and_")] ++
      if LangMatches (lit "en") locale then [(0x24, lit "_money_")] else []) k =
    if k = 0x09 then some (lit "_tab_") else if k = 0x24 then some (if LangMatches (lit "en") locale then lit "_money_" else lit "_dollar_")
    else if k = 0x26 then some (lit "_and_") else none := by
  by_cases h9 : k = 0x09
  · subst h9
    split <;> rfl
  by_cases h24 : k = 0x24
  · subst h24
    split <;> rfl
  by_cases h26 : k = 0x26
  · subst h26
    split <;> rfl
  rw [if_neg h9, if_neg h24, if_neg h26]
  unfold lastOf
  rw [Option.map_eq_none_iff, List.find?_eq_none]
  intro r hr
  rw [List.mem_reverse] at hr
  have : r.1 = 0x09 ∨ r.1 = 0x24 ∨ r.1 = 0x26 := by
    split at hr
    · simp only [List.cons_append, List.nil_append, List.mem_cons, List.not_mem_nil, or_false] at hr
      rcases hr with rfl | rfl | rfl | rfl <;> simp
    · simp only [List.append_nil, List.mem_cons, List.not_mem_nil, or_false] at hr
      rcases hr with rfl | rfl | rfl <;> simp
  simp only [decide_eq_true_eq]
  omega

theorem safe_high : ∀ c : Byte, 128 ≤ c.toNat → lastOf (writtenRows builtin_safe_rows) c.toNat = none := forall_byte (by decide +kernel)

theorem says_safe (P : Platform) (c : Byte) : (TableText.mk (lastOf (writtenRows builtin_safe_rows)) none).says (safeCode P c) [c] =
    (lastOf (writtenRows builtin_safe_rows) c.toNat).getD [c] := by
  unfold safeCode TableText.says
  split
  · next d hd =>
    split at hd
    · cases hd
    · rw [show lastOf (writtenRows builtin_safe_rows) c.toNat = some d from hd]
      rfl
  · next hd =>
    split at hd
    · next hc => rw [safe_high c hc.2]
    · rw [show lastOf (writtenRows builtin_safe_rows) c.toNat = none from hd]

theorem manual_first (P : Platform) (locale : Bytes) (s : Bytes) :
    FiltersSay P locale none manualFiles (manualFilters.take 2) s (s.flatMap (manualSays locale)) := by
  have hfix : ∀ x ∈ lit "_tab_dollar_and_money_", (lastOf (writtenRows builtin_safe_rows) x.toNat).getD [x] = [x] := by decide +kernel
  have hmem : ∀ k d, lastOf ([(0x09, lit "_tab_"), (0x24, lit "_dollar_"), (0x26, lit "_and_")] ++
      if LangMatches (lit "en") locale then [(0x24, lit "_money_")] else []) k = some d → ∀ x ∈ d, x ∈ lit "_tab_dollar_and_money_" := by
    intro k d hd
    rw [manual_row] at hd
    have key : ∀ y ∈ [lit "_tab_", lit "_dollar_", lit "_and_", lit "_money_"], ∀ x ∈ y, x ∈ lit "_tab_dollar_and_money_" := by decide +kernel
    refine key d ?_
    split at hd
    · cases hd; simp
    · split at hd
      · cases hd; split <;> simp
      · split at hd
        · cases hd; simp
        · cases hd
  have h3 := C96_chained_safe_tables (P := P) (locale := locale) (datadir := none) (files := manualFiles)
    (f := { cleaner := .safe, filename := some (lit "/home/MYUSERNAME/.local/share/detox/safe.tbl") }) (g := { cleaner := .safe }) rfl rfl
    (.filename _ manualTable _ rfl rfl manualFiles_table (manual_table locale)) (.fallback _ _ .safe rfl rfl manual_usual .safe) rfl
    (fun k d hk x hx => by rw [says_safe]; exact hfix x (hmem k d hk x hx)) s
  have hsays : (s.flatMap (manualSays locale)) = s.flatMap fun c => match (safeCode P c).bind (lastOf ([(0x09, lit "_tab_"), (0x24, lit "_dollar_"), (0x26, lit "_and_")] ++
      if LangMatches (lit "en") locale then [(0x24, lit "_money_")] else [])) with
        | some d => d
        | none => (TableText.mk (lastOf (writtenRows builtin_safe_rows)) none).says (safeCode P c) [c] := by
    refine congrArg (List.flatMap · s) (funext fun c => ?_)
    rw [says_safe]
    unfold manualSays
    have cs : ∀ n : Nat, n < 128 → (c.toNat = n ↔ c = UInt8.ofNat n) := by
      intro n hn
      constructor
      · intro h
        rw [← h]
        simp
      · rintro rfl
        exact toNat_ofNat_lt (by omega)
    have e9 := cs 0x09 (by decide)
    have e24 := cs 0x24 (by decide)
    have e26 := cs 0x26 (by decide)
    by_cases h128 : P.charSigned = true ∧ 128 ≤ c.toNat
    · have n9 : c ≠ 0x09 := fun h => by have := e9.2 h; omega
      have n24 : c ≠ 0x24 := fun h => by have := e24.2 h; omega
      have n26 : c ≠ 0x26 := fun h => by have := e26.2 h; omega
      rw [if_neg n9, if_neg n24, if_neg n26]
      unfold safeCode
      rw [if_pos h128]
      rfl
    · unfold safeCode
      rw [if_neg h128, Option.bind_some]
      simp only [manual_row]
      by_cases n9 : c = 0x09
      · rw [if_pos n9, if_pos (e9.2 n9)]
      rw [if_neg n9, if_neg (fun h => n9 (e9.1 h))]
      by_cases n24 : c = 0x24
      · rw [if_pos n24, if_pos (e24.2 n24)]
      rw [if_neg n24, if_neg (fun h => n24 (e24.1 h))]
      by_cases n26 : c = 0x26
      · rw [if_pos n26, if_pos (e26.2 n26)]
      rw [if_neg n26, if_neg (fun h => n26 (e26.1 h))]
  rw [hsays]
  exact h3

theorem manual_means (P : Platform) (locale : Bytes) {s out : Bytes} (h : FiltersSay P locale none manualFiles manualFilters s out) :
    IsWipeup false (s.flatMap (manualSays locale)) out := by
  obtain ⟨mid, h1, h2⟩ := FiltersSay.split (fs := manualFilters.take 2) (gs := manualFilters.drop 2) h
  have hsays : (s.flatMap (manualSays locale)) = mid := filtersSay_unique (manual_first P locale s) h1
  rw [hsays]
  have h2' : FiltersSay P locale none manualFiles [{ cleaner := .wipeup }] mid out := h2
  cases h2' with
  | cons _ _ _ m _ h4 h5 =>
    cases h5
    cases h4 with
    | wipeup _ _ h => exact h
    | lower hc => cases hc
    | uncgi _ hc => cases hc
    | maxLength _ hc => cases hc
    | iso8859_1 _ hc => cases hc
    | safe _ hc => cases hc
    | utf8 _ _ hc => cases hc

/-- `detox` in the home directory of the manual, nothing else installed. -/
def manualCall (locale : Bytes) (args : List Bytes) : Invocation :=
  { program := lit "detox", args := args, config := { sysconfdir := none, home := some (lit "/home/MYUSERNAME"), xdg := none }, ctype := locale }

/-- **C96.** The example of the manual: with the two files in place, every new name is the old one with tabs, dollars and ampersands
replaced as its table says (dollars by the locale), other characters as the compiled-in table has them, wiped up. -/
theorem C96_manual_example {P : Platform} (hP : P.Benign) {locale : Bytes} {args : List Bytes} {fuel : Nat} {ss : List Setting} {ws : List Bytes}
    (hc : CommandLine false args ss ws) (hs : lastConfig ss = none) (hn : lastSequence ss = none) {tr : List Event} {out : Outcome Unit}
    (h : Trace (detoxMain P (manualCall locale args) fuel) tr out) (hfiles : ∀ p r, Event.slurp (some p) r ∈ tr → r = manualFiles p)
    {old new : Bytes} {ok : Bool} (hmem : Event.rename old new ok ∈ tr) (hold : NulFree old) :
    ∃ dir name cleaned, SplitsAs old dir name ∧ new = dir ++ cleaned ∧ cleaned ≠ name ∧
      IsWipeup false (name.flatMap (manualSays locale)) cleaned := by
  obtain ⟨dir, name, cleaned, h1, h2, h3, h4⟩ := C96_renames_as_written (I := manualCall locale args) hP hc h hfiles
    (conf := [(lit "/home/MYUSERNAME/.detoxrc", manualConfig, [.sequence (lit "default") manualFilters])]) (by simp)
    (by rw [hs]; simp only [List.map_cons, List.map_nil]; exact manual_in_effect.symm)
    (one_means _ manual_config)
    (q := { name := lit "default", filters := manualFilters, sourceFilename := some (lit "/home/MYUSERNAME/.detoxrc") })
    (by
      unfold requested
      rw [hn]
      exact .inl ⟨[], [], rfl, rfl, by simp⟩)
    (manual_tables locale) hmem hold
  exact ⟨dir, name, cleaned, h1, h2, h3, manual_means P locale h4⟩

/-- A run of it: `detox 'a $ b'`, in English. -/
def manualTrace : List Event :=
  [.slurp (some (lit "/etc/detoxrc")) none, .slurp (some (lit "/usr/local/etc/detoxrc")) none,
   .slurp (some (lit "/home/MYUSERNAME/.detoxrc")) (some manualConfig),
   .slurp (some (lit "/home/MYUSERNAME/.local/share/detox/safe.tbl")) (some manualTable),
   .slurp (some (lit "/usr/share/detox/safe.tbl")) none, .slurp (some (lit "/usr/local/share/detox/safe.tbl")) none,
   .lstat (lit "a $ b") (some (regStat 2)), .lstat (lit "a $ b") (some (regStat 2)), .lstat (lit "a_money_b") none,
   .rename (lit "a $ b") (lit "a_money_b") true]

example : Trace (detoxMain .linux (manualCall (lit "en_US.UTF-8") [lit "a $ b"]) 0) manualTrace (.ret ()) ∧
    CommandLine false [lit "a $ b"] [] [lit "a $ b"] ∧ (∀ p r, Event.slurp (some p) r ∈ manualTrace → r = manualFiles p) ∧
    Event.rename (lit "a $ b") (lit "a_money_b") true ∈ manualTrace ∧ NulFree (lit "a $ b") := by
  refine ⟨Prog.result_sound _ _ _ (by decide +kernel), .operand _ _ _ _ rfl (.inl (by decide +kernel)) .none, ?_, by simp [manualTrace], by decide +kernel⟩
  intro p r h
  simp only [manualTrace, List.mem_cons, Event.slurp.injEq, Option.some.injEq, reduceCtorEq, List.not_mem_nil, or_false] at h
  rcases h with ⟨rfl, rfl⟩ | ⟨rfl, rfl⟩ | ⟨rfl, rfl⟩ | ⟨rfl, rfl⟩ | ⟨rfl, rfl⟩ | ⟨rfl, rfl⟩
  · exact (manualFiles_none (by decide +kernel) (by decide +kernel)).symm
  · exact (manualFiles_none (by decide +kernel) (by decide +kernel)).symm
  · exact manualFiles_config.symm
  · exact manualFiles_table.symm
  · exact (manualFiles_none (by decide +kernel) (by decide +kernel)).symm
  · exact (manualFiles_none (by decide +kernel) (by decide +kernel)).symm

/-- A table with a row for the byte E9, and a config file with it. -/
def accentTable : Bytes := lit "start\n0xE9 e\nend\n"

def accentConfig : Bytes := lit "sequence default { safe { filename \"t\"; }; };\n"

def accentFiles (p : Bytes) : Option Bytes := if p = lit "rc" then some accentConfig else if p = lit "t" then some accentTable else none

theorem accent_table (locale : Bytes) : SaysTable locale accentTable ⟨lastOf [(0xE9, lit "e")], none⟩ := by
  refine ⟨[lit "start", lit "0xE9 e", lit "end"], [.block [(0xE9, lit "e")]], ⟨by unfold GoodLine; decide +kernel, .inl (by decide +kernel)⟩,
    .cons [lit "start", lit "0xE9 e", lit "end"] _ _ _ (.block _ [lit "0xE9 e"] _ _ (.mk [] (lit "start") [] (by decide) (by decide) (by decide))
      (.row _ _ (0xE9, lit "e") _ (.row [] (lit "0xE9") (lit " ") (lit "e") _ _ (by decide)
        (.hex 0x78 (lit "E9") 0xE9 (Or.inl rfl) (by decide) (digits_hex2 _ _ 14 9 16 (by decide) (by decide) (by decide) (by decide)))
        (by decide) (by decide) (.bare 0x65 [] [] (by decide) (by decide) (by decide) (Or.inl rfl)) (by decide) (by decide)) .nil)
      (.mk [] (lit "end") [] (by decide) (by decide) (by decide))) .nil, ?_, rfl⟩
  simp [effectiveRows]
  omega

theorem accent_config : Means accentConfig [.sequence (lit "default") [{ cleaner := .safe, filename := some (lit "t") }]] := by
  refine ⟨[.kw .sequence, .ident (lit "default"), .opn, .kw .safe, .opn, .kw .filename, .qstring (lit "t"), .eol, .cls, .eol, .cls, .eol], ?_, ?_⟩
  · have h := spells_pieces (ps := [([], .kw .sequence, lit "sequence"), (lit " ", .ident (lit "default"), lit "default"), (lit " ", .opn, lit "{"),
      (lit " ", .kw .safe, lit "safe"), (lit " ", .opn, lit "{"), (lit " ", .kw .filename, lit "filename"), (lit " ", .qstring (lit "t"), lit "\"t\""),
      ([], .eol, lit ";"), (lit " ", .cls, lit "}"), ([], .eol, lit ";"), (lit " ", .cls, lit "}"), ([], .eol, lit ";")]) (tail := lit "\n")
      (by decide +kernel)
    exact h
  · exact .more [] _ [] _ .nil (.sequence (.ident (lit "default")) _ _ _ (.ident _)
      (.one _ _ (.tabledFile .safe .safe (.qstring _) _ .safe (.qstring _))))

attribute [irreducible] accentConfig accentTable

/-- **C96.** The same files, the same command, different machines: with a row for the byte E9 in its table, `detox -f rc` renames the
file of that name where `char` is unsigned; where `char` is signed it never renames anything. -/
theorem C96_signed_char_matters :
    Trace (detoxMain ⟨false, true, true⟩ { program := lit "detox", args := [lit "-f", lit "rc", [0xE9]] } 0)
      [.slurp (some (lit "rc")) (some accentConfig), .slurp (some (lit "t")) (some accentTable), .lstat [0xE9] (some (regStat 2)),
       .lstat [0xE9] (some (regStat 2)), .lstat (lit "e") none, .rename [0xE9] (lit "e") true] (.ret ()) ∧
    ∀ {I : Invocation} {fuel : Nat} {ss : List Setting} {ws : List Bytes} {tr : List Event} {out : Outcome Unit},
      CommandLine I.posixlyCorrect I.args ss ws → lastConfig ss = some (lit "rc") → requested I ss = none →
      Trace (detoxMain ⟨true, true, true⟩ I fuel) tr out → (∀ p r, Event.slurp (some p) r ∈ tr → r = accentFiles p) →
      ∀ old new ok, NulFree old → Event.rename old new ok ∉ tr := by
  refine ⟨Prog.result_sound _ _ _ (by decide +kernel), ?_⟩
  intro I fuel ss ws tr out hc hs hn h hfiles old new ok hold hmem
  have hrc : accentFiles (lit "rc") = some accentConfig := by unfold accentFiles; rw [if_pos rfl]
  have ht : accentFiles (lit "t") = some accentTable := by unfold accentFiles; rw [if_neg (by decide +kernel), if_pos rfl]
  have hsays : TableSays I.ctype I.datadir accentFiles { cleaner := .safe, filename := some (lit "t") } ⟨lastOf [(0xE9, lit "e")], none⟩ :=
    .filename _ accentTable _ rfl rfl ht (accent_table _)
  obtain ⟨dir, name, cleaned, _, _, h3, h4⟩ := C96_renames_as_written (P := ⟨true, true, true⟩) (by decide) hc h hfiles
    (conf := [(lit "rc", accentConfig, [.sequence (lit "default") [{ cleaner := .safe, filename := some (lit "t") }]])]) (by simp)
    (by
      rw [hs]
      unfold configsInEffect present
      simp only [List.map_cons, List.map_nil, List.filterMap_cons, List.filterMap_nil, hrc, Option.map_some])
    (one_means _ accent_config)
    (q := { name := lit "default", filters := [{ cleaner := .safe, filename := some (lit "t") }], sourceFilename := some (lit "rc") })
    (by
      rw [hn]
      exact .inl ⟨[], [], rfl, rfl, by simp⟩)
    (fun f hf n hu => by
      rw [List.mem_singleton.1 hf]
      exact ⟨_, hsays⟩) hmem hold
  apply h3
  cases h4 with
  | cons _ _ _ m _ h5 h6 =>
    cases h6
    rw [C96_signed_char_ignores_rows rfl rfl hsays h5]
    have key : ∀ c : Byte, c.toNat < 128 → (TableText.mk (lastOf [(0xE9, lit "e")]) none).says (some c.toNat) [c] = [c] :=
      forall_byte (by decide +kernel)
    have : (fun c : Byte => if c.toNat < 128 then (TableText.mk (lastOf [(0xE9, lit "e")]) none).says (some c.toNat) [c] else (none : Option Bytes).getD [c]) =
        fun c => [c] := by
      funext c
      by_cases hc : c.toNat < 128
      · rw [if_pos hc, key c hc]
      · rw [if_neg hc]; rfl
    simp only [this]
    simp

end Detox
