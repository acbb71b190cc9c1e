import Verif.Lemmas.Bison
import Verif.Props.Scanner

/-!
# C74 — the compiled parser of config files
-/

set_option autoImplicit false

namespace Detox

/-- **C74.** On every list of tokens the generated parser stays inside its tables and its stack, uses only values that were set, and
does what the grammar says: the same variables at the end, the same syntax errors, the same count of messages. -/
theorem C74_parser (file : Bytes) (items : List LexItem) (vars : CState) (h : vars.phase = .top) :
    yyParse file items vars = cfRun file items vars := yyParse_cfRun file items vars h

/-- **C74.** Every config file — any bytes at all — through the generated scanner and the generated parser: what comes out is what
`parse_config_file` of the model gives, about which the other theorems are. -/
theorem C74_config_file (file text : Bytes) (previous : Option ConfigFile) : ∃ items,
    flexAll text.length text = some items ∧
    (let start : CState :=
      { sequences := (previous.getD configFileInit).sequences, ignore := startIgnore (previous.getD configFileInit) }
     let r := yyParse file items start
     parseConfigText file text previous = (r.1, r.2.bind fun st => .ok { sequences := st.sequences, filesToIgnore := some st.ignore })) := by
  refine ⟨lex text, C73_scanner_file text, ?_⟩
  simp only [yyParse_cfRun]
  rfl

/-- The generated code on a file with all kinds of rules. -/
example : ((flexAll 200 (lit "sequence a { safe { builtin \"x\"; }; max_length { length 16; }; uncgi; };\nignore { filename b; };\n")).map
      fun items => ((yyParse (lit "f") items {}).2.bind fun c => Res.ok (c.sequences, c.ignore.files.take c.ignore.count))) =
    some (.ok ([{ name := lit "a", sourceFilename := some (lit "f"),
                  filters := [{ filterInit .safe with builtin := some (lit "x") }, { filterInit .maxLength with maxLength := 16 },
                    filterInit .uncgi] }], [some (lit "b")])) := by decide +kernel

/-- A file that ends in the middle of a rule: a syntax error. -/
example : (flexAll 20 (lit "sequence a { uncgi;")).map (fun items => (yyParse (lit "f") items {}).2) = some (.exit 1) := by decide +kernel

end Detox
