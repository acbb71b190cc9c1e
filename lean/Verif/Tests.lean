import Verif.Model.Builtin
import Verif.Model.Clean
import Verif.Model.Utf8
import Verif.Model.ParseTable
import Verif.Model.Main

/-!
# Tests

The vectors of `/repo/tests`, evaluated in the model. These are tests of the model and not proofs of any property:
they compare it with what the authors of the code expect. Generated by `tools/gentests.py`.
-/

set_option autoImplicit false

namespace Detox.Tests

/-- A world for running a program: what files hold, a tree of paths, and open directories. -/
structure World where
  contents : List (Bytes × Bytes) := []
  tree : List (Bytes × Kind) := []
  handles : List (List Bytes) := []
  stdin : Bytes := []

/-- The names in a directory. -/
def World.names (w : World) (dir : Bytes) : List Bytes :=
  [lit ".", lit ".."] ++ w.tree.filterMap fun e =>
    if (dir ++ lit "/").isPrefixOf e.1 then
      let rest := e.1.drop (dir.length + 1)
      if rest.contains 0x2f then none else some rest
    else none

/-- Run a program in a world: how it ends, what is there then, what was printed on stdout and stderr. -/
def run {α : Type} : Prog α → World → Option Nat × List Bytes × Bytes × Bytes
  | .ret _, w => (some 0, w.tree.map (·.1), [], [])
  | .exit n, w => (some n, w.tree.map (·.1), [], [])
  | .ub _, w => (none, w.tree.map (·.1), [], [])
  | .stuck, w => (none, w.tree.map (·.1), [], [])
  | .lstat p k, w => run (k (((w.tree.zipIdx 1).find? fun e => e.1.1 == p).map fun e => ⟨1, e.2, 1, e.1.2⟩)) w
  | .rename a b k, w =>
    run (k true) { w with tree := w.tree.map fun e =>
      if e.1 = a then (b, e.2) else if (a ++ lit "/").isPrefixOf e.1 then (b ++ e.1.drop a.length, e.2) else e }
  | .opendir p k, w => run (k (.ok w.handles.length)) { w with handles := w.handles ++ [w.names p] }
  | .readdir h k, w =>
    match w.handles.getD h [] with
    | [] => run (k none) w
    | n :: ns => run (k (some n)) { w with handles := w.handles.set h ns }
  | .closedir _ k, w => run k w
  | .slurp none k, w => run (k (some w.stdin)) w
  | .slurp (some p) k, w => run (k (w.contents.lookup p)) w
  | .out s k, w => let r := run k w; (r.1, r.2.1, s ++ r.2.2.1, r.2.2.2)
  | .err s k, w => let r := run k w; (r.1, r.2.1, r.2.2.1, s ++ r.2.2.2)

/-- The bytes of a text. -/
def utf8 (s : String) : Bytes := s.toUTF8.toList

/-- Every input gives what is expected. -/
def allOk (f : Bytes → Res Bytes) (vs : List (Bytes × Bytes)) : Bool := vs.all fun v => f v.1 == .ok v.2

/-- Replace the default translation. -/
def withDefaultOf (t : Table) (d : Option Bytes) : Table := { t with defaultTranslation := d }

-- test_clean_utf_8.c:89-94, left out below: the test expects `_hidden_null_ null`, 18 bytes, from a buffer of 8 bytes
#guard cleanUtf8 (some load_builtin_unicode_table) [0xC0, 0x80, 0x20, 0x6e, 0x75, 0x6c, 0x6c] = .ub .oobWrite

-- test_clean_utf_8.c, default `_`
#guard allOk (cleanUtf8 (some (withDefaultOf load_builtin_unicode_table (some (lit "_"))))) [
  (lit "safe string", lit "safe string"),
  (utf8 "\u00ae reg", lit "_ reg"),
  (utf8 "\u00a9 copy", lit "_ copy"),
  (utf8 "\u00c6 capital AE", lit "_ capital AE"),
  (utf8 "\u00de capital thorn", lit "_ capital thorn"),
  (utf8 "\u014a capital ENG", lit "_ capital ENG"),
  (utf8 "\u0172 capital U with Ogonek", lit "_ capital U with Ogonek"),
  (lit "_ () whatever", lit "_ () whatever"),
  (utf8 "\u4000 ignore", lit "_ ignore"),
  (lit "\x7f delete", lit "_ delete"),
  ([0xc0, 0xa0, 0x20, 0x73, 0x70, 0x61, 0x63, 0x65], lit "  space"),
  ([0xc0, 0xb0, 0x20, 0x7a, 0x65, 0x72, 0x6f], lit "0 zero"),
  ([0xc1, 0xbe, 0x20, 0x74, 0x69, 0x6c, 0x64, 0x65], lit "~ tilde"),
  ([0xc1, 0xbf, 0x20, 0x64, 0x65, 0x6c, 0x65, 0x74, 0x65], lit "_ delete"),
  (utf8 "𐍈 hwair", lit "_ hwair"),
  ([0x80, 0x20, 0x69, 0x6e, 0x76, 0x61, 0x6c, 0x69, 0x64], lit "_ invalid"),
  (utf8 "\u03a1a\u200e\u200eyPa\u1963\u200e : Y\u200e\u200eo\u1959r \u200ea\u1974\u1974o\u200e\u1959\u1952t \u200eis \u1974\u1959\u200e\u200err\u1971\u200e\u200e\u1952t\u1963y\u200e \u1963o\u200e\u200e\u1974k\u1971d\u200e\u200e for \u200es\u1971\u1974\u1959\u200e\u200erity \u200er\u1971as\u200e\u200eo\u1952s. P\u200e\u200e\u1963\u1971a\u200es\u1971 \u1974\u1963\u200e\u200ei\u1974k \u200e\u200eo\u1952 t\u200eh\u1971 \u1963i\u200e\u200e\u1952k b\u1971\u200e\u200e\u1963ow t\u200eo \u1959\u1952\u1963\u200e\u200eo\u1974k \u200eyo\u200e\u1959r a\u200e\u200e\u1974\u1974o\u200e\u1959\u1952t", lit "_ayPa_ : Yo_r a__o__t is __rr__t_y _o_k_d for s___rity r_aso_s. P__as_ __i_k o_ th_ _i_k b__ow to ___o_k yo_r a__o__t"),
  (utf8 "C\u200e\u200eAS\u200eE \u200eID :\u200e E", lit "CASE ID : E"),
  (utf8 "\u2044 fraction slash https:\u2044\u2044www.google.com\u2044whatever\u2044.desktop", lit "_ fraction slash https:__www.google.com_whatever_.desktop")]

-- test_clean_utf_8.c, no default
#guard allOk (cleanUtf8 (some (withDefaultOf load_builtin_unicode_table none))) [
  (lit "safe string", lit "safe string"),
  (utf8 "\u00ae reg", utf8 "\u00ae reg"),
  (utf8 "\u00a9 copy", utf8 "\u00a9 copy"),
  (utf8 "\u00c6 capital AE", utf8 "\u00c6 capital AE"),
  (utf8 "\u00de capital thorn", utf8 "\u00de capital thorn"),
  (utf8 "\u014a capital ENG", utf8 "\u014a capital ENG"),
  (utf8 "\u0172 capital U with Ogonek", utf8 "\u0172 capital U with Ogonek"),
  (lit "_ () whatever", lit "_ () whatever"),
  (utf8 "\u4000 ignore", utf8 "\u4000 ignore"),
  (lit "\x7f delete", lit "_ delete"),
  ([0xc0, 0xa0, 0x20, 0x73, 0x70, 0x61, 0x63, 0x65], lit "  space"),
  ([0xc0, 0xb0, 0x20, 0x7a, 0x65, 0x72, 0x6f], lit "0 zero"),
  ([0xc1, 0xbe, 0x20, 0x74, 0x69, 0x6c, 0x64, 0x65], lit "~ tilde"),
  ([0xc1, 0xbf, 0x20, 0x64, 0x65, 0x6c, 0x65, 0x74, 0x65], lit "_ delete"),
  (utf8 "𐍈 hwair", utf8 "𐍈 hwair"),
  ([0x80, 0x20, 0x69, 0x6e, 0x76, 0x61, 0x6c, 0x69, 0x64], lit "_ invalid"),
  (utf8 "\u03a1a\u200e\u200eyPa\u1963\u200e : Y\u200e\u200eo\u1959r \u200ea\u1974\u1974o\u200e\u1959\u1952t \u200eis \u1974\u1959\u200e\u200err\u1971\u200e\u200e\u1952t\u1963y\u200e \u1963o\u200e\u200e\u1974k\u1971d\u200e\u200e for \u200es\u1971\u1974\u1959\u200e\u200erity \u200er\u1971as\u200e\u200eo\u1952s. P\u200e\u200e\u1963\u1971a\u200es\u1971 \u1974\u1963\u200e\u200ei\u1974k \u200e\u200eo\u1952 t\u200eh\u1971 \u1963i\u200e\u200e\u1952k b\u1971\u200e\u200e\u1963ow t\u200eo \u1959\u1952\u1963\u200e\u200eo\u1974k \u200eyo\u200e\u1959r a\u200e\u200e\u1974\u1974o\u200e\u1959\u1952t", utf8 "\u03a1ayPa\u1963 : Yo\u1959r a\u1974\u1974o\u1959\u1952t is \u1974\u1959rr\u1971\u1952t\u1963y \u1963o\u1974k\u1971d for s\u1971\u1974\u1959rity r\u1971aso\u1952s. P\u1963\u1971as\u1971 \u1974\u1963i\u1974k o\u1952 th\u1971 \u1963i\u1952k b\u1971\u1963ow to \u1959\u1952\u1963o\u1974k yo\u1959r a\u1974\u1974o\u1959\u1952t"),
  (utf8 "C\u200e\u200eAS\u200eE \u200eID :\u200e E", lit "CASE ID : E"),
  (utf8 "\u2044 fraction slash https:\u2044\u2044www.google.com\u2044whatever\u2044.desktop", lit "_ fraction slash https:__www.google.com_whatever_.desktop")]

-- test_clean_utf_8.c, invalid sequences and beyond Unicode
#guard allOk (cleanUtf8 (some (withDefaultOf load_builtin_unicode_table (some (lit "_"))))) [
  ([0xc0, 0x62, 0x6c, 0x61, 0x68], lit "_blah"),
  ([0x62, 0x6c, 0x61, 0x68, 0xc0], lit "blah_"),
  ([0xe0, 0x80, 0xb6, 0x62, 0x6c, 0x61, 0x68], lit "6blah"),
  ([0xf0, 0x80, 0x80, 0xb6, 0x62, 0x6c, 0x61, 0x68], lit "6blah"),
  ([0xf8, 0x80, 0x80, 0x80, 0xb6, 0x62, 0x6c, 0x61, 0x68], lit "6blah"),
  ([0xfd, 0xbf, 0xbf, 0xbf, 0xbf, 0xbf, 0x62, 0x6c, 0x61, 0x68], lit "_blah")]

-- test_clean_utf_8.c, test_clean_iso8859_1.c, test_clean_safe.c: no table
#guard cleanUtf8 none (lit "what") = .exit 1 ∧ cleanIso none (lit "what") = .exit 1 ∧ cleanSafe .linux none (lit "what") = .exit 1

-- test_clean_iso8859_1.c, default `_`
#guard allOk (cleanIso (some (withDefaultOf load_builtin_iso8859_1_table (some (lit "_"))))) [
  (lit "safe string", lit "safe string"),
  ([0xae, 0x20, 0x72, 0x65, 0x67], utf8 "\u00ae reg"),
  ([0xa9, 0x20, 0x63, 0x6f, 0x70, 0x79], utf8 "\u00a9 copy"),
  ([0xc6, 0x20, 0x63, 0x61, 0x70, 0x69, 0x74, 0x61, 0x6c, 0x20, 0x41, 0x45], utf8 "\u00c6 capital AE"),
  ([0xde, 0x20, 0x63, 0x61, 0x70, 0x69, 0x74, 0x61, 0x6c, 0x20, 0x74, 0x68, 0x6f, 0x72, 0x6e], utf8 "\u00de capital thorn"),
  ([0x80, 0x20, 0x6e, 0x6f, 0x74, 0x20, 0x69, 0x6e, 0x20, 0x74, 0x61, 0x62, 0x6c, 0x65], lit "_ not in table")]

-- test_clean_iso8859_1.c, no default
#guard allOk (cleanIso (some (withDefaultOf load_builtin_iso8859_1_table none))) [
  (lit "safe string", lit "safe string"),
  ([0xae, 0x20, 0x72, 0x65, 0x67], utf8 "\u00ae reg"),
  ([0xa9, 0x20, 0x63, 0x6f, 0x70, 0x79], utf8 "\u00a9 copy"),
  ([0xc6, 0x20, 0x63, 0x61, 0x70, 0x69, 0x74, 0x61, 0x6c, 0x20, 0x41, 0x45], utf8 "\u00c6 capital AE"),
  ([0xde, 0x20, 0x63, 0x61, 0x70, 0x69, 0x74, 0x61, 0x6c, 0x20, 0x74, 0x68, 0x6f, 0x72, 0x6e], utf8 "\u00de capital thorn"),
  ([0x80, 0x20, 0x6e, 0x6f, 0x74, 0x20, 0x69, 0x6e, 0x20, 0x74, 0x61, 0x62, 0x6c, 0x65], [0x80, 0x20, 0x6e, 0x6f, 0x74, 0x20, 0x69, 0x6e, 0x20, 0x74, 0x61, 0x62, 0x6c, 0x65])]

-- test_clean_iso8859_1_cp1252.c, default `_`
#guard allOk (cleanIso (some (withDefaultOf load_builtin_cp1252_table (some (lit "_"))))) [
  (lit "safe string", lit "safe string"),
  ([0x80, 0x20, 0x65, 0x75, 0x72, 0x6f], utf8 "\u20ac euro"),
  ([0x97, 0x20, 0x65, 0x6d, 0x20, 0x64, 0x61, 0x73, 0x68], utf8 "\u2014 em dash"),
  ([0x81, 0x20, 0x75, 0x6e, 0x64, 0x65, 0x66, 0x69, 0x6e, 0x65, 0x64], lit "- undefined"),
  ([0xa1, 0x20, 0x6f, 0x75, 0x74, 0x73, 0x69, 0x64, 0x65, 0x20, 0x73, 0x63, 0x6f, 0x70, 0x65], lit "_ outside scope")]

-- test_clean_iso8859_1_cp1252.c, no default
#guard allOk (cleanIso (some (withDefaultOf load_builtin_cp1252_table none))) [
  (lit "safe string", lit "safe string"),
  ([0x80, 0x20, 0x65, 0x75, 0x72, 0x6f], utf8 "\u20ac euro"),
  ([0x97, 0x20, 0x65, 0x6d, 0x20, 0x64, 0x61, 0x73, 0x68], utf8 "\u2014 em dash"),
  ([0x81, 0x20, 0x75, 0x6e, 0x64, 0x65, 0x66, 0x69, 0x6e, 0x65, 0x64], lit "- undefined"),
  ([0xa1, 0x20, 0x6f, 0x75, 0x74, 0x73, 0x69, 0x64, 0x65, 0x20, 0x73, 0x63, 0x6f, 0x70, 0x65], [0xa1, 0x20, 0x6f, 0x75, 0x74, 0x73, 0x69, 0x64, 0x65, 0x20, 0x73, 0x63, 0x6f, 0x70, 0x65])]

-- test_clean_lower.c
#guard allOk (cleanLower .linux) [
  (lit "lower", lit "lower"),
  (lit "L0W3R", lit "l0w3r"),
  (lit "UPPER", lit "upper"),
  (lit "UPPer_2", lit "upper_2")]

-- test_clean_uncgi.c
#guard allOk (cleanUncgi .linux) [
  (lit "%3Dequals", lit "=equals"),
  (lit "%25percent", lit "%percent"),
  (lit "%3Fquestion%20mark", lit "?question mark"),
  (lit "%2bplus", lit "+plus"),
  (lit "%2ccomma", lit ",comma"),
  (lit "%2Fslash", lit "/slash"),
  (lit "lower", lit "lower"),
  (lit "%20space", lit " space"),
  (lit "UPPER%3ALOWER", lit "UPPER:LOWER"),
  (lit "here+and+there", lit "here and there")]

-- test_clean_wipeup.c
#guard allOk (cleanWipeup false) [
  (lit "-#dash_octothorpe-", lit "dash_octothorpe-"),
  (lit "-_dash_underscore-", lit "dash_underscore-"),
  (lit "ends with octothorpe#", lit "ends with octothorpe#"),
  (lit "#octothorpe", lit "octothorpe"),
  (lit "#-octothorpe_dash", lit "octothorpe_dash"),
  (lit "_-underscore_dash", lit "underscore_dash"),
  (lit "_underscore", lit "underscore"),
  (lit "___________underscore_______________________.x", lit "underscore_.x"),
  (lit "..........how.....does.....this....translate......", lit "..........how.....does.....this....translate......"),
  (lit "_-_-_-_-_-dotted-_-_-_-_line.....part......two.......", lit "dotted-line.....part......two......."),
  (lit "blah-.-de_._da", lit "blah-.-de_._da")]

-- test_clean_wipeup.c, remove_trailing
#guard allOk (cleanWipeup true) [
  (lit "-#dash_octothorpe-", lit "dash_octothorpe-"),
  (lit "-_dash_underscore-", lit "dash_underscore-"),
  (lit "ends with octothorpe#", lit "ends with octothorpe#"),
  (lit "#octothorpe", lit "octothorpe"),
  (lit "#-octothorpe_dash", lit "octothorpe_dash"),
  (lit "_-underscore_dash", lit "underscore_dash"),
  (lit "_underscore", lit "underscore"),
  (lit "___________underscore_______________________.x", lit "underscore.x"),
  (lit "..........how.....does.....this....translate......", lit ".how.does.this.translate."),
  (lit "_-_-_-_-_-dotted-_-_-_-_line.....part......two.......", lit "dotted-line.part.two."),
  (lit "blah-.-de_._da", lit "blah.de.da")]

-- test_clean_safe.c
#guard allOk (cleanSafe .linux (some load_builtin_safe_table)) [
  (lit "lower", lit "lower"),
  (lit "^acute", lit "^acute"),
  (lit "&ampersand", lit "_and_ampersand"),
  (lit "<angle bracket left", lit "_angle_bracket_left"),
  (lit ">angle bracket right", lit "_angle_bracket_right"),
  (lit "\\back slash", lit "_back_slash"),
  (lit "`back tick", lit "_back_tick"),
  (lit "|bar", lit "_bar"),
  (lit "{brace left", lit "-brace_left"),
  (lit "}brace right", lit "-brace_right"),
  (lit ":colon", lit "_colon"),
  (lit ",comma", lit ",comma"),
  (lit "@commercial at", lit "_commercial_at"),
  (lit "dash-", lit "dash-"),
  (lit "#dash_octothorpe-", lit "#dash_octothorpe-"),
  (lit "_dash_underscore-", lit "_dash_underscore-"),
  (lit "$dollar sign", lit "_dollar_sign"),
  (lit "\"double quote", lit "_double_quote"),
  (lit "ends with octothorpe#", lit "ends_with_octothorpe#"),
  (lit "!exclamation point", lit "_exclamation_point"),
  (lit "#octothorpe", lit "#octothorpe"),
  (lit "#-octothorpe_dash", lit "#-octothorpe_dash"),
  (lit "(parenthesis left", lit "-parenthesis_left"),
  (lit ")parenthesis right", lit "-parenthesis_right"),
  (lit "%percent", lit "%percent"),
  (lit "+plus", lit "+plus"),
  (lit "?question mark", lit "_question_mark"),
  (lit ";semi colon", lit "_semi_colon"),
  (lit "'single quote", lit "_single_quote"),
  (lit " space", lit "_space"),
  (lit "[square bracket left", lit "-square_bracket_left"),
  (lit "]square bracket right", lit "-square_bracket_right"),
  (lit "_-underscore_dash", lit "_-underscore_dash"),
  (lit "_underscore", lit "_underscore"),
  (lit "~tilde", lit "~tilde"),
  (utf8 "\u00c6 capital AE", utf8 "\u00c6_capital_AE"),
  ([0xc6, 0x20, 0x63, 0x61, 0x70, 0x69, 0x74, 0x61, 0x6c, 0x20, 0x41, 0x45], [0xc6, 0x5f, 0x63, 0x61, 0x70, 0x69, 0x74, 0x61, 0x6c, 0x5f, 0x41, 0x45]),
  (utf8 "\u00de capital thorn", utf8 "\u00de_capital_thorn"),
  ([0xde, 0x20, 0x63, 0x61, 0x70, 0x69, 0x74, 0x61, 0x6c, 0x20, 0x74, 0x68, 0x6f, 0x72, 0x6e], [0xde, 0x5f, 0x63, 0x61, 0x70, 0x69, 0x74, 0x61, 0x6c, 0x5f, 0x74, 0x68, 0x6f, 0x72, 0x6e]),
  (utf8 "\u0172 capital U Ogonek", utf8 "\u0172_capital_U_Ogonek"),
  (lit "~ tilde", lit "~_tilde"),
  (lit "\x7f delete", lit "__delete"),
  (lit "hi\tthere", lit "hi_there"),
  (lit "new\nline", lit "new_line"),
  (lit "\x07 bell", lit "__bell"),
  (lit "\t tab \n new line", lit "__tab___new_line")]

/-- The table of test_clean_safe.c:136-138. -/
def customSafe : Table :=
  (tablePut (tablePut (tablePut load_builtin_safe_table 0x07 (lit "_beep_")).1 0x09 (lit "_tab_")).1 0x0a (lit "_nl_")).1

-- test_clean_safe.c, custom table
#guard allOk (cleanSafe .linux (some customSafe)) [
  (lit "lower", lit "lower"),
  (lit "^acute", lit "^acute"),
  (lit "&ampersand", lit "_and_ampersand"),
  (lit "<angle bracket left", lit "_angle_bracket_left"),
  (lit ">angle bracket right", lit "_angle_bracket_right"),
  (lit "\\back slash", lit "_back_slash"),
  (lit "`back tick", lit "_back_tick"),
  (lit "|bar", lit "_bar"),
  (lit "{brace left", lit "-brace_left"),
  (lit "}brace right", lit "-brace_right"),
  (lit ":colon", lit "_colon"),
  (lit ",comma", lit ",comma"),
  (lit "@commercial at", lit "_commercial_at"),
  (lit "dash-", lit "dash-"),
  (lit "#dash_octothorpe-", lit "#dash_octothorpe-"),
  (lit "_dash_underscore-", lit "_dash_underscore-"),
  (lit "$dollar sign", lit "_dollar_sign"),
  (lit "\"double quote", lit "_double_quote"),
  (lit "ends with octothorpe#", lit "ends_with_octothorpe#"),
  (lit "!exclamation point", lit "_exclamation_point"),
  (lit "#octothorpe", lit "#octothorpe"),
  (lit "#-octothorpe_dash", lit "#-octothorpe_dash"),
  (lit "(parenthesis left", lit "-parenthesis_left"),
  (lit ")parenthesis right", lit "-parenthesis_right"),
  (lit "%percent", lit "%percent"),
  (lit "+plus", lit "+plus"),
  (lit "?question mark", lit "_question_mark"),
  (lit ";semi colon", lit "_semi_colon"),
  (lit "'single quote", lit "_single_quote"),
  (lit " space", lit "_space"),
  (lit "[square bracket left", lit "-square_bracket_left"),
  (lit "]square bracket right", lit "-square_bracket_right"),
  (lit "_-underscore_dash", lit "_-underscore_dash"),
  (lit "_underscore", lit "_underscore"),
  (lit "~tilde", lit "~tilde"),
  (utf8 "\u00c6 capital AE", utf8 "\u00c6_capital_AE"),
  ([0xc6, 0x20, 0x63, 0x61, 0x70, 0x69, 0x74, 0x61, 0x6c, 0x20, 0x41, 0x45], [0xc6, 0x5f, 0x63, 0x61, 0x70, 0x69, 0x74, 0x61, 0x6c, 0x5f, 0x41, 0x45]),
  (utf8 "\u00de capital thorn", utf8 "\u00de_capital_thorn"),
  ([0xde, 0x20, 0x63, 0x61, 0x70, 0x69, 0x74, 0x61, 0x6c, 0x20, 0x74, 0x68, 0x6f, 0x72, 0x6e], [0xde, 0x5f, 0x63, 0x61, 0x70, 0x69, 0x74, 0x61, 0x6c, 0x5f, 0x74, 0x68, 0x6f, 0x72, 0x6e]),
  (utf8 "\u0172 capital U Ogonek", utf8 "\u0172_capital_U_Ogonek"),
  (lit "~ tilde", lit "~_tilde"),
  (lit "\x7f delete", lit "__delete"),
  (lit "hi\tthere", lit "hi_tab_there"),
  (lit "new\nline", lit "new_nl_line"),
  (lit "\x07 bell", lit "_beep__bell"),
  (lit "\t tab \n new line", lit "_tab__tab__nl__new_line")]

-- test_clean_max_length.c
#guard ([
  (32, lit "___________underscore_______________________.x", lit "___________underscore_________.x"),
  (32, lit "..........how.....does.....this....translate......", lit "..........how.....does.....this."),
  (32, lit "_-_-_-_-_-dotted-_-_-_-_line.....part......two.......", lit "_-_-_-_-_-dotted-_-_-_-_line...."),
  (32, lit "blah-.-de_._da", lit "blah-.-de_._da"),
  (12, lit "this_is_my_file.txt", lit "this_is_.txt"),
  (32, lit "safe.txt", lit "safe.txt"),
  (14, lit "safe.and.stu.ff.txt", lit "safe.an.ff.txt"),
  (12, lit "safe and stuff.txt", lit "safe and.txt"),
  (8, lit "safe and stuff.txt", lit "safe.txt"),
  (32, lit "safe.tar.gz", lit "safe.tar.gz"),
  (22, lit "safe and stuff.tar.gz", lit "safe and stuff.tar.gz"),
  (21, lit "safe and stuff.tar.gz", lit "safe and stuff.tar.gz"),
  (20, lit "safe and stuff.tar.gz", lit "safe and stuf.tar.gz"),
  (12, lit "safe and stuff.tar.gz", lit "safe .tar.gz"),
  (9, lit "safe and stuff.tar.gz", lit "sa.tar.gz"),
  (8, lit "safe and stuff.tar.gz", lit "s.tar.gz"),
  (7, lit "safe and stuff.tar.gz", lit "safe and stuff.tar.gz"),
  (0, lit "safe and stuff.tar.gz", lit "safe and stuff.tar.gz")] : List (Nat × Bytes × Bytes)).all (fun v => cleanMaxLength .linux v.1 v.2.1 == .ok v.2.2)

/-- The data of test_table_max_length.c. -/
def maxLengthData : List (Nat × Bytes × Nat) := [
  (0x1, lit "a", 1),
  (0x2, lit "b", 1),
  (0x3, lit "c", 1),
  (0x4, lit "don't", 5),
  (0x5, lit "eat", 5),
  (0x6, lit "the", 5),
  (0x7, lit "joe o's", 7),
  (0x8, lit "k", 7),
  (0x9, lit "moo", 7),
  (0xa, lit "true", 7),
  (0xb, lit "insanity", 8),
  (0x1001, lit "Lorem ipsum dolor sit amet, consectetur adipiscing elit, sed", 60),
  (0x1002, lit "Lorem ipsum dolor sit amet, consectetur adipiscing elit, sed do eiusmod tempor incididunt ut labore et dolore magna aliqua.", 123)]

/-- Put each entry and compare the longest length. -/
def putAll : Table → List (Nat × Bytes × Nat) → Option Table
  | t, [] => some t
  | t, (k, d, n) :: rest =>
    let p := tablePut t k d
    if p.2.isSome ∧ p.1.maxDataLength = n then putAll p.1 rest else none

-- test_table_max_length.c, first test
#guard (putAll (tableInit 130) maxLengthData).isSome

-- test_table_max_length.c, second test: resizing measures again
#guard
    ((putAll (tableInit 130) maxLengthData).bind fun t =>
      let same (d : Bytes) := maxLengthData.map fun e => ((e.1, d, 123) : Nat × Bytes × Nat)
      (putAll t (same (lit "a"))).bind fun t1 =>
      (putAll t1 (same [])).map fun t2 =>
        [t, t1, t2].map fun u => ((tableResize u 130 false).maxDataLength, (tableResize u 130 true).maxDataLength, u.maxDataLength)) =
    some [(123, 123, 123), (1, 1, 123), (0, 0, 123)]

/-- fixtures/test_table_resize.tbl -/
def resizeFixture : Bytes := lit "#\n# Tests table regression.\n#\n# Old copy of the unicode table with extras.\n# \n\ndefault\t\t_\n\nstart\n\n#\n# Basic Latin - This is a subset of the basic 7-bit ASCII table, with unsafe\n# characters removed.\n#\n\n0x0020\t\tspace\t# SPACE\n0x0023\t\t#\t# NUMBER SIGN\n0x0025\t\t%\t# PERCENT SIGN\n0x0026\t\t_and_\t# AMPERSAND\n0x002B\t\t+\t# PLUS SIGN\n0x002C\t\t,\t# COMMA\n0x002D\t\t-\t# HYPHEN-MINUS\n0x002E\t\t.\t# FULL STOP\n\n0x0030\t\t0\t# DIGIT ZERO\n0x0031\t\t1\t# DIGIT ONE\n0x0032\t\t2\t# DIGIT TWO\n0x0033\t\t3\t# DIGIT THREE\n0x0034\t\t4\t# DIGIT FOUR\n0x0035\t\t5\t# DIGIT FIVE\n0x0036\t\t6\t# DIGIT SIX\n0x0037\t\t7\t# DIGIT SEVEN\n0x0038\t\t8\t# DIGIT EIGHT\n0x0039\t\t9\t# DIGIT NINE\n0x003D\t\t=\t# EQUALS SIGN\n\n0x0041\t\tA\t# LATIN CAPITAL LETTER A\n0x0042\t\tB\t# LATIN CAPITAL LETTER B\n0x0043\t\tC\t# LATIN CAPITAL LETTER C\n0x0044\t\tD\t# LATIN CAPITAL LETTER D\n0x0045\t\tE\t# LATIN CAPITAL LETTER E\n0x0046\t\tF\t# LATIN CAPITAL LETTER F\n0x0047\t\tG\t# LATIN CAPITAL LETTER G\n0x0048\t\tH\t# LATIN CAPITAL LETTER H\n0x0049\t\tI\t# LATIN CAPITAL LETTER I\n0x004A\t\tJ\t# LATIN CAPITAL LETTER J\n0x004B\t\tK\t# LATIN CAPITAL LETTER K\n0x004C\t\tL\t# LATIN CAPITAL LETTER L\n0x004D\t\tM\t# LATIN CAPITAL LETTER M\n0x004E\t\tN\t# LATIN CAPITAL LETTER N\n0x004F\t\tO\t# LATIN CAPITAL LETTER O\n\n0x0050\t\tP\t# LATIN CAPITAL LETTER P\n0x0051\t\tQ\t# LATIN CAPITAL LETTER Q\n0x0052\t\tR\t# LATIN CAPITAL LETTER R\n0x0053\t\tS\t# LATIN CAPITAL LETTER S\n0x0054\t\tT\t# LATIN CAPITAL LETTER T\n0x0055\t\tU\t# LATIN CAPITAL LETTER U\n0x0056\t\tV\t# LATIN CAPITAL LETTER V\n0x0057\t\tW\t# LATIN CAPITAL LETTER W\n0x0058\t\tX\t# LATIN CAPITAL LETTER X\n0x0059\t\tY\t# LATIN CAPITAL LETTER Y\n0x005A\t\tZ\t# LATIN CAPITAL LETTER Z\n0x005E\t\t^\t# CIRCUMFLEX ACCENT\n\n0x0061\t\ta\t# LATIN SMALL LETTER A\n0x0062\t\tb\t# LATIN SMALL LETTER B\n0x0063\t\tc\t# LATIN SMALL LETTER C\n0x0064\t\td\t# LATIN SMALL LETTER D\n0x0065\t\te\t# LATIN SMALL LETTER E\n0x0066\t\tf\t# LATIN SMALL LETTER F\n0x0067\t\tg\t# LATIN SMALL LETTER G\n0x0068\t\th\t# LATIN SMALL LETTER H\n0x0069\t\ti\t# LATIN SMALL LETTER I\n0x006A\t\tj\t# LATIN SMALL LETTER J\n0x006B\t\tk\t# LATIN SMALL LETTER K\n0x006C\t\tl\t# LATIN SMALL LETTER L\n0x006D\t\tm\t# LATIN SMALL LETTER M\n0x006E\t\tn\t# LATIN SMALL LETTER N\n0x006F\t\to\t# LATIN SMALL LETTER O\n\n0x0070\t\tp\t# LATIN SMALL LETTER P\n0x0071\t\tq\t# LATIN SMALL LETTER Q\n0x0072\t\tr\t# LATIN SMALL LETTER R\n0x0073\t\ts\t# LATIN SMALL LETTER S\n0x0074\t\tt\t# LATIN SMALL LETTER T\n0x0075\t\tu\t# LATIN SMALL LETTER U\n0x0076\t\tv\t# LATIN SMALL LETTER V\n0x0077\t\tw\t# LATIN SMALL LETTER W\n0x0078\t\tx\t# LATIN SMALL LETTER X\n0x0079\t\ty\t# LATIN SMALL LETTER Y\n0x007A\t\tz\t# LATIN SMALL LETTER Z\n0x007E\t\t~\t# TILDE\n\n#\n# CP 1252\n#\n\n0x0085\t\t...\t# HORIZONTAL ELLIPSIS\n0x0088\t\t^\t# MODIFIER LETTER CIRCUMFLEX ACCENT\n0x008A\t\tS\t# LATIN CAPITAL LETTER S WITH CARON\n0x008C\t\tOE\t# LATIN CAPITAL LIGATURE OE\n\n0x0096\t\t-\t# EN DASH\n0x0097\t\t-\t# EM DASH\n0x0099\t\t_tm_\t# TRADE MARK SIGN\n0x009A\t\ts\t# LATIN SMALL LETTER S WITH CARON\n0x009C\t\toe\t# LATIN SMALL LIGATURE OE\n0x009F\t\tY\t# LATIN CAPITAL LETTER Y WITH DIAERESIS\n\n#\n# Latin 1\n#\n\n0x00A2\t\t_cent_\n0x00A3\t\t_pound_\n0x00A5\t\t_yen_\n0x00A9\t\t_copy_\n0x00AE\t\t_reg_\n\n0x00B2\t\t2\n0x00B3\t\t3\n0x00B5\t\tb\n0x00B6\t\t_pp_\n0x00B9\t\t1\n\n0x00C0\t\tA\t# LATIN CAPITAL LETTER A WITH GRAVE\n0x00C1\t\tA\t# LATIN CAPITAL LETTER A WITH ACUTE\n0x00C2\t\tA\t# LATIN CAPITAL LETTER A WITH CIRCUMFLEX\n0x00C3\t\tA\t# LATIN CAPITAL LETTER A WITH TILDE\n0x00C4\t\tA\t# LATIN CAPITAL LETTER A WITH DIAERESIS\n0x00C5\t\tA\t# LATIN CAPITAL LETTER A WITH RING ABOVE\n0x00C6\t\tAE\t# LATIN CAPITAL LETTER AE\n0x00C7\t\tC\t# LATIN CAPITAL LETTER C WITH CEDILLA\n0x00C8\t\tE\t# LATIN CAPITAL LETTER E WITH GRAVE\n0x00C9\t\tE\t# LATIN CAPITAL LETTER E WITH ACUTE\n0x00CA\t\tE\t# LATIN CAPITAL LETTER E WITH CIRCUMFLEX\n0x00CB\t\tE\t# LATIN CAPITAL LETTER E WITH DIAERESIS\n0x00CC\t\tI\t# LATIN CAPITAL LETTER I WITH GRAVE\n0x00CD\t\tI\t# LATIN CAPITAL LETTER I WITH ACUTE\n0x00CE\t\tI\t# LATIN CAPITAL LETTER I WITH CIRCUMFLEX\n0x00CF\t\tI\t# LATIN CAPITAL LETTER I WITH DIAERESIS\n\n0x00D0\t\tTH\t# LATIN CAPITAL LETTER ETH (Icelandic)\n0x00D1\t\tN\t# LATIN CAPITAL LETTER N WITH TILDE\n0x00D2\t\tO\t# LATIN CAPITAL LETTER O WITH GRAVE\n0x00D3\t\tO\t# LATIN CAPITAL LETTER O WITH ACUTE\n0x00D4\t\tO\t# LATIN CAPITAL LETTER O WITH CIRCUMFLEX\n0x00D5\t\tO\t# LATIN CAPITAL LETTER O WITH TILDE\n0x00D6\t\tO\t# LATIN CAPITAL LETTER O WITH DIAERESIS\n0x00D7\t\tx\t# MULTIPLICATION SIGN\n0x00D8\t\tO\t# LATIN CAPITAL LETTER O WITH STROKE\n0x00D9\t\tU\t# LATIN CAPITAL LETTER U WITH GRAVE\n0x00DA\t\tU\t# LATIN CAPITAL LETTER U WITH ACUTE\n0x00DB\t\tU\t# LATIN CAPITAL LETTER U WITH CIRCUMFLEX\n0x00DC\t\tU\t# LATIN CAPITAL LETTER U WITH DIAERESIS\n0x00DD\t\tY\t# LATIN CAPITAL LETTER Y WITH ACUTE\n0x00DE\t\tTH\t# LATIN CAPITAL LETTER THORN (Icelandic)\n0x00DF\t\tss\t# LATIN SMALL LETTER SHARP S (German)\n\n0x00E0\t\ta\t# LATIN SMALL LETTER A WITH GRAVE\n0x00E1\t\ta\t# LATIN SMALL LETTER A WITH ACUTE\n0x00E2\t\ta\t# LATIN SMALL LETTER A WITH CIRCUMFLEX\n0x00E3\t\ta\t# LATIN SMALL LETTER A WITH TILDE\n0x00E4\t\ta\t# LATIN SMALL LETTER A WITH DIAERESIS\n0x00E5\t\ta\t# LATIN SMALL LETTER A WITH RING ABOVE\n0x00E6\t\tae\t# LATIN SMALL LETTER AE\n0x00E7\t\tc\t# LATIN SMALL LETTER C WITH CEDILLA\n0x00E8\t\te\t# LATIN SMALL LETTER E WITH GRAVE\n0x00E9\t\te\t# LATIN SMALL LETTER E WITH ACUTE\n0x00EA\t\te\t# LATIN SMALL LETTER E WITH CIRCUMFLEX\n0x00EB\t\te\t# LATIN SMALL LETTER E WITH DIAERESIS\n0x00EC\t\ti\t# LATIN SMALL LETTER I WITH GRAVE\n0x00ED\t\ti\t# LATIN SMALL LETTER I WITH ACUTE\n0x00EE\t\ti\t# LATIN SMALL LETTER I WITH CIRCUMFLEX\n0x00EF\t\ti\t# LATIN SMALL LETTER I WITH DIAERESIS\n\n0x00F0\t\tth\t# LATIN SMALL LETTER ETH (Icelandic)\n0x00F1\t\tn\t# LATIN SMALL LETTER N WITH TILDE\n0x00F2\t\to\t# LATIN SMALL LETTER O WITH GRAVE\n0x00F3\t\to\t# LATIN SMALL LETTER O WITH ACUTE\n0x00F4\t\to\t# LATIN SMALL LETTER O WITH CIRCUMFLEX\n0x00F5\t\to\t# LATIN SMALL LETTER O WITH TILDE\n0x00F6\t\to\t# LATIN SMALL LETTER O WITH DIAERESIS\n0x00F8\t\to\t# LATIN SMALL LETTER O WITH STROKE\n0x00F9\t\tu\t# LATIN SMALL LETTER U WITH GRAVE\n0x00FA\t\tu\t# LATIN SMALL LETTER U WITH ACUTE\n0x00FB\t\tu\t# LATIN SMALL LETTER U WITH CIRCUMFLEX\n0x00FC\t\tu\t# LATIN SMALL LETTER U WITH DIAERESIS\n0x00FD\t\ty\t# LATIN SMALL LETTER Y WITH ACUTE\n0x00FE\t\tth\t# LATIN SMALL LETTER THORN (Icelandic)\n0x00FF\t\ty\t# LATIN SMALL LETTER Y WITH DIAERESIS\n\n#\n# Latin Extended A\n#\n\n0x0100\t\tA\t# LATIN CAPITAL LETTER A WITH MACRON\n0x0101\t\ta\t# LATIN SMALL LETTER A WITH MACRON\n0x0102\t\tA\t# LATIN CAPITAL LETTER A WITH BREVE\n0x0103\t\ta\t# LATIN SMALL LETTER A WITH BREVE\n0x0104\t\tA\t# LATIN CAPITAL LETTER A WITH OGONEK\n0x0105\t\ta\t# LATIN SMALL LETTER A WITH OGONEK\n0x0106\t\tC\t# LATIN CAPITAL LETTER C WITH ACUTE\n0x0107\t\tc\t# LATIN SMALL LETTER C WITH ACUTE\n0x0108\t\tC\t# LATIN CAPITAL LETTER C WITH CIRCUMFLEX\n0x0109\t\tc\t# LATIN SMALL LETTER C WITH CIRCUMFLEX\n0x010A\t\tC\t# LATIN CAPITAL LETTER C WITH DOT ABOVE\n0x010B\t\tc\t# LATIN SMALL LETTER C WITH DOT ABOVE\n0x010C\t\tC\t# LATIN CAPITAL LETTER C WITH CARON\n0x010D\t\tc\t# LATIN SMALL LETTER C WITH CARON\n0x010E\t\tD\t# LATIN CAPITAL LETTER D WITH CARON\n0x010F\t\td\t# LATIN SMALL LETTER D WITH CARON\n\n0x0110\t\tD\t# LATIN CAPITAL LETTER D WITH STROKE\n0x0111\t\td\t# LATIN SMALL LETTER D WITH STROKE\n0x0112\t\tE\t# LATIN CAPITAL LETTER E WITH MACRON\n0x0113\t\te\t# LATIN SMALL LETTER E WITH MACRON\n0x0114\t\tE\t# LATIN CAPITAL LETTER E WITH BREVE\n0x0115\t\te\t# LATIN SMALL LETTER E WITH BREVE\n0x0116\t\tE\t# LATIN CAPITAL LETTER E WITH DOT ABOVE\n0x0117\t\te\t# LATIN SMALL LETTER E WITH DOT ABOVE\n0x0118\t\tE\t# LATIN CAPITAL LETTER E WITH OGONEK\n0x0119\t\te\t# LATIN SMALL LETTER E WITH OGONEK\n0x011A\t\tE\t# LATIN CAPITAL LETTER E WITH CARON\n0x011B\t\te\t# LATIN SMALL LETTER E WITH CARON\n0x011C\t\tG\t# LATIN CAPITAL LETTER G WITH CIRCUMFLEX\n0x011D\t\tg\t# LATIN SMALL LETTER G WITH CIRCUMFLEX\n0x011E\t\tG\t# LATIN CAPITAL LETTER G WITH BREVE\n0x011F\t\tg\t# LATIN SMALL LETTER G WITH BREVE\n\n0x0120\t\tG\t# LATIN CAPITAL LETTER G WITH DOT ABOVE\n0x0121\t\tg\t# LATIN SMALL LETTER G WITH DOT ABOVE\n0x0122\t\tG\t# LATIN CAPITAL LETTER G WITH CEDILLA\n0x0123\t\tg\t# LATIN SMALL LETTER G WITH CEDILLA\n0x0124\t\tH\t# LATIN CAPITAL LETTER H WITH CIRCUMFLEX\n0x0125\t\th\t# LATIN SMALL LETTER H WITH CIRCUMFLEX\n0x0126\t\tH\t# LATIN CAPITAL LETTER H WITH STROKE\n0x0127\t\th\t# LATIN SMALL LETTER H WITH STROKE\n0x0128\t\tI\t# LATIN CAPITAL LETTER I WITH TILDE\n0x0129\t\ti\t# LATIN SMALL LETTER I WITH TILDE\n0x012A\t\tI\t# LATIN CAPITAL LETTER I WITH MACRON\n0x012B\t\ti\t# LATIN SMALL LETTER I WITH MACRON\n0x012C\t\tI\t# LATIN CAPITAL LETTER I WITH BREVE\n0x012D\t\ti\t# LATIN SMALL LETTER I WITH BREVE\n0x012E\t\tI\t# LATIN CAPITAL LETTER I WITH OGONEK\n0x012F\t\ti\t# LATIN SMALL LETTER I WITH OGONEK\n\n0x0130\t\tI\t# LATIN CAPITAL LETTER I WITH DOT ABOVE\n0x0131\t\ti\t# LATIN SMALL LETTER DOTLESS I\n0x0132\t\tIJ\t# LATIN CAPITAL LIGATURE IJ\n0x0133\t\tij\t# LATIN SMALL LIGATURE IJ\n0x0134\t\tJ\t# LATIN CAPITAL LETTER J WITH CIRCUMFLEX\n0x0135\t\tj\t# LATIN SMALL LETTER J WITH CIRCUMFLEX\n0x0136\t\tK\t# LATIN CAPITAL LETTER K WITH CEDILLA\n0x0137\t\tk\t# LATIN SMALL LETTER K WITH CEDILLA\n0x0138\t\tq\t# LATIN SMALL LETTER KRA (Greenlandic)\n0x0139\t\tL\t# LATIN CAPITAL LETTER L WITH ACUTE\n0x013A\t\tl\t# LATIN SMALL LETTER L WITH ACUTE\n0x013B\t\tL\t# LATIN CAPITAL LETTER L WITH CEDILLA\n0x013C\t\tl\t# LATIN SMALL LETTER L WITH CEDILLA\n0x013D\t\tL\t# LATIN CAPITAL LETTER L WITH CARON\n0x013E\t\tl\t# LATIN SMALL LETTER L WITH CARON\n0x013F\t\tL\t# LATIN CAPITAL LETTER L WITH MIDDLE DOT\n\n0x0140\t\tl\t# LATIN SMALL LETTER L WITH MIDDLE DOT\n0x0141\t\tL\t# LATIN CAPITAL LETTER L WITH STROKE\n0x0142\t\tl\t# LATIN SMALL LETTER L WITH STROKE\n0x0143\t\tN\t# LATIN CAPITAL LETTER N WITH ACUTE\n0x0144\t\tn\t# LATIN SMALL LETTER N WITH ACUTE\n0x0145\t\tN\t# LATIN CAPITAL LETTER N WITH CEDILLA\n0x0146\t\tn\t# LATIN SMALL LETTER N WITH CEDILLA\n0x0147\t\tN\t# LATIN CAPITAL LETTER N WITH CARON\n0x0148\t\tn\t# LATIN SMALL LETTER N WITH CARON\n0x0149\t\tn\t# LATIN SMALL LETTER N PRECEDED BY APOSTROPHE\n0x014A\t\tNG\t# LATIN CAPITAL LETTER ENG (Sami)\n0x014B\t\tng\t# LATIN SMALL LETTER ENG (Sami)\n0x014C\t\tO\t# LATIN CAPITAL LETTER O WITH MACRON\n0x014D\t\to\t# LATIN SMALL LETTER O WITH MACRON\n0x014E\t\tO\t# LATIN CAPITAL LETTER O WITH BREVE\n0x014F\t\to\t# LATIN SMALL LETTER O WITH BREVE\n\n0x0150\t\tO\t# LATIN CAPITAL LETTER O WITH DOUBLE ACUTE\n0x0151\t\to\t# LATIN SMALL LETTER O WITH DOUBLE ACUTE\n0x0152\t\tOE\t# LATIN CAPITAL LIGATURE OE\n0x0153\t\toe\t# LATIN SMALL LIGATURE OE\n0x0154\t\tR\t# LATIN CAPITAL LETTER R WITH ACUTE\n0x0155\t\tr\t# LATIN SMALL LETTER R WITH ACUTE\n0x0156\t\tR\t# LATIN CAPITAL LETTER R WITH CEDILLA\n0x0157\t\tr\t# LATIN SMALL LETTER R WITH CEDILLA\n0x0158\t\tR\t# LATIN CAPITAL LETTER R WITH CARON\n0x0159\t\tr\t# LATIN SMALL LETTER R WITH CARON\n0x015A\t\tS\t# LATIN CAPITAL LETTER S WITH ACUTE\n0x015B\t\ts\t# LATIN SMALL LETTER S WITH ACUTE\n0x015C\t\tS\t# LATIN CAPITAL LETTER S WITH CIRCUMFLEX\n0x015D\t\ts\t# LATIN SMALL LETTER S WITH CIRCUMFLEX\n0x015E\t\tS\t# LATIN CAPITAL LETTER S WITH CEDILLA\n0x015F\t\ts\t# LATIN SMALL LETTER S WITH CEDILLA\n\n0x0160\t\tS\t# LATIN CAPITAL LETTER S WITH CARON\n0x0161\t\ts\t# LATIN SMALL LETTER S WITH CARON\n0x0162\t\tT\t# LATIN CAPITAL LETTER T WITH CEDILLA\n0x0163\t\tt\t# LATIN SMALL LETTER T WITH CEDILLA\n0x0164\t\tT\t# LATIN CAPITAL LETTER T WITH CARON\n0x0165\t\tt\t# LATIN SMALL LETTER T WITH CARON\n0x0166\t\tT\t# LATIN CAPITAL LETTER T WITH STROKE\n0x0167\t\tt\t# LATIN SMALL LETTER T WITH STROKE\n0x0168\t\tU\t# LATIN CAPITAL LETTER U WITH TILDE\n0x0169\t\tu\t# LATIN SMALL LETTER U WITH TILDE\n0x016A\t\tU\t# LATIN CAPITAL LETTER U WITH MACRON\n0x016B\t\tu\t# LATIN SMALL LETTER U WITH MACRON\n0x016C\t\tU\t# LATIN CAPITAL LETTER U WITH BREVE\n0x016D\t\tu\t# LATIN SMALL LETTER U WITH BREVE\n0x016E\t\tU\t# LATIN CAPITAL LETTER U WITH RING ABOVE\n0x016F\t\tu\t# LATIN SMALL LETTER U WITH RING ABOVE\n\n0x0170\t\tU\t# LATIN CAPITAL LETTER U WITH DOUBLE ACUTE\n0x0171\t\tu\t# LATIN SMALL LETTER U WITH DOUBLE ACUTE\n0x0172\t\tU\t# LATIN CAPITAL LETTER U WITH OGONEK\n0x0173\t\tu\t# LATIN SMALL LETTER U WITH OGONEK\n0x0174\t\tW\t# LATIN CAPITAL LETTER W WITH CIRCUMFLEX\n0x0175\t\tw\t# LATIN SMALL LETTER W WITH CIRCUMFLEX\n0x0176\t\tY\t# LATIN CAPITAL LETTER Y WITH CIRCUMFLEX\n0x0177\t\ty\t# LATIN SMALL LETTER Y WITH CIRCUMFLEX\n0x0178\t\tY\t# LATIN CAPITAL LETTER Y WITH DIAERESIS\n0x0179\t\tZ\t# LATIN CAPITAL LETTER Z WITH ACUTE\n0x017A\t\tz\t# LATIN SMALL LETTER Z WITH ACUTE\n0x017B\t\tZ\t# LATIN CAPITAL LETTER Z WITH DOT ABOVE\n0x017C\t\tz\t# LATIN SMALL LETTER Z WITH DOT ABOVE\n0x017D\t\tZ\t# LATIN CAPITAL LETTER Z WITH CARON\n0x017E\t\tz\t# LATIN SMALL LETTER Z WITH CARON\n0x017F\t\ts\t# LATIN SMALL LETTER LONG S\n\n#\n# Dunno where\n#\n\n0x02C6\t\t^\t# MODIFIER LETTER CIRCUMFLEX ACCENT\n\n0x2010\t\t-\t# HYPHEN\n0x2011\t\t-\t# NON-BREAKING HYPHEN\n0x2012\t\t-\t# FIGURE DASH\n0x2013\t\t-\t# EN DASH\n0x2014\t\t-\t# EM DASH\n0x2015\t\t-\t# HORIZONTAL BAR\n\n0x2026\t\t...\t# HORIZONTAL ELLIPSIS\n\n0x2122\t\t_tm_\t# TRADE MARK SIGN\n\n#\n# REGRESSION TESTING SECTION\n#\n\n0xC0DE\t\tcode\t# testing value\n0xCAFE\t\tcafe\t# testing value\n0xFACE\t\tface\t# testing value\n\n# 0xFACE\t\tpunim\t# uncomment to break unit test\n\n# 0x4000\t\tbroken\t# uncomment to break unit test\n\n#\n# REGRESSION TESTING SECTION\n#\n\nend\n"

/-- What test_table_resize.c looks up. -/
def lookups (t : Table) : List (Option Bytes) :=
  [0x20, 0xa3, 0x14b, 0xbad, 0x4000, 0xc0de, 0xcafe, 0xface].map fun k => tableGet t k

-- test_table_resize.c; the size 1000000 is replaced by 20000
#guard
    ((parseTableContent (lit "C") resizeFixture).map fun t =>
      [t, tableResize t 10000 false, tableResize t 10000 true, tableResize (tableResize (tableResize t 10000 true) 20000 true) ((t.used / 16 + 1) * 16) true,
        tableResize t ((t.used / 16 + 1) * 16) false].map lookups) =
    some (List.replicate 5 [some (lit "space"), some (lit "_pound_"), some (lit "ng"), none, none, some (lit "code"),
      some (lit "cafe"), some (lit "face")])

/-- The data of test_parse_inline.c. -/
def inlineData : List (Nat × Bytes × Bytes × Bytes) := [
  (0x1f37a, lit "_root_beer_", utf8 "🍺", lit "_root_beer_"),
  (0x2021, lit "_double_dagger_", utf8 "\u2021", lit "_double_dagger_"),
  (0xae, lit "(r)", utf8 "\u00ae", lit "(r)"),
  (0x1, lit "never...", [0xf0, 0x9f, 0x8d], lit "_"),
  (0x2, lit "never...", [0xf0, 0x9f, 0x8d, 0x77, 0x68, 0x61, 0x74, 0x65, 0x76, 0x65, 0x72], lit "_whatever"),
  (0x3, lit "never...", [0xe2, 0x80], lit "_"),
  (0x4, lit "never...", [0xe2, 0x80, 0x77, 0x68, 0x61, 0x74, 0x65, 0x76, 0x65, 0x72], lit "_whatever"),
  (0x5, lit "never...", [0xc0], lit "_"),
  (0x6, lit "never...", [0xc0, 0x77, 0x68, 0x61, 0x74, 0x65, 0x76, 0x65, 0x72], lit "_whatever")]

/-- The table of test_parse_inline.c:183-188. -/
def inlineTable : Table := inlineData.foldl (fun t v => (tablePut t v.1 v.2.1).1) load_builtin_safe_table

/-- The options of test_parse_inline.c:176-190. -/
def inlineOptions : Options :=
  { sequenceToUse := some ⟨lit "utf_8-and-lower", [{ cleaner := .utf8, table := some inlineTable }, { cleaner := .lower }], none⟩ }

/-- One input of `n` letters and a character, with or without a newline. -/
def inlineCase (v : Nat × Bytes × Bytes × Bytes) (n : Nat) (newline : Bool) : Bool :=
  let nl : Bytes := if newline then [10] else []
  let h := n / 2
  let input := List.replicate (h / 2) 0x78 ++ List.replicate h 0x58 ++ List.replicate (n - h - h / 2) 0x78 ++ v.2.2.1 ++ nl
  let r := run (parseInline .linux inlineOptions none) { stdin := input }
  r.1 == some 0 && r.2.2.1 == List.replicate n 0x78 ++ v.2.2.2 ++ nl

-- test_parse_inline.c; of the lengths 992 to 1055 these
#guard [992, 1003, 1007, 1008, 1019, 1020, 1021, 1022, 1023, 1024, 1025, 1055].all fun n => inlineData.all fun v => inlineCase v n true && inlineCase v n false

-- test_parse_inline.c, protected names
#guard
    (run (parseInline .linux { sequenceToUse := some ⟨lit "wipeup-lower",
      [{ cleaner := .wipeup, removeTrailing := true }, { cleaner := .lower }], none⟩ } none) { stdin := lit "..\n.git\n.UPPER\nnot.UPPER\n.wipeup------no\nwipeup------yes\n" }).2.2.1 =
    lit "..\n.git\n.upper\nnot.upper\n.wipeup-no\nwipeup-yes\n"

-- test_spoof_config_file.c
#guard
    (match (parseConfigText (lit "f") (lit "sequence default{safe{builtin \"safe\";};wipeup{remove_trailing;};};sequence \"iso8859_1\"{iso8859_1{builtin \"iso8859_1\";};safe{builtin \"safe\";};wipeup{remove_trailing;};};sequence \"iso8859_1-legacy\"{iso8859_1{builtin \"cp1252\";};iso8859_1{builtin \"iso8859_1\";};safe{builtin \"safe\";};wipeup{remove_trailing;};};sequence \"utf_8\"{utf_8{builtin \"unicode\";};safe{builtin \"safe\";};wipeup{remove_trailing;};};sequence \"uncgi\"{uncgi;safe{builtin \"safe\";};wipeup{remove_trailing;};};sequence \"lower\"{safe{builtin \"safe\";};lower;wipeup{remove_trailing;};};sequence \"iso8859_1-only\"{iso8859_1{builtin \"iso8859_1\";};};sequence \"cp1252-only\"{iso8859_1{builtin \"cp1252\";};};sequence \"utf_8-only\"{utf_8{builtin \"unicode\";};};sequence \"uncgi-only\"{uncgi;};sequence \"lower-only\"{lower;};ignore{filename \"{arch}\";};") none).2, spoofConfigFile with
      | .ok a, .ok b => a.sequences.map (fun q => (q.name, q.filters)) == b.sequences.map (fun q => (q.name, q.filters)) &&
          a.filesToIgnore == b.filesToIgnore
      | _, _ => false)

-- legacy/man-page-example, detoxrc.5
#guard
  let r := run (detoxMain .linux { program := lit "detox", args := [lit "-f", lit "detoxrc.detoxrc.5", lit "-L", lit "-v"] } 1000) { contents := [(lit "detoxrc.detoxrc.5", lit "# START SAMPLE\n# filter UTF-8 control characters to ASCII (using chained tables), clean up\nsequence utf8 {\n  utf_8 {\n    filename \"/usr/local/share/detox/custom.tbl\";\n  };\n  utf_8 {\n    builtin \"unicode\";\n  };\n  safe {\n    builtin \"safe\";\n  };\n  wipeup {\n    remove_trailing;\n  };\n  max_length {\n    length 128;\n  };\n};\n# decode CGI, transcode CP-1252 to UTF-8, clean up\nsequence \"cgi-cp1252\" {\n  uncgi;\n  iso8859_1 {\n    builtin \"cp1252\";\n  };\n  safe {\n    builtin \"safe\";\n  };\n};\n# END SAMPLE\n")] }
  r.1 == some 0 && r.2.2.1 == lit "sequence name: utf8 (*)\n\tsource file: detoxrc.detoxrc.5\n\tcleaner: utf_8\n\t\ttranslation table: /usr/local/share/detox/custom.tbl\n\tcleaner: utf_8\n\t\tbuiltin table: unicode\n\tcleaner: safe\n\t\tbuiltin table: safe\n\tcleaner: wipeup\n\t\tremove trailing: yes\n\tcleaner: max length\n\t\tlength: 128\n\nsequence name: cgi-cp1252\n\tsource file: detoxrc.detoxrc.5\n\tcleaner: uncgi\n\tcleaner: iso8859_1\n\t\tbuiltin table: cp1252\n\tcleaner: safe\n\t\tbuiltin table: safe\n"

-- legacy/man-page-example, detox.tbl.5
#guard
  let r := run (detoxMain .linux { program := lit "detox", args := [lit "-f", lit "detoxrc.detox.tbl.5", lit "-L", lit "-v"] } 1000) { contents := [(lit "detoxrc.detox.tbl.5", lit "# START SAMPLE\n# Sample detoxrc\n\nsequence default {\n\tsafe {\n\t\tfilename \"/home/MYUSERNAME/.local/share/detox/safe.tbl\";\n\t};\n\tsafe;\n\twipeup;\n};\n\n# EOF\n# END SAMPLE\n")] }
  r.1 == some 0 && r.2.2.1 == lit "sequence name: default (*)\n\tsource file: detoxrc.detox.tbl.5\n\tcleaner: safe\n\t\ttranslation table: /home/MYUSERNAME/.local/share/detox/safe.tbl\n\tcleaner: safe\n\tcleaner: wipeup\n\t\tremove trailing: no\n"

-- legacy/man-page-sequence-with-language, C.UTF-8
#guard
  let r := run (detoxMain .linux { program := lit "/x/inline-detox", args := [lit "-f", lit "detoxrc.manpage"], ctype := lit "C.UTF-8" } 1000) { contents := [(lit "detoxrc.manpage", lit "# Sample detoxrc\n\nsequence default {\n\tsafe {\n\t\tfilename \"safe-manpage.tbl\";\n\t};\n\tsafe;\n\twipeup;\n};\n\n# EOF\n"), (lit "safe-manpage.tbl", lit "#\n# This is a simple example of a \"safe\" table.  It only translates 4 characters.\n#\n# The default is commented out, so any character that is not in this table will\n# be ignored.\n#\n\n# default   _\n\n#\n# This is the main replacement block.  Each line specifies a character and a\n# string to replace it with.\n#\n\nstart\n0x09\t_tab_\t\t# comments work on lines, too\n0x24\t_dollar_\t# $$$\n0x26\t_and_\t\t# ampersand\nend\n\n#\n# Starts an optional, language-specific translation block.  detox will read\n# your locale and load the block if the word after start matches the language\n# portion of your locale.\n#\n# In the example here, the character $ will be replaced with \"_money_\" if the\n# user is working in English.  If the user is using a different language, $\n# will be replaced with the value configured in the previous block, \"_dollar_\".\n#\n\nstart en\n0x24\t_money_\t\t# money money\nend\n\n# EOF\n")], stdin := lit "\t $ &\n" }
  r.1 == some 0 && r.2.2.1 == lit "tab_dollar_and_\n"

-- legacy/man-page-sequence-with-language, de_DE.UTF-8
#guard
  let r := run (detoxMain .linux { program := lit "/x/inline-detox", args := [lit "-f", lit "detoxrc.manpage"], ctype := lit "de_DE.UTF-8" } 1000) { contents := [(lit "detoxrc.manpage", lit "# Sample detoxrc\n\nsequence default {\n\tsafe {\n\t\tfilename \"safe-manpage.tbl\";\n\t};\n\tsafe;\n\twipeup;\n};\n\n# EOF\n"), (lit "safe-manpage.tbl", lit "#\n# This is a simple example of a \"safe\" table.  It only translates 4 characters.\n#\n# The default is commented out, so any character that is not in this table will\n# be ignored.\n#\n\n# default   _\n\n#\n# This is the main replacement block.  Each line specifies a character and a\n# string to replace it with.\n#\n\nstart\n0x09\t_tab_\t\t# comments work on lines, too\n0x24\t_dollar_\t# $$$\n0x26\t_and_\t\t# ampersand\nend\n\n#\n# Starts an optional, language-specific translation block.  detox will read\n# your locale and load the block if the word after start matches the language\n# portion of your locale.\n#\n# In the example here, the character $ will be replaced with \"_money_\" if the\n# user is working in English.  If the user is using a different language, $\n# will be replaced with the value configured in the previous block, \"_dollar_\".\n#\n\nstart en\n0x24\t_money_\t\t# money money\nend\n\n# EOF\n")], stdin := lit "\t $ &\n" }
  r.1 == some 0 && r.2.2.1 == lit "tab_dollar_and_\n"

-- legacy/man-page-sequence-with-language, en_US.UTF-8
#guard
  let r := run (detoxMain .linux { program := lit "/x/inline-detox", args := [lit "-f", lit "detoxrc.manpage"], ctype := lit "en_US.UTF-8" } 1000) { contents := [(lit "detoxrc.manpage", lit "# Sample detoxrc\n\nsequence default {\n\tsafe {\n\t\tfilename \"safe-manpage.tbl\";\n\t};\n\tsafe;\n\twipeup;\n};\n\n# EOF\n"), (lit "safe-manpage.tbl", lit "#\n# This is a simple example of a \"safe\" table.  It only translates 4 characters.\n#\n# The default is commented out, so any character that is not in this table will\n# be ignored.\n#\n\n# default   _\n\n#\n# This is the main replacement block.  Each line specifies a character and a\n# string to replace it with.\n#\n\nstart\n0x09\t_tab_\t\t# comments work on lines, too\n0x24\t_dollar_\t# $$$\n0x26\t_and_\t\t# ampersand\nend\n\n#\n# Starts an optional, language-specific translation block.  detox will read\n# your locale and load the block if the word after start matches the language\n# portion of your locale.\n#\n# In the example here, the character $ will be replaced with \"_money_\" if the\n# user is working in English.  If the user is using a different language, $\n# will be replaced with the value configured in the previous block, \"_dollar_\".\n#\n\nstart en\n0x24\t_money_\t\t# money money\nend\n\n# EOF\n")], stdin := lit "\t $ &\n" }
  r.1 == some 0 && r.2.2.1 == lit "tab_money_and_\n"

-- legacy/github-issue-0037, file 1
#guard
  let r := run (detoxMain .linux { program := lit "detox", args := [lit "-f", lit "detoxrc.invalid.1", lit "-L"] } 1000) { contents := [(lit "detoxrc.invalid.1", lit "sequence \"invalid\" {\n\tsafe;\n\twipeup;\n\tbroken {\n\t\tpieces;\n\t};\n};\n")] }
  r.1 == some 1 && r.2.2.1 == [] && r.2.2.2 == lit "detox: error parsing config file detoxrc.invalid.1: syntax error\n\tline 4: broken\n"

-- legacy/github-issue-0037, file 2
#guard
  let r := run (detoxMain .linux { program := lit "detox", args := [lit "-f", lit "detoxrc.invalid.2", lit "-L"] } 1000) { contents := [(lit "detoxrc.invalid.2", lit "sequence \"invalid\" {\n\tsafe;\n\twipeup {\n\t\tbroken;\n\t};\n};\n")] }
  r.1 == some 1 && r.2.2.1 == [] && r.2.2.2 == lit "detox: error parsing config file detoxrc.invalid.2: syntax error\n\tline 4: broken\n"

-- legacy/github-issue-0037, file 3
#guard
  let r := run (detoxMain .linux { program := lit "detox", args := [lit "-f", lit "detoxrc.invalid.3", lit "-L"] } 1000) { contents := [(lit "detoxrc.invalid.3", lit "sequence \"invalid\" {\n\tsafe;\n\twipeup;\n")] }
  r.1 == some 1 && r.2.2.1 == [] && r.2.2.2 == lit "detox: error parsing config file detoxrc.invalid.3: syntax error\n\tline 4: \n"

-- legacy/github-issue-0050-invalid
#guard
  let r := run (detoxMain .linux { program := lit "detox", args := [lit "-f", lit "detoxrc", lit "random filename.txt"] } 1000) { contents := [(lit "detoxrc", lit "sequence \"default\" {\n\tsafe {\n\t\tbuiltin \"safe \";\n\t};\n};\n\n")], tree := [(lit "random filename.txt", .reg)] }
  r.1 == some 1 && r.2.1 == [lit "random filename.txt"]

-- legacy-dir and github-issue-0062 with -r
#guard
  let r := run (detoxMain .linux { program := lit "detox", args := [lit "-r", lit "/w"] } 1000) { tree := [(lit "/w", .dir), (lit "/w/1", .dir), (lit "/w/2", .dir), (lit "/w/3", .dir), (lit "/w/4", .dir), (lit "/w/5", .dir), (lit "/w/1/&ampersand", .reg), (lit "/w/2/|bar", .reg), (lit "/w/3/:colon", .reg), (lit "/w/4/,comma", .reg), (lit "/w/5/#octothorpe", .reg), (lit "/w/%percent", .reg), (lit "/w/+plus", .reg), (lit "/w/;semi colon", .reg)] }
  r.1 == some 0 && r.2.1 == [lit "/w", lit "/w/1", lit "/w/2", lit "/w/3", lit "/w/4", lit "/w/5", lit "/w/1/and_ampersand", lit "/w/2/bar", lit "/w/3/colon", lit "/w/4/,comma", lit "/w/5/octothorpe", lit "/w/%percent", lit "/w/+plus", lit "/w/semi_colon"]

-- legacy-dir and github-issue-0062 with --recursive
#guard
  let r := run (detoxMain .linux { program := lit "detox", args := [lit "--recursive", lit "/w"] } 1000) { tree := [(lit "/w", .dir), (lit "/w/1", .dir), (lit "/w/2", .dir), (lit "/w/3", .dir), (lit "/w/4", .dir), (lit "/w/5", .dir), (lit "/w/1/&ampersand", .reg), (lit "/w/2/|bar", .reg), (lit "/w/3/:colon", .reg), (lit "/w/4/,comma", .reg), (lit "/w/5/#octothorpe", .reg), (lit "/w/%percent", .reg), (lit "/w/+plus", .reg), (lit "/w/;semi colon", .reg)] }
  r.1 == some 0 && r.2.1 == [lit "/w", lit "/w/1", lit "/w/2", lit "/w/3", lit "/w/4", lit "/w/5", lit "/w/1/and_ampersand", lit "/w/2/bar", lit "/w/3/colon", lit "/w/4/,comma", lit "/w/5/octothorpe", lit "/w/%percent", lit "/w/+plus", lit "/w/semi_colon"]

-- legacy/github-issue-0064, hidden entry, built-in
#guard
  let r := run (detoxMain .linux { program := lit "detox", args := [lit "-r", lit "test"] } 1000) { contents := [], tree := [(lit "test", .dir), (lit "test/.hi there", .reg)] }
  r.1 == some 0 && r.2.1 == [lit "test", lit "test/.hi there"]

-- legacy/github-issue-0064, hidden entry, base
#guard
  let r := run (detoxMain .linux { program := lit "detox", args := [lit "-f", lit "rc", lit "-r", lit "test"] } 1000) { contents := [(lit "rc", lit "sequence default {\n\tsafe {\n\t\tbuiltin \"safe\";\n\t};\n\twipeup;\n};\n\nignore {\n\tfilename \"{arch}\";\n};\n")], tree := [(lit "test", .dir), (lit "test/.hi there", .reg)] }
  r.1 == some 0 && r.2.1 == [lit "test", lit "test/.hi there"]

-- legacy/github-issue-0064, hidden entry, remove_trailing
#guard
  let r := run (detoxMain .linux { program := lit "detox", args := [lit "-f", lit "rc", lit "-r", lit "test"] } 1000) { contents := [(lit "rc", lit "sequence default {\n\tsafe {\n\t\tbuiltin \"safe\";\n\t};\n\twipeup {\n\t\tremove_trailing;\n\t};\n};\n\nignore {\n\tfilename \"{arch}\";\n};\n")], tree := [(lit "test", .dir), (lit "test/.hi there", .reg)] }
  r.1 == some 0 && r.2.1 == [lit "test", lit "test/.hi there"]

-- legacy/github-issue-0064, hidden directory, built-in
#guard
  let r := run (detoxMain .linux { program := lit "detox", args := [lit "-r", lit "."] } 1000) { contents := [], tree := [(lit ".", .dir), (lit "./.git", .dir), (lit "./.git/.hi there", .reg)] }
  r.1 == some 0 && r.2.1 == [lit ".", lit "./.git", lit "./.git/.hi there"]

-- legacy/github-issue-0064, hidden directory, base
#guard
  let r := run (detoxMain .linux { program := lit "detox", args := [lit "-f", lit "rc", lit "-r", lit "."] } 1000) { contents := [(lit "rc", lit "sequence default {\n\tsafe {\n\t\tbuiltin \"safe\";\n\t};\n\twipeup;\n};\n\nignore {\n\tfilename \"{arch}\";\n};\n")], tree := [(lit ".", .dir), (lit "./.git", .dir), (lit "./.git/.hi there", .reg)] }
  r.1 == some 0 && r.2.1 == [lit ".", lit "./.git", lit "./.git/.hi there"]

-- legacy/github-issue-0064, hidden directory, remove_trailing
#guard
  let r := run (detoxMain .linux { program := lit "detox", args := [lit "-f", lit "rc", lit "-r", lit "."] } 1000) { contents := [(lit "rc", lit "sequence default {\n\tsafe {\n\t\tbuiltin \"safe\";\n\t};\n\twipeup {\n\t\tremove_trailing;\n\t};\n};\n\nignore {\n\tfilename \"{arch}\";\n};\n")], tree := [(lit ".", .dir), (lit "./.git", .dir), (lit "./.git/.hi there", .reg)] }
  r.1 == some 0 && r.2.1 == [lit ".", lit "./.git", lit "./.git/.hi there"]

-- legacy/github-issue-0064, below a hidden directory, built-in
#guard
  let r := run (detoxMain .linux { program := lit "detox", args := [lit "-r", lit "."] } 1000) { contents := [], tree := [(lit ".", .dir), (lit "./.git", .dir), (lit "./.git/objects", .dir), (lit "./.git/objects/hi there", .reg)] }
  r.1 == some 0 && r.2.1 == [lit ".", lit "./.git", lit "./.git/objects", lit "./.git/objects/hi there"]

-- legacy/github-issue-0064, below a hidden directory, base
#guard
  let r := run (detoxMain .linux { program := lit "detox", args := [lit "-f", lit "rc", lit "-r", lit "."] } 1000) { contents := [(lit "rc", lit "sequence default {\n\tsafe {\n\t\tbuiltin \"safe\";\n\t};\n\twipeup;\n};\n\nignore {\n\tfilename \"{arch}\";\n};\n")], tree := [(lit ".", .dir), (lit "./.git", .dir), (lit "./.git/objects", .dir), (lit "./.git/objects/hi there", .reg)] }
  r.1 == some 0 && r.2.1 == [lit ".", lit "./.git", lit "./.git/objects", lit "./.git/objects/hi there"]

-- legacy/github-issue-0064, below a hidden directory, remove_trailing
#guard
  let r := run (detoxMain .linux { program := lit "detox", args := [lit "-f", lit "rc", lit "-r", lit "."] } 1000) { contents := [(lit "rc", lit "sequence default {\n\tsafe {\n\t\tbuiltin \"safe\";\n\t};\n\twipeup {\n\t\tremove_trailing;\n\t};\n};\n\nignore {\n\tfilename \"{arch}\";\n};\n")], tree := [(lit ".", .dir), (lit "./.git", .dir), (lit "./.git/objects", .dir), (lit "./.git/objects/hi there", .reg)] }
  r.1 == some 0 && r.2.1 == [lit ".", lit "./.git", lit "./.git/objects", lit "./.git/objects/hi there"]

-- legacy/github-issue-0064, ignored directory, base
#guard
  let r := run (detoxMain .linux { program := lit "detox", args := [lit "-f", lit "rc", lit "-r", lit "."] } 1000) { contents := [(lit "rc", lit "sequence default {\n\tsafe {\n\t\tbuiltin \"safe\";\n\t};\n\twipeup;\n};\n\nignore {\n\tfilename \"{arch}\";\n};\n")], tree := [(lit ".", .dir), (lit "./{arch}", .dir), (lit "./{arch}/objects", .dir), (lit "./{arch}/objects/hi there", .reg)] }
  r.1 == some 0 && r.2.1 == [lit ".", lit "./{arch}", lit "./{arch}/objects", lit "./{arch}/objects/hi there"]

-- legacy/github-issue-0064, ignored directory, remove_trailing
#guard
  let r := run (detoxMain .linux { program := lit "detox", args := [lit "-f", lit "rc", lit "-r", lit "."] } 1000) { contents := [(lit "rc", lit "sequence default {\n\tsafe {\n\t\tbuiltin \"safe\";\n\t};\n\twipeup {\n\t\tremove_trailing;\n\t};\n};\n\nignore {\n\tfilename \"{arch}\";\n};\n")], tree := [(lit ".", .dir), (lit "./{arch}", .dir), (lit "./{arch}/objects", .dir), (lit "./{arch}/objects/hi there", .reg)] }
  r.1 == some 0 && r.2.1 == [lit ".", lit "./{arch}", lit "./{arch}/objects", lit "./{arch}/objects/hi there"]

-- legacy/github-issue-0064, ignored directory from inside, base
#guard
  let r := run (detoxMain .linux { program := lit "detox", args := [lit "-f", lit "rc", lit "-r", lit ".."] } 1000) { contents := [(lit "rc", lit "sequence default {\n\tsafe {\n\t\tbuiltin \"safe\";\n\t};\n\twipeup;\n};\n\nignore {\n\tfilename \"{arch}\";\n};\n")], tree := [(lit "..", .dir), (lit "../{arch}", .dir), (lit "../{arch}/objects", .dir), (lit "../{arch}/objects/hi there", .reg)] }
  r.1 == some 0 && r.2.1 == [lit "..", lit "../{arch}", lit "../{arch}/objects", lit "../{arch}/objects/hi there"]

-- legacy/github-issue-0064, ignored directory from inside, remove_trailing
#guard
  let r := run (detoxMain .linux { program := lit "detox", args := [lit "-f", lit "rc", lit "-r", lit ".."] } 1000) { contents := [(lit "rc", lit "sequence default {\n\tsafe {\n\t\tbuiltin \"safe\";\n\t};\n\twipeup {\n\t\tremove_trailing;\n\t};\n};\n\nignore {\n\tfilename \"{arch}\";\n};\n")], tree := [(lit "..", .dir), (lit "../{arch}", .dir), (lit "../{arch}/objects", .dir), (lit "../{arch}/objects/hi there", .reg)] }
  r.1 == some 0 && r.2.1 == [lit "..", lit "../{arch}", lit "../{arch}/objects", lit "../{arch}/objects/hi there"]

end Detox.Tests
