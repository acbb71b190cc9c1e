#!/usr/bin/env python3
"""Write lean/Verif/Tests.lean: the vectors of /repo/tests evaluated in the model (tests, not proofs)."""
import re, pathlib
root = pathlib.Path(__file__).resolve().parent.parent
unit = pathlib.Path("/repo/tests/unit")
legacy = pathlib.Path("/repo/tests/legacy")

def c_literals(s):
    """Bytes of adjacent C string literals at the start of s."""
    out, i = b"", 0
    while True:
        while i < len(s) and s[i].isspace():
            i += 1
        if i >= len(s) or s[i] != '"':
            return out
        i += 1
        while s[i] != '"':
            c = s[i]
            if c != '\\':
                out += c.encode(); i += 1; continue
            e = s[i + 1]; i += 2
            if e == 'x':
                m = re.match(r'[0-9A-Fa-f]+', s[i:]); out += bytes([int(m.group(), 16)]); i += m.end()
            elif e in 'uU':
                n = 4 if e == 'u' else 8; out += chr(int(s[i:i + n], 16)).encode(); i += n
            elif e in '01234567':
                m = re.match(r'[0-7]{1,3}', s[i - 1:]); out += bytes([int(m.group(), 8)]); i += m.end() - 1
            else:
                out += {'n': b'\n', 't': b'\t', 'r': b'\r', 'a': b'\a', 'b': b'\b', '\\': b'\\', '"': b'"', "'": b"'"}[e]
        i += 1

def lean(b):
    try:
        t = b.decode()
    except UnicodeDecodeError:
        return "[" + ", ".join("0x%02x" % c for c in b) + "]"
    q = "".join({'\\': '\\\\', '"': '\\"', '\n': '\\n', '\t': '\\t'}.get(c, c if ' ' <= c <= '~' else '\\x%02x' % ord(c) if ord(c) < 128 else '\\u%04x' % ord(c) if ord(c) < 0x10000 else c) for c in t)
    return ('lit "' if t.isascii() else 'utf8 "') + q + '"'

def entries(name):
    text = (unit / name).read_text()
    text = text[:text.index("START_TEST")]
    text = re.sub(r'^\s*//.*$', '', text, flags=re.M)
    res = []
    for part in text.split(".filename")[1:]:
        d = {"filename": c_literals(part[part.index('=') + 1:])}
        for f in ("expected", "expected_a", "expected_b", "max_length"):
            m = re.search(r'\.' + f + r'\s*=\s*', part)
            if m:
                rest = part[m.end():]
                d[f] = int(re.match(r'\d+', rest).group()) if f == "max_length" else c_literals(rest)
        res.append(d)
    n = int(re.search(r'#define DATA_COUNT (\d+)', text).group(1))
    assert n == len(res), (name, n, len(res))
    return res

out = ["""import Verif.Model.Builtin
import Verif.Model.Clean
import Verif.Model.Utf8
import Verif.Model.ParseTable
import Verif.Model.Main

/-!
# Tests

The vectors of `/repo/tests`, evaluated in the model. These are tests of the model and not proofs of any property:
they compare it with what the authors of the code expect. Generated by `tools/gentests.py`.
-/

set_option autoImplicit false

namespace Detox.Tests

/-- A world for running a program: what files hold, a tree of paths, and open directories. -/
structure World where
  contents : List (Bytes × Bytes) := []
  tree : List (Bytes × Kind) := []
  handles : List (List Bytes) := []
  stdin : Bytes := []

/-- The names in a directory. -/
def World.names (w : World) (dir : Bytes) : List Bytes :=
  [lit ".", lit ".."] ++ w.tree.filterMap fun e =>
    if (dir ++ lit "/").isPrefixOf e.1 then
      let rest := e.1.drop (dir.length + 1)
      if rest.contains 0x2f then none else some rest
    else none

/-- Run a program in a world: how it ends, what is there then, what was printed on stdout and stderr. -/
def run {α : Type} : Prog α → World → Option Nat × List Bytes × Bytes × Bytes
  | .ret _, w => (some 0, w.tree.map (·.1), [], [])
  | .exit n, w => (some n, w.tree.map (·.1), [], [])
  | .ub _, w => (none, w.tree.map (·.1), [], [])
  | .stuck, w => (none, w.tree.map (·.1), [], [])
  | .lstat p k, w => run (k (((w.tree.zipIdx 1).find? fun e => e.1.1 == p).map fun e => ⟨1, e.2, 1, e.1.2⟩)) w
  | .rename a b k, w =>
    run (k true) { w with tree := w.tree.map fun e =>
      if e.1 = a then (b, e.2) else if (a ++ lit "/").isPrefixOf e.1 then (b ++ e.1.drop a.length, e.2) else e }
  | .opendir p k, w => run (k (.ok w.handles.length)) { w with handles := w.handles ++ [w.names p] }
  | .readdir h k, w =>
    match w.handles.getD h [] with
    | [] => run (k none) w
    | n :: ns => run (k (some n)) { w with handles := w.handles.set h ns }
  | .closedir _ k, w => run k w
  | .slurp none k, w => run (k (some w.stdin)) w
  | .slurp (some p) k, w => run (k (w.contents.lookup p)) w
  | .out s k, w => let r := run k w; (r.1, r.2.1, s ++ r.2.2.1, r.2.2.2)
  | .err s k, w => let r := run k w; (r.1, r.2.1, r.2.2.1, s ++ r.2.2.2)

/-- The bytes of a text. -/
def utf8 (s : String) : Bytes := s.toUTF8.toList

/-- Every input gives what is expected. -/
def allOk (f : Bytes → Res Bytes) (vs : List (Bytes × Bytes)) : Bool := vs.all fun v => f v.1 == .ok v.2

/-- Replace the default translation. -/
def withDefaultOf (t : Table) (d : Option Bytes) : Table := { t with defaultTranslation := d }
"""]

def block(doc, f, pairs):
    rows = ",\n  ".join("(%s, %s)" % (lean(a), lean(b)) for a, b in pairs)
    out.append("-- %s\n#guard allOk (%s) [\n  %s]\n" % (doc, f, rows))

e = [x for x in entries("test_clean_utf_8.c") if x["filename"] != b"\xC0\x80 null"]
out.append("-- test_clean_utf_8.c:89-94, left out below: the test expects `_hidden_null_ null`, 18 bytes, from a buffer of 8 bytes\n#guard cleanUtf8 (some load_builtin_unicode_table) [0xC0, 0x80, 0x20, 0x6e, 0x75, 0x6c, 0x6c] = .ub .oobWrite\n")
block("test_clean_utf_8.c, default `_`", 'cleanUtf8 (some (withDefaultOf load_builtin_unicode_table (some (lit "_"))))', [(x["filename"], x["expected_a"]) for x in e])
block("test_clean_utf_8.c, no default", 'cleanUtf8 (some (withDefaultOf load_builtin_unicode_table none))', [(x["filename"], x["expected_b"]) for x in e])
block("test_clean_utf_8.c, invalid sequences and beyond Unicode", 'cleanUtf8 (some (withDefaultOf load_builtin_unicode_table (some (lit "_"))))',
      [(b"\xC0blah", b"_blah"), (b"blah\xC0", b"blah_"), (b"\xE0\x80\xB6blah", b"6blah"), (b"\xF0\x80\x80\xB6blah", b"6blah"),
       (b"\xF8\x80\x80\x80\xB6blah", b"6blah"), (b"\xFD\xBF\xBF\xBF\xBF\xBFblah", b"_blah")])
out.append('-- test_clean_utf_8.c, test_clean_iso8859_1.c, test_clean_safe.c: no table\n#guard cleanUtf8 none (lit "what") = .exit 1 ∧ cleanIso none (lit "what") = .exit 1 ∧ cleanSafe .linux none (lit "what") = .exit 1\n')
for name, tbl in (("test_clean_iso8859_1.c", "iso8859_1"), ("test_clean_iso8859_1_cp1252.c", "cp1252")):
    e = entries(name)
    block(name + ", default `_`", 'cleanIso (some (withDefaultOf load_builtin_%s_table (some (lit "_"))))' % tbl, [(x["filename"], x["expected_a"]) for x in e])
    block(name + ", no default", 'cleanIso (some (withDefaultOf load_builtin_%s_table none))' % tbl, [(x["filename"], x["expected_b"]) for x in e])
e = entries("test_clean_lower.c")
block("test_clean_lower.c", "cleanLower .linux", [(x["filename"], x["expected"]) for x in e])
e = entries("test_clean_uncgi.c")
block("test_clean_uncgi.c", "cleanUncgi .linux", [(x["filename"], x["expected"]) for x in e])
e = entries("test_clean_wipeup.c")
block("test_clean_wipeup.c", "cleanWipeup false", [(x["filename"], x["expected_a"]) for x in e])
block("test_clean_wipeup.c, remove_trailing", "cleanWipeup true", [(x["filename"], x["expected_b"]) for x in e])
e = entries("test_clean_safe.c")
block("test_clean_safe.c", "cleanSafe .linux (some load_builtin_safe_table)", [(x["filename"], x["expected_a"]) for x in e])
out.append("""/-- The table of test_clean_safe.c:136-138. -/
def customSafe : Table :=
  (tablePut (tablePut (tablePut load_builtin_safe_table 0x07 (lit "_beep_")).1 0x09 (lit "_tab_")).1 0x0a (lit "_nl_")).1
""")
block("test_clean_safe.c, custom table", "cleanSafe .linux (some customSafe)", [(x["filename"], x.get("expected_b", x["expected_a"])) for x in e])
e = entries("test_clean_max_length.c")
rows = ",\n  ".join("(%d, %s, %s)" % (x["max_length"], lean(x["filename"]), lean(x["expected"])) for x in e)
out.append("-- test_clean_max_length.c\n#guard ([\n  %s] : List (Nat × Bytes × Bytes)).all (fun v => cleanMaxLength .linux v.1 v.2.1 == .ok v.2.2)\n" % rows)

# table_max_length
text = (unit / "test_table_max_length.c").read_text()
vals = [(int(m.group(1), 16), c_literals(m.group(2)), int(m.group(3))) for m in re.finditer(r'\.value\s*=\s*0x([0-9A-F]+),\s*\.data\s*=\s*(".*?"),\s*\.max_length\s*=\s*(\d+)', text)]
assert len(vals) == 13
rows = ",\n  ".join("(0x%x, %s, %d)" % (a, lean(b), c) for a, b, c in vals)
out.append("""/-- The data of test_table_max_length.c. -/
def maxLengthData : List (Nat × Bytes × Nat) := [
  %s]

/-- Put each entry and compare the longest length. -/
def putAll : Table → List (Nat × Bytes × Nat) → Option Table
  | t, [] => some t
  | t, (k, d, n) :: rest =>
    let p := tablePut t k d
    if p.2.isSome ∧ p.1.maxDataLength = n then putAll p.1 rest else none

-- test_table_max_length.c, first test
#guard (putAll (tableInit 130) maxLengthData).isSome

-- test_table_max_length.c, second test: resizing measures again
#guard
    ((putAll (tableInit 130) maxLengthData).bind fun t =>
      let same (d : Bytes) := maxLengthData.map fun e => ((e.1, d, 123) : Nat × Bytes × Nat)
      (putAll t (same (lit "a"))).bind fun t1 =>
      (putAll t1 (same [])).map fun t2 =>
        [t, t1, t2].map fun u => ((tableResize u 130 false).maxDataLength, (tableResize u 130 true).maxDataLength, u.maxDataLength)) =
    some [(123, 123, 123), (1, 1, 123), (0, 0, 123)]
""" % rows)

# table_resize (10000 and 1000000 rows are left out)
fix = (unit / "fixtures/test_table_resize.tbl").read_bytes()
out.append("""/-- fixtures/test_table_resize.tbl -/
def resizeFixture : Bytes := %s

/-- What test_table_resize.c looks up. -/
def lookups (t : Table) : List (Option Bytes) :=
  [0x20, 0xa3, 0x14b, 0xbad, 0x4000, 0xc0de, 0xcafe, 0xface].map fun k => tableGet t k

-- test_table_resize.c; the size 1000000 is replaced by 20000
#guard
    ((parseTableContent (lit "C") resizeFixture).map fun t =>
      [t, tableResize t 10000 false, tableResize t 10000 true, tableResize (tableResize (tableResize t 10000 true) 20000 true) ((t.used / 16 + 1) * 16) true,
        tableResize t ((t.used / 16 + 1) * 16) false].map lookups) =
    some (List.replicate 5 [some (lit "space"), some (lit "_pound_"), some (lit "ng"), none, none, some (lit "code"),
      some (lit "cafe"), some (lit "face")])
""" % lean(fix))

# inline
text = (unit / "test_parse_inline.c").read_text()
vals = [(int(m.group(1), 16), c_literals(m.group(2)), c_literals(m.group(3)), c_literals(m.group(4))) for m in re.finditer(
    r'\.table_value\s*=\s*0x([0-9A-F]+),\s*\.table_entry\s*=\s*(".*?"),\s*\.input\s*=\s*(".*?"),\s*\.expected\s*=\s*(".*?"),', text)]
assert len(vals) == 9
rows = ",\n  ".join("(0x%x, %s, %s, %s)" % (a, lean(b), lean(c), lean(d)) for a, b, c, d in vals)
out.append("""/-- The data of test_parse_inline.c. -/
def inlineData : List (Nat × Bytes × Bytes × Bytes) := [
  %s]

/-- The table of test_parse_inline.c:183-188. -/
def inlineTable : Table := inlineData.foldl (fun t v => (tablePut t v.1 v.2.1).1) load_builtin_safe_table

/-- The options of test_parse_inline.c:176-190. -/
def inlineOptions : Options :=
  { sequenceToUse := some ⟨lit "utf_8-and-lower", [{ cleaner := .utf8, table := some inlineTable }, { cleaner := .lower }], none⟩ }

/-- One input of `n` letters and a character, with or without a newline. -/
def inlineCase (v : Nat × Bytes × Bytes × Bytes) (n : Nat) (newline : Bool) : Bool :=
  let nl : Bytes := if newline then [10] else []
  let h := n / 2
  let input := List.replicate (h / 2) 0x78 ++ List.replicate h 0x58 ++ List.replicate (n - h - h / 2) 0x78 ++ v.2.2.1 ++ nl
  let r := run (parseInline .linux inlineOptions none) { stdin := input }
  r.1 == some 0 && r.2.2.1 == List.replicate n 0x78 ++ v.2.2.2 ++ nl
""" % rows)
out.append("-- test_parse_inline.c; of the lengths 992 to 1055 these\n#guard [992, 1003, 1007, 1008, 1019, 1020, 1021, 1022, 1023, 1024, 1025, 1055].all fun n => inlineData.all fun v => inlineCase v n true && inlineCase v n false\n")
pairs = [(c_literals(m.group(1)), c_literals(m.group(2))) for m in re.finditer(r'\{\s*\.input\s*=\s*(".*?"),\s*\.expected\s*=\s*(".*?"),', text[text.index("bad_files_data"):])]
assert len(pairs) == 6
out.append("""-- test_parse_inline.c, protected names
#guard
    (run (parseInline .linux { sequenceToUse := some ⟨lit "wipeup-lower",
      [{ cleaner := .wipeup, removeTrailing := true }, { cleaner := .lower }], none⟩ } none) { stdin := %s }).2.2.1 =
    %s
""" % (lean(b"".join(a + b"\n" for a, _ in pairs)), lean(b"".join(b + b"\n" for _, b in pairs))))

# spoof
text = (unit / "test_spoof_config_file.c").read_text()
rc = c_literals(text[text.index("detoxrc =") + 9:])
out.append("""-- test_spoof_config_file.c
#guard
    (match (parseConfigText (lit "f") (%s) none).2, spoofConfigFile with
      | .ok a, .ok b => a.sequences.map (fun q => (q.name, q.filters)) == b.sequences.map (fun q => (q.name, q.filters)) &&
          a.filesToIgnore == b.filesToIgnore
      | _, _ => false)
""" % lean(rc))

num = lean

def example(doc, prog, args, world, expect, extra=""):
    """expect: list of (projection, lean value)"""
    inv = "{ program := %s, args := [%s]%s }" % (lean(prog), ", ".join(lean(a) for a in args), extra)
    checks = " && ".join("r.%s == %s" % (p, v) for p, v in expect)
    out.append("-- %s\n#guard\n  let r := run (detoxMain .linux %s 1000) %s\n  %s\n" % (doc, inv, world, checks))

def contents(fs):
    return "{ contents := [" + ", ".join("(%s, %s)" % (lean(n), num(c)) for n, c in fs) + "]%s }"

# man pages, -L
for f in ("detoxrc.5", "detox.tbl.5"):
    rcname = ("detoxrc." + f).encode()
    rc = (legacy / "man-page-example" / rcname.decode()).read_bytes()
    exp = (legacy / "man-page-example" / ("expected.%s.txt" % f)).read_bytes()
    example("legacy/man-page-example, " + f, b"detox", [b"-f", rcname, b"-L", b"-v"], contents([(rcname, rc)]) % "", [("1", "some 0"), ("2.2.1", num(exp))])

# language
rc = (legacy / "man-page-sequence-with-language/detoxrc.manpage").read_bytes()
tb = (legacy / "man-page-sequence-with-language/safe-manpage.tbl").read_bytes()
for loc, exp in ((b"C.UTF-8", b"tab_dollar_and_\n"), (b"de_DE.UTF-8", b"tab_dollar_and_\n"), (b"en_US.UTF-8", b"tab_money_and_\n")):
    example("legacy/man-page-sequence-with-language, " + loc.decode(), b"/x/inline-detox", [b"-f", b"detoxrc.manpage"],
            contents([(b"detoxrc.manpage", rc), (b"safe-manpage.tbl", tb)]) % (", stdin := " + num(b"\t $ &\n")),
            [("1", "some 0"), ("2.2.1", num(exp))], ", ctype := " + lean(loc))

# issue 37
for i, line in ((1, "4: broken"), (2, "4: broken"), (3, "4: ")):
    name = ("detoxrc.invalid.%d" % i).encode()
    rc = (legacy / "github-issue-0037" / name.decode()).read_bytes()
    exp = b"detox: error parsing config file " + name + b": syntax error\n\tline " + line.encode() + b"\n"
    example("legacy/github-issue-0037, file %d" % i, b"detox", [b"-f", name, b"-L"], contents([(name, rc)]) % "",
            [("1", "some 1"), ("2.2.1", "[]"), ("2.2.2", num(exp))])

# issue 50
rc = (legacy / "github-issue-0050-invalid/detoxrc.invalid_builtin").read_bytes()
example("legacy/github-issue-0050-invalid", b"detox", [b"-f", b"detoxrc", b"random filename.txt"],
        contents([(b"detoxrc", rc)]) % ', tree := [(lit "random filename.txt", .reg)]', [("1", "some 1"), ("2.1", '[lit "random filename.txt"]')])

# legacy-dir and issue 62
def tree(ps):
    return "tree := [" + ", ".join("(%s, .%s)" % (lean(p), k) for p, k in ps) + "]"
ps = [(b"/w", "dir")] + [(b"/w/%d" % i, "dir") for i in range(1, 6)] + [(b"/w/" + p, "reg") for p in
      (b"1/&ampersand", b"2/|bar", b"3/:colon", b"4/,comma", b"5/#octothorpe", b"%percent", b"+plus", b";semi colon")]
exp = [b"/w"] + [b"/w/%d" % i for i in range(1, 6)] + [b"/w/" + p for p in
      (b"1/and_ampersand", b"2/bar", b"3/colon", b"4/,comma", b"5/octothorpe", b"%percent", b"+plus", b"semi_colon")]
for flag in (b"-r", b"--recursive"):
    example("legacy-dir and github-issue-0062 with " + flag.decode(), b"detox", [flag, b"/w"], "{ " + tree(ps) + " }",
            [("1", "some 0"), ("2.1", "[" + ", ".join(lean(x) for x in exp) + "]")])

# issue 64
for doc, paths, ranges in (
        ("hidden entry", [(b"test", "dir"), (b"test/.hi there", "reg")], ((None, b"test"), ("base", b"test"), ("remove_trailing", b"test"))),
        ("hidden directory", [(b".", "dir"), (b"./.git", "dir"), (b"./.git/.hi there", "reg")], ((None, b"."), ("base", b"."), ("remove_trailing", b"."))),
        ("below a hidden directory", [(b".", "dir"), (b"./.git", "dir"), (b"./.git/objects", "dir"), (b"./.git/objects/hi there", "reg")], ((None, b"."), ("base", b"."), ("remove_trailing", b"."))),
        ("ignored directory", [(b".", "dir"), (b"./{arch}", "dir"), (b"./{arch}/objects", "dir"), (b"./{arch}/objects/hi there", "reg")], (("base", b"."), ("remove_trailing", b"."))),
        ("ignored directory from inside", [(b"..", "dir"), (b"../{arch}", "dir"), (b"../{arch}/objects", "dir"), (b"../{arch}/objects/hi there", "reg")], (("base", b".."), ("remove_trailing", b"..")))):
    for rcn, arg in ranges:
        fs = [] if rcn is None else [(b"rc", (legacy / "github-issue-0064" / ("detoxrc." + rcn)).read_bytes())]
        args = [b"-r", arg] if rcn is None else [b"-f", b"rc", b"-r", arg]
        example("legacy/github-issue-0064, %s, %s" % (doc, rcn or "built-in"), b"detox", args, contents(fs) % (", " + tree(paths)),
                [("1", "some 0"), ("2.1", "[" + ", ".join(lean(p) for p, _ in paths) + "]")])

out.append("end Detox.Tests")
(root / "lean/Verif/Tests.lean").write_text("\n".join(out) + "\n")
