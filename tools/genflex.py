#!/usr/bin/env python3
"""Writes lean/Verif/Model/FlexTables.lean and lean/Verif/Lemmas/FlexStates.lean from /repo/src/config_file_lex.c."""
import os, re

HERE = os.path.dirname(os.path.abspath(__file__))
OUT = os.path.join(HERE, "..", "lean", "Verif")
src = open("/repo/src/config_file_lex.c").read()


def table(name):
    m = re.search(r"static const \w+ %s\[(\d+)\] =\s*\{([^}]*)\}" % name, src)
    v = [int(x) for x in m.group(2).split(",")]
    assert len(v) == int(m.group(1)), name
    a = src[: m.start()].count("\n") + 1
    b = src[: m.end()].count("\n") + 1
    return v, a, b


NAMES = {"yy_accept": "yyAccept", "yy_ec": "yyEc", "yy_meta": "yyMeta", "yy_base": "yyBase", "yy_def": "yyDef", "yy_nxt": "yyNxt", "yy_chk": "yyChk"}
T = {n: table(n) for n in NAMES}


def rows(v, per=30):
    return ",\n  ".join(", ".join(map(str, v[i:i + per])) for i in range(0, len(v), per))


with open(os.path.join(OUT, "Model", "FlexTables.lean"), "w") as f:
    f.write("""import Verif.Model.Base

/-!
# The tables of the generated scanner — `/repo/src/config_file_lex.c:365-550`

Written by `tools/genflex.py`.
-/

set_option autoImplicit false

namespace Detox
""")
    for n, l in NAMES.items():
        v, a, b = T[n]
        f.write(f"\n/-- `{n}`, config_file_lex.c:{a}-{b}. -/\ndef {l} : List Nat := [\n  {rows(v)}]\n")
    f.write("\nend Detox\n")

acc, ec, meta, base, dfl, nxt, chk = (T[n][0] for n in NAMES)


def step(s, c):
    while chk[base[s] + c] != s:
        s = dfl[s]
        if s >= 111: c = meta[c]
    return nxt[base[s] + c]


KW = ["builtin", "filename", "ignore", "iso8859_1", "length", "lower", "max_length", "remove_trailing", "safe", "sequence", "uncgi", "utf_8", "wipeup"]
KN = ["builtin", "filename", "ignore", "iso8859_1", "length", "lower", "maxLength", "removeTrailing", "safe", "sequence", "uncgi", "utf8", "wipeup"]


def delta(l, c):
    ch = chr(c)
    if l[0] == "start":
        if ch in " \t": return ("blank",)
        if ch == "#": return ("comment",)
        if ch == "\n": return ("newline",)
        if ch == "{": return ("opn",)
        if ch == "}": return ("cls",)
        if ch == ";": return ("eol",)
        if ch == '"': return ("quote",)
        if c < 128 and ch.isdigit(): return ("number",)
        if not (c < 128 and ch.isalpha()): return ("other",)
        l = ("word", tuple(zip(KW, KN)))
    if l[0] == "word":
        if c < 128 and (ch.isalnum() or ch == "_"):
            return ("word", tuple((w[1:], k) for w, k in l[1] if w[:1] == ch.lower()))
        return ("jam",)
    if l[0] == "blank" and ch in " \t": return l
    if l[0] == "comment" and ch != "\n": return l
    if l[0] == "number" and c < 128 and ch.isdigit(): return l
    if l[0] in ("quote", "inside"): return ("quoted",) if ch in '"\n' else ("inside",)
    return ("jam",)


states = {1: ("start",)}
todo = [1]
while todo:
    s = todo.pop()
    if base[s] == 234: continue
    for c in range(256):
        t = step(s, 1 if c == 0 else ec[c])
        l = delta(states[s], c)
        if t in states: assert states[t] == l, (s, c, t, states[t], l)
        else: states[t] = l; todo.append(t)

with open(os.path.join(OUT, "Lemmas", "FlexStates.lean"), "w") as f:
    f.write("""import Verif.Model.Flex
import Verif.Lemmas.FlexRef

/-!
# What the states of the generated scanner stand for

Written by `tools/genflex.py`; checked against the tables in `Lemmas/Flex.lean`.
-/

set_option autoImplicit false

namespace Detox

/-- The states, by number; those that are not used stand for `jam`. -/
def stateList : List LexState := [
""")
    out = []
    for s in range(111):
        l = states.get(s, ("jam",))
        if l[0] == "word":
            e = ".word [" + ", ".join("([" + ", ".join("0x%02X" % ord(x) for x in w) + "], ." + k + ")" for w, k in l[1]) + "]"
        else: e = "." + l[0]
        out.append(f"  /- {s} -/ {e}")
    f.write(",\n".join(out) + "]\n\nend Detox\n")
print(len(states), "states")
