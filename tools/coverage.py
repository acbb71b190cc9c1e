#!/usr/bin/env python3
"""Lists the functions of /repo/src and the model definitions whose comment cites a line of them.

Usage: coverage.py [REPO] — prints a markdown table.
"""
import glob, os, re, sys

REPO = sys.argv[1] if len(sys.argv) > 1 else "/repo"
HERE = os.path.dirname(os.path.abspath(__file__))
SKIP = {"config_file_lex.c", "config_file_yacc.c"}


def functions(path):
    """(name, first line, last line) of each function definition."""
    lines = open(path, encoding="latin-1").read().split("\n")
    out, i = [], 0
    while i < len(lines):
        m = re.match(r"^[A-Za-z_][\w \t\*]*?\b(\w+)\(.*\)\s*$", lines[i])
        if m and i + 1 < len(lines) and lines[i + 1].startswith("{"):
            j = i + 1
            while not lines[j].startswith("}"): j += 1
            out.append((m.group(1), i + 1, j + 1))
            i = j
        i += 1
    return out


def citations():
    cites = {}
    for f in sorted(glob.glob(os.path.join(HERE, "../lean/Verif/Model/*.lean"))):
        text = open(f).read()
        head = re.search(r"/repo/src/(\w+\.[chly])", text)
        for m in re.finditer(r"/--(.*?)-/\s*(?:@\[[^\]]*\]\s*)?(?:def|inductive|structure|abbrev) ([\w.']+)", text, re.S):
            doc, name = m.groups()
            cur = head.group(1) if head else None
            for t in re.finditer(r"(\w+\.[chly])(?=:)|(?<![\w.])(\d+)(?:-(\d+))?", re.sub(r"0x\w+", "", doc)):
                if t.group(1): cur = t.group(1)
                elif cur: cites.setdefault(cur, []).append((int(t.group(2)), int(t.group(3) or t.group(2)), name, os.path.basename(f)))
    return cites


def main():
    cites = citations()
    print("| file | function | lines | model |\n|---|---|---|---|")
    for path in sorted(glob.glob(os.path.join(REPO, "src/*.c"))):
        base = os.path.basename(path)
        if base in SKIP: continue
        for name, a, b in functions(path):
            defs = []
            for x, y, d, f in cites.get(base, []):
                if x <= b and y >= a and d not in defs: defs.append(d)
            print(f"| {base} | `{name}` | {a}-{b} | {', '.join('`%s`' % d for d in defs) or '—'} |")


main()
