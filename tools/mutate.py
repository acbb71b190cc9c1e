#!/usr/bin/env python3
"""Tests the theorems against wrong programs.

Usage: mutate.py SCRATCH MUTATIONS.json [ID ...]

For each mutation (a textual edit of a model file) in a scratch copy of lean/: rebuild; every declaration whose proof
fails is replaced by `sorry`, until everything builds; the property theorems that then depend on `sorry` are those the
edit breaks. One line per mutation is appended to SCRATCH/results.jsonl.
"""
import json, os, re, shutil, subprocess, sys

HERE = os.path.dirname(os.path.abspath(__file__))
LEAN = os.environ.get("LEAN_SRC", os.path.join(HERE, "..", "lean"))
START = re.compile(r"^(theorem|example|def|instance|abbrev|structure|inductive|end|namespace|section|open|/--|/-!|/-|@\[|variable|set_option|import)\b|^(/--|/-!|/-|@\[)", re.M)


def decls(text):
    starts = [m.start() for m in START.finditer(text)] + [len(text)]
    return [(a, b) for a, b in zip(starts, starts[1:])]


def statement_end(d):
    """Offset in the declaration text at which the proof starts."""
    depth, i = 0, 0
    while i < len(d):
        c = d[i]
        if c in "([{⟨": depth += 1
        elif c in ")]}⟩": depth -= 1
        elif depth == 0 and d.startswith(":=", i) and not re.search(r"let \w+( : \w+)? $", d[:i]): return i
        elif depth == 0 and re.match(r"\n  \| ", d[i:]): return i
        i += 1
    return None


def build(scratch):
    try:
        p = subprocess.run(["lake", "build"], cwd=scratch, capture_output=True, text=True, timeout=1500)
        return p.returncode, p.stdout + p.stderr
    except subprocess.TimeoutExpired as e:
        return -1, "TIMEOUT"


def sync(scratch):
    for d, ds, fs in os.walk(LEAN):
        ds[:] = [x for x in ds if x != ".lake"]
        for f in fs:
            if not f.endswith((".lean", ".toml", "toolchain", ".json")): continue
            src = os.path.join(d, f)
            dst = os.path.join(scratch, os.path.relpath(src, LEAN))
            os.makedirs(os.path.dirname(dst), exist_ok=True)
            new = open(src).read()
            if not os.path.exists(dst) or open(dst).read() != new:
                open(dst, "w").write(new)


def run(scratch, m):
    sync(scratch)
    path = os.path.join(scratch, "Verif", m["file"])
    text = open(path).read()
    if text.count(m["old"]) != m.get("count", 1):
        return {"id": m["id"], "error": f"pattern occurs {text.count(m['old'])} times"}
    open(path, "w").write(text.replace(m["old"], m["new"]))
    failed, note, model_errors = [], "", []
    for rnd in range(25):
        rc, out = build(scratch)
        if out == "TIMEOUT":
            note = "build timed out"
            break
        errs = re.findall(r"error: (Verif/[\w/]+\.lean):(\d+):(\d+): (.*)", out)
        if rc == 0: break
        todo = {}
        for f, line, _, msg in errs:
            todo.setdefault(f, []).append((int(line), msg))
        if not todo and "exited with code 137" in out:
            # A computation by the kernel that no longer comes out as stated may use up the memory.
            for mod in re.findall(r"^- (Verif[\w.]+)", out, re.M):
                f = mod.replace(".", "/") + ".lean"
                t = open(os.path.join(scratch, f)).read()
                for a, b in decls(t):
                    if "decide +kernel" in t[a:b] and re.match(r"theorem|example", t[a:b]):
                        todo.setdefault(f, []).append((t.count("\n", 0, a) + 1, "out of memory"))
        if not todo:
            note = "build failed without message: " + out[-300:]
            break
        stuck = True
        for f, ls in todo.items():
            if "/Model/" in f or "/Spec/" in f:
                model_errors += [f"{f}:{l}: {msg[:100]}" for l, msg in ls]
            p = os.path.join(scratch, f)
            t = open(p).read()
            if f.endswith("/Tests.lean"):
                failed.append("tests in Tests.lean")
                open(p, "w").write("import Verif.Model.Base\n")
                stuck = False
                continue
            offs = [0]
            for x in t.splitlines(True): offs.append(offs[-1] + len(x))
            repl = {}
            for l, msg in ls:
                pos = offs[l - 1]
                for a, b in decls(t):
                    if a <= pos < b: repl[(a, b)] = t[a:b]
            for (a, b), d in sorted(repl.items(), reverse=True):
                mm = re.match(r"(theorem|example|instance|def)\s*(\S+)?", d)
                if not mm: continue
                if mm.group(1) == "example":
                    failed.append(f"example in {f}")
                    t = t[:a] + "example : True := trivial\n\n" + t[b:]
                    stuck = False
                elif mm.group(1) == "theorem":
                    e = statement_end(d)
                    if e is None: continue
                    if d[e:].strip() == ":= sorry": continue
                    failed.append(mm.group(2))
                    t = t[:a] + d[:e] + ":= sorry\n\n" + t[b:]
                    stuck = False
            open(p, "w").write(t)
        if stuck:
            note = "could not get past: " + "; ".join(f"{f}:{l}:{x[:80]}" for f, l, _, x in errs[:4])
            break
    broken = []
    rc, out = build(scratch)
    if rc == 0:
        q = subprocess.run(["lake", "env", "lean", "Verif/Audit.lean"], cwd=scratch, capture_output=True, text=True)
        for name, ax in re.findall(r"'Detox\.([\w.']+)' depends on axioms: \[([^\]]*)\]", q.stdout + q.stderr):
            if "sorryAx" in ax: broken.append(name)
    return {"id": m["id"], "failed": failed, "broken": sorted(set(broken)), "note": note, "model_errors": model_errors}


def main():
    scratch, muts = sys.argv[1], json.load(open(sys.argv[2]))
    want = set(sys.argv[3:])
    os.makedirs(scratch, exist_ok=True)
    done = set()
    res = os.path.join(scratch, "results.jsonl")
    if os.path.exists(res) and not want:
        done = {json.loads(l)["id"] for l in open(res)}
    for m in muts:
        if want and m["id"] not in want: continue
        if m["id"] in done: continue
        r = run(scratch, m)
        open(res, "a").write(json.dumps(r) + "\n")
        print(m["id"], r.get("error") or (len(r["failed"]), r["broken"], r["note"]), flush=True)
    sync(scratch)


main()
