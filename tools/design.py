#!/usr/bin/env python3
"""Refresh the coverage table in DESIGN.md from the citations in the model."""
import re, subprocess, pathlib
root = pathlib.Path(__file__).resolve().parent.parent
p = root / "DESIGN.md"
text = p.read_text()
table = subprocess.run(["python3", str(root / "tools/coverage.py")], capture_output=True, text=True, check=True).stdout
b, e = "<!-- coverage -->\n", "<!-- end coverage -->\n"
i, j = text.index(b) + len(b), text.index(e)
p.write_text(text[:i] + table + text[j:])
