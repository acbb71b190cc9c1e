#!/usr/bin/env python3
"""Writes lean/Verif/Model/BisonTables.lean from /repo/src/config_file_yacc.c."""
import os, re

HERE = os.path.dirname(os.path.abspath(__file__))
src = open("/repo/src/config_file_yacc.c").read()
out = """import Verif.Model.Base

/-!
# The tables of the generated parser — `/repo/src/config_file_yacc.c:625-814`

Written by `tools/genbison.py`.
-/

set_option autoImplicit false

namespace Detox
"""
for n, l in {"yytranslate": "yyTranslate", "yypact": "yyPact", "yydefact": "yyDefact", "yypgoto": "yyPgoto", "yydefgoto": "yyDefgoto",
             "yytable": "yyTable", "yycheck": "yyCheck", "yyr1": "yyR1", "yyr2": "yyR2"}.items():
    m = re.search(r"static const \w+ %s\[\] =\s*\{([^}]*)\}" % n, src)
    v = [int(x) for x in m.group(1).split(",")]
    a, b = src[: m.start()].count("\n") + 1, src[: m.end()].count("\n") + 1
    rows = ",\n  ".join(", ".join(map(str, v[i:i + 30])) for i in range(0, len(v), 30))
    out += f"\n/-- `{n}`, config_file_yacc.c:{a}-{b}. -/\ndef {l} : List Int := [\n  {rows}]\n"
out += "\nend Detox\n"
open(os.path.join(HERE, "..", "lean", "Verif", "Model", "BisonTables.lean"), "w").write(out)
