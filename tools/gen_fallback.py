#!/usr/bin/env python3
"""Write lean/Verif/Model/Fallback{Public,Private}.lean from /repo/fallback.go.  With --check: only compare.

The lines of the string literal are copied unchanged into raw string literals, PART lines each; the second file begins
with the marker of the private section.
"""
import sys
PART = 300
DIR = "/verif/lean/Verif/Model/"
go = open("/repo/fallback.go", encoding="utf-8").read()
i, j = go.index("`"), go.rindex("`")
lines = go[i + 1:j].split("\n")
m = lines.index("// ===BEGIN PRIVATE DOMAINS===")
first = go[:i].count("\n") + 1

def write(name, ls, start, what):
    out = ["import Verif.Model.Lines", "", "/-!", f"# fallback.go:{start}-{start + len(ls) - 1}: {what}", "",
           "Generated by tools/gen_fallback.py; the lines are copied unchanged.", "-/", "", "namespace Fasttld", ""]
    names = []
    for k in range(0, len(ls), PART):
        part = ls[k:k + PART]
        text = "\n".join(part)
        assert '"#' not in text and "\r" not in text
        nm = f"{name}{k // PART:02d}"
        names.append(nm)
        out += [f"/-- fallback.go:{start + k}-{start + k + len(part) - 1} -/", f'noncomputable def {nm} : List Nat := lines! r#"{text}"#', ""]
    out += [f"/-- fallback.go:{start}-{start + len(ls) - 1} -/", f"noncomputable def {name}Parts : List (List Nat) := [" + ", ".join(names) + "]", "", "end Fasttld", ""]
    return "\n".join(out)

files = {"FallbackPublic.lean": write("fallbackPublic", lines[:m], first, "`hardcodedPSL` before the private section"),
         "FallbackPrivate.lean": write("fallbackPrivate", lines[m:], first + m, "`hardcodedPSL`, the private section")}
for f, s in files.items():
    if "--check" in sys.argv:
        print(f, "same" if open(DIR + f, encoding="utf-8").read() == s else "DIFFERENT")
    else:
        open(DIR + f, "w", encoding="utf-8").write(s)
