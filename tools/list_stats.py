#!/usr/bin/env python3
"""Counts quoted in DESIGN.md for the built-in list (/repo/fallback.go, read as text).

A script, not a proof.  Rules are taken as written (no ASCII forms).
gap: a path of two or more labels that begins a longer rule but is not itself a rule and not the parent of a wildcard;
open: the same, but parents of wildcards are counted as well;
shadow: a wildcard with a rule that is longer than it below a sibling of the wildcard.
"""
import re
text = open("/repo/fallback.go", encoding="utf-8").read()
text = text[text.index("`") + 1:text.rindex("`")]
pub, priv, cur = [], [], None
cur = pub
for l in text.split("\n"):
    l = l.strip()
    if l == "// ===BEGIN PRIVATE DOMAINS===":
        cur = priv
    if l and not l.startswith("//"):
        cur.append(l)
for name, rules in (("public", pub), ("all", pub + priv)):
    paths = {tuple(reversed(r.split("."))) for r in rules}
    prefixes = {p[:i] for p in paths for i in range(1, len(p))}
    tops = {p[0] for p in paths}
    bad = sorted(t for t in tops if (t,) not in paths and (t, "*") not in paths)
    open_ = {q for q in prefixes if len(q) >= 2 and q not in paths}
    gaps = {q for q in open_ if q + ("*",) not in paths}
    stars = {p[:-1] for p in paths if p[-1] == "*"}
    shadows = {p for p in paths for i in range(len(p) - 1)
               if p[:i] in stars and p[i] != "*"}
    exc = [p for p in paths if p[-1].startswith("!") and p[:-1] not in stars]
    print(name, "rules", len(rules), "top-level labels without rule", bad, "gaps", len(gaps), "open", len(open_), "shadows", len(shadows),
          "exceptions without wildcard", len(exc))
