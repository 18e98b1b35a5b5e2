#!/usr/bin/env python3
"""Write lean/Verif/Proofs/Fallback{Table,Checked}{Public,All}.lean: tables of the parents of the rules of the built-in list.

The tables are only hints.  What they say about the list is checked by the kernel (Proofs/Inventory.lean).
"""
PART = 300   # as in gen_fallback.py
go = open("/repo/fallback.go", encoding="utf-8").read()
lines = go[go.index("`") + 1:go.rindex("`")].split("\n")
m = lines.index("// ===BEGIN PRIVATE DOMAINS===")
cut = lambda ls: [ls[k:k + PART] for k in range(0, len(ls), PART)]
num = lambda s: int.from_bytes(s.encode(), "little")

spec = ["import Verif.Model.Lines", "import Verif.Spec.Rules", "", "/-!", "# Specification: irregular names of the built-in list", "",
        "Generated by tools/gen_inventory.py.  The lists are complete (C54); see also C57.", "-/", "",
        "namespace Fasttld.Spec", "open Fasttld", ""]

def write(name, parts, partdefs, text):
    rules = {}
    for i, p in enumerate(parts):
        for l in p:
            if l and not l.startswith("//"): rules.setdefault(l, i)
    keys, deep = set(), set()
    for r in rules:
        ls = r.split(".")
        for j in range(1, len(ls)):
            keys.add(".".join(ls[j:]))
            if j >= 2: deep.add(".".join(ls[j:]))
    ev = [set() for _ in parts]
    rows, gaps, shadows = [], [], []
    for k in sorted(keys, key=num):
        if "*." + k in rules:
            i = rules["*." + k]; ev[i].add("*." + k)
            if k in deep: shadows.append(k)
            rows.append((k, i + 1, 2 if k in deep else 1))
        elif k in rules:
            ev[rules[k]].add(k); rows.append((k, rules[k] + 1, 0))
        else:
            gaps.append(k); rows.append((k, 0, 0))
    key = lambda r: list(reversed(r.split(".")))
    gaps.sort(key=key); shadows.sort(key=key)
    out = ["import Verif.Proofs.Inventory"] + ["", "/-!", f"# Table for the built-in list ({name})", "",
           "Generated by tools/gen_inventory.py; hints only, checked by the kernel.", "-/", "", "namespace Fasttld.Inv", ""]
    out += [f'noncomputable def table{name} : Table := table! "' + "\n".join("%s %d %d" % r for r in rows) + '"', ""]
    for i, p in enumerate(parts):
        seen = set(); es = []
        for l in p:
            if l in ev[i] and l not in seen: seen.add(l); es.append(l)
        lit = 'lines! "' + "\n".join(es) + '"' if es else "[]"
        out += [f"noncomputable def used{name}{i:02d} : List Nat := {lit}", ""]
    out += [f"noncomputable def used{name} : List (List Nat) := [" + ", ".join(f"used{name}{i:02d}" for i in range(len(parts))) + "]", ""]
    lit = lambda xs: 'lines! "' + "\n".join(xs) + '"' if xs else "[]"
    spec.extend([f"/-- Paths that lead to longer rules without being a rule or the parent of a wildcard ({text}). -/",
            f"noncomputable def gaps{name} : List Nat := {lit(gaps)}", "",
            f"/-- Parents of wildcards with longer rules below them ({text}). -/",
            f"noncomputable def shadows{name} : List Nat := {lit(shadows)}", ""])
    out += ["end Fasttld.Inv", ""]
    open(f"/verif/lean/Verif/Proofs/FallbackTable{name}.lean", "w", encoding="utf-8").write("\n".join(out))
    out = ["import Verif.Model.Fallback", f"import Verif.Proofs.FallbackTable{name}", "import Verif.Proofs.InventoryFacts", "import Verif.Spec.BuiltIn", "", "/-!",
           f"# The built-in list, checked ({name})", "", "Generated by tools/gen_inventory.py.", "-/", "", "namespace Fasttld.Inv", "open Fasttld.Spec", ""]
    for i, d in enumerate(partdefs):
        out += [f"theorem part{name}{i:02d} : partOK table{name} used{name}{i:02d} {d} = true := by decide +kernel"]
    out += ["", f"theorem entries{name} : table{name}.all (entryOK used{name} gaps{name} shadows{name}) 1 = true := by decide +kernel", "",
            f"theorem parts{name} : PartsOK table{name} used{name} [" + ", ".join(partdefs) + "] :=",
            "  ⟨" + ", ".join(f"part{name}{i:02d}" for i in range(len(partdefs))) + ", trivial⟩", "", "end Fasttld.Inv", ""]
    open(f"/verif/lean/Verif/Proofs/FallbackChecked{name}.lean", "w", encoding="utf-8").write("\n".join(out))
    print(name, len(rows), "keys", len(gaps), "gaps", len(shadows), "shadows", sum(map(len, ev)), "used")

pub, priv = cut(lines[:m]), cut(lines[m:])
dp = [f"fallbackPublic{i:02d}" for i in range(len(pub))]
dr = [f"fallbackPrivate{i:02d}" for i in range(len(priv))]
write("Public", pub, dp, "without the private section")
write("All", pub + priv, dp + dr, "with the private section")
open("/verif/lean/Verif/Spec/BuiltIn.lean", "w", encoding="utf-8").write("\n".join(spec + ["""/-- The gaps in the built-in list. -/
noncomputable def gaps (priv : Bool) : List Bytes := (if priv then gapsAll else gapsPublic).map unpack

/-- The shadowed wildcards of the built-in list. -/
noncomputable def shadows (priv : Bool) : List Bytes := (if priv then shadowsAll else shadowsPublic).map unpack

/-- The name (labels from the right) does not end in one of these names, as written or converted by `f`. -/
def Avoids (f : Bytes → Bytes) (paths : List Bytes) (name : List Bytes) : Prop :=
  ∀ g ∈ paths, ∀ ls, IsLabels g ls → ¬ ls.reverse <+: name ∧ ¬ (ls.map f).reverse <+: name
""", "end Fasttld.Spec", ""]))

# lines that are not in the list, and the number of rules
SHADOWS = [("FutureCms", "ex", "futurecms.at"), ("CustomerOci", "oci", "customer-oci.com"), ("Hrsn", "sub", "wc.psl.hrsn.dev"),
           ("Snowflake", "privatelink", "snowflake.app"), ("Firenet", "svc", "firenet.ch")]
ABSENT = ["za", "*.za", "nom", "hordaland.no", "*.no", "*.hordaland.no", "example.hordaland.no",
          "*.com", "*.uk", "!a.fk", "1"] + [f"!{x}.{s}" for _, x, s in SHADOWS]
out = ["import Verif.Model.Fallback", "import Verif.Proofs.Inventory", "", "/-!", "# Lines that are not in the built-in list, and the number of rules", "",
       "Generated by tools/gen_inventory.py.", "-/", "", "namespace Fasttld.Inv", "",
       "/-- Lines that are nowhere in the list. -/", 'noncomputable def absentAll : List Nat := lines! "' + "\n".join(ABSENT) + '"', "",
       "/-- Lines that are not in the public part. -/",
       'noncomputable def absentPublic : List Nat := lines! "' + "\n".join(["// ===BEGIN PRIVATE DOMAINS==="] + ABSENT) + '"', ""]
rule = lambda l: l and not l.startswith("//")
for name, absent, parts, defs in (("Public", "absentPublic", pub, dp), ("Private", "absentAll", priv, dr)):
    for i, d in enumerate(defs):
        out += [f"theorem absent{name}{i:02d} : allL (fun n => bif elem n {absent} then false else true) 0 {d} = true := by decide +kernel",
                f"theorem count{name}{i:02d} : count 0 {d} = {sum(1 for l in parts[i] if rule(l))} := by decide +kernel"]
    out += ["", f"theorem absents{name} : AllParts {absent} [" + ", ".join(defs) + "] :=",
            "  ⟨" + ", ".join(f"absent{name}{i:02d}" for i in range(len(defs))) + ", trivial⟩", "",
            f"theorem counts{name} : Counts [" + ", ".join(str(sum(1 for l in p if rule(l))) for p in parts) + "] [" + ", ".join(defs) + "] :=",
            "  ⟨" + ", ".join(f"count{name}{i:02d}" for i in range(len(defs))) + ", trivial⟩", ""]
where = lambda l: next(i for i, p in enumerate(pub + priv) if l in p)
for n, l in (("CoZa", "co.za"), ("NomZa", "nom.za"), ("No", "no"), ("OsHordaland", "os.hordaland.no"), ("Com", "com"), ("Uk", "uk"), ("AcUk", "ac.uk"), ("StarFk", "*.fk"), ("Blogspot", "blogspot.com"), ("BeginIcann", "// ===BEGIN ICANN DOMAINS==="), ("EndIcann", "// ===END ICANN DOMAINS==="), ("EndPrivate", "// ===END PRIVATE DOMAINS===")) + \
        tuple((n, "*." + s) for n, _, s in SHADOWS) + tuple((n + "Longer", f"*.{x}.{s}") for n, x, s in SHADOWS):
    out += [f"theorem has{n} : elem {num(l)} {(dp + dr)[where(l)]} = true := by decide +kernel"]
out += ["", "end Fasttld.Inv", ""]
open("/verif/lean/Verif/Proofs/FallbackAbsent.lean", "w", encoding="utf-8").write("\n".join(out))

# labels of the rules; gaps are not rules and have rules below them
def below(name, parts, defs):
    rules = {}
    for i, p in enumerate(parts):
        for j, l in enumerate(p):
            if rule(l): rules.setdefault(l, (i, j))
    keys = {}
    for r in rules:
        ls = r.split(".")
        for j in range(1, len(ls)): keys.setdefault(".".join(ls[j:]), r)
    gaps = [k for k in keys if k not in rules and "*." + k not in rules]
    out = ["import Verif.Model.Fallback", f"import Verif.Proofs.FallbackTable{name}", "import Verif.Proofs.InventoryMore", "import Verif.Spec.BuiltIn", "", "/-!",
           f"# The gaps of the built-in list, checked ({name})", "", "Generated by tools/gen_inventory.py.", "-/", "", "namespace Fasttld.Inv", "open Fasttld.Spec", ""]
    lit = lambda xs: 'lines! "' + "\n".join(xs) + '"' if xs else "[]"
    bs = []
    for i, p in enumerate(parts):
        mine = [(keys[g], g) for g in gaps if rules[keys[g]][0] == i]
        if not mine: bs.append("([], [], [])"); continue
        b = sorted(set(w for w, _ in mine), key=lambda w: rules[w][1])
        out += [f"noncomputable def below{name}{i:02d} : List Nat := {lit(b)}",
                f"noncomputable def child{name}{i:02d} : List Nat := {lit([w for w, _ in mine])}",
                f"noncomputable def gapOf{name}{i:02d} : List Nat := {lit([g for _, g in mine])}", ""]
        bs.append(f"(below{name}{i:02d}, child{name}{i:02d}, gapOf{name}{i:02d})")
    out += [f"/-- Rules below gaps, by part. -/", f"noncomputable def below{name} : List (List Nat × List Nat × List Nat) :=", "  [" + ", ".join(bs) + "]", ""]
    for i, d in enumerate(defs):
        if bs[i] == "([], [], [])": out += [f"theorem belowIn{name}{i:02d} : belowOK [] [] [] {d} = true := rfl"]
        else: out += [f"theorem belowIn{name}{i:02d} : belowOK below{name}{i:02d} child{name}{i:02d} gapOf{name}{i:02d} {d} = true := by decide +kernel"]
        out += [f"theorem notGap{name}{i:02d} : allL (notGap table{name}) 0 {d} = true := by decide +kernel"]
    ds = "[" + ", ".join(defs) + "]"
    out += ["", f"theorem belowIn{name} : BelowOK below{name} {ds} :=", "  ⟨" + ", ".join(f"belowIn{name}{i:02d}" for i in range(len(defs))) + ", trivial⟩", "",
            f"theorem sameLengths{name} : SameLengths below{name} = true := by decide +kernel", "",
            f"theorem gapsBelow{name} : allL (fun g => elem g (below{name}.flatMap (fun b => b.2.2))) 0 gaps{name} = true := by decide +kernel", "",
            f"theorem gapsAt{name} : allL (table{name}.gapAt) 0 gaps{name} = true := by decide +kernel", "",
            f"theorem notGaps{name} : AllOK (notGap table{name}) {ds} :=", "  ⟨" + ", ".join(f"notGap{name}{i:02d}" for i in range(len(defs))) + ", trivial⟩", "",
            "end Fasttld.Inv", ""]
    open(f"/verif/lean/Verif/Proofs/FallbackGaps{name}.lean", "w", encoding="utf-8").write("\n".join(out))

below("Public", pub, dp)
below("All", pub + priv, dp + dr)
out = ["import Verif.Model.Fallback", "import Verif.Proofs.InventoryMore", "", "/-!", "# The labels of the rules of the built-in list, checked", "",
       "Generated by tools/gen_inventory.py.", "-/", "", "namespace Fasttld.Inv", ""]
for name, defs in (("Public", dp), ("Private", dr)):
    out += [f"theorem labels{name}{i:02d} : allL lineLabels 0 {d} = true := by decide +kernel" for i, d in enumerate(defs)]
    out += ["", f"theorem labels{name} : AllOK lineLabels [" + ", ".join(defs) + "] :=",
            "  ⟨" + ", ".join(f"labels{name}{i:02d}" for i in range(len(defs))) + ", trivial⟩", ""]
out += ["end Fasttld.Inv", ""]
open("/verif/lean/Verif/Proofs/FallbackLabels.lean", "w", encoding="utf-8").write("\n".join(out))

# the lines are texts in UTF-8, exceptions in ASCII
out = ["import Verif.Model.Fallback", "import Verif.Proofs.InventoryText", "", "/-!", "# The lines of the built-in list are texts in UTF-8, checked", "",
       "Generated by tools/gen_inventory.py.", "-/", "", "namespace Fasttld.Inv", ""]
for name, defs in (("Public", dp), ("Private", dr)):
    out += [f"theorem text{name}{i:02d} : allL lineText 0 {d} = true := by decide +kernel" for i, d in enumerate(defs)]
    out += ["", f"theorem text{name} : AllOK lineText [" + ", ".join(defs) + "] :=",
            "  ⟨" + ", ".join(f"text{name}{i:02d}" for i in range(len(defs))) + ", trivial⟩", ""]
out += ["end Fasttld.Inv", ""]
open("/verif/lean/Verif/Proofs/FallbackText.lean", "w", encoding="utf-8").write("\n".join(out))

# no rule ends in a digit
out = ["import Verif.Model.Fallback", "import Verif.Proofs.InventoryTop", "", "/-!", "# No rule of the built-in list ends in a digit, and those that end in `za` are in ASCII, checked", "",
       "Generated by tools/gen_inventory.py.", "-/", "", "namespace Fasttld.Inv", ""]
for name, defs in (("Public", dp), ("Private", dr)):
    out += [f"theorem top{name}{i:02d} : allL lineTop 0 {d} = true := by decide +kernel" for i, d in enumerate(defs)]
    out += ["", f"theorem top{name} : AllOK lineTop [" + ", ".join(defs) + "] :=",
            "  ⟨" + ", ".join(f"top{name}{i:02d}" for i in range(len(defs))) + ", trivial⟩", ""]
out += ["end Fasttld.Inv", ""]
open("/verif/lean/Verif/Proofs/FallbackTop.lean", "w", encoding="utf-8").write("\n".join(out))

# how many labels the rules have
out = ["import Verif.Model.Fallback", "import Verif.Proofs.InventoryDepth", "", "/-!", "# The number of labels of the rules of the built-in list, checked", "",
       "Generated by tools/gen_inventory.py.", "-/", "", "namespace Fasttld.Inv", ""]
for name, defs, dots in (("Public", dp, 3), ("Private", dr, 6)):
    out += [f"theorem dots{name}{i:02d} : allL (lineDots {dots}) 0 {d} = true := by decide +kernel" for i, d in enumerate(defs)]
    out += ["", f"theorem dots{name} : AllOK (lineDots {dots}) [" + ", ".join(defs) + "] :=",
            "  ⟨" + ", ".join(f"dots{name}{i:02d}" for i in range(len(defs))) + ", trivial⟩", ""]
out += ["end Fasttld.Inv", ""]
open("/verif/lean/Verif/Proofs/FallbackDepth.lean", "w", encoding="utf-8").write("\n".join(out))

# the private section, compared with the public one
out = ["import Verif.Model.Fallback", "import Verif.Proofs.FallbackTablePublic", "import Verif.Proofs.InventoryPrivate", "", "/-!", "# The rules of the private section are in harmony with the public ones, checked", "",
       "Generated by tools/gen_inventory.py.", "-/", "", "namespace Fasttld.Inv", "",
       "/-- `za` -/", f"def zaLine : Nat := {int.from_bytes(b'za', 'little')}", ""]
out += [f"theorem apart{i:02d} : allL (linePriv tablePublic zaLine) 0 {d} = true := by decide +kernel" for i, d in enumerate(dr)]
out += ["", "theorem apart : AllOK (linePriv tablePublic zaLine) [" + ", ".join(dr) + "] :=",
        "  ⟨" + ", ".join(f"apart{i:02d}" for i in range(len(dr))) + ", trivial⟩", ""]
out += ["end Fasttld.Inv", ""]
open("/verif/lean/Verif/Proofs/FallbackPrivate.lean", "w", encoding="utf-8").write("\n".join(out))
