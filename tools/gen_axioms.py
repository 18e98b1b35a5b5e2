"""Write AXIOMS.md: the axioms of every theorem named in MANIFEST.json. Run after `lake build`."""
import json, os, re, subprocess, tempfile

root = os.path.dirname(os.path.dirname(os.path.abspath(__file__)))
claims = json.load(open(f"{root}/MANIFEST.json"))["claims"]
names = [t for c in claims for t in c["theorems"]]
with tempfile.NamedTemporaryFile("w", suffix=".lean", delete=False) as f:
    f.write("import Verif\n" + "".join(f"#print axioms {n}\n" for n in names))
out = subprocess.run(["lake", "env", "lean", f.name], cwd=f"{root}/lean", capture_output=True, text=True).stdout
os.unlink(f.name)
found = {}
for m in re.finditer(r"'([^']+)' (does not depend on any axioms|depends on axioms: \[([^\]]*)\])", out):
    found[m.group(1)] = re.sub(r"\s+", " ", m.group(3) or "none")
with open(f"{root}/AXIOMS.md", "w") as g:
    g.write("# Axioms per theorem\n\nOutput of `#print axioms` for every theorem in MANIFEST.json, written by tools/gen_axioms.py.\n\n")
    g.write("| claim | theorem | axioms |\n|---|---|---|\n")
    for c in claims:
        for t in c["theorems"]:
            g.write(f"| {c['property']} | {t} | {found[t]} |\n")
print(len(found), "theorems;", sorted({a for v in found.values() for a in v.split(", ")}))
