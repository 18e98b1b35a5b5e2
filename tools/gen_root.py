#!/usr/bin/env python3
"""Write Verif.lean: one import per module under Verif/."""
import pathlib
root = pathlib.Path(__file__).resolve().parent.parent / "lean"
order = {"Model": 0, "Tests": 1, "Spec": 2, "Proofs": 3, "Props": 4}
mods = sorted((order.get(p.parent.name, 9), str(p.relative_to(root))[:-5].replace("/", ".")) for p in (root / "Verif").rglob("*.lean"))
(root / "Verif.lean").write_text("".join(f"import {m}\n" for _, m in mods))
