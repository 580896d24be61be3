"""Write lean/Verif.lean, which imports every module under lean/Verif."""
import os

root = os.path.join(os.path.dirname(os.path.abspath(__file__)), "..", "lean")
mods = []
for dirpath, _, files in os.walk(os.path.join(root, "Verif")):
    for f in files:
        if f.endswith(".lean"):
            rel = os.path.relpath(os.path.join(dirpath, f), root)
            mods.append(rel[:-5].replace(os.sep, "."))
with open(os.path.join(root, "Verif.lean"), "w") as fh:
    for m in sorted(mods):
        fh.write(f"import {m}\n")
