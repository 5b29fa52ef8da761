"""Rewrites section 6 of DESIGN.md: the axioms of every theorem named in MANIFEST.json, as printed by Lean. Needs a finished build."""
import json, os, re, subprocess, tempfile

os.chdir(os.path.join(os.path.dirname(os.path.abspath(__file__)), ".."))
names = sorted({t for c in json.load(open("MANIFEST.json"))["claims"] for t in c["theorems"]})
with tempfile.NamedTemporaryFile("w", suffix=".lean", delete=False) as f:
    f.write("import Verif\n" + "\n".join("#print axioms " + t for t in names) + "\n")
out = subprocess.run(["lake", "env", "lean", f.name], cwd="lean", capture_output=True, text=True).stdout
os.unlink(f.name)
found = dict(re.findall(r"'(\S+)' depends on axioms: \[([^\]]*)\]", out))
found.update({t: "none" for t in re.findall(r"'(\S+)' does not depend on any axioms", out)})
assert set(found) == set(names), set(names) ^ set(found)
assert not {a for v in found.values() for a in v.split(", ")} - {"none", "propext", "Classical.choice", "Quot.sound"}
groups = {}
for t in names:
    groups.setdefault(found[t], []).append(t.removeprefix("Uwan."))
text = "## 6. Axioms of each theorem\n\nWritten by `tools/axioms.py` from `#print axioms`. Names are in the namespace `Uwan`.\n"
for k in sorted(groups, key=len, reverse=True):
    text += f"\n**{k}** ({len(groups[k])}): " + ", ".join(f"`{t}`" for t in groups[k]) + ".\n"
d = open("DESIGN.md").read().split("## 6. Axioms")[0].rstrip() + "\n\n" + text
open("DESIGN.md", "w").write(d)
