"""Rewrites the section "Axioms" of DESIGN.md: the axioms of each theorem in MANIFEST.json. Run from /verif after a build."""
import json, os, re, subprocess, tempfile
root = os.path.join(os.path.dirname(os.path.abspath(__file__)), "..")
names = []
for c in json.load(open(os.path.join(root, "MANIFEST.json")))["claims"]:
    names += c["theorems"]
with tempfile.NamedTemporaryFile("w", suffix=".lean", delete=False) as f:
    f.write("import Verif\n" + "".join(f"#print axioms {n}\n" for n in names))
out = subprocess.run(["lake", "env", "lean", f.name], cwd=os.path.join(root, "lean"), capture_output=True, text=True).stdout
groups = {}
for m in re.finditer(r"'(\S+)' (does not depend on any axioms|depends on axioms: \[([^\]]*)\])", out):
    key = "none" if m.group(3) is None else ", ".join(sorted(re.split(r",\s*", m.group(3).strip())))
    groups.setdefault(key, []).append(m.group(1).removeprefix("Verif."))
assert sum(map(len, groups.values())) == len(names), (len(names), out[-2000:])
text = "## Axioms\n\nPer theorem of MANIFEST.json, as printed by `#print axioms` (made by scripts/axioms.py).\n"
for k in sorted(groups):
    text += f"\n* {k}: " + ", ".join(f"`{n}`" for n in sorted(groups[k])) + "\n"
p = os.path.join(root, "DESIGN.md")
s = open(p).read()
i = s.find("## Axioms\n")
s = (s if i < 0 else s[:i]).rstrip() + "\n\n" + text
open(p, "w").write(s)
