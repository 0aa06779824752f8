"""Prints, grouped by axioms, the theorems of MANIFEST.json. Run from /verif after `lake build`."""
import json, os, re, subprocess, tempfile

claims = json.load(open("MANIFEST.json"))["claims"]
names = sorted({t for c in claims for t in c["theorems"]})
src = "import Verif\n" + "".join(f"#print axioms {n}\n" for n in names)
with tempfile.NamedTemporaryFile("w", suffix=".lean", delete=False) as f:
    f.write(src)
out = subprocess.run(["lake", "env", "lean", f.name], cwd="lean", capture_output=True, text=True).stdout
os.unlink(f.name)
out = re.sub(r"\s+", " ", out)
groups = {}
for m in re.finditer(r"'([\w.]+)' (does not depend on any axioms|depends on axioms: \[([^\]]*)\])", out):
    groups.setdefault(m.group(3) or "none", []).append(m.group(1).split(".")[-1])
assert sum(map(len, groups.values())) == len(names), (len(names), sum(map(len, groups.values())))
for axioms, thms in sorted(groups.items()):
    print(f"* {axioms}: {', '.join(sorted(thms))}")
