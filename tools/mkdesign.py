"""Rewrites the generated sections of DESIGN.md. Run from /verif after `lake build`."""
import glob
import json
import re
import subprocess

MARK = "<!-- generated -->\n"

titles = {}
for line in open("properties.jsonl"):
    p = json.loads(line)
    titles[p["id"]] = p["title"]

docs = {}
for f in glob.glob("lean/Verif/Props/*.lean"):
    for m in re.finditer(r"/--((?:(?!-/).)*)-/\s*(?:@\[[^\]]*\]\s*)?theorem (\w+)", open(f).read(), re.S):
        docs[m.group(2)] = (re.sub(r"\s+", " ", m.group(1)).strip(), f[len("lean/Verif/"):])

out = ["\n## 5. Results\n", "| id | property | status | theorems in | note |", "|---|---|---|---|---|"]
findings = []
for c in json.load(open("MANIFEST.json"))["claims"]:
    names = [t.split(".")[-1] for t in c["theorems"]]
    files = sorted({docs[n][1] for n in names if n in docs})
    out.append("| %s | %s | %s | %s | %s |" % (
        c["property"], titles[c["property"]].replace("|", "\\|"), c["status"],
        ", ".join(f"`{f}`" for f in files), c["note"].replace("|", "\\|")))
    findings += [n for n in names if "violated" in n]

out.append("\n### Violations found in the code\n")
for n in findings:
    out.append(f"* `{n}`: {docs[n][0] if n in docs else ''}")

out.append("\n## 6. Axioms of the theorems\n")
out.append(subprocess.run(["python3", "tools/mkaxioms.py"], capture_output=True, text=True, check=True).stdout)

text = open("DESIGN.md").read().split(MARK)[0]
open("DESIGN.md", "w").write(text + MARK + "\n".join(out))
