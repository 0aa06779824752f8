"""Generates lean/Verif/Model/ColorInfo.lean and KeyNames.lean from the text of /repo (no code is run)."""
import re, ast
src = open("/repo/slate/color_info.py").read().split("\n")
start = next(i for i,l in enumerate(src) if l.startswith("COLOR_TABLE"))
end = next(i for i in range(start, len(src)) if src[i] == "]")
tab = [tuple(map(int, re.findall(r"\d+", l))) for l in src[start+1:end]]
assert len(tab) == 256, len(tab)
cs = next(i for i,l in enumerate(src) if l.startswith("CSS_COLORS"))
ce = next(i for i in range(cs, len(src)) if src[i] == "}")
names = re.findall(r'"([^"]+)": "([^"]+)"', "\n".join(src[cs:ce]))
ns = next(i for i,l in enumerate(src) if l.startswith("NAMED_COLORS"))
extra = re.findall(r'"([^"]+)": "([^"]+)"', "\n".join(src[ns:]))
out = []
w = out.append
w("import Verif.Py.Str\n")
w("/-!\n# Colour tables (`slate/color_info.py`)\n\nGenerated by `tools/gentables.py` from the text of the source file.\n-/\n")
w("namespace Slate\n")
w(f"/-- `COLOR_TABLE` (`color_info.py:{start+1}-{end+1}`). -/")
w("def colorTable : List (Nat × Nat × Nat) := [")
for i in range(0, 256, 6):
    chunk = tab[i:i+6]
    w("  " + ", ".join(f"({a}, {b}, {c})" for a,b,c in chunk) + ("," if i+6 < 256 else "]"))
w("")
w(f"/-- `NAMED_COLORS` (`color_info.py:{cs+1}-{len(src)}`): `CSS_COLORS` followed by Slate's own names.\nKeys are distinct, so list lookup is dictionary lookup. -/")
w("def namedColors : List (Str × Str) := [")
alln = names + extra
assert len({a for a,_ in alln}) == len(alln)
for i,(a,b) in enumerate(alln):
    w(f'  ("{a}".toList, "{b}".toList)' + ("," if i+1 < len(alln) else "]"))
w("\nend Slate")
open("/verif/lean/Verif/Model/ColorInfo.lean","w").write("\n".join(out)+"\n")

ks = open("/repo/slate/key_names.py").read()
tree = ast.parse(ks)
def lean(s):
    r = ""
    for ch in s:
        o = ord(ch)
        if ch in '"\\': r += "\\" + ch
        elif 32 <= o < 127: r += ch
        else: r += "\\x%02x" % o
    return '"' + r + '".toList'
out = []
w = out.append
w("import Verif.Py.Str\n")
w("/-!\n# Key tables (`slate/key_names.py`)\n\nGenerated by `tools/gentables.py` from the text of the source file.\n-/\n")
w("namespace Slate\n")
for node in tree.body:
    if isinstance(node, ast.Assign):
        name = node.targets[0].id
        d = ast.literal_eval(node.value)
        n_items = len(node.value.keys)
        assert n_items == len(d), "duplicate keys"
        ln = {"POSIX_KEY_NAMES": "posixKeyNames", "NT_KEY_NAMES": "ntKeyNames"}[name]
        w(f"/-- `{name}` (`key_names.py:{node.lineno}-{node.end_lineno}`). -/")
        w(f"def {ln} : List (Str × List Str) := [")
        items = list(d.items())
        for i,(k,v) in enumerate(items):
            w("  (" + lean(k) + ", [" + ", ".join(lean(x) for x in v) + "])" + ("," if i+1 < len(items) else "]"))
        w("")
w("end Slate")
open("/verif/lean/Verif/Model/KeyNames.lean","w").write("\n".join(out)+"\n")
