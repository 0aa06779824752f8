"""Writes lean/Verif/Check/Builtins.lean: answers of CPython's own built-ins, compared with the primitives of the model.

Only the standard library is run here, nothing of Slate. Run with Python 3.11.
"""

import argparse
import codecs
import contextlib
import colorsys
import io
import random
import re
from fractions import Fraction
from html import escape

rnd = random.Random(1)

def ch(c):
    return f"Char.ofNat {ord(c)}"

def st(s):
    """A string as a Lean list of characters."""
    return "cs [" + ", ".join(str(ord(c)) for c in s) + "]"

def rat(x):
    f = Fraction(x)
    return f"({f.numerator} : Rat) / {f.denominator}" if f.denominator != 1 else f"({f.numerator} : Rat)"

def opt(x, show):
    return "none" if x is None else f"some ({show(x)})"

def attempt(f, *a):
    try:
        return f(*a)
    except ValueError:
        return None

out = []

def check(doc, typ, rows, test):
    out.append(f"/-- {doc} -/\nexample : ([\n  " + ",\n  ".join(rows) + f"] : List ({typ})).all (fun t => {test}) = true := by\n  decide +kernel\n")

def words(alphabet, n, k):
    return ["".join(rnd.choice(alphabet) for _ in range(rnd.randint(0, k))) for _ in range(n)]

# int
texts = ["", "0", "7", "007", "-5", "+5", "- 5", " 12 ", "\t1\n", "1_0", "1__0", "_1", "1_", "\u0661\u0662", "\u0660x1f", "0x1F", "0X1f", "0x_1",
         "0x", "0x__1", "-0x1", "fF", "g", "\u00b2", "\uff11\uff12", "1\u00a0", "\u30001", "\x1c1", "1\x1f", "\x851", "1.0", "1e3", "\U0001d7d91", "0_0",
         "9" * 4300, "9" * 4301, "0" * 4301, "\x7f1", "1\x00"] + words("01 9_-+xXaF\u0663\u00b3\u2003", 60, 4)
for base in (10, 16):
    check(f"`int(s, {base})`", "Str × Option Int", [f"({st(s)}, {opt(attempt(int, s, base), lambda n: str(n))})" for s in texts if base == 10 or len(s) < 100],
          f"decide (Py.int {base} t.1 = t.2)")

# float
texts = ["0.5", "1.", ".5", ".", "-.25", "+1.5e3", "1.5E-3", "1.e5", "1.5e", "1.5e+", "1_0.5", "1_.5", "1._5", "1.5_5", "1.5e1_0", "_1.5", "1.5_",
         "\u0661.\u0665", "\u00a01.5\u2003", "\x1c1.5", "1.5x", "1.5.5", "0.1", "0.7", "0.30000000000000004", "123456789.123456789123456789", "1.5 e1",
         "1e.5", "4.9e-324", "2.5e-324", "2.4e-324", "1.0e22", "9007199254740993.0", "- 1.5", "--1.5"] + [s for s in words("01.9_-+e5", 60, 6) if "." in s]
def flt(s):
    x = attempt(float, s)
    return x
check("`float(s)`", "Str × Option Rat", [f"({st(s)}, {opt(flt(s), rat)})" for s in texts], "decide (Py.float t.1 = t.2)")

# isdigit, isspace, \d
chars = sorted({0, 9, 13, 14, 27, 28, 31, 32, 33, 47, 48, 57, 58, 65, 0x7f, 0x85, 0xa0, 0xb2, 0xb9, 0xbc, 0x660, 0x669, 0x66a, 0x6f9, 0x1369, 0x1371, 0x1372, 0x1680,
         0x180e, 0x19da, 0x2000, 0x200a, 0x200b, 0x2028, 0x202f, 0x205f, 0x2060, 0x2070, 0x2071, 0x2460, 0x2469, 0x3000, 0xff10, 0xff19, 0x1d7ce, 0x1d7ff, 0x1d800, 0x1f100, 0x1f10b}
         | {rnd.randrange(0xd800) for _ in range(40)})
b = lambda x: "true" if x else "false"
check("`isdigit`, `isspace`, `\\\\d`".replace("\\\\", "\\"), "Nat × Bool × Bool × Bool",
      [f"({i}, {b(chr(i).isdigit())}, {b(chr(i).isspace())}, {b(re.match(chr(92) + 'd', chr(i)))})" for i in chars],
      "Py.isDigitChar (Char.ofNat t.1) == t.2.1 && Py.isSpace (Char.ofNat t.1) == t.2.2.1 && Py.isDecChar (Char.ofNat t.1) == t.2.2.2")

# string methods
texts = words("ab ;\x1b\n\t", 40, 9)
check("`strip`, `rstrip(\"\\n\")`, `lstrip(\"\\x1b[<\")`", "Str × Str × Str × Str",
      [f"({st(s)}, {st(s.strip())}, {st(s.rstrip(chr(10)))}, {st(s.lstrip(chr(27) + '[<'))})" for s in texts],
      "decide (Py.strip t.1 = t.2.1) && decide (Py.rstrip (· == '\\n') t.1 = t.2.2.1) && decide (Py.lstrip (fun c => c == '\\x1b' || c == '[' || c == '<') t.1 = t.2.2.2)")
lst = lambda l, f: "[" + ", ".join(f(x) for x in l) + "]"
check("`split(\";\")`, `split(\"ab\")`, `replace(\"ab\", \"c\")`", "Str × List Str × List Str × Str",
      [f"({st(s)}, {lst(s.split(';'), st)}, {lst(s.split('ab'), st)}, {st(s.replace('ab', 'c'))})" for s in words("aab;b", 40, 9)],
      "decide (Py.splitC ';' t.1 = t.2.1) && decide (Py.splitS ['a', 'b'] t.1 = t.2.2.1) && decide (Py.replace ['a', 'b'] ['c'] t.1 = t.2.2.2)")
check("`html.escape`", "Str × Str", [f"({st(s)}, {st(escape(s))})" for s in words("a<>&\"';#", 20, 9)], "decide (htmlEscape t.1 = t.2)")
check("`str(n)`, `f\"{n:02X}\"`", "Int × Str", [f"({n}, {st(str(n))})" for n in [0, 1, 9, 10, 99, 100, 255, 1000, -1, -10, -255, 12345678901234567890]], "decide (Py.decInt t.1 = t.2)")
check("`f\"{n:02X}\"`", "Nat × Str", [f"({n}, {st(f'{n:02X}')})" for n in range(256)], "decide (Py.hex2 t.1 = t.2)")
check("Slices `s[i:j]`", "Str × Option Int × Option Int × Str",
      [f"({st(s)}, {opt(i, str)}, {opt(j, str)}, {st(s[i:j])})" for s in ["", "a", "abcde"] for i in [None, -7, -2, 0, 1, 3, 9] for j in [None, -6, -1, 0, 2, 5, 8]],
      "decide (Span.sliceStr t.1 t.2.1 t.2.2.1 = t.2.2.2)")

# repr
ok = lambda s: all(c.isprintable() or ord(c) < 128 for c in s)
check("`repr(s)`, with ASCII as the printable characters", "Str × Str",
      [f"({st(s)}, {st(repr(s))})" for s in ["", "'", '"', "'\"", "\\", "a\n", "\t\r", "\x1b[A", "\x00\x7f", "it's", 'say "x"', "\\'"] + words("a'\"\\\n\x1b\x80", 20, 5)],
      "decide (reprOf (fun c => decide (32 ≤ c.toNat) && decide (c.toNat < 127)) t.1 = t.2)")

# regular expressions: the two patterns, copied as text
ANSI = re.compile(r"(?:\x1b\[(.*?)[mH])|(?:\x1b\](.*?)\x1b\\)|(?:\x1b_G(.*?)\x1b\\)")
STYLES = re.compile(r"\x1b\[(?:(.*?))[mH]([^\x1b]+)(?=\x1b)")
texts = words("\x1b\x1b[[]mH\\_Ga;1\n", 150, 14) + words(["\x1b[", "m", "H", "a", "1", ";", "\x1b", "\n", "\x1b]8;;", "\x1b\\", "\x1b_G"], 150, 9)
check("`re.sub` with the pattern of `RE_ANSI`", "Str × Str", [f"({st(s)}, {st(ANSI.sub('', s))})" for s in texts], "decide (subAnsi t.1 = t.2)")
check("`re.finditer` with the pattern of `RE_ANSI_STYLES`", "Str × List (Str × Str × Nat)",
      [f"({st(s)}, {lst(STYLES.finditer(s), lambda m: f'({st(m[1])}, {st(m[2])}, {m.end()})')})" for s in texts], "decide (styleMatches t.1 = t.2)")
PIX = re.compile(r"\x1b\[4;([\d]+);([\d]+)t")
texts = ["\x1b[4;12;34t", "\x1b[4;12;34tx", "\x1b[4;;34t", "\x1b[4;1;2", "\x1b[4;\u0661;2t", "x\x1b[4;1;2t", "\x1b[4;1;2;3t", "\x1b[4;\u00b2;2t"]
def pix(s):
    m = PIX.match(s)
    return (m[1], m[2]) if m else None
check("`re.match` with the pattern of `RE_PIXEL_SIZE`", "Str × Option (Str × Str)", [f"({st(s)}, {opt(pix(s), lambda m: f'{st(m[0])}, {st(m[1])}')})" for s in texts], "decide (Core.pixelMatch t.1 = t.2)")

# the incremental decoder, one byte at a time as in `_read`
def feed(bs):
    """The text of `decode` for every byte, `str(byte)` where it raises."""
    d = codecs.getincrementaldecoder("utf-8")()
    res = ""
    for x in bs:
        try:
            res += d.decode(bytes([x]))
        except UnicodeDecodeError:
            res += str(bytes([x]))
    return res
def seqs():
    yield from ([x] for x in range(0, 256, 5))
    for s in ["é", "€", "😀", "aé€", "\U0010ffff", "\ud7ff", "\ue000"]:
        yield list(s.encode())
    yield from ([0xe0, 0x9f, 0x80], [0xe0, 0xa0, 0x80], [0xed, 0x9f, 0xbf], [0xed, 0xa0, 0x80], [0xf0, 0x8f, 0x80, 0x80], [0xf4, 0x90, 0x80, 0x80], [0xf4, 0x8f, 0xbf, 0xbf],
                [0xc3, 0x41], [0xc3, 0xa9, 0x41], [0xc3, 0xc3, 0xa9], [0xe2, 0x82, 0x41, 0x42], [0xff, 0x41], [0x80, 0x41])
    for _ in range(60):
        yield [rnd.choice([0x41, 0x80, 0xbf, 0xc3, 0xe2, 0x82, 0xac, 0xf0, 0x9f, 0x98, 0xed, 0xff, 0x27, 0x5c, 0x0a]) for _ in range(rnd.randint(1, 6))]
check("The incremental UTF-8 decoder, byte by byte", "List Nat × Str", [f"({bs}, {st(feed(bs))})" for bs in seqs()],
      "decide ((t.1.foldl (fun (r : Str × List Nat) b => (r.1 ++ (Core.readByte r.2 b).1, (Core.readByte r.2 b).2)) ([], [])).1 = t.2)")

# io.StringIO
def sio(ws):
    s = io.StringIO()
    for w in ws:
        s.write(w)
        s.seek(0)
    return s.getvalue()
check("`io.StringIO`: writes, each followed by `seek(0)`", "List Str × Str", [f"({lst(ws, st)}, {st(sio(ws))})" for ws in [words("ab", rnd.randint(0, 4), 4) for _ in range(20)]],
      "decide ((t.1.foldl Core.feed {}).buf = t.2)")

# binary64
rows = []
for _ in range(60):
    a = rnd.choice([rnd.random(), rnd.random() * 10 ** rnd.randint(-8, 8), rnd.randint(0, 255) / 255, 0.1, 0.2, 0.7])
    c = rnd.choice([rnd.random(), rnd.randint(1, 12) / 12, rnd.random() * 10 ** rnd.randint(-8, 8)]) or 1.0
    rows.append(f"({rat(a)}, {rat(c)}, {rat(a + c)}, {rat(a - c)}, {rat(a * c)}, {rat(a / c)})")
check("Sum, difference, product and quotient of floats", "Rat × Rat × Rat × Rat × Rat × Rat", rows,
      "decide (fl (t.1 + t.2.1) = t.2.2.1) && decide (fl (t.1 - t.2.1) = t.2.2.2.1) && decide (fl (t.1 * t.2.1) = t.2.2.2.2.1) && decide (fl (t.1 / t.2.1) = t.2.2.2.2.2)")
check("`x % 1.0`, `int(x)`, `round(abs(x))`, `round(x, 2)`, `round(x, 4)`", "Rat × Rat × Int × Nat × Rat × Rat",
      [f"({rat(x)}, {rat(x % 1.0)}, {int(x)}, {round(abs(x))}, {rat(round(x, 2))}, {rat(round(x, 4))})" for x in [0.0, 0.5, 1.5, 2.5, -0.5, -1.5, 2.49999, -1e-20, 7.25, -7.25, 3.0, 2.675, 0.125, 1.005, 0.9999999999999999] + [rnd.uniform(-5, 5) for _ in range(20)]],
      "decide (Hls.mod1 fl t.1 = t.2.1) && decide (truncate t.1 = t.2.2.1) && decide (rhe t.1.num.natAbs t.1.den = t.2.2.2.1) && decide (Svg.roundTo 2 t.1 = t.2.2.2.2.1) && decide (Svg.roundTo 4 t.1 = t.2.2.2.2.2)")
rows = []
for _ in range(40):
    r, g, bl = (rnd.choice([0, 255, 128, rnd.randint(0, 255)]) / 256 for _ in range(3))
    h, l, s = colorsys.rgb_to_hls(r, g, bl)
    rows.append(f"({rat(r)}, {rat(g)}, {rat(bl)}, {rat(h)}, {rat(l)}, {rat(s)})")
check("`colorsys.rgb_to_hls`", "Rat × Rat × Rat × Rat × Rat × Rat", rows, "decide (Hls.rgbToHls fl t.1 t.2.1 t.2.2.1 = t.2.2.2)")
rows = []
for _ in range(40):
    h, l, s = rnd.random(), rnd.random(), rnd.choice([0.0, 1.0, rnd.random()])
    r, g, bl = colorsys.hls_to_rgb(h, l, s)
    rows.append(f"({rat(h)}, {rat(l)}, {rat(s)}, {rat(r)}, {rat(g)}, {rat(bl)})")
check("`colorsys.hls_to_rgb`", "Rat × Rat × Rat × Rat × Rat × Rat", rows, "decide (Hls.hlsToRgb fl t.1 t.2.1 t.2.2.1 = t.2.2.2)")

# argparse, with the options of Slate's command line
def parser():
    p = argparse.ArgumentParser("slate")
    p.add_argument("-v", "--version", action="version", version="VERSION")
    subs = p.add_subparsers(required=True)
    g = subs.add_parser("getch")
    g.set_defaults(func="getch")
    g.add_argument("--raw", action="store_true")
    subs.add_parser("size").set_defaults(func="size")
    subs.add_parser("debug").set_defaults(func="debug")
    return p

def parsed(args):
    o = io.StringIO()
    try:
        with contextlib.redirect_stdout(o), contextlib.redirect_stderr(io.StringIO()):
            opts = vars(parser().parse_args(args))
    except SystemExit as e:
        if e.code == 2:
            return ".error .usage"
        assert e.code == 0
        text = o.getvalue()
        if text == "VERSION\n":
            return ".error .version"
        name = re.match(r"usage: slate (getch|size|debug)? ?\[-h\]", text).group(1)
        return ".error (.help none)" if name is None else f".error (.help (some ({st(name)})))"
    f = opts.pop("func")
    if f == "getch":
        return f".ok (.getch {str(opts.pop('raw')).lower()})" if not opts.keys() - {"raw"} else None
    assert not opts
    return f".ok .{f}"

parts = ["size", "debug", "getch", "--raw", "--r", "--ra", "--raw=", "--raw=1", "--r=", "-r", "-h", "--help", "--h", "--he", "--hel=x", "-v", "--v",
         "--version", "--versions", "-vh", "-hv", "-vx", "-vh=", "-v=h", "-v-", "-hh=x", "-hvx", "--", "-", "", "-5", "-5.5", "-.5", "-5.", "-5\n", "-\u0661",
         "--=x", "-=", "-=h", "- ", "-x y", "--x y", "-x", "--x", "x", "siz", "--raw --raw", "--\n", "-h ", "--h=", "--hx", "-r=--raw"]
cases = [[]] + [[a] for a in parts] + [[c, a] for c in ("size", "getch") for a in parts] + [[a, "size"] for a in parts] + \
    [[rnd.choice(parts) for _ in range(rnd.randint(2, 4))] for _ in range(150)] + \
    [["getch"] + [rnd.choice(["--raw", "--r", "--ra", "--", "-h", "--raw"]) for _ in range(3)] for _ in range(20)]
check("`argparse`, for the parser that `main` builds", "List Str × Except Cli.Exit Cli.Cmd",
      [f"([{', '.join(st(a) for a in args)}], {parsed(args)})" for args in cases], "Cli.parseArgs t.1 == t.2")

head = """import Verif.Model.Decode
import Verif.Py.Repr
import Verif.Model.Hls
import Verif.Model.Main
import Verif.Model.Cli
import Verif.Model.Svg

/-!
# The built-ins of Python

Written by `tools/mkbuiltins.py`: arguments and results of CPython 3.11 for the built-ins that the model has to know, compared with
the primitives of the model. These are tests of the trusted base, not properties. Nothing of Slate was run for them.
-/

namespace Slate.Check
open Py

deriving instance BEq for Except

/-- A string from its code points. -/
def cs (l : List Nat) : Str := l.map Char.ofNat

"""
with open("lean/Verif/Check/Builtins.lean", "w") as f:
    f.write(head + "\n".join(out) + "\nend Slate.Check\n")
