#!/usr/bin/env python3
"""Fills the list of disagreements in DESIGN.md from the comments of the theorems Cnn_*_false."""
import glob, os, re
ROOT = os.path.dirname(os.path.dirname(os.path.abspath(__file__)))
items = []
for f in glob.glob(os.path.join(ROOT, "lean/Verif/Props/*.lean")):
    for m in re.finditer(r"/--((?:(?!-/).)*?)-/\s*theorem (C(\d+)_\w*_false)\b", open(f).read(), re.S):
        text = re.sub(r"^\*\*C\d+\.?\*\*\.?\s*", "", " ".join(m.group(1).split()))
        items.append((int(m.group(3)), m.group(2), text))
items.sort()
f = os.path.join(ROOT, "DESIGN.md")
s = open(f).read()
a, b = s.index("<!-- begin false -->"), s.index("<!-- end false -->")
s = s[:a] + "<!-- begin false -->\n" + "".join(f"* `{n}`: {t}\n" for _, n, t in items) + s[b:]
open(f, "w").write(s)
print(len(items))
