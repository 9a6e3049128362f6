#!/usr/bin/env python3
"""Collects the theorems named Cnn_* from lean/Verif/Props and writes MANIFEST.json and lean/Verif.lean."""
import json, os, re
ROOT = os.path.dirname(os.path.dirname(os.path.abspath(__file__)))
LEAN = os.path.join(ROOT, "lean")

# property -> (status, note). Properties without theorems yet are reported as partial with an empty list.
STATUS = json.load(open(os.path.join(ROOT, "tools", "status.json")))

mods, thms = [], {}
for d, _, fs in os.walk(os.path.join(LEAN, "Verif")):
    for f in fs:
        if f.endswith(".lean"):
            path = os.path.join(d, f)
            mods.append(os.path.relpath(path, LEAN)[:-5].replace("/", "."))
            if "/Props/" in path:
                for m in re.finditer(r"^theorem (C\d+_\w+)", open(path).read(), re.M):
                    thms.setdefault(m.group(1).split("_")[0], []).append(m.group(1))
mods.sort()
open(os.path.join(LEAN, "Verif.lean"), "w").write("".join(f"import {m}\n" for m in mods))

claims = []
for line in open(os.path.join(ROOT, "properties.jsonl")):
    pid = json.loads(line)["id"]
    names = sorted(thms.get(pid, []))
    st, note = STATUS.get(pid, ["partial", "not yet proved"] if not names else ["proved", ""])
    if not names and st != "not_applicable":
        st, note = "partial", "no theorem yet"
    claims.append({"property": pid, "status": st, "theorems": names, "note": note})
json.dump({"claims": claims}, open(os.path.join(ROOT, "MANIFEST.json"), "w"), indent=1)
print({s: sum(c["status"] == s for c in claims) for s in ("proved", "partial", "not_applicable")})
print("no theorem:", [c["property"] for c in claims if not c["theorems"]])
