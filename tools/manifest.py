#!/usr/bin/env python3
"""Regenerates MANIFEST.json: collects theorems named Cnn_* from lean/Verif/Props; notes are kept here."""
import glob, json, re, os
root = os.path.dirname(os.path.dirname(os.path.abspath(__file__)))
NOTES = json.load(open(os.path.join(root, "tools", "notes.json")))
thms = {}
for f in sorted(glob.glob(os.path.join(root, "lean/Verif/Props/*.lean"))):
    txt = open(f).read()
    for m in re.finditer(r"^(?:private )?theorem (C(\d\d+)_\w+)", txt, re.M):
        thms.setdefault("C" + m.group(2), []).append("Gse." + m.group(1))
claims = []
for line in open(os.path.join(root, "properties.jsonl")):
    pid = json.loads(line)["id"]
    ts = thms.get(pid, [])
    n = NOTES.get(pid, {})
    status = n.get("status") or ("proved" if ts and not any(t.endswith("_partial") for t in ts) else "partial")
    claims.append({"property": pid, "status": status, "theorems": ts,
                   "note": n.get("note", "" if ts else "not yet proved")})
with open(os.path.join(root, "MANIFEST.json"), "w") as o:
    o.write('{"claims": [\n' + ",\n".join(json.dumps(c, ensure_ascii=False) for c in claims) + "\n]}\n")
print({s: sum(c["status"] == s for c in claims) for s in ("proved", "partial", "not_applicable")})
