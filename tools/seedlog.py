"""Append seed.py results to seeded/LOG.jsonl: seedlog.py RESULTS TIGHTENED.json (map edit text -> list of tightened theorems)."""
import json, sys, os
tight = json.load(open(sys.argv[2])) if len(sys.argv) > 2 else {}
log = "/verif/seeded/LOG.jsonl"
seen = set()
if os.path.exists(log):
    for l in open(log):
        r = json.loads(l); seen.add((r["definition"], r["edit"]))
with open(log, "a") as f:
    for l in open(sys.argv[1]):
        r = json.loads(l)
        k = (r["definition"], r["edit"])
        if k in seen: continue
        seen.add(k)
        f.write(json.dumps({"definition": r["definition"], "edit": r["edit"], "claim": r.get("claim", ""),
            "failed": r.get("failed", []), "claims_failed": r.get("broken", []), "tightened": tight.get(r["edit"], [])}, ensure_ascii=False) + "\n")
