#!/usr/bin/env python3
"""Seeded-bug experiment.  seed.py SPEC.json   (run outside /verif; works on a copy in /tmp/seed)

SPEC: list of {"file": "Verif/Model/X.lean", "old": "...", "new": "...", "definition": "...", "edit": "...", "claim": "..."}.
For each: apply the edit to the copy, rebuild; every proof that fails is replaced by `sorry` in the copy and the build is
repeated, so that all failing proofs are found; then the axioms of the property theorems show which rest on a failed proof.
"""
import json, os, re, subprocess, sys, shutil
SRC, DST = "/verif/lean", "/tmp/seed/lean"
KEY = re.compile(r"^(?:@\[[^\]]*\]\s*)?(?:private |protected |noncomputable )*(theorem|lemma|def|example|instance|structure|class|inductive|abbrev)\b\s*(\S*)")
TOP = re.compile(r"^(?:@\[|private |protected |noncomputable |theorem|lemma|def|example|instance|structure|class|inductive|abbrev|/--|/-!|end\b|section|namespace|variable|attribute|open|set_option|notation|#|deriving|mutual|omit)")

def sync():
    os.makedirs(DST, exist_ok=True)
    shutil.rmtree(DST + "/Verif", ignore_errors=True)
    # the last commit, so that work in progress does not interfere
    subprocess.run("git -C /verif archive HEAD lean | tar x -C /tmp/seed", shell=True, check=True)
    if not os.path.exists(DST + "/.lake"):
        subprocess.run(["cp", "-r", SRC + "/.lake", DST + "/.lake"], check=True)

def build(targets=()):
    r = subprocess.run(["lake", "build", *targets], cwd=DST, capture_output=True, text=True)
    return r.returncode, r.stdout + r.stderr

def decl_at(lines, ln):
    i = ln
    while i >= 0 and not KEY.match(lines[i]): i -= 1
    if i < 0: return None
    j = i + 1
    while j < len(lines) and not TOP.match(lines[j]): j += 1
    m = KEY.match(lines[i])
    return i, j, m.group(1), m.group(2)

def sorry(lines, i, j):
    txt = "\n".join(lines[i:j])
    depth = 0; k = 0
    while k < len(txt):
        c = txt[k]
        if c in "([{⟨": depth += 1
        elif c in ")]}⟩": depth -= 1
        elif depth == 0 and txt.startswith(":=", k): break
        elif depth == 0 and txt.startswith("\n  | ", k): break
        elif depth == 0 and txt.startswith(" where\n", k): break
        k += 1
    new = txt[:k] + " := by sorry"
    return lines[:i] + new.split("\n") + [""] + lines[j:]

def namespaced(name): return "Gse." + name

def run(spec):
    sync()
    edits = spec.get("edits") or [spec]
    for e in edits:
        p = os.path.join(DST, e["file"])
        s = open(p).read()
        if s.count(e["old"]) != 1:
            return {"error": "old occurs %d times in %s" % (s.count(e["old"]), e["file"])}
        open(p, "w").write(s.replace(e["old"], e["new"]))
    failed = []
    for it in range(80):
        rc, out = build()
        if rc == 0: break
        errs = {}
        for m in re.finditer(r"error: (Verif/\S+\.lean):(\d+):(\d+): (.*)", out):
            errs.setdefault(m.group(1), []).append((int(m.group(2)) - 1, m.group(4)))
        if not errs: return {"error": out[-1500:]}
        for f, ls in errs.items():
            p = os.path.join(DST, f)
            lines = open(p).read().split("\n")
            todo = {}
            for ln, msg in ls:
                d = decl_at(lines, ln)
                if d is None: return {"error": "%s:%d %s" % (f, ln + 1, msg)}
                todo[d[0]] = d
            for i in sorted(todo, reverse=True):
                _, j, kind, name = todo[i]
                if kind not in ("theorem", "lemma", "example", "instance") and not name.startswith("sample"):
                    return {"error": "%s in %s: %s" % (kind, f, name), "out": [m for _, m in ls][:3]}
                failed.append(name.rstrip(":") if kind != "example" else "example:%s:%d" % (os.path.basename(f), i + 1))
                if kind == "example":
                    lines = lines[:i] + lines[j:]
                    # drop an orphaned doc comment
                    q = i - 1
                    while q >= 0 and lines[q].strip() == "": q -= 1
                    if q >= 0 and lines[q].rstrip().endswith("-/"):
                        b = q
                        while not lines[b].lstrip().startswith("/-"): b -= 1
                        if lines[b].startswith("/--"): lines = lines[:b] + lines[q+1:]
                else:
                    lines = sorry(lines, i, j)
            open(p, "w").write("\n".join(lines))
    else:
        return {"error": "no fixpoint", "failed": failed}
    # which property theorems rest on a failed proof
    names = []
    for root, _, fs in os.walk(DST + "/Verif/Props"):
        for f in fs:
            names += re.findall(r"^theorem (C\d+_\w+)", open(os.path.join(root, f)).read(), re.M)
    chk = DST + "/Chk.lean"
    open(chk, "w").write("import Verif\n" + "\n".join("#print axioms Gse." + n for n in names))
    r = subprocess.run(["lake", "env", "lean", "Chk.lean"], cwd=DST, capture_output=True, text=True)
    os.remove(chk)
    out = re.sub(r"\n +", " ", r.stdout + r.stderr)
    broken = sorted(set(m.group(1) for m in re.finditer(r"'Gse\.(\w+)' depends on axioms: \[([^\]]*)\]", out) if "sorryAx" in m.group(2)))
    return {"failed": failed, "broken": broken}

if __name__ == "__main__":
    specs = json.load(open(sys.argv[1]))
    if len(sys.argv) > 2: specs = specs[int(sys.argv[2][:-1]):] if sys.argv[2].endswith("-") else [specs[int(x)] for x in sys.argv[2:]]
    for n, s in enumerate(specs):
        r = run(s)
        print(json.dumps({"n": n, "definition": s.get("definition"), "edit": s.get("edit"), **r}, ensure_ascii=False), flush=True)
        with open("/tmp/seed/results.jsonl", "a") as o:
            o.write(json.dumps({**{k: s.get(k) for k in ("definition", "edit", "claim")}, **r}, ensure_ascii=False) + "\n")
