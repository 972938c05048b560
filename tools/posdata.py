#!/usr/bin/env python3
"""Generates lean/Verif/Model/PosData.lean from the tables in /repo/hmm/pos (transitions, start values, states of characters)."""
import os, re
R = "/repo/hmm/pos/"
root = os.path.dirname(os.path.dirname(os.path.abspath(__file__)))


def dec(v):
    """A decimal as a pair (m, e): the value is -m / 10^e."""
    m = re.fullmatch(r"(-?)(\d+)(?:\.(\d+))?(?:e\+?(-?\d+))?", v)
    sign, a, b, e = m[1], m[2], m[3] or "", int(m[4] or 0)
    n, k = int(a + b), len(b) - e
    assert sign == "-" or n == 0, v
    if k < 0:
        return "(%d * 10 ^ %d, 0)" % (n, -k)
    return "(%d, %d)" % (n, k)


def chunks(l, n):
    return [l[i:i + n] for i in range(0, len(l), n)]


def emit(out, name, typ, doc, items, n):
    cs = chunks(items, n)
    for i, c in enumerate(cs):
        # the line range of the chunk
        out.append("/-- %s:%d-%d -/" % (doc, c[0][0], c[-1][0]))
        out.append("noncomputable def %s%d : %s := [" % (name, i, typ))
        out.append(",\n".join("  " + x[1] for x in c) + "]\n")
    return [name + str(i) for i in range(len(cs))]


out = ['''import Verif.Model.Utf8

/-!
# The tables of hmm/pos

Generated by tools/posdata.py. A decimal `-m / 10^e` of the source is the pair `(m, e)`. Not here: `probEmit`.
-/

namespace Gse.PosData
''']
rows = []
for no, l in enumerate(open(R + "prob_trans.go"), 1):
    m = re.match(r"\s*(\d+): *\{(.*)\},", l)
    if m:
        es = re.findall(r"(\d+): ([-\d.e+]+)", m[2])
        rows.append((no, "(%s, [%s])" % (m[1], ", ".join("(%s, %s)" % (a, dec(b)) for a, b in es))))
T = emit(out, "trans", "List (Nat × List (Nat × Nat × Nat))", "hmm/pos/prob_trans.go", rows, 16)
out.append("/-- `probTrans`, hmm/pos/prob_trans.go:21-278: for each state the next states with their values. -/")
out.append("noncomputable def trans : List (Nat × List (Nat × Nat × Nat)) :=\n  [" + ", ".join(T) + "].flatten\n")
rows = []
for no, l in enumerate(open(R + "prob_start.go"), 1):
    m = re.match(r"\s*(\d+): *([-\d.e+]+),", l)
    if m:
        rows.append((no, "(%s, %s)" % (m[1], dec(m[2]))))
S = emit(out, "start", "List (Nat × Nat × Nat)", "hmm/pos/prob_start.go", rows, 64)
out.append("/-- `probStart`, hmm/pos/prob_start.go:3-260. -/")
out.append("noncomputable def start : List (Nat × Nat × Nat) := [" + ", ".join(S) + "].flatten\n")
rows = []
for no, l in enumerate(open(R + "char_state_tab.go"), 1):
    m = re.match(r"\s*'(\\u[0-9a-f]{4}|\\U[0-9a-f]{8}|[^'\\])': \[\]uint16\{(.*)\}", l)
    if m:
        a = m[1]
        k = int(a[2:], 16) if a.startswith("\\") else ord(a)
        rows.append((no, "(%d, [%s])" % (k, ", ".join(re.findall(r"\d+", m[2])))))
C = emit(out, "chars", "List (Nat × List Nat)", "hmm/pos/char_state_tab.go", rows, 64)
out.append("/-- `charStateTab`, hmm/pos/char_state_tab.go:61-6710. -/")
out.append("noncomputable def chars : List (Nat × List Nat) :=\n  [" + ",\n   ".join(", ".join(c) for c in chunks(C, 10)) + "].flatten\n")
src = open(R + "char_state_tab.go").read()
ps = re.findall(r'"(\w*)"', re.search(r"poss\s*= \[\]string\{(.*)\}", src)[1])
out.append("/-- `poss`, hmm/pos/char_state_tab.go:6713. -/")
out.append("noncomputable def poss : List Bytes := [" + ",\n  ".join(", ".join('str "%s"' % p for p in c) for c in chunks(ps, 16)) + "]\n")
out.append("end Gse.PosData")
open(os.path.join(root, "lean/Verif/Model/PosData.lean"), "w").write("\n".join(out) + "\n")
