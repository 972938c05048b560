#!/usr/bin/env python3
"""Check that citations `file.go:a-b` in the Lean comments name lines that exist and, when a backquoted function name
follows directly, that the name occurs in the cited lines of /repo."""
import glob, os, re, sys

repo = sys.argv[1] if len(sys.argv) > 1 else '/repo'
cache = {}
bad = n = 0
for f in sorted(glob.glob(os.path.join(os.path.dirname(__file__), '../lean/Verif/**/*.lean'), recursive=True)):
    for i, line in enumerate(open(f), 1):
        for m in re.finditer(r'([\w./]+\.go):(\d+)(?:-(\d+))?((?:, \d+(?:-\d+)?)*)(?: `([^`]+)`)?', line):
            path = os.path.join(repo, m[1])
            n += 1
            if not os.path.exists(path):
                print(f'{f}:{i}: no file {m[1]}'); bad += 1; continue
            src = cache.setdefault(path, open(path).read().split('\n'))
            spans = [(int(m[2]), int(m[3] or m[2]))]
            for x in re.finditer(r'(\d+)(?:-(\d+))?', m[4] or ''):
                spans.append((int(x[1]), int(x[2] or x[1])))
            if any(b > len(src) or a > b for a, b in spans):
                print(f'{f}:{i}: lines out of range: {m[0]}'); bad += 1; continue
            if m[5]:
                w = re.findall(r'[A-Za-z_]\w+', m[5])
                text = '\n'.join('\n'.join(src[a - 1:b]) for a, b in spans)
                if w and w[-1] not in text and w[0] not in text:
                    print(f'{f}:{i}: {m[0]}: not there'); bad += 1
print(n, 'citations,', bad, 'wrong')
sys.exit(bad > 0)
