#!/usr/bin/env python3
"""Read the embedded texts back from the Lean sources and compare them with the files in /repo, byte by byte."""
import os, re, sys

REPO = sys.argv[1] if len(sys.argv) > 1 else '/repo'
SHIPPED = os.path.join(os.path.dirname(os.path.abspath(__file__)), '..', 'lean', 'Verif', 'Model', 'Shipped')
LINE = re.compile(r'  c!(?:"([^"\\]*)"| r(#+)"(.*)"\2)(,|\])$')
bad = count = 0
for fn in ('Dicts.lean', 'Modules.lean'):
    parts, cur, path = {}, None, None
    for l in open(os.path.join(SHIPPED, fn)).read().split('\n'):
        if m := re.fullmatch(r'noncomputable def (\w+_\d+) : List Str := \[', l):
            cur = parts.setdefault(m[1], [])
        elif m := LINE.fullmatch(l):
            cur.append(m[1] if m[1] is not None else m[3])
        elif m := re.fullmatch(r'/-- The lines of (\S+) \(1-\d+\)\. -/', l):
            path = m[1]
        elif path and l.startswith('  '):
            text = ''.join(x + '\n' for p in l.split(' ++ ') for x in parts[p.strip()])
            same = text.encode() == open(os.path.join(REPO, path), 'rb').read()
            count += 1
            bad += not same
            print('same' if same else 'DIFFERENT', path)
            path = None
        elif 'c!' in l:
            sys.exit(f'{fn}: cannot read {l}')
print(count, 'files compared,', bad, 'different')
sys.exit(bad != 0)
