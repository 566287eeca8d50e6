#!/usr/bin/env python3
"""Embed the shipped dictionaries and generated modules of /repo as Lean definitions (one text per line)."""
import glob, os, re, sys

REPO = sys.argv[1] if len(sys.argv) > 1 else '/repo'
OUT = os.path.join(os.path.dirname(os.path.abspath(__file__)), '..', 'lean', 'Verif', 'Model', 'Shipped')
CHUNK = 60


def quote(l):
    if '"' not in l and '\\' not in l:
        return 'c!"' + l + '"'
    n = 1
    while '"' + '#' * n in l:
        n += 1
    return 'c! r' + '#' * n + '"' + l + '"' + '#' * n


def lines(path):
    data = open(path, 'rb').read().decode('ascii')
    assert '\r' not in data and data.endswith('\n')
    return data.split('\n')[:-1]


def define(name, path):
    ls = lines(path)
    out, parts = '', []
    for i in range(0, len(ls), CHUNK):
        part = f'{name}_{i // CHUNK}'
        parts.append(part)
        out += f'noncomputable def {part} : List Str := [\n  ' + ',\n  '.join(quote(l) for l in ls[i:i + CHUNK]) + ']\n\n'
    rel = os.path.relpath(path, REPO)
    out += f'/-- The lines of {rel} (1-{len(ls)}). -/\nnoncomputable def {name} : List Str :=\n  ' + ' ++ '.join(parts) + '\n\n'
    return out


def write(fn, title, body, imp='Verif.Model.Text'):
    with open(os.path.join(OUT, fn), 'w') as f:
        f.write(f'import {imp}\n' + f'/-! # {title}\n\nWritten by tools/embed.py. -/\n' +
                'namespace Radius.Gen.Shipped\n\n' + body +
                'end Radius.Gen.Shipped\n')


VALUE_TYPES = {'string': 'String', 'octets': 'Octets', 'ipaddr': 'IpAddr', 'ipv4prefix': 'Ipv4Prefix', 'ipv6addr': 'Ipv6Addr',
               'ipv6prefix': 'Ipv6Prefix', 'ifid': 'IfId', 'date': 'Date', 'integer': 'Integer', 'short': 'Short', 'vsa': 'VSA'}


def table(name, path):
    """The expected result of parsing a dictionary; Lean checks it against the model of the parser."""
    attrs, values = [], {}
    for n, l in enumerate(lines(path), 1):
        if l == '' or l[0] == '#':
            continue
        it = re.split(r'\s+', l)
        if it[0] == 'ATTRIBUTE':
            opts = it[4].split(',') if len(it) > 4 else []
            fixed = re.fullmatch(r'octets\[(\d+)\]', it[3])
            t = 'Octets' if fixed else VALUE_TYPES[it[3]]
            if t == 'String' and 'encrypt=1' in opts:
                t = 'UserPassword'
            if t == 'String' and 'encrypt=2' in opts:
                t = 'TunnelPassword'
            b = lambda o: 'true' if o in opts else 'false'
            attrs.append(f'⟨{quote(it[1])}, {it[2]}, .{t}, {"some " + fixed[1] if fixed else "none"}, '
                         f'{b("concat")}, {b("has_tag")}⟩')
        else:
            values.setdefault(it[1], []).append(f'⟨{quote(it[2])}, {re.sub("#.+", "", it[3])}⟩')
    out = f'/-- The contents of {os.path.relpath(path, REPO)}. -/\nnoncomputable def {name} : Dict where\n'
    out += '  attributes := [\n    ' + ',\n    '.join(attrs) + ']\n'
    out += '  values := [' + ',\n    '.join(f'({quote(k)}, [\n      ' + ',\n      '.join(vs) + '])'
                                          for k, vs in sorted(values.items())) + ']\n\n'
    return out


os.makedirs(OUT, exist_ok=True)
dicts = sorted(glob.glob(REPO + '/dicts/dictionary.*'))
names = [d.rsplit('.', 1)[1] for d in dicts]
write('Dicts.lean', 'The shipped dictionaries', ''.join(define(n + 'Dict', d) for n, d in zip(names, dicts)))
write('Modules.lean', 'The shipped modules', ''.join(define(n + 'Module', f'{REPO}/radius/src/core/{n}.rs') for n in names))
write('Table.lean', 'The contents of the shipped dictionaries', ''.join(table(n + 'Table', d) for n, d in zip(names, dicts)),
      'Verif.Model.Generator')
