#!/usr/bin/env python3
"""Reads /repo/nmea2k/lookups.go as text and writes lean/Verif/Nmea2k/Lookups.lean, the shipped tables of
names.  Run by hand; the generated module is committed."""
import re, os
src = open('/repo/nmea2k/lookups.go').read().split('\n')
T = {}; cur = None; sub = None
for n, l in enumerate(src, 1):
    m = re.match(r'var (\w+) = (PgnLookup|PgnSubLookup)\{', l)
    if m:
        cur = m.group(1); T[cur] = dict(line=n, kind=m.group(2), e=[]); sub = None; continue
    if cur is None: continue
    m = re.match(r'\t(\d+): PgnLookup\{', l)
    if m:
        sub = (int(m.group(1)), []); T[cur]['e'].append(sub); continue
    if l == '}': T[cur]['end'] = n; cur = None; continue
    if l.strip() == '},': sub = None; continue
    m = re.match(r'\s+(\d+):\s+"((?:[^"\\]|\\.)*)",\s*(//.*)?$', l)
    if m:
        assert '\\' not in m.group(2)
        (sub[1] if sub else T[cur]['e']).append((int(m.group(1)), m.group(2))); continue
    assert l.strip() == '' or l.strip().startswith('//'), (n, l)
root = os.path.dirname(os.path.dirname(os.path.abspath(__file__)))
o = open(os.path.join(root, 'lean/Verif/Nmea2k/Lookups.lean'), 'w')
o.write('''import Verif.Nmea2k.Model

set_option autoImplicit false

/-!
# The shipped tables of names

Generated by tools/gen_lookups.py from nmea2k/lookups.go; do not edit.  A Go map literal is the list of its
entries (Go rejects repeated constant keys).
-/

namespace Argo.Nmea2k.Lookups

''')
def entries(es): return ', '.join('(%d, "%s")' % e for e in es)
def wrap(items):
    out = []; line = '  '
    for i, it in enumerate(items):
        it += ', ' if i + 1 < len(items) else ''
        if len(line) + len(it) > 116: out.append(line.rstrip()); line = '  '
        line += it
    out.append(line.rstrip()); return '\n'.join(out)
names = []
for k, t in T.items():
    cite = '/-- lookups.go:%d-%d. -/\n' % (t['line'], t['end'])
    if t['kind'] == 'PgnLookup':
        o.write(cite + 'def %s : List (Nat × String) := [\n%s]\n\n' % (k, wrap(['(%d, "%s")' % e for e in t['e']])))
        names.append(k)
    else:
        o.write(cite + 'def %s : List (Nat × List (Nat × String)) := [\n%s]\n\n' %
                (k, ',\n'.join('  (%d, [\n%s])' % (a, wrap(['(%d, "%s")' % e for e in es])) for a, es in t['e'])))
o.write('/-- lookups.go: all tables of one key. -/\ndef tables : List (String × List (Nat × String)) := [\n%s]\n\n' %
        wrap(['("%s", %s)' % (k, k) for k in names]))
o.write('end Argo.Nmea2k.Lookups\n')
