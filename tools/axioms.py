#!/usr/bin/env python3
"""Rewrite the last section of DESIGN.md: the axioms each claimed theorem depends on (run after lake build)."""
import json, os, re, subprocess, tempfile, collections
root = os.path.dirname(os.path.dirname(os.path.abspath(__file__)))
m = json.load(open(os.path.join(root, 'MANIFEST.json')))
ts = sorted({t for c in m['claims'] for t in c['theorems']})
with tempfile.NamedTemporaryFile('w', suffix='.lean', delete=False) as f:
    f.write('import Verif\n' + '\n'.join('#print axioms ' + t for t in ts) + '\n')
out = subprocess.run(['lake', 'env', 'lean', f.name], cwd=os.path.join(root, 'lean'), capture_output=True, text=True).stdout
d = collections.defaultdict(list)
for x in re.finditer(r"'([^']+)' (?:depends on axioms: \[([^\]]*)\]|does not depend)", out):
    d[re.sub(r'\s+', ' ', x.group(2) or 'none')].append(x.group(1))
assert sum(map(len, d.values())) == len(ts), out[-500:]
HEAD = '## 7. Axioms of every claimed theorem'
p = os.path.join(root, 'DESIGN.md')
s = open(p).read().split(HEAD)[0]
s += HEAD + '\n\nWritten by `tools/axioms.py` from `#print axioms` (namespace `Argo.` omitted).\n'
for k in sorted(d, key=len):
    s += '\n**' + k + '**: ' + ', '.join('`' + t.replace('Argo.', '') + '`' for t in d[k]) + '.\n'
open(p, 'w').write(s)
print({k: len(v) for k, v in d.items()})
