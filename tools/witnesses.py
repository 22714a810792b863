#!/usr/bin/env python3
"""Lists the theorems of MANIFEST.json that no `example` applies to concrete data."""
import json, re, glob, os, sys
os.chdir(os.path.join(os.path.dirname(os.path.abspath(__file__)), '..'))
text = []
for f in sorted(glob.glob('lean/Verif/**/*.lean', recursive=True)):
    s = re.sub(r'/-.*?-/', '', open(f).read(), flags=re.S)
    for m in re.finditer(r'^(?:noncomputable )?example\b.*?(?=^\S|\Z)', s, re.M | re.S):
        text.append(m.group(0))
text = '\n'.join(text)
missing, n = [], 0
for c in json.load(open('MANIFEST.json'))['claims']:
    for t in c['theorems']:
        n += 1
        if not re.search(r"(?<![\w.'])(?:[\w']+\.)*" + re.escape(t.split('.')[-1]) + r'(?![\w\'])', text):
            missing.append((c['property'], t))
for p, t in missing:
    print(p, t)
print(n, 'theorems,', len(missing), 'not applied in an example')
sys.exit(1 if missing else 0)
