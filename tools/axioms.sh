#!/bin/sh
# Writes AXIOMS.md: axioms of every theorem named in MANIFEST.json (after `lake build`).
cd "$(dirname "$0")/.." || exit 1
T=$(mktemp -d)
python3 - > "$T/a.lean" <<'P'
import json
names = sorted({t for c in json.load(open('MANIFEST.json'))['claims'] for t in c['theorems']})
print('import Verif')
for n in names:
    print('#print axioms ' + n)
P
(cd lean && lake env lean "$T/a.lean") > "$T/out" 2>&1
python3 - "$T/out" <<'P'
import re, sys
s = open(sys.argv[1]).read()
s = re.sub(r'\s*\n\s+', ' ', s)
rows = []
for l in s.splitlines():
    m = re.match(r"'(.*)' depends on axioms: \[(.*)\]", l)
    if m:
        rows.append((m.group(1), m.group(2)))
        continue
    m = re.match(r"'(.*)' does not depend on any axioms", l)
    if m:
        rows.append((m.group(1), 'none'))
        continue
    sys.exit('unexpected: ' + l)
with open('AXIOMS.md', 'w') as f:
    f.write('# Axioms of the theorems in MANIFEST.json\n\n| theorem | axioms |\n|---|---|\n')
    for a, b in sorted(rows):
        f.write('| `%s` | %s |\n' % (a, b))
P
rm -r "$T"
