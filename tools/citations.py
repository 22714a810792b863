#!/usr/bin/env python3
"""Check that every definition in lean/Verif/Model carries a comment with file and lines in
/repo, and that the cited lines exist."""
import re, glob, os, sys
root = os.path.join(os.path.dirname(os.path.abspath(__file__)), '..', 'lean', 'Verif', 'Model')
n, bad = 0, []
size = {f: len(open('/repo/src/' + f).read().split('\n')) for f in os.listdir('/repo/src') if f.endswith('.rs')}
for f in sorted(glob.glob(root + '/*.lean')):
    L = open(f).read().split('\n')
    for i, l in enumerate(L):
        m = re.match(r'(?:@\[[^\]]*\] )?(?:private |protected |noncomputable )*(def|structure|inductive|abbrev|class|instance)\b\s*(\S*)', l)
        if not m:
            continue
        n += 1
        j = i - 1
        while j >= 0 and L[j].startswith('@['):
            j -= 1
        doc = ''
        if j >= 0 and L[j].rstrip().endswith('-/'):
            k = j
            while k >= 0 and '/-' not in L[k]:
                k -= 1
            doc = '\n'.join(L[k:j + 1])
        cites = re.findall(r'src/([\w]+\.rs):(\d+)(?:-(\d+))?', doc)
        if not cites:
            bad.append((os.path.basename(f), i + 1, m.group(2), 'no lines cited'))
        for g, a, z in cites:
            if g not in size or int(z or a) > size[g] or int(a) > int(z or a):
                bad.append((os.path.basename(f), i + 1, m.group(2), f'{g}:{a}-{z}'))
print(n, 'definitions,', len(bad), 'without a good citation')
for b in bad:
    print(*b)
sys.exit(1 if bad else 0)
