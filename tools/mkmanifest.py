"""Write MANIFEST.json and lean/Verif/Axioms.lean from tools/claims.py and the theorems named Cnn... in lean/Verif/Props."""
import glob
import json
import os
import re

root = os.path.dirname(os.path.dirname(os.path.abspath(__file__)))
scope = {}
exec(open(root + '/tools/claims.py').read(), scope)
claims = scope['CLAIMS']

names, modules = {}, []
for f in sorted(glob.glob(root + '/lean/Verif/Props/*.lean')):
    modules.append(os.path.basename(f)[:-5])
    ns = []
    for line in open(f):
        m = re.match(r'namespace (\S+)', line)
        if m:
            ns.append(m.group(1))
        m = re.match(r'end (\S+)', line)
        if m and ns and ns[-1] == m.group(1):
            ns.pop()
        m = re.match(r'(?:@\[[^\]]*\] )?theorem (C\d\d\d?)(\S*)', line)
        if m:
            names.setdefault(m.group(1), []).append('.'.join(ns + [m.group(1) + m.group(2).rstrip(':')]))

out = []
for line in open(root + '/properties.jsonl'):
    i = json.loads(line)['id']
    if i in claims:
        status, note = claims[i]
        assert i in names or status == 'not_applicable', i
        out.append({"property": i, "status": status, "theorems": names.get(i, []), "note": note})
    elif i in names:
        print("unclaimed", i)
with open(root + '/MANIFEST.json', 'w') as f:
    json.dump({"claims": out}, f, indent=1)
    f.write('\n')
with open(root + '/lean/Verif/Axioms.lean', 'w') as f:
    f.write('/-\nThe axioms every property theorem depends on (generated by tools/mkmanifest.py).\n-/\n')
    for m in modules:
        f.write('import Verif.Props.%s\n' % m)
    f.write('\n')
    for c in out:
        for t in c['theorems']:
            f.write('#print axioms %s\n' % t)
print(len(out), sum(len(c['theorems']) for c in out))
