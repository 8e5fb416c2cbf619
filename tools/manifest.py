"""Regenerate MANIFEST.json from the theorem names in lean/Verif/Props (theorem Cnn.name in namespace DS)."""
import json, re, glob, os
root = os.path.dirname(os.path.dirname(os.path.abspath(__file__)))
notes = json.load(open(os.path.join(root, 'tools', 'notes.json')))
thms = {}
for f in sorted(glob.glob(os.path.join(root, 'lean/Verif/Props/*.lean'))):
    ns = []
    for line in open(f):
        m = re.match(r'namespace (\S+)', line)
        if m: ns.append(m.group(1)); continue
        m = re.match(r'end (\S+)', line)
        if m and ns and m.group(1) == ns[-1]: ns.pop(); continue
        m = re.match(r'(?:private )?theorem (\S+)', line)
        if m:
            full = '.'.join(ns + [m.group(1)])
            m = re.match(r'DS\.(C\d\d)\.', full)
            if m: thms.setdefault(m.group(1), []).append(full)
claims = []
ids = [json.loads(l)['id'] for l in open(os.path.join(root, 'properties.jsonl'))]
for i in ids:
    n = notes.get(i, {})
    if i in thms:
        claims.append({'property': i, 'status': n.get('status', 'proved'), 'theorems': thms[i], 'note': n.get('note', '')})
    else:
        print('no theorems yet:', i)
json.dump({'claims': claims}, open(os.path.join(root, 'MANIFEST.json'), 'w'), indent=1)
# Verif/Audit.lean prints the axioms of every theorem of the manifest
mods = ['Verif.Props.' + os.path.basename(f)[:-5] for f in sorted(glob.glob(os.path.join(root, 'lean/Verif/Props/*.lean')))]
with open(os.path.join(root, 'lean/Verif/Audit.lean'), 'w') as f:
    f.write(''.join('import %s\n' % m for m in mods))
    f.write('\n/- Generated by tools/manifest.py: the axioms of every theorem of MANIFEST.json. -/\n')
    f.write(''.join('#print axioms %s\n' % t for c in claims for t in c['theorems']))
