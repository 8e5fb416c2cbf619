"""Write AXIOMS.md: the axioms of every theorem of the manifest, as printed by lean/Verif/Audit.lean."""
import subprocess, re, os
root = os.path.dirname(os.path.dirname(os.path.abspath(__file__)))
out = subprocess.run(['lake', 'env', 'lean', 'Verif/Audit.lean'], cwd=os.path.join(root, 'lean'), capture_output=True, text=True).stdout
out = re.sub(r'\n\s+', ' ', out)
rows = []
for line in out.split('\n'):
    m = re.match(r"'(\S+)' depends on axioms: \[(.*)\]", line)
    if m: rows.append((m.group(1), m.group(2))); continue
    m = re.match(r"'(\S+)' does not depend on any axioms", line)
    if m: rows.append((m.group(1), 'none')); continue
    if line.strip(): print('?', line)
with open(os.path.join(root, 'AXIOMS.md'), 'w') as f:
    f.write('# Axioms of every theorem in MANIFEST.json\n\nGenerated by `python3 tools/axioms.py`.\n\n| theorem | axioms |\n|---|---|\n')
    f.write(''.join('| `%s` | %s |\n' % r for r in rows))
print(len(rows), sorted({a for r in rows for a in r[1].split(', ')}))
