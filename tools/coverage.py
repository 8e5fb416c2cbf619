"""Which functions of /repo are cited (by line range) in the comments of the model."""
import re, glob, ast, os, sys
root = os.path.dirname(os.path.dirname(os.path.abspath(__file__)))
repo = sys.argv[1] if len(sys.argv) > 1 else '/repo/datashape'
cited = {}
for f in glob.glob(os.path.join(root, 'lean/Verif/Model/*.lean')):
    text = open(f).read()
    cur = None
    for m in re.finditer(r'((?:util/)?\w+\.py)|(?<![\w.])(\d+)-(\d+)(?!\w)|:(\d+)(?![\d-])', text):
        if m.group(1): cur = m.group(1)
        elif cur and m.group(2): cited.setdefault(cur, set()).update(range(int(m.group(2)), int(m.group(3)) + 1))
        elif cur and m.group(4): cited.setdefault(cur, set()).add(int(m.group(4)))
for f in sorted(glob.glob(repo + '/*.py') + glob.glob(repo + '/util/*.py')):
    name = os.path.relpath(f, repo)
    lines = cited.get(name, set())
    tree = ast.parse(open(f).read())
    for node in ast.walk(tree):
        if isinstance(node, ast.FunctionDef):
            span = range(node.lineno, node.end_lineno + 1)
            if not any(l in lines for l in span):
                print(name, node.lineno, node.name)
