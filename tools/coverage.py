"""List the functions of /repo and whether a definition of the model cites lines in them."""
import ast, glob, os, re, sys
root = os.path.dirname(os.path.dirname(os.path.abspath(__file__)))
files = [f for f in glob.glob("/repo/**/*.py", recursive=True) if "/tests/" not in f]
files += [f for f in glob.glob("/repo/bin/*") if os.path.isfile(f)]
cited = {}
for f in glob.glob(root + "/lean/Verif/Model/*.lean"):
    for m in re.finditer(r"([A-Za-z_/.-]*?([A-Za-z_-]+(?:\.py)?)):((?:\d+(?:-\d+)?(?:, ?)?)+)", open(f).read()):
        for r in re.findall(r"(\d+)(?:-(\d+))?", m.group(3)):
            a = int(r[0]); b = int(r[1] or r[0])
            cited.setdefault(m.group(2), set()).update(range(a, b + 1))
for f in sorted(files):
    try:
        t = ast.parse(open(f).read())
    except Exception:
        continue
    base = os.path.basename(f)
    for n in ast.walk(t):
        if isinstance(n, (ast.FunctionDef,)):
            ls = set(range(n.lineno, n.end_lineno + 1))
            k = len(ls & cited.get(base, set()))
            print("%-55s %-42s %5d-%-5d %3d%%" % (f[6:], n.name, n.lineno, n.end_lineno, 100 * k // len(ls)))
