#!/usr/bin/env python3
"""Compare the tables in the model with the literals in /repo: tape bumps, bit flags and configuration files."""
import ast
import re
import subprocess
import sys

REPO = '/repo/pizza_cutter/'
MODEL = '/verif/lean/Verif/Model/'
bad = 0


def literal(path, name):
    for node in ast.parse(open(path).read()).body:
        if isinstance(node, ast.Assign) and node.targets[0].id == name:
            return ast.literal_eval(node.value)
    raise KeyError(name)


bumps = literal(REPO + 'des_pizza_cutter/_tape_bumps.py', 'TAPE_BUMPS')
want = [(n, [tuple(b[k] for k in ('ccd', 'col1', 'col2', 'flag', 'row1', 'row2')) for b in l]) for n, l in bumps.items()]
text = open(MODEL + 'TapeBumps.lean').read()
text = text[text.index('def tapeBumps'):]
have = [
    (int(n), [tuple(map(int, b.split(','))) for b in re.findall(r'⟨([^⟩]*)⟩', l)])
    for n, l in re.findall(r'\((\d+), \[(.*?)\]\)', text, re.S)]
print('tape bumps:', len(have), 'CCDs', 'agree' if have == want else 'DIFFER')
bad += have != want

model = open(MODEL + 'Constants.lean').read()
for path in ('des_pizza_cutter/_constants.py', 'slice_utils/procflags.py'):
    env = {}
    for line in open(REPO + path):
        m = re.match(r'([A-Z_]+) = (.*?)(#.*)?$', line)
        if not m:
            continue
        try:
            val = eval(m.group(2), {}, env)
        except Exception:
            continue
        env[m.group(1)] = val
        if not isinstance(val, int):
            continue
        d = re.search(r'def %s\b[^:]*: [^:]*:= (.*)' % m.group(1), model)
        if d is None:
            print(m.group(1), '=', val, 'is not in Constants.lean')
            continue
        got = d.group(1).strip()
        m2 = re.fullmatch(r'BitVec\.twoPow 32 (\d+)', got)
        num = 2 ** int(m2.group(1)) if m2 else got
        if num != val:
            print(m.group(1), 'DIFFERS:', val, got)
            bad += 1
print('flags compared')

before = open(MODEL + 'ConfigFiles.lean').read()
subprocess.run([sys.executable, '/verif/tools/gen_configs.py'], check=True)
same = before == open(MODEL + 'ConfigFiles.lean').read()
print('configuration files:', 'agree' if same else 'DIFFER')
bad += not same
sys.exit(bad != 0)
