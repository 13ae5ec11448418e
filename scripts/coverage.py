"""List the source lines of /repo/openamundsen that no comment of the model cites.

Usage: python3 scripts/coverage.py [--gaps]
"""

import ast
import collections
import pathlib
import re
import sys

ROOT = pathlib.Path("/repo/openamundsen")
LEAN = pathlib.Path(__file__).resolve().parent.parent / "lean" / "Verif"

files = {}
for p in ROOT.rglob("*.py"):
    files.setdefault(p.name, []).append(p)

cited = collections.defaultdict(set)
where = collections.defaultdict(set)
for lean in sorted(LEAN.rglob("*.lean")):
    text = lean.read_text()
    for m in re.finditer(r"([\w/]+\.py)`?:(\d[\d,\s\-–]*)", text):
        name, spec = m.groups()
        cand = [p for p in files.get(name.split("/")[-1], []) if str(p).endswith("/" + name)]
        for p in cand:
            for a, b in re.findall(r"(\d+)(?:\s*[-–]\s*(\d+))?", spec):
                lo, hi = int(a), int(b or a)
                cited[p].update(range(lo, hi + 1))
            where[p].add(str(lean.relative_to(LEAN)))


def code_lines(path):
    """Lines inside functions that hold a statement (docstrings, comments, blanks excluded)."""
    tree = ast.parse(path.read_text())
    lines = {}
    for fn in ast.walk(tree):
        if not isinstance(fn, ast.FunctionDef):
            continue
        for i, st in enumerate(fn.body):
            if i == 0 and isinstance(st, ast.Expr) and isinstance(st.value, ast.Constant):
                continue
            for n in range(st.lineno, st.end_lineno + 1):
                lines[n] = fn.name
    return lines


total = done = 0
for p in sorted(ROOT.rglob("*.py")):
    lines = code_lines(p)
    if not lines:
        continue
    hit = [n for n in lines if n in cited[p]]
    total += len(lines)
    done += len(hit)
    print(f"{str(p.relative_to(ROOT)):55} {len(hit):5}/{len(lines):5}  {', '.join(sorted(where[p]))}")
    if "--gaps" in sys.argv:
        per = collections.Counter(lines[n] for n in lines if n not in cited[p])
        for fn, k in per.most_common():
            ns = sorted(n for n in lines if lines[n] == fn and n not in cited[p])
            print(f"      {fn}: {k} ({ns[0]}-{ns[-1]})")
print("total", done, "of", total)
