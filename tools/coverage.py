#!/usr/bin/env python3
"""Which functions of /repo/pyspectral are cited by the model?  Lists the others."""
import ast, pathlib, re

ROOT = pathlib.Path(__file__).resolve().parent.parent
REPO = pathlib.Path("/repo")
cited = {}
for f in list((ROOT / "lean/Verif/Model").glob("*.lean")) + list((ROOT / "lean/Verif/Base").glob("*.lean")):
    text = f.read_text()
    for com in re.findall(r"/-.*?-/", text, re.S):
        cur = None
        for m in re.finditer(r"([\w/]+\.py):|(?<![\w.])(\d+)(?:-(\d+))?", com):
            if m.group(1):
                cur = m.group(1)
            elif cur:
                a = int(m.group(2)); b = int(m.group(3) or a)
                if a <= b <= a + 400:
                    cited.setdefault(cur, set()).update(range(a, b + 1))
for p in sorted(REPO.rglob("*.py")):
    rel = str(p.relative_to(REPO))
    if "/tests/" in rel or rel.startswith("doc"):
        continue
    tree = ast.parse(p.read_text())
    funcs = [n for n in ast.walk(tree) if isinstance(n, (ast.FunctionDef, ast.AsyncFunctionDef))]
    got = cited.get(rel, set())
    miss = [(n.name, n.lineno, n.end_lineno) for n in funcs if not any(l in got for l in range(n.lineno, n.end_lineno + 1))]
    print(f"{rel}: {len(funcs) - len(miss)}/{len(funcs)} functions cited")
    for x in miss:
        print("    not cited: %s (%d-%d)" % x)
