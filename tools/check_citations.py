"""Check that every `path:a-b` citation in the Lean model exists in the source tree, and that
citations of the form `path:a-b (`name`)` point into the definition of that name."""
import ast
import pathlib
import re
import sys

REPO = pathlib.Path(sys.argv[1] if len(sys.argv) > 1 else "/repo")
ROOT = pathlib.Path(__file__).resolve().parent.parent / "lean" / "Verif"


def spans(path):
    tree = ast.parse(path.read_text())
    out = {}
    for node in ast.walk(tree):
        if isinstance(node, (ast.FunctionDef, ast.ClassDef)):
            out.setdefault(node.name, []).append((min([node.lineno] + [d.lineno for d in node.decorator_list]), node.end_lineno))
        elif isinstance(node, ast.Assign):
            for t in node.targets:
                if isinstance(t, ast.Name):
                    out.setdefault(t.id, []).append((node.lineno, node.end_lineno))
    return out


bad = 0
cache = {}
for f in sorted(ROOT.rglob("*.lean")):
    text = f.read_text()
    for m in re.finditer(r"([\w/.]+\.py):(\d+)(?:-(\d+))?(?:\s+\(`([\w.]+)`)?", text):
        rel, a, b, name = m.group(1), int(m.group(2)), int(m.group(3) or m.group(2)), m.group(4)
        path = REPO / rel
        line = text.count("\n", 0, m.start()) + 1
        if not path.exists():
            print(f"{f.relative_to(ROOT)}:{line}: no file {rel}"); bad += 1
            continue
        if rel not in cache:
            cache[rel] = (len(path.read_text().splitlines()), spans(path))
        n, sp = cache[rel]
        if not (1 <= a <= b <= n):
            print(f"{f.relative_to(ROOT)}:{line}: {rel}:{a}-{b} outside the file"); bad += 1
        elif name:
            short = name.split(".")[-1]
            if short not in sp:
                print(f"{f.relative_to(ROOT)}:{line}: {rel} has no {name}"); bad += 1
            elif not any(s <= a and b <= e for s, e in sp[short]):
                print(f"{f.relative_to(ROOT)}:{line}: {rel}:{a}-{b} not inside {name} {sp[short]}"); bad += 1
print("bad citations:", bad)
