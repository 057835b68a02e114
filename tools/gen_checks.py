"""Write lean/Verif/Check/Data.lean: arrays copied from the test-suite in /repo.

The test modules are parsed, not imported.  Usage: python3 tools/gen_checks.py
"""
import ast

T = '/repo/pyspectral/tests/'


def arrays(name):
    """Yield (line, target text, list of numbers) of the `np.array([...])` assignments."""
    src = open(T + name).read()
    for node in ast.walk(ast.parse(src)):
        if isinstance(node, ast.Assign) and isinstance(node.value, ast.Call) \
                and ast.unparse(node.value.func) in ('np.array', 'np.ma.array'):
            yield node.lineno, node.end_lineno, ast.unparse(node.targets[0]), node.value.args[0]


def flat(node):
    if isinstance(node, ast.List):
        return [x for e in node.elts for x in flat(e)]
    return [ast.literal_eval(node)]


def depth_shape(node):
    s = []
    while isinstance(node, ast.List):
        s.append(len(node.elts))
        node = node.elts[0]
    return s


out = ['/-', 'Arrays copied from the test-suite of pyspectral by tools/gen_checks.py, for the comparisons in',
       '`Verif.Check.Numbers`.  No theorem uses them.', '-/', 'namespace Verif.Check', '']


def emit(lean, file, target, nth=0):
    hits = [a for a in arrays(file) if a[2] == target]
    l0, l1, _, node = hits[nth]
    nums = flat(node)
    body = ', '.join(repr(float(x)) for x in nums)
    lines, cur = [], '  '
    for tok in body.split(' '):
        if len(cur) + len(tok) > 98:
            lines.append(cur.rstrip())
            cur = '  '
        cur += tok + ' '
    lines.append(cur.rstrip())
    out.append(f'/-- pyspectral/tests/{file}:{l0}-{l1} (`{target}`), shape {depth_shape(node)} -/')
    out.append(f'def {lean} : List Float := [')
    out.extend(lines)
    out[-1] += ']'
    out.append('')


emit('modisWave', 'test_rad_tb_conversions.py', "TEST_RSR['20']['det-1']['wavelength']")
emit('modisResp', 'test_rad_tb_conversions.py', "TEST_RSR['20']['det-1']['response']")
emit('sevWavn', 'test_rad_tb_conversions.py', 'WAVN')
emit('sevResp', 'test_rad_tb_conversions.py', 'RESP')
emit('testTbs', 'test_rad_tb_conversions.py', 'TEST_TBS')
emit('trueRads', 'test_rad_tb_conversions.py', 'TRUE_RADS')
emit('trueRadsSeviri', 'test_rad_tb_conversions.py', 'TRUE_RADS_SEVIRI')
emit('resultWavn', 'test_utils.py', "RESULT_RSR['20']['det-1']['wavenumber']")
emit('satz', 'test_atm_correction_ir.py', 'SATZ')
emit('atmTbs', 'test_atm_correction_ir.py', 'TBS')
emit('atmRes', 'test_atm_correction_ir.py', 'RES')
emit('rayLut', 'data.py', 'TEST_RAYLEIGH_LUT')
emit('rayAzid', 'data.py', 'TEST_RAYLEIGH_AZID_COORD')
emit('raySatz', 'data.py', 'TEST_RAYLEIGH_SATZ_COORD')
emit('raySunz', 'data.py', 'TEST_RAYLEIGH_SUNZ_COORD')
emit('rayWvl', 'data.py', 'TEST_RAYLEIGH_WVL_COORD')
emit('wvnNir', 'test_reflectance.py', 'WVN')
emit('respNir', 'test_reflectance.py', 'RESP')
sol = [line.split() for line in open('/repo/pyspectral/data/e490_00a.dat') if line.strip() and not line.startswith('#')]
for col, name in ((0, 'solarWave'), (1, 'solarIrr')):
    out.append(f'/-- pyspectral/data/e490_00a.dat:1-{len(sol) + 1}, column {col + 1} -/')
    out.append(f'def {name} : List Float := [')
    vals = [repr(float(r[col])) for r in sol]
    for i in range(0, len(vals), 10):
        out.append('  ' + ', '.join(vals[i:i + 10]) + (']' if i + 10 >= len(vals) else ','))
    out.append('')
out.append('end Verif.Check')
open('/verif/lean/Verif/Check/Data.lean', 'w').write('\n'.join(out) + '\n')
