#!/usr/bin/env python3
"""Generate lean/Verif/Model/ShippedTable.lean from the sources in /repo (read as text)."""
import extract_units as X
from fractions import Fraction
import ast

n_units = X.main()
U = X.units
BASE = [i for i, u in enumerate(U) if u['definition'] is None and u['cls'] != 'dimensionless']

def q(s):
    return '"' + s.replace('\\', '\\\\').replace('"', '\\"') + '"'

def opt(s): return 'none' if s is None else '(some %s)' % q(s)

def has_num(e):
    if e[0] in ('num', 'pi'): return True
    if e[0] in ('mul', 'div', 'add'): return has_num(e[1]) or has_num(e[2])
    if e[0] == 'pow': return has_num(e[1])
    return False

def lean(e):
    k = e[0]
    if k == 'num': return '(.num %s %d)' % ('(%d)' % e[1].numerator if e[1] < 0 else e[1].numerator, e[1].denominator)
    if k == 'pi': return '.pi'
    if k == 'unit': return '(.unit %d)' % e[1]
    if k in ('mul', 'div', 'add'): return '(.%s %s %s)' % (k, lean(e[1]), lean(e[2]))
    if k == 'pow':
        n, d = e[2].numerator, e[2].denominator
        return '(.pow %s %s %d)' % (lean(e[1]), '(%d)' % n if n < 0 else n, d)
    if k == 'qty':
        assert not has_num(e[2]), e
        n, d = e[1].numerator, e[1].denominator
        return '(.quantity %s %d %s)' % ('(%d)' % n if n < 0 else n, d, lean(e[2]))
    raise Exception(e)

def vec(e):
    k = e[0]
    z = [Fraction(0)] * len(BASE)
    if k in ('num', 'pi'): return z
    if k == 'unit': return VEC[e[1]]
    if k == 'mul': return [a + b for a, b in zip(vec(e[1]), vec(e[2]))]
    if k == 'div': return [a - b for a, b in zip(vec(e[1]), vec(e[2]))]
    if k == 'pow': return [a * e[2] for a in vec(e[1])]
    if k == 'add':
        assert vec(e[1]) == vec(e[2]); return vec(e[1])
    if k == 'qty': return vec(e[2])

VEC = []
for i, u in enumerate(U):
    d = u['definition']
    if d is None:
        VEC.append([Fraction(1 if (i in BASE and BASE[j] == i) else 0) for j in range(len(BASE))])
    else:
        VEC.append(vec(d))

def labels(u):
    if u['cls'] in ('compound', 'constant'): return []
    if u['cls'] == 'dimensionless': return [u['name']]
    return [u['name']] + ([u['symbol']] if u['symbol'] else []) + u['aliases']

CLASSES = ['unitQuantity', 'mass', 'length', 'time', 'current', 'luminousIntensity', 'substance',
           'temperature', 'information', 'currency', 'compound', 'dimensionless', 'constant']

def main():
    out = []
    w = out.append
    w('import Verif.Model.Shipped\n')
    w('/-!\n# The units and constants shipped with the library\n\nGenerated by `tools/gen_shipped.py` from the text of `quantities/unitquantity.py`, `quantities/units/*.py`\nand `quantities/constants/*.py`, in the order in which `import quantities` executes the definitions.\nEach row cites its file and line; the comment repeats the definition.  `.unit i` is the unit of row `i`.\n-/\n')
    w('namespace PQ.Shipped\n')
    groups = []
    for i, u in enumerate(U):
        if not groups or groups[-1][0] != u['file']: groups.append((u['file'], []))
        groups[-1][1].append(i)
    names = []
    for f, idx in groups:
        nm = ('c_' if 'constants' in f else 't_') + f.split('/')[-1][:-3]
        assert nm not in names, nm
        names.append(nm)
        w('/-- `%s`, rows %d-%d -/' % (f, idx[0], idx[-1]))
        w('def %s : List Row := [' % nm)
        for k, i in enumerate(idx):
            u = U[i]
            d = 'none' if u['definition'] is None else '(some %s)' % lean(u['definition'])
            al = '[' + ', '.join(q(a) for a in u['aliases']) + ']'
            w('  -- %d: %s:%d' % (i, f.split('/')[-1], u['line']))
            w('  ⟨.%s, %s, %s, %s, %s, %s⟩%s' % (u['cls'], q(u['name']), d, opt(u['symbol']), opt(u['u_symbol']), al,
                                             ',' if k + 1 < len(idx) else ']'))
        w('')
    un = [x for x in names if x.startswith('t_')]; cn = [x for x in names if x.startswith('c_')]
    assert names == un + cn
    w('/-- The units, in order of execution. -/')
    w('def unitTable : List Row :=\n  ' + ' ++ '.join(un).replace(' ++ ', ' ++\n  ') + '\n')
    w('/-- The constants, in order of execution. -/')
    w('def constTable : List Row :=\n  ' + ' ++ '.join(cn).replace(' ++ ', ' ++\n  ') + '\n')
    w('/-- All rows, in order of execution. -/')
    w('def table : List Row := unitTable ++ constTable\n')
    w('/-! Auxiliary data for checking the table: code points of the labels and keys; twice the exponents of each\nrow in the base units (rows %s: %s). -/\n' % (BASE, ', '.join(U[b]['name'] for b in BASE)))
    w('/-- Rows of the units without definition. -/')
    w('def baseRows : List Nat := %s\n' % BASE)
    for nm, (f, idx) in zip(names, groups):
        w('/-- code points of the labels -/')
        w('def l_%s : List (List Nat) := [%s]' % (nm, ', '.join('[' + ', '.join(str(ord(ch)) for ch in l) + ']' for i in idx for l in labels(U[i]))))
        w('/-- class number and code points of the name -/')
        w('def k_%s : List (Nat × List Nat) := [%s]' % (nm, ', '.join('(%d, [%s])' % (CLASSES.index(U[i]['cls']), ', '.join(str(ord(ch)) for ch in U[i]['name'])) for i in idx)))
        w('/-- twice the exponents in the base units -/')
        def it(x):
            x = 2 * x; assert x.denominator == 1; return str(x)
        w('def d_%s : List (List Int) := [\n  %s]' % (nm, ',\n  '.join('[' + ', '.join(it(x) for x in VEC[i]) + ']' for i in idx)))
        w('')
    for p, t in (('l', 'List (List Nat)'), ('k', 'List (Nat × List Nat)'), ('d', 'List (List Int)')):
        nm = {'l': 'labelCodes', 'k': 'keyCodes', 'd': 'dims'}[p]
        w('/-- %s of all rows -/' % nm)
        w('def %s : %s :=\n  ' % (nm, t) + ' ++ '.join(p + '_' + x for x in names).replace(' ++ ', ' ++\n  ') + '\n')
    w('end PQ.Shipped')
    open('/verif/lean/Verif/Model/ShippedTable.lean', 'w').write('\n'.join(out) + '\n')

if __name__ == '__main__':
    main()
    for i, u in enumerate(U):
        if u['cls'] in CLASSES[1:10]:
            b = [k for k, bb in enumerate(BASE) if U[bb]['cls'] == u['cls']][0]
            if VEC[i] != [Fraction(int(k == b)) for k in range(len(BASE))]: print('MISCLASSED', u['name'], u['cls'], [str(x) for x in VEC[i]])
    for i in range(n_units):
        print(U[i]['file'].split('/')[-1], U[i]['name'], [str(x) for x in VEC[i]])
