#!/usr/bin/env python3
"""Generate lean/Verif/Lemmas/ShippedCoefs.lean: sizes of the shipped units in base units, and their labels with row
numbers.  The data is only a hint: Lemmas/ShippedValues.lean checks it against the table."""
import gen_shipped as G
from fractions import Fraction as F

def val(e):
    k = e[0]
    if k == 'num': return (F(e[1]), 0)
    if k == 'pi': return (F(1), 1)
    if k == 'unit': return VAL[e[1]]
    if k in ('mul', 'div'):
        a, b = val(e[1]), val(e[2])
        if a is None or b is None: return None
        return (a[0] * b[0], a[1] + b[1]) if k == 'mul' else (a[0] / b[0], a[1] - b[1])
    if k == 'pow':
        a = val(e[1])
        if a is None: return None
        if e[2].denominator == 1: return (a[0] ** int(e[2]), a[1] * int(e[2]))
        return a if a == (1, 0) else None
    return None

VAL = []
for u in G.U[:G.n_units]:
    VAL.append((F(1), 0) if u['definition'] is None else val(u['definition']))

out = ["""import Verif.Lemmas.ShippedCheck

/-!
# Sizes of the shipped units

Generated by `tools/gen_values.py`; checked against the table in `Lemmas/ShippedValues.lean`.
-/

namespace PQ.Shipped

/-- Size of unit row `i` in base units: `(p, q, k)` stands for `p / q * π ^ k`; `q = 0` for the two units whose size is
not of this form. -/
def coefs : List (Nat × Nat × Int) := ["""]
out.append(',\n'.join('  (%d, %d, %s)' % ((0, 0, 0) if v is None else (v[0].numerator, v[0].denominator, v[1])) for v in VAL) + ']\n')
out.append('/-- The labels of the units, as code points, with their rows. -/\ndef unitLabels : List (List Nat × Nat) := [')
out.append(',\n'.join('  ([%s], %d)' % (', '.join(str(ord(c)) for c in l), i)
    for i, u in enumerate(G.U[:G.n_units]) for l in G.labels(u)) + ']\n')
out.append('end PQ.Shipped')
open('/verif/lean/Verif/Lemmas/ShippedCoefs.lean', 'w').write('\n'.join(out) + '\n')
