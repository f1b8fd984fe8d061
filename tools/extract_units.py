#!/usr/bin/env python3
"""Read the unit and constant definitions of /repo/quantities as text (ast only, nothing is imported
or run) in the order in which `import quantities` executes them, and print them as JSON."""
import ast, json, os, sys
from fractions import Fraction

ROOT = '/repo/quantities'
CLS = {'UnitQuantity': 'unitQuantity', 'UnitMass': 'mass', 'UnitLength': 'length', 'UnitTime': 'time',
       'UnitCurrent': 'current', 'UnitLuminousIntensity': 'luminousIntensity',
       'UnitSubstance': 'substance', 'UnitTemperature': 'temperature',
       'UnitInformation': 'information', 'UnitCurrency': 'currency', 'CompoundUnit': 'compound',
       'UnitConstant': 'constant', 'Dimensionless': 'dimensionless'}
units = []          # in creation order
modules = {}        # path -> env
registry = {}       # label -> unit index

class Unit:
    def __init__(self, i): self.i = i

def num(src):
    """exact value of a numeric literal"""
    return Fraction(src.replace('_', ''))

def lit(node, src):
    return num(ast.get_source_segment(src, node))

# symbolic values: ('num', Fraction) ('pi',) ('unit', i) ('mul', a, b) ('div', a, b) ('pow', a, Fraction) ...
def is_num(v): return isinstance(v, tuple) and v[0] == 'num'

def ev(node, env, src):
    if isinstance(node, ast.Constant):
        if isinstance(node.value, (int, float)) and not isinstance(node.value, bool):
            return ('num', lit(node, src))
        return ('str', node.value)
    if isinstance(node, ast.Name):
        return env[node.id]
    if isinstance(node, ast.Attribute):
        if node.attr == 'pi': return ('pi',)
        base = ev(node.value, env, src)
        raise Exception('attr %s' % ast.dump(node))
    if isinstance(node, ast.UnaryOp) and isinstance(node.op, ast.USub):
        v = ev(node.operand, env, src)
        assert is_num(v); return ('num', -v[1])
    if isinstance(node, ast.BinOp):
        a = ev(node.left, env, src); b = ev(node.right, env, src)
        op = type(node.op).__name__
        if op == 'Add' and a[0] == 'str': return ('str', a[1] + b[1])
        if op == 'Pow':
            assert is_num(b), ast.dump(node)
            if is_num(a) and b[1].denominator == 1: return ('num', a[1] ** int(b[1]))
            return ('pow', a, b[1])
        if op == 'Mult':
            if is_num(a) and is_num(b): return ('num', a[1] * b[1])
            return ('mul', a, b)
        if op == 'Div':
            if is_num(a) and is_num(b): return ('num', a[1] / b[1])
            return ('div', a, b)
        if op == 'Add': return ('add', a, b)
        raise Exception(op)
    if isinstance(node, (ast.List, ast.Tuple)):
        return ('list', [ev(x, env, src) for x in node.elts])
    if isinstance(node, ast.Call):
        f = node.func
        name = f.id if isinstance(f, ast.Name) else f.attr
        if name in CLS:
            return make(CLS[name], node, env, src)
        if name == '_cd':
            key = ev(node.args[0], env, src)[1]
            v, u = CODATA[key]
            return ('qty', v, parse_units(u), u)
        if name == 'UncertainQuantity':
            v = ev(node.args[0], env, src); u = ev(node.args[1], env, src)[1]
            return ('qty', v[1], parse_units(u), u)
        if name == 'sqrt':
            return ('pow', ev(node.args[0], env, src), Fraction(1, 2))
        raise Exception('call ' + ast.dump(node))
    raise Exception(ast.dump(node))

def parse_units(s):
    """a unit string, looked up in the registry as it is at that time"""
    if s == '': return ('unit', registry['dimensionless'])
    t = ast.parse(s.replace('^', '**'), mode='eval').body
    return ev(t, {k: ('unit', v) for k, v in registry.items()}, s.replace('^', '**'))

where = [None]
def make(cls, node, env, src):
    names = ['name', 'definition', 'symbol', 'u_symbol', 'aliases', 'doc']
    if cls == 'compound': names = ['name']
    kw = dict(zip(names, [ev(a, env, src) for a in node.args]))
    for k in node.keywords:
        if k.arg == 'doc': continue
        kw[k.arg] = ev(k.value, env, src)
    name = kw['name'][1]
    g = lambda k: kw[k][1] if k in kw and kw[k] is not None else None
    if cls == 'compound': kw['definition'] = parse_units(name)
    d = kw.get('definition')
    if d == ('str', None): d = None
    i = len(units)
    units.append(dict(cls=cls, name=name, definition=d, symbol=g('symbol'), u_symbol=g('u_symbol'),
                      aliases=[x[1] for x in kw['aliases'][1]] if 'aliases' in kw else [],
                      file=where[0], line=node.lineno))
    u = units[i]
    if cls not in ('compound', 'constant'):
        labels = [name] + ([] if cls == 'dimensionless' else ([u['symbol']] if u['symbol'] else []) + u['aliases'])
        for l in labels: registry.setdefault(l, i)
    return ('unit', i)

CODATA = {}
def load_codata():
    p = os.path.join(ROOT, 'constants/_codata.py'); src = open(p).read()
    for st in ast.parse(src).body:
        if isinstance(st, ast.Assign) and isinstance(st.targets[0], ast.Subscript):
            key = ast.literal_eval(st.targets[0].slice)
            d = dict(zip([ast.literal_eval(k) for k in st.value.keys], st.value.values))
            CODATA[key] = (ev(d['value'], {}, src)[1], ast.literal_eval(d['units']))

def exec_module(path):
    if path in modules: return modules[path]
    env = {}; modules[path] = env
    if path.endswith('_utils.py'):
        return env
    src = open(path).read()
    rel = os.path.relpath(path, '/repo')
    def target(level, mod):
        base = os.path.dirname(path)
        for _ in range(level - 1): base = os.path.dirname(base)
        return os.path.join(base, *(mod.split('.') if mod else []))
    def resolve(p):
        if os.path.exists(p + '.py'): return p + '.py'
        if os.path.isdir(p): return os.path.join(p, '__init__.py')
    for st in ast.parse(src).body:
        if isinstance(st, ast.ImportFrom):
            if st.level == 0:
                if st.module == 'math':
                    for a in st.names: env[a.asname or a.name] = ('pi',) if a.name == 'pi' else None
                continue
            p = target(st.level, st.module)
            if os.path.basename(p) == 'unitquantity' or os.path.basename(p) == 'uncertainquantity':
                env['dimensionless'] = ('unit', 0); continue
            if st.module is None:
                for a in st.names:
                    r = resolve(os.path.join(p, a.name))
                    exec_module(r)
                continue
            e = exec_module(resolve(p))
            for a in st.names:
                if a.name == '*': env.update({k: v for k, v in e.items() if not k.startswith('_')})
                elif a.name in e: env[a.asname or a.name] = e[a.name]
        elif isinstance(st, ast.Assign):
            where[0] = rel
            v = ev(st.value, env, src)
            for t in st.targets: env[t.id] = v
        elif isinstance(st, ast.For):
            where[0] = rel
            it = ev(st.iter, env, src)[1]
            for item in it:
                for t, x in zip(st.target.elts, item[1]): env[t.id] = x
                for s2 in st.body:
                    v = ev(s2.value, env, src)
                    t = s2.targets[0]
                    if isinstance(t, ast.Subscript): env[ev(t.slice, env, src)[1]] = v
                    else: env[t.id] = v
        elif isinstance(st, (ast.Import, ast.Delete)) or (isinstance(st, ast.Expr)):
            pass
        else:
            raise Exception(rel + ' ' + ast.dump(st)[:200])
    return env

def main():
    units.append(dict(cls='dimensionless', name='dimensionless', definition=None, symbol=None, u_symbol=None,
                      aliases=[], file='quantities/unitquantity.py', line=441))
    registry['dimensionless'] = 0
    load_codata()
    exec_module(os.path.join(ROOT, 'units/__init__.py'))
    nu = len(units)
    exec_module(os.path.join(ROOT, 'constants/__init__.py'))
    return nu

if __name__ == '__main__':
    n = main()
    print(n, len(units))
    from collections import Counter
    c = Counter()
    for i, u in enumerate(units):
        if u['cls'] in ('compound', 'constant'): continue
        for l in [u['name']] + ([u['symbol']] if u['symbol'] else []) + u['aliases']:
            c[l] += 1
    print('labels', len(c), 'dups', [(k, [(j, units[j]['cls'], units[j]['name']) for j in range(len(units)) if units[j]['cls'] not in ('compound','constant') and k in [units[j]['name'], units[j]['symbol']] + units[j]['aliases']]) for k, v in c.items() if v > 1])
    k = Counter((u['cls'], u['name']) for u in units)
    print('dup keys', [x for x, v in k.items() if v > 1])
    for u in units[:n]:
        if u['cls'] != 'constant': print(u['file'].split('/')[-1], u['line'], u['cls'], u['name'], u['definition'], u['symbol'], u['aliases'])
