"""Generate lean/Verif/Lemmas/ShippedErrors.lean: for each row of the shipped table, a bound on the rounding
errors in its value and one on those in its stored reference; the kernel checks them."""
import re,sys
src=open(__import__('os').path.join(__import__('os').path.dirname(__import__('os').path.abspath(__file__)),'../lean/Verif/Model/ShippedTable.lean')).read()
rows=[]
def parse(s):
    # tokens
    toks=re.findall(r'\(|\)|\.\w+|-?\d+',s)
    pos=0
    def expr():
        nonlocal pos
        t=toks[pos]; pos+=1
        if t=='(':
            r=expr(); assert toks[pos]==')'; pos+=1; return r
        if t=='.num':
            p=num(); q=num(); return ('num',p,q)
        if t=='.pi': return ('pi',)
        if t=='.unit': return ('unit',num())
        if t in('.mul','.div','.add'):
            a=expr(); b=expr(); return (t[1:],a,b)
        if t=='.pow':
            a=expr(); n=num(); d=num(); return ('pow',a,n,d)
        if t=='.quantity':
            p=num();q=num();u=expr(); return ('quantity',p,q,u)
        raise Exception(t)
    def num():
        nonlocal pos
        t=toks[pos]; pos+=1
        if t=='(':
            r=num(); assert toks[pos]==')'; pos+=1; return r
        return int(t)
    r=expr()
    assert pos==len(toks),(s,toks[pos:])
    return r
import re
for m in re.finditer(r'^\s*⟨\.(\w+), "([^"]*)", (none|\(some )',src,re.M):
    cls,name=m[1],m[2]
    if m[3]=='none': rows.append((cls,name,None)); continue
    i=m.end(); d=1; j=i
    while d:
        c=src[j]
        if c=='(':d+=1
        if c==')':d-=1
        j+=1
    rows.append((cls,name,parse(src[i:j-1])))
def cd(a,b): return -(-a//b)
def merr(e):
    t=e[0]
    if t in('num','pi','quantity'): return 1
    if t=='unit': return 0
    if t in('mul','div'): return merr(e[1])+merr(e[2])+1
    if t=='pow': return (abs(e[2])*merr(e[1])+e[3]-1)//e[3]+1
    if t=='add': return max(merr(e[1]),merr(e[2]))+1
def derr(e):
    t=e[0]
    if t in('num','pi'): return 0
    if t=='unit': return E[e[1]]
    if t in('mul','div'): return derr(e[1])+derr(e[2])
    if t=='pow': return (abs(e[2])*derr(e[1])+e[3]-1)//e[3]
    if t=='add': return derr(e[1])
    if t=='quantity': return derr(e[3])
def dc(e):
    t=e[0]
    if t in('num','pi'): return 0
    if t=='unit': return C[e[1]]+2
    if t in('mul','div'): return dc(e[1])+dc(e[2])
    if t=='pow': return (max(abs(e[2]),e[3])*dc(e[1])+e[3]-1)//e[3]
    if t=='add': return dc(e[1])
    if t=='quantity': return dc(e[3])
E=[];C=[]
for c,n,e in rows:
    if e is None: E.append(0);C.append(0)
    else: E.append(merr(e)+derr(e)); C.append(1+dc(e))

HEAD = """import Verif.Lemmas.ShippedCheck

/-!
# Rounding errors in the shipped table

`rowErrs` is generated by `tools/gen_errors.py`; the kernel checks it against the table.
-/

namespace PQ.Shipped

/-- Division rounding up. -/
def cdiv (a d : Nat) : Nat := (a + d - 1) / d

/-- Rounding errors in the number of a definition. -/
def Expr.magErr : Expr → Nat
  | .num _ _ => 1
  | .pi => 1
  | .unit _ => 0
  | .mul a b => a.magErr + b.magErr + 1
  | .div a b => a.magErr + b.magErr + 1
  | .pow a n d => cdiv (n.natAbs * a.magErr) d + 1
  | .add a b => Nat.max a.magErr b.magErr + 1
  | .quantity _ _ _ => 1

/-- Those in its unit, given those of the rows. -/
def Expr.dimErr (ts : List (Nat × Nat)) : Expr → Nat
  | .num _ _ => 0
  | .pi => 0
  | .unit i => ((ts[i]?).getD (0, 0)).1
  | .mul a b => a.dimErr ts + b.dimErr ts
  | .div a b => a.dimErr ts + b.dimErr ts
  | .pow a n d => cdiv (n.natAbs * a.dimErr ts) d
  | .add a _ => a.dimErr ts
  | .quantity _ _ u => u.dimErr ts

/-- Those made when its unit is expressed in base units. -/
def Expr.refErr (ts : List (Nat × Nat)) : Expr → Nat
  | .num _ _ => 0
  | .pi => 0
  | .unit i => ((ts[i]?).getD (0, 0)).2 + 2
  | .mul a b => a.refErr ts + b.refErr ts
  | .div a b => a.refErr ts + b.refErr ts
  | .pow a n d => cdiv (Nat.max n.natAbs d * a.refErr ts) d
  | .add a _ => a.refErr ts
  | .quantity _ _ u => u.refErr ts

/-- The rows' errors are at most those listed. -/
def errFrom (ts : List (Nat × Nat)) : List Row → List (Nat × Nat) → Bool
  | [], [] => true
  | r :: rs, x :: xs =>
    (match r.definition with
      | none => true
      | some e => Nat.ble (e.magErr + e.dimErr ts) x.1 && Nat.ble (1 + e.refErr ts) x.2) && errFrom ts rs xs
  | _, _ => false

"""
out = HEAD + "/-- For each row: rounding errors in its value, and in its stored reference. -/\ndef rowErrs : List (Nat × Nat) := [\n"
for i in range(0, len(E), 12):
    out += "  " + ", ".join(f"({E[j]}, {C[j]})" for j in range(i, min(len(E), i + 12))) + (",\n" if i + 12 < len(E) else "]\n")
out += f"""
theorem table_errs : errFrom rowErrs table rowErrs = true := by decide +kernel

/-- The largest numbers among the units, and among all rows. -/
theorem errs_units : (rowErrs.take nUnits).all (fun t => Nat.ble (t.1 + t.2) {max(a+b for a,b in zip(E[:346],C))}) = true := by decide +kernel

theorem errs_all : rowErrs.all (fun t => Nat.ble (t.1 + t.2) {max(a+b for a,b in zip(E,C))}) = true := by decide +kernel

end PQ.Shipped
"""
import os
open(os.path.join(os.path.dirname(os.path.abspath(__file__)), '../lean/Verif/Lemmas/ShippedErrors.lean'), 'w').write(out)
