#!/usr/bin/env python3
"""Regenerates lean/Verif/Proofs/Cert.lean: for every entry T of the power-of-five table (except -27 <= q < 0) a pair of
neighbouring fractions p1/w1 > T/2^137 >= p2/w2 (Stern-Brocot descent) with w1 + w2 >= 2^64.  The numbers are only a
certificate: Lean's kernel checks the inequalities (Verif/Proofs/TableFacts.lean)."""
import re
src=open('/repo/include/fast_float/fast_table.h').read()
i=src.index('power_of_five_128[number_of_entries] = {')
j=src.index('};',i)
v=[int(x,16) for x in re.findall(r'0x[0-9a-f]+',src[i:j])]
T=[v[2*k]*2**64+v[2*k+1] for k in range(651)]
M=2**137
def cert(T):
    w1,p1=1,1
    w2,p2=1,0
    while w1+w2<2**64:
        d1=p1*M-T*w1; d2=p2*M-T*w2
        d=d1+d2
        if d>0:
            if d2==0: k=(2**64-w1-w2+w2-1)//w2 +1
            else:
                k=(d1-1)//(-d2)
                k=min(k,(2**64-w1-w2+w2-1)//w2+1)
            w1+=k*w2;p1+=k*p2
        else:
            k=(-d2)//d1
            k=min(k,(2**64-w1-w2+w1-1)//w1+1)
            w2+=k*w1;p2+=k*p1
    return w1,p1,w2,p2
out=[]
for k,t in enumerate(T):
    q=k-342
    if -27<=q<0:
        hi=v[2*k]
        inv=pow(hi,-1,2**73) if hi%2 else 0
        out.append((q,inv,0,0,0))
    else: out.append((q,)+cert(t))
print("""import Verif.Model.Table
/-
Generated by tools/gen_cert.py.  Certificates for the product of a 64-bit word with a table entry: checked by the kernel in
`Verif.Proofs.TableFacts`, not trusted.
-/
namespace FastFloat

/-- `(q, w1, p1, w2, p2)`; for `-27 <= q < 0` the second component is the inverse of the odd high word modulo `2^73`. -/
structure Cert where
  q : Int
  w1 : Nat
  p1 : Nat
  w2 : Nat
  p2 : Nat

set_option maxRecDepth 20000 in
/-- One certificate per table entry. -/
def certs : List Cert := [""")
print(',\n'.join('  ⟨%d, %d, %d, %d, %d⟩'%o for o in out)+']')
print("\nend FastFloat")
