#!/usr/bin/env python3
"""Writes lean/Verif/Data/NormMasks.lean: bit masks of decomposable characters by depth, used as hints in
proofs (every fact about them is checked by the kernel against the tables)."""
import re, os
R=os.path.join(os.path.dirname(os.path.abspath(__file__)),'..','lean','Verif','Data')
s=open(os.path.join(R,'Canonical.lean')).read()
i=s.index('def canonicalComposition_0')
can={int(m[1],16):[int(x,16) for x in m[2].split(',')] for m in re.finditer(r'\((0x[0-9A-F]+), \[([^\]\(]*)\]\)',s[:i])}
s2=open(os.path.join(R,'Compat.lean')).read()
comp={int(m[1],16):[int(x,16) for x in m[3].split(',')] for m in re.finditer(r'\((0x[0-9A-F]+), \(\.(\w+), \[([^\]]*)\]\)\)',s2)}
def depth(c,k):
    m=can.get(c)
    if m is None and k: m=comp.get(c)
    return 0 if m is None else 1+max(depth(x,k) for x in m)
out=["/-! Generated by tools/gen_masks.py: bit masks of decomposable characters (proof hints). -/","namespace Data",""]
for k,nm in ((False,'canon'),(True,'compat')):
    keys=set(can)|(set(comp) if k else set())
    for lab,f in (('All',lambda d:True),('1',lambda d:d<=1),('2',lambda d:d<=2)):
        sel=[c for c in keys if f(depth(c,k))]
        lo=sum(1<<c for c in sel if c<0x10000); hi=sum(1<<(c-0x10000) for c in sel if c>=0x10000)
        out.append(f"def {nm}Mask{lab}Lo : Nat := 0x{lo:X}")
        out.append(f"def {nm}Mask{lab}Hi : Nat := 0x{hi:X}")
out+=["","end Data",""]
open(os.path.join(R,'NormMasks.lean'),'w').write("\n".join(out))
