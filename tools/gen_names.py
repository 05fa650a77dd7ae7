#!/usr/bin/env python3
"""Translate unic/ucd/name/tables/{name_values.rsd,name_map.rsv} into Verif/Data/Names.lean (same entries, same order),
and write the search tree from names back to characters that Proofs/NameData.lean checks (Verif/Data/NameTree.lean).

A name is a list of pieces; it is written as one number whose base-256 digits, highest first, are the bytes of the pieces,
each piece followed by a space (0x20).  No piece contains a space (asserted here)."""
import re
R='/repo/unic/ucd/name/tables/'; OUT='/verif/lean/Verif/Data/'; CH=64
vals={}
for l in open(R+'name_values.rsd'):
    l=l.rstrip()
    m=re.match(r'const (\w+): &str = "([^"\\]*)";$',l)
    if m: assert m[1] not in vals; vals[m[1]]=m[2]
    else: assert l=='' or l.startswith('//'),l
ents=[]
body=open(R+'name_map.rsv').read().split('CharDataTable::Direct(&[\n')[1]
for l in body.split('\n'):
    if l in ('',']',  '])'): continue
    m=re.match(r"    \('\\u\{([0-9a-f]+)\}', &\[(.*)\]\),$",l); assert m,l
    ps=[vals[x.strip()] for x in m[2].split(',')] if m[2] else []
    assert all(p.isascii() and ' ' not in p for p in ps)
    ents.append((int(m[1],16),ps))
enc=lambda ps: int.from_bytes(''.join(p+' ' for p in ps).encode(),'big')
o=["/-! Generated by tools/gen_names.py: the names of unic/ucd/name/tables/name_map.rsv with the pieces of name_values.rsd put in.",
   "A name is the number whose bytes are its pieces, each followed by a space. -/","namespace Data",""]
n=0
for i in range(0,len(ents),CH):
    rows=[f"(0x{c:X}, 0x{enc(ps):X})" for c,ps in ents[i:i+CH]]
    o.append(f"def names_{n} : List (Nat × Nat) := [\n  "+",\n  ".join(rows)+"]"); n+=1
o.append(f"/-- unic/ucd/name/tables/name_map.rsv and name_values.rsd (all {len(ents)} entries, `CharDataTable::Direct`), in chunks of {CH}. -/")
o.append(f"def names : List (List (Nat × Nat)) := [{', '.join(f'names_{i}' for i in range(n))}]\n\nend Data")
open(OUT+'Names.lean','w').write('\n'.join(o)+'\n')

M=(1<<40)-87
ks=sorted((enc(ps)%M,c) for c,ps in ents)
assert len(set(k for k,_ in ks))==len(ks)
o=["/-! Generated by tools/gen_names.py: a search tree from the numbers of the names (modulo 2^40-87) to the characters. -/","namespace Data","",
"inductive NameTree where","  | leaf (c : Nat)","  | node (k : Nat) (l r : NameTree)",""]
cnt=0
def tree(ks):
    global cnt
    if len(ks)==1: return f".leaf 0x{ks[0][1]:X}"
    m=len(ks)//2
    s=f".node 0x{ks[m][0]:X} ({tree(ks[:m])}) ({tree(ks[m:])})"
    if len(ks)>=16 and len(ks)<32 or len(ks)>=512 and len(ks)<1024:
        o.append(f"def nameTree_{cnt} : NameTree := {s}"); cnt+=1; return f"nameTree_{cnt-1}"
    return s
t=tree(ks)
o.append(f"/-- the whole tree -/\ndef nameTree : NameTree := {t}\n\nend Data")
open(OUT+'NameTree.lean','w').write('\n'.join(o)+'\n')
