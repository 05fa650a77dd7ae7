#!/usr/bin/env python3
"""Search trees of the grapheme cluster and word break classes of the characters in canonical mappings.

Reads the translated tables and writes lean/Verif/Data/SegTree.lean. Nothing in it is trusted: Proofs/SegmentData.lean
checks every entry against the tables."""
import re, os
D = os.path.join(os.path.dirname(__file__), '..', 'lean', 'Verif', 'Data')
def ranges(f):
    t = open(os.path.join(D, f)).read()
    return [(int(a, 0), int(b, 0), c) for a, b, c in re.findall(r'\((0x[0-9A-F]+|\d+), (0x[0-9A-F]+|\d+), \.(\w+)\)', t)]
def table(rs):
    out = ['Other'] * 0x30000
    for a, b, c in rs:
        for i in range(a, min(b, 0x2FFFF) + 1): out[i] = c
    return out
g = table(ranges('GraphemeBreak.lean')); w = table(ranges('WordBreak.lean'))
t = open(os.path.join(D, 'Canonical.lean')).read()
chars = set()
for name in re.findall(r'def (canonicalDecomposition_\d+) ', t):
    body = re.search(r'def ' + name + r' .*?:= \[(.*?)\n\]', t, re.S) or re.search(r'def ' + name + r' .*?:= \[(.*?)\]\n\n', t, re.S)
    for a, l in re.findall(r'\((0x[0-9A-F]+|\d+), \[([^\]]*)\]\)', body.group(1)):
        chars.add(int(a, 0)); chars |= {int(x, 0) for x in l.split(',')}
def tree(cls, ty, name):
    es = []
    for c in sorted(chars):
        if es and es[-1][2] == cls[c] and all(cls[i] == cls[c] for i in range(es[-1][1], c)): es[-1][1] = c
        else: es.append([c, c, cls[c]])
    def go(l):
        if not l: return '.leaf'
        m = len(l) // 2
        return f'(.node 0x{l[m][0]:X} 0x{l[m][1]:X} .{l[m][2]} {go(l[:m])} {go(l[m+1:])})'
    return f'def {name} : SegTree {ty} := {go(es)}\n', len(es)
a, n1 = tree(g, 'GraphemeClusterBreak', 'gcbTree')
b, n2 = tree(w, 'WordBreak', 'wbTree')
print(len(chars), n1, n2)
open(os.path.join(D, 'SegTree.lean'), 'w').write('''import Verif.Data.Enums
/-! Generated by tools/gen_segtree.py: search trees of the classes of the characters that occur in canonical mappings. -/
namespace Data

inductive SegTree (V : Type) where
  | leaf
  | node (lo hi : Nat) (v : V) (l r : SegTree V)

''' + a + '\n' + b + '\nend Data\n')
