#!/usr/bin/env python3
"""Translate the data tables (*.rsv) and the char_property! enums of /repo literally into Lean
modules under /verif/lean/Verif/Data.  Same entries, same order; no normalisation of any kind."""
import re, os, sys
REPO='/repo/unic/'
OUT='/verif/lean/Verif/Data/'
CH=64
os.makedirs(OUT,exist_ok=True)

def unesc(s):
    """Rust string literal body -> list of code points"""
    out=[];i=0
    while i<len(s):
        if s[i]=='\\':
            if s[i+1]=='u':
                j=s.index('}',i); out.append(int(s[i+3:j],16)); i=j+1
            else:
                out.append({'n':10,'t':9,'r':13,'\\':92,'"':34,"'":39,'0':0}[s[i+1]]); i+=2
        else:
            out.append(ord(s[i])); i+=1
    return out
def hx(n): return '0x%X'%n if n>9 else str(n)
def nl(l): return '['+', '.join(hx(x) for x in l)+']'
U=r"'\\u\{([0-9a-fA-F]+)\}'"

# ---- enums -------------------------------------------------------------------------------
ENUMS={}
def parse_enum(path,name):
    src=open(REPO+path).read()
    a=src.index('pub enum %s {'%name)
    b=src.index('pub mod abbr_names for abbr',a)
    body=src[a:b]
    lines=src[:a].count('\n')+1, src[:b].count('\n')+1
    vs=[]
    for m in re.finditer(r"\n        (\w+) \{\s*abbr => (\w+),\s*long => (\w+),\s*human => \"([^\"]*)\",",body):
        vs.append(m.groups())
    hd=re.search(r'abbr => "([^"]*)";\s*long => "([^"]*)";\s*human => "([^"]*)";',body).groups()
    ENUMS[name]=(path,lines,vs,hd)
for pth,n in [('ucd/category/src/category.rs','GeneralCategory'),('ucd/bidi/src/bidi_class.rs','BidiClass'),
  ('ucd/segment/src/grapheme_cluster_break.rs','GraphemeClusterBreak'),('ucd/segment/src/word_break.rs','WordBreak'),
  ('ucd/segment/src/sentence_break.rs','SentenceBreak'),('ucd/normal/src/decomposition_type.rs','DecompositionType')]:
    parse_enum(pth,n)
def emit_enums():
    o=["/-! Generated by tools/gen_tables.py from the `char_property!` enums. -/","namespace Data",""]
    for n,(pth,ln,vs,hd) in ENUMS.items():
        src=f"unic/{pth} L{ln[0]}-{ln[1]}"
        o.append(f"/-- {src} -/\ninductive {n} where")
        o+= [f"  | {v[0]}" for v in vs]
        o.append("deriving DecidableEq, Repr\n")
        o.append(f"namespace {n}")
        o.append(f"/-- `EnumeratedCharProperty::all_values`, {src} -/\ndef allValues : List {n} := [{', '.join('.'+v[0] for v in vs)}]")
        for k,i in (('abbrName',1),('longName',2),('humanName',3)):
            o.append(f"/-- {k} of each value, {src} -/\ndef {k} : {n} → String")
            o+= [f'  | .{v[0]} => "{v[i]}"' for v in vs]
        o.append(f"end {n}\n")
    o.append("end Data")
    open(OUT+'Enums.lean','w').write('\n'.join(o)+'\n')

# ---- tables ------------------------------------------------------------------------------
def res(enum,how):
    i={'abbr':1,'long':2}[how]
    d={v[i]:v[0] for v in ENUMS[enum][2]}
    return lambda s: '.'+d[s.split('::')[-1]]
def strlist(s):
    return '['+', '.join(re.findall(r'"[^"]*"',s))+']'
def mapping(s):
    m=re.match(r'(\w+)(?:\("(.*)"\))?$',s,re.S)
    if m[2] is None: return '.'+m[1]
    return f'.{m[1]} {nl(unesc(m[2]))}'
def chars(s): return nl([int(x,16) for x in re.findall(U,s)])
def compos(s):
    return '['+', '.join(f'({hx(int(a,16))}, {hx(int(b,16))})' for a,b in re.findall(r"\("+U+","+U+r"\)",s))+']'
def compat(s):
    m=re.match(r"\((\w+), &\[(.*)\]\)$",s)
    return f"({res('DecompositionType','long')(m[1])}, {chars(m[2])})"
def version(s):
    m=re.match(r"UnicodeVersion \{ major: (\d+), minor: (\d+), micro: (\d+) \}",s); return f"({m[1]}, {m[2]}, {m[3]})"
def read(path):
    txt=open(REPO+path).read()
    kind=re.search(r'CharDataTable::(Range|Direct)',txt)[1]
    ents=[]
    body=txt[txt.index('(&[\n')+4:]
    for line in body.split('\n'):
        line=line.rstrip()
        if line=='])' or line=='': continue
        if kind=='Range':
            m=re.match(r"    \(chars!\("+U+r"\.\.="+U+r"\), (.*)\),$",line); assert m,(path,line)
            ents.append((int(m[1],16),int(m[2],16),m[3]))
        else:
            m=re.match(r"    \("+U+r", (.*)\),$",line); assert m,(path,line)
            ents.append((int(m[1],16),m[2]))
    return kind,ents
def emit_mod(mod,tables,imports,opens='',pre=''):
    o=["/-! Generated by tools/gen_tables.py: literal translation of data tables. -/"]
    o=[f"import {i}" for i in imports]+o+["namespace Data",""]+([pre] if pre else [])
    for name,path,ty,conv in tables:
        kind,ents=read(path)
        ety=f"Nat × Nat × {ty}" if kind=='Range' else f"Nat × {ty}"
        n=0
        for i in range(0,len(ents),CH):
            rows=[]
            for e in ents[i:i+CH]:
                if kind=='Range': rows.append(f"({hx(e[0])}, {hx(e[1])}, {conv(e[2])})")
                else: rows.append(f"({hx(e[0])}, {conv(e[1])})")
            o.append(f"def {name}_{n} : List ({ety}) := [\n  "+",\n  ".join(rows)+"]"); n+=1
        o.append(f"/-- unic/{path} (all {len(ents)} entries, `CharDataTable::{kind}`), in chunks of {CH}. -/")
        o.append(f"def {name} : List (List ({ety})) := [{', '.join(f'{name}_{i}' for i in range(n))}]\n")
        SUMMARY.append((name,kind,len(ents),path,mod))
    o.append("end Data")
    open(OUT+mod+'.lean','w').write('\n'.join(o)+'\n')
SUMMARY=[]
unit=lambda s: '()'
E='Verif.Data.Enums'
if __name__=='__main__':
    emit_enums()
    emit_mod('GeneralCategory',[('generalCategory','ucd/category/tables/general_category.rsv','GeneralCategory',res('GeneralCategory','abbr'))],[E])
    emit_mod('BidiClass',[('bidiClass','ucd/bidi/tables/bidi_class.rsv','BidiClass',res('BidiClass','abbr'))],[E])
    emit_mod('GraphemeBreak',[('graphemeClusterBreak','ucd/segment/tables/grapheme_cluster_break.rsv','GraphemeClusterBreak',res('GraphemeClusterBreak','long'))],[E])
    emit_mod('WordBreak',[('wordBreak','ucd/segment/tables/word_break.rsv','WordBreak',res('WordBreak','long'))],[E])
    emit_mod('SentenceBreak',[('sentenceBreak','ucd/segment/tables/sentence_break.rsv','SentenceBreak',res('SentenceBreak','long'))],[E])
    emit_mod('CombiningClass',[('canonicalCombiningClass','ucd/normal/tables/canonical_combining_class_values.rsv','Nat',lambda s: re.match(r'CanonicalCombiningClass\((\d+)\)',s)[1]),
       ('generalCategoryMark','ucd/normal/tables/general_category_mark.rsv','Unit',unit)],[])
    emit_mod('Canonical',[('canonicalDecomposition','ucd/normal/tables/canonical_decomposition_mapping.rsv','List Nat',chars),
       ('canonicalComposition','ucd/normal/tables/canonical_composition_mapping.rsv','List (Nat × Nat)',compos)],[])
    emit_mod('Compat',[('compatibilityDecomposition','ucd/normal/tables/compatibility_decomposition_mapping.rsv','DecompositionType × List Nat',compat)],[E])
    emit_mod('Age',[('age','ucd/age/tables/age_values.rsv','Nat × Nat × Nat',version)],[])
    emit_mod('Blocks',[('blocks','ucd/block/tables/blocks.rsv','String',lambda s:s)],[])
    emit_mod('IdnaMapping',[('idnaMapping','idna/mapping/tables/idna_mapping.rsv','Mapping',mapping)],[],
      pre="""/-- unic/idna/mapping/src/mapping.rs L15-37; a `&'static str` is its list of scalar values. -/
inductive Mapping where
  | Valid
  | Ignored
  | Mapped (s : List Nat)
  | Deviation (s : List Nat)
  | Disallowed
  | DisallowedStd3Valid
  | DisallowedStd3Mapped (s : List Nat)
deriving DecidableEq, Repr
""")
    def sets(mod,d,names):
        emit_mod(mod,[(''.join(w if i==0 else w.capitalize() for i,w in enumerate(n.split('_'))),f'{d}/tables/{n}.rsv','Unit',unit) for n in names],[])
    sets('CaseSets','ucd/case',['case_ignorable','cased','changes_when_casefolded','changes_when_casemapped','changes_when_lowercased','changes_when_titlecased','changes_when_uppercased','lowercase','uppercase'])
    sets('CommonSets','ucd/common',['alphabetic','alphanumeric','control','numeric','white_space'])
    sets('IdentSets','ucd/ident',['id_start','id_continue','xid_start','xid_continue','pattern_syntax','pattern_white_space'])
    sets('BidiSets','ucd/bidi',['bidi_control','bidi_mirrored'])
    sets('EmojiSets','emoji/char',['emoji','emoji_component','emoji_modifier','emoji_modifier_base','emoji_presentation'])
    emit_mod('NameAliases',[(n,f'ucd/name_aliases/tables/{f}.rsv','List String',strlist) for n,f in
       [('aliasCorrections','corrections'),('aliasControls','controls'),('aliasAlternates','alternates'),('aliasFigments','figments'),('aliasAbbreviations','abbreviations')]]
       +[('nameAliasTypes','ucd/name_aliases/tables/name_alias_types.rsv','List NameAliasType',lambda s:'['+', '.join('.'+x for x in re.findall(r'\w+',s))+']')],[],
      pre="""/-- unic/ucd/name_aliases/src/name_aliases.rs L13-31 -/
inductive NameAliasType where
  | NameCorrections
  | ControlCodeNames
  | AlternateNames
  | Figments
  | NameAbbreviations
deriving DecidableEq, Repr
""")
    emit_mod('Jamo',[('jamoShortNames','ucd/name/tables/jamo.rsv','String',lambda s:s)],[])
    for s in SUMMARY: print(*s)
