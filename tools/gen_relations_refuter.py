"""Writes seeded/refute/Relations.txt: the statements of the theorems on C42, C44, C46, C60, C69 and C91, as they stand in the Props files, each as a Boolean function of a character.
The characters to try are the arguments of the program, as pairs of ends."""
import re
P = "/verif/lean/Verif/Props/"
out, names = [], []
for f, ns in (("Derived", "Props.Derived"), ("Relations", "Props.Relations"), ("BidiDefaults", "Props.BidiDefaults"), ("Blocks", "Props.Blocks"), ("RelationsMore", "Props.RelationsMore")):
    s = open(P + f + ".lean").read()
    for m in re.finditer(r"^theorem (c(?:42|44|46|60|69|91)_\w+) \(c : Nat\)(.*?) :=(?: by|$)", s, re.S | re.M):
        n, st = m.group(1), m.group(2)
        if n in ("c44_block_of", "c46_name_aliases"): continue
        hyps = []
        while True:
            h = re.match(r"\s*\(\w+ : ", st)
            if not h: break
            i, d = h.end(), 1
            j = i
            while d: d += {"(": 1, ")": -1}.get(st[j], 0); j += 1
            hyps.append("(" + st[i:j - 1] + ")"); st = st[j:]
        assert st.lstrip().startswith(":"), (n, st)
        st = " → ".join(hyps + ["(" + " ".join(st.lstrip()[1:].split()) + ")"])
        out.append(f"def t_{n} (c : Nat) : Bool := decide ({st})")
        names.append((n, ns))
tables = []
for f in ("CaseSets", "IdentSets", "EmojiSets", "BidiSets", "CommonSets", "BidiClass", "GeneralCategory", "WordBreak", "GraphemeBreak", "SentenceBreak", "CombiningClass", "Blocks", "Age"):
    tables += re.findall(r"^def (\w*[a-z]) : List \(List \(Nat × Nat", open(f"/verif/lean/Verif/Data/{f}.lean").read(), re.M)
text = """import Verif.Model.Ucd
import Verif.Spec.Ranges
import Verif.Spec.BidiDefaults
import Verif.Spec.NamedSets

/-! Written by tools/gen_relations_refuter.py. Evaluates the statements of the theorems on C42, C44, C46, C60, C69 and C91, and part of C09, on the characters
of the ranges given as arguments, and reports those that an edited table falsifies. Run with `lake env lean --run`. A test of the theorems, not part of the proofs. -/
open Spec Spec.BidiDefaults Model Model.Ucd Data

""" + "\n".join(out) + """

def t_c46_name_aliases (c : Nat) : Bool := [NameAliasType.NameCorrections, .ControlCodeNames, .AlternateNames, .Figments, .NameAbbreviations].all fun ty =>
  (match nameAliasTypes c with | some l => l.contains ty | none => false) == (nameAliasesOf c ty).isSome && nameAliasesOf c ty != some []

def asc {V : Type} : Nat → List (Nat × Nat × V) → Bool
  | _, [] => true
  | b, e :: r => decide (b ≤ e.1) && decide (e.1 ≤ e.2.1) && asc (e.2.1 + 1) r

def tests : List (String × (Nat → Bool)) := [
  """ + ",\n  ".join(f'("{n}", t_{n})' for n, _ in names + [("c46_name_aliases", "")]) + """]

def asciiNat (s : String) : Nat := s.toNat?.getD 0
partial def ranges : List String → List Nat
  | a :: b :: r => (List.range (min (asciiNat b + 1 - asciiNat a) 40)).map (· + asciiNat a) ++ ranges r
  | _ => []

def main (args : List String) : IO Unit := do
  let chars := (ranges args).filter (· < 0x110000)
  for (n, t) in tests do
    match chars.find? (fun c => !(t c)) with
    | some c => IO.println s!"REFUTED {n} {c}"
    | none => pure ()
  let ordered := """ + " && ".join(f"asc 0 Data.{t}.flatten" for t in tables) + """
  unless ordered do IO.println "REFUTED c09_shipped_tables"
  unless Data.blocks.flatten.all (fun e => e.1 % 16 == 0 && e.2.1 % 16 == 15) do IO.println "REFUTED c91_blocks_aligned"
  unless (Data.blocks.flatten.map (·.2.2)).eraseDups.length == Data.blocks.flatten.length do IO.println "REFUTED c44_blocks_disjoint"
  IO.println "DONE"
"""
open("/verif/seeded/refute/Relations.txt", "w").write(text)
print(len(names), len(tables))
