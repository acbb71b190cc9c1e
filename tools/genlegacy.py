"""Regenerates lean/Verif/Model/LegacyTables.lean from /repo/table/legacy/*.tbl (byte for byte)."""
o='''import Verif.Model.Base

/-!
# The legacy translation tables shipped with detox — `/repo/table/legacy/*.tbl`

Generated, byte for byte, from the files. A line is given by its length and its bytes, in hexadecimal, as one number; the newline at its end
is left out. Parts of a file are lists of at most 100 lines; `start` and `end` lines are parts of their own.
-/

set_option autoImplicit false

namespace Detox

/-- The `n` bytes of a number, the most significant one first. -/
def bytesOfNumber : Nat → Nat → List Nat
  | 0, _ => []
  | n + 1, x => x / 256 ^ n % 256 :: bytesOfNumber n x

/-- A line as it is given below. -/
def packedLine (l : Nat × Nat) : List Nat := bytesOfNumber l.1 l.2

/-- The file with these lines. -/
def packedFile (ls : List (Nat × Nat)) : Bytes := (ls.map fun l => (packedLine l).map UInt8.ofNat ++ [0x0A]).flatten
'''
for f in ['cp1252','iso8859_1','unicode','unidecode']:
    b=open(f'/repo/table/legacy/{f}.tbl','rb').read()
    assert b.endswith(b'\n')
    ls=b[:-1].split(b'\n')
    parts=[]
    cuts=[0]
    for i,l in enumerate(ls):
        key=l.startswith((b'start',b'end'))
        if i and (key or ls[i-1].startswith((b'start',b'end')) or i-cuts[-1]==100): cuts.append(i)
    for k,(i,j) in enumerate(zip(cuts,cuts[1:]+[len(ls)])):
        n=f'legacy_{f}_{k}'
        parts.append(n)
        o+=f'\n/-- Lines {i+1}-{j} of table/legacy/{f}.tbl. -/\ndef {n} : List (Nat × Nat) := [\n'
        o+=',\n'.join('  (%d, 0x%s)'%(len(l),l.hex() or '0') for l in ls[i:j])+']\n'
    e=2
    while not ls[cuts[e]].startswith(b'end'): e+=1
    def part_list(ps): return '[\n'+',\n'.join('  '+', '.join(ps[i:i+6]) for i in range(0,len(ps),6))+']'
    o+=f'\n/-- The parts between the first `start` and the first `end` of table/legacy/{f}.tbl, lines {cuts[2]+1}-{cuts[e]}. -/\n'
    o+=f'def legacy_{f}_body : List (List (Nat × Nat)) := '+part_list(parts[2:e])+'\n'
    o+=f'\n/-- All parts of table/legacy/{f}.tbl, lines 1-{len(ls)}. -/\n'
    o+=f'def legacy_{f}_parts : List (List (Nat × Nat)) := {parts[0]} :: {parts[1]} :: (legacy_{f}_body ++ '+part_list(parts[e:])+')\n'
    o+=f'\n/-- The file table/legacy/{f}.tbl, lines 1-{len(ls)}. -/\ndef legacy_{f} : Bytes := packedFile legacy_{f}_parts.flatten\n'
o+='\nend Detox\n'
open('/verif/lean/Verif/Model/LegacyTables.lean','w').write(o)
