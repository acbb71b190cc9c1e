"""Regenerates lean/Verif/Model/ShippedTables.lean and ShippedEscape.lean from /repo/table/*.tbl (byte for byte)."""
HEAD='''import Verif.Model.Base

/-!
# The translation tables shipped with detox — `/repo/table/*.tbl`

Generated, byte for byte, from the files (the text of each line is repeated in a comment).
-/

set_option autoImplicit false

namespace Detox
'''

def make(names, out):
    o = HEAD
    for f in names:
        b=open(f'/repo/table/{f}.tbl','rb').read().decode('ascii')
        assert b.endswith('\n')
        ls=b[:-1].split('\n')
        o+=f'\n/-- The lines of table/{f}.tbl, lines 1-{len(ls)}. -/\ndef shipped_{f}_lines : List Bytes := [\n'
        o+=',\n'.join('  -- '+l.replace('\t','    ')+'\n  ['+', '.join('%d'%ord(c) for c in l+'\n')+']' for l in ls)+']\n'
        o+=f'\n/-- The file table/{f}.tbl, lines 1-{len(ls)}. -/\ndef shipped_{f} : Bytes := shipped_{f}_lines.flatten\n'
    o+='\nend Detox\n'
    open('/verif/lean/Verif/Model/'+out,'w').write(o)

make(['safe','unicode','iso8859_1','cp1252'],'ShippedTables.lean')
make(['c_escape'],'ShippedEscape.lean')
