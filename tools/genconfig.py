"""Regenerates lean/Verif/Model/ShippedConfig.lean from /repo/etc/detoxrc (byte for byte)."""
b=open('/repo/etc/detoxrc','rb').read().decode('ascii')
assert b.endswith('\n')
ls=b[:-1].split('\n')
o='''import Verif.Model.Base

/-!
# The config file shipped with detox — `/repo/etc/detoxrc`

Generated, byte for byte, from the file (the text of each line is repeated in a comment).
-/

set_option autoImplicit false

namespace Detox
'''
o+=f'\n/-- The lines of etc/detoxrc, lines 1-{len(ls)}. -/\ndef shippedConfigLines : List Bytes := [\n'
o+=',\n'.join('  -- '+l.replace('\t','    ')+'\n  ['+', '.join('%d'%ord(c) for c in l+'\n')+']' for l in ls)+']\n'
o+=f'\n/-- The file etc/detoxrc, lines 1-{len(ls)}. -/\ndef shippedConfig : Bytes := shippedConfigLines.flatten\n'
o+='\nend Detox\n'
open('/verif/lean/Verif/Model/ShippedConfig.lean','w').write(o)
