import re
src=open('/repo/src/builtin_table.c').read().split('\n')
esc=open('/repo/src/escape_utf_8.c').read().split('\n')
def cdec(s):
    out=b''; i=0
    while i<len(s):
        if s[i]=='\\':
            if s[i+1]=='u':
                out+=chr(int(s[i+2:i+6],16)).encode(); i+=6
            elif s[i+1] in '"\\\'?':
                out+=s[i+1].encode(); i+=2
            else: raise Exception(s)
        else: out+=s[i].encode(); i+=1
    return out
def bl(b): return '['+', '.join('0x%02X'%x for x in b)+']'
out=['''import Verif.Model.Table

/-!
# Built-in tables — `/repo/src/builtin_table.c`

Generated from the text of `builtin_table.c` (row by row, C string literals decoded with a UTF-8
execution character set, so `"\\\\u00A1"` is the two bytes C2 A1).
-/

namespace Detox
''']
def do(lines, fname, skip=()):
    i=0
    while i<len(lines):
        m=re.match(r'static table_row_t builtin_(\w+)_rows\[(\d+)\]',lines[i])
        if m:
            name,n=m.group(1),int(m.group(2)); start=i+1
            rows=[]; i+=1
            while not lines[i].startswith('};'):
                k=re.match(r'    \{ \.key  = (0x[0-9a-f]+), \.data = "(.*)" \},$',lines[i])
                rows.append((k.group(1),cdec(k.group(2)))); i+=1
            assert len(rows)==n
            out.append('/-- `builtin_%s_rows`, %s:%d-%d. -/\ndef builtin_%s_rows : List Row := ['%(name,fname,start,i+1,name))
            out.append(',\n'.join('  ⟨%s, some %s⟩'%(k,bl(d)) for k,d in rows)+']\n')
        m=re.match(r'static table_t builtin_(\w+)_table',lines[i])
        if m:
            name=m.group(1); start=i+1; f={}
            i+=1
            while not lines[i].startswith('};'):
                k=re.match(r'\s*\.(\w+)\s*= (.*),$',lines[i]); f[k.group(1)]=k.group(2); i+=1
            assert int(f['length'])==n
            d=f['default_translation']
            d='none' if d=='NULL' else 'some '+bl(cdec(d[1:-1]))
            out.append(f'''/-- `builtin_{name}_table`, {fname}:{start}-{i+1}. -/
def builtin_{name}_table : Table :=
  {{ rows := builtin_{name}_rows, used := {f['used']}, maxDataLength := {f['max_data_length']}, maxKey := {f['max_key']},
    hits := {f['hits']}, misses := {f['misses']}, seeks := {f['seeks']}, overwrites := {f['overwrites']},
    useHash := {'true' if f['use_hash']!='0' else 'false'}, builtin := {'true' if f['builtin']!='0' else 'false'}, defaultTranslation := {d} }}
''')
        m=re.match(r'table_t \*load_builtin_(\w+)_table',lines[i])
        if m:
            name=m.group(1)
            k=re.match(r'    return table_resize\(&builtin_(\w+)_table, (\d+), 1\);',lines[i+2])
            out.append(f'''/-- `load_builtin_{name}_table`, {fname}:{i+1}-{i+4}. -/
def load_builtin_{name}_table : Table := tableResize builtin_{k.group(1)}_table {k.group(2)} true
''')
        i+=1
do(src,'builtin_table.c')
out.append('end Detox\n')
open('/verif/lean/Verif/Model/Builtin.lean','w').write('\n'.join(out))
