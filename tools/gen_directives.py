D='/repo/include/fast_float/'
def rd(f): return open(D+f,encoding='utf8').read().split('\n')
# (field, file, first line, last line) 1-based inclusive
S=[('cfd','constexpr_feature_detect.h',3,52),('commonTop','float_common.h',3,16),('common','float_common.h',18,1457),('api','fast_float.h',6,89),
('asciiTop','ascii_number.h',3,10),('ascii','ascii_number.h',12,822),('table','fast_table.h',3,707),('binary','decimal_to_binary.h',6,211),('bigintTop','bigint.h',3,8),('bigint','bigint.h',10,637),('digitsTop','digit_comparison.h',3,7),('digits','digit_comparison.h',11,453),('parse','parse_number.h',8,549)]
out='''import Verif.Props.Amalgamate
/-
# The directives of the nine headers of the repository

The lines of include/fast_float/*.h that begin with `#`, as code points, cut at the quoted includes; generated from the repository (tools/gen_directives.py).  Whether the pieces of a
header are in order depends on these lines only.
-/
set_option autoImplicit false
namespace FastFloat.Script
open PrepSpec

'''
n=0
for name,f,a,b in S:
    L=[l for l in rd(f)[a-1:b] if l.startswith('#')]
    for l in L: assert not l.startswith('#include "')
    n+=len(L)
    out+=f"/-- {f}:{a}-{b}. -/\ndef {name}Directives : List Text := [\n"+",\n".join("  ["+", ".join(str(ord(c)) for c in l)+"]" for l in L)+"]\n\n"
# check cut lines
for f,ls in [('constexpr_feature_detect.h',[]),('float_common.h',[17]),('fast_float.h',[5,90]),('ascii_number.h',[11]),('fast_table.h',[]),('decimal_to_binary.h',[4,5]),('bigint.h',[9]),('digit_comparison.h',[8,9,10]),('parse_number.h',[4,5,6,7])]:
    t=rd(f); assert [i+1 for i,l in enumerate(t) if l.startswith('#include "')]==ls,(f)
    o=2 if f=='fast_float.h' else 1
    g='FASTFLOAT_'+f[:-2].upper()+'_H'
    assert t[o-1]=='#ifndef '+g and t[o]=='#define '+g and t[-1]=='' and t[-2].startswith('#endif'),f
    print(f,len(t)-1,repr(t[-2]))
out+='end FastFloat.Script\n'
open('/verif/lean/Verif/Model/Directives.lean','w').write(out.replace('import Verif.Props.Amalgamate','import Verif.Spec.Preprocess'))
print(n)
