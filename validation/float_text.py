import random
random.seed(5)
def t(s):
    try: return f'{float(s):.6f}'
    except ValueError: return 'VE'
S=['\x1c1','\x1c1١','1_0','_1','1_','1__0','1_.5','1._5','1e_5','1_0e1_0','.5','5.','.','e5','5e','5e+','+5','-.5e-3','+-5','INF','-Infinity','infin','nAn','-nan','+nan','1 2','','  ','١٢.5','\xa01','1 ','0x10','1e400','1_0_0','\x851','inf_','٣_٤','1٤é','-','+','-e','1e-5','12.3456785','1E5','-0.0','-.0']
al='0123456789..__eE+-- infa'
for _ in range(1500): S.append(''.join(random.choice(al) for _ in range(random.randint(1,6))))
def ll(s): return '['+','.join(f'Char.ofNat {ord(c)}' for c in s)+']'
out='import Verif.FloatText\nopen Kiutils\ndef cs : List (Str × String) := [\n'+',\n'.join(f'({ll(s)}, "{t(s)}")' for s in S)+']\n'
out+='#eval (cs.length, cs.filterMap fun (s,e) => let r := match floatFixed 6 (.str s) with | .ok x => String.ofList x | .error .valueError => "VE" | _ => "?"; if r == e then none else some (String.ofList s, e, r))\n'
open('/tmp/ft.lean','w').write(out)
