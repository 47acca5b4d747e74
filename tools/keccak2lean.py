import re
src='/repo/Cortex-M_Implementation_KEM/Cortex-M0/saber-ref-mem/src/asm_KeccakF-1600.S'
L=open(src,encoding='utf8').read().split('\n')
reg={'r%d'%i:'.r%d'%i for i in range(10)}
reg.update({'r10':'.sl','r11':'.fp','r12':'.ip','sp':'.sp','lr':'.lr','pc':'.pc'})
def arg(a):
    a=a.strip()
    return reg.get(a,a)
def ins(l):
    l=l.split('@')[0].strip()
    op,rest=l.split(None,1)
    if op in('xor5','xorrol','xorrolR2','xorh','KeccakThetaRhoPiChi','KeccakThetaRhoPiChiIota'):
        return op+' '+' '.join(arg(x) for x in rest.split(','))
    m=re.fullmatch(r'(\w+)\s*,\s*\[sp,\s*#(\w+)\]',rest)
    if op in('ldr','str'): return '[.%s %s .sp %s .off]'%(op,reg[m[1]],m[2])
    a=[x.strip() for x in rest.split(',')]
    if op=='movs' and a[1][0]=='#': return '[.s (.movi %s %s)]'%(reg[a[0]],a[1][1:])
    if op=='movs': return '[.s (.op1 .id %s %s)]'%(reg[a[0]],reg[a[1]])
    if op=='mov': return '[.op1 .id %s %s]'%(reg[a[0]],reg[a[1]])
    if op=='eors': return '[.s (.op2 .eor %s %s %s .id)]'%tuple(reg[x] for x in a)
    raise Exception(l)
out=[]
i=0
while i<len(L):
    m=re.match(r'\.macro\s+(KeccakRound\d)',L[i])
    if m:
        j=i+1
        body=[]
        while '.endm' not in L[j]:
            if L[j].strip(): body.append(ins(L[j]))
            j+=1
        out.append('/-- `%s` (lines %d-%d) -/\ndef %s : List Ins :=\n  '%(m[1],i+1,j+1,m[1])+' ++\n  '.join(body)+'\n')
        i=j
    i+=1
print('\n'.join(out))
equ=[]
for k,l in enumerate(L):
    m=re.match(r'\.equ\s+(\w+)\s*,\s*(\d+)\*4',l)
    if m: equ.append((k+1,m[1],m[2]))
import sys
open('/tmp/equ.txt','w').write('\n'.join('abbrev %s : Nat := %s * 4'%(n,v) for k,n,v in equ if n[0]=='A'))
print([e for e in equ if e[1][0]!='A'],equ[0],equ[49],file=sys.stderr)
rc=[]
for k,l in enumerate(L):
    if 1015<=k+1<=1050: 
        rc+=re.findall(r'0x[0-9a-fA-F]+',l)
print(len(rc),rc,file=sys.stderr)
open('/tmp/rc.txt','w').write(', '.join(rc))
