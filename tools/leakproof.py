"""Writes the erasure and relational proofs of Proof/Leak (run in /verif); the proofs that need an invariant are in leakspecial.py."""
import re
exec(open('tools/leakspecial.py').read())
USES=set()
CLS=('LToom','LKara','LLib')
def parse(head):
    b=[]
    for mm in re.finditer(r'\(([\w ]+) : ((?:[^()]|\((?:[^()]|\((?:[^()]|\([^()]*\))*\))*\))*)\)',head):
        for v in mm.group(1).split(): b.append((v,mm.group(2)))
    return b
def run(target, ns, orig, opens, imports, ofE, ofC, titleE, titleC, casesP, stemE, stemC):
    t=open(f'lean/Verif/Model/Leak/{target}.lean').read()
    E=[PRE_E[target]] if target in PRE_E else [];C=[PRE_C[target]] if target in PRE_C else []
    stack=[]
    secvars=[]; inL0=False
    for m in re.finditer(r'^(?:(namespace|end|section) (\S+)|variable (\([^\n]*\))$|def (\S+)(.*?)(?=\n\n))',t,flags=re.M|re.S):
        if m.group(3):
            secvars=parse(m.group(3)); continue
        if m.group(1) and m.group(2)=='Vars':
            secvars=[]; continue
        if m.group(1) and m.group(2)=='Linked':
            inL0=m.group(1)=='section'
            if inL0:
                E.append('section Linked\nvariable [LPermute] [StatePermute] [Erases]\n'); C.append("section Linked\nvariable {L L' : LPermute} [PermCT L L']\n")
            else:
                E.append('end Linked\n'); C.append('end Linked\n')
            continue
        if m.group(1):
            if m.group(2)==ns: continue
            if m.group(1)=='namespace':
                stack.append(m.group(2)); s=f'namespace {m.group(2)}\nopen {orig}.{m.group(2)}\n'
            else:
                stack.pop(); s=f'end {m.group(2)}\n'
            E.append(s);C.append(s);continue
        n,rest=m.group(4),m.group(5)
        if n=='random' or n in SKIP.get(target,()): continue
        sub='.'.join(stack+[n])
        ln=f'{ns}.{sub}'; on=f'{orig}.{sub}'
        if re.match(r'\s*: PSet →',rest):
            if ': PSet → List Byte → List (BitVec 16) → LM' in rest: binders=[('P','PSet'),('bytes','List Byte'),('data','List (BitVec 16)')]
            else: binders=[('P','PSet'),('bytes','List Byte'),('off','Nat'),('data','List (BitVec 16)')]
            impl=False; linked=False
        else:
            head=rest.split(':=')[0]
            k=head.rfind('LM')
            if k<0: k=len(head)
            head=head[:k]
            impl='{σ : Type}' in head
            linked='[L : LPermute]' in head
            binders=[(v,ty) for v,ty in secvars if re.search(r'\b'+v+r'\b',rest)]+parse(head)
        args=' '.join(v for v,_ in binders)
        oargs=' '.join(v+"'" if ty in CLS else v for v,ty in binders)
        bs=' '.join(f'({v} : {ty})' for v,ty in binders)
        for v,ty in binders:
            if ty in CLS: bs=bs.replace(f'({v} : {ty})',f"({v} : {ty}) ({v}' : {ty[1:]}) [{ty[1:]}E {v} {v}']")
        nb=len(binders)+sum(ty in CLS for _,ty in binders)
        im='{σ : Type} ' if impl else ''
        if linked: im+='[LPermute] [StatePermute] [Erases] '
        pre=f'cases {casesP[sub]} <;> ' if sub in casesP else ''
        if sub in SE.get(target,{}): body=SE[target][sub]
        else: body=f'theorem E_{n} {im}{bs} : E ({ln} {args}) ({on} {oargs}) := by\n  unfold {ln} {on}\n  {pre}repeat estep\n'
        if 'nomacro' in body: E.append(body.replace('-- nomacro\n',''))
        else: E.append(body+f'macro_rules | `(tactic| estep) => `(tactic| with_reducible exact {".".join([ns]+stack)}.E_{n} {" ".join("_" for _ in range(nb))})\n')
        pub=lambda v,ty: ty in('Nat','PSet','Cfg','Mac','Fips202Lib','Arith','Bool','Nat → BitVec 32','Fam Nat','Fin 2') or v in('transpose','keypair','isTranspose')
        b2=[];l=[];r=[]
        for v,ty in binders:
            b2.append(f'({v} : {ty})'); l.append(v)
            if pub(v,ty): r.append(v)
            else:
                b2.append(f"({v}' : {ty.replace('σ','τ')})"); r.append(v+"'")
                if ty in CLS: b2[-1]+=f" [{ty[1:]}CT {v} {v}']"
        im2='{σ τ : Type} ' if impl else ''
        if linked: im2+="{L L' : LPermute} [PermCT L L'] "
        inL=inL0 or linked
        uses=inL and (re.search(r'LPermute\.permute',rest) or any(re.search(r'(?<![\w.])(Leak\.)?'+u+r'\b',rest) for u in USES))
        if uses: USES.add(n)
        u1=' (L := L)' if uses else ''; u2=" (L := L')" if uses else ''
        if sub in SC.get(target,{}): body=SC[target][sub]
        else: body=f'theorem CT_{n} {im2}{" ".join(b2)} :\n    CT ({ln}{u1} {" ".join(l)}) ({ln}{u2} {" ".join(r)}) := by\n  unfold {ln}\n  {pre}repeat ctstep\n'
        if 'nomacro' not in body: body+=f'macro_rules | `(tactic| ctstep) => `(tactic| with_reducible exact {".".join([ns]+stack)}.CT_{n} {" ".join("_" for _ in b2)})\n'
        else: body=body.replace('-- nomacro\n','')
        C.append(body)
    op=f'open {" ".join(opens)}\n' if opens else ''
    def h(imps,title): return ''.join(f'import {i}\n' for i in imps)+f'/-! # {title} -/\nset_option linter.unusedSectionVars false\n\nnamespace {ns}\n{op}\n'
    P='lean/Verif/Proof/Leak/'
    open(P+ofE,'w').write(h(imports+stemE,titleE)+'\n'.join(E)+f'\nend {ns}\n')
    open(P+ofC,'w').write(h(imports+stemC,titleC)+'\n'.join(C)+f'\nend {ns}\n')
run('Ref','Saber.Leak','Saber',[],['Verif.Proof.Leak.Logic'],'Erase.lean','ConstTime.lean','Leaving out the events gives the model','The events do not depend on the data',dict(POLT2BS='P',BS2POLT='P',cbd='P'),[],[])
run('U','Saber.Leak.U','Saber.U',['Saber.U'],['Verif.Model.Leak.U'],'EraseU.lean','ConstTimeU.lean','uSaber and 90s: leaving out the events gives the model','uSaber and 90s: the events do not depend on the data',{},['Verif.Proof.Leak.Erase'],['Verif.Proof.Leak.ConstTime'])
run('M0','Saber.Leak.M0','Saber.M0',['Saber.M0'],['Verif.Model.Leak.M0'],'EraseM0.lean','ConstTimeM0.lean','Cortex-M0: leaving out the events gives the model','Cortex-M0: the events do not depend on the data',{},['Verif.Proof.Leak.Erase'],['Verif.Proof.Leak.ConstTime'])
run('M4','Saber.Leak.M4','Saber.M4',['Saber.M4'],['Verif.Model.Leak.M4'],'EraseM4.lean','ConstTimeM4.lean','Cortex-M4: leaving out the events gives the model','Cortex-M4: the events do not depend on the data',dict(mulShiftI='m',blkT='P',BS2POLT='P',cbd='P'),['Verif.Proof.Leak.Erase'],['Verif.Proof.Leak.ConstTime'])
run('Avx','Saber.Leak.Avx','Saber.Avx',['Saber.Avx'],['Verif.Model.Leak.Avx'],'EraseAvx.lean','ConstTimeAvx.lean','AVX2: leaving out the events gives the model','AVX2: the events do not depend on the data',dict(SABER_pack='P',SABER_un_pack='P',cbd='P'),['Verif.Proof.Leak.Erase'],['Verif.Proof.Leak.ConstTime'])
run('X4','Saber.Leak.X4','Saber.X4',['Saber.X4'],['Verif.Model.Leak.X4'],'EraseX4.lean','ConstTimeX4.lean','SaberX4: leaving out the events gives the model','SaberX4: the events do not depend on the data',{},['Verif.Proof.Leak.EraseAvx'],['Verif.Proof.Leak.ConstTimeAvx'])
