import sys; sys.path.insert(0,__import__('os').path.dirname(__import__('os').path.abspath(__file__)))
import io,contextlib,pickle,os
ARGV=sys.argv[1:]
src=open(__import__('os').path.dirname(__import__('os').path.abspath(__file__))+'/emit.py').read().split('groups=[')[0]
sys.argv=['emit.py']; exec(src)
src2=open(__import__('os').path.dirname(__import__('os').path.abspath(__file__))+'/emit2.py').read(); i=src2.index('def pathto'); j=src2.index('# known')
from gen import cstep
exec(src2[i:j]); k=src2.index('def memt'); exec(src2[k:src2.index('PLAIN=')])
from cant import cansucceed
def emit(pkl,ns,modfile,lemfile,specfile,lst,knownlst,notonelst,moddoc,listdoc,lemma,lname=None,mult=1):
    A=pickle.load(open(pkl,'rb'))
    global ln
    cur=[None]
    def define(P):
        return '%s\ndef %s : Fn :=\n  ⟨[%s],\n%s\n'%(comment(P),P['key'],wrapc(P),'   ['+wrap([ins(c) for c in P['code']])[4:])
    s='import Verif.Model.Ownership\n\n/-\n%s\n-/\n\nnamespace Verif.Owner.%s\n\n'%(moddoc,ns)
    for P in A: s+=define(P)+'\n'
    parts=[A[i::mult] for i in range(mult)] if False else [A[i*len(A)//mult:(i+1)*len(A)//mult] for i in range(mult)]
    for n,p in enumerate(parts):
        s+='/-- %s -/\ndef %s%s : List (String × Fn) :=\n  [%s]\n\n'%(listdoc,lst,'' if mult==1 else str(n+1),',\n   '.join('("%s", %s)'%(P['key'],P['key']) for P in p))
    if mult>1:
        s+='/-- %s -/\ndef %s : List (String × Fn) :=\n  %s\n\n'%(listdoc,lst,' ++ '.join('%s%d'%(lst,n+1) for n in range(mult)))
    s+='end Verif.Owner.%s\n'%ns
    open(OUT+'/Verif/Model/%s.lean'%modfile,'w').write(s)
    bad=[P for P in A if explore(P)[1]]
    W={P['key']:sorted(witnesses(P).items()) for P in bad}
    no=[P['key'] for P in A if not cansucceed(P) and not any(k==('leak',True) for k,_ in W.get(P['key'],[]))]
    s='import Verif.Model.%s\n\n/-\nThe functions of %s for which the property does not hold.\n-/\n\nnamespace Verif.Spec.Owner\n\nopen Verif.Owner\n\n'%(modfile,moddoc.split('\n')[0].split(' of ',1)[-1].split(':')[0] if False else lemma[1])
    s+='/-- Those that lose memory or leave a pointer to freed memory. -/\ndef %s : List (String × Fn) :=\n  [%s]\n\n'%(knownlst,',\n   '.join('("%s", %s.%s)'%(P['key'],ns,P['key']) for P in bad))
    s+='/-- Those that do not return with the value of success that is modelled. -/\ndef %s : List String :=\n  [%s]\n\nend Verif.Spec.Owner\n'%(notonelst,',\n   '.join('"%s"'%n for n in no))
    open(OUT+'/Verif/Spec/%s.lean'%specfile,'w').write(s)
    badk=[P['key'] for P in bad]
    o='import Verif.Lemmas.OwnerRun\nimport Verif.Spec.%s\n\n/-!\nThe checks of the functions of %s.\n-/\n\nnamespace Verif.Owner\n\nopen Verif.Spec.Owner\n\n'%(specfile,lemma[1])
    for n,p in enumerate(parts):
        sfx='' if mult==1 else str(n+1)
        t='forall_nil'
        for P in reversed(p):
            it='fun h => absurd (%s) h'%memt(badk.index(P['key'])) if P['key'] in badk else 'fun _ => check_safe 20000 (by decide +kernel)'
            t='forall_cons (%s)\n    (%s)'%(it,t)
        o+='theorem %s%s_safe : ∀ e ∈ %s.%s%s, e ∉ %s → Safe e.2 :=\n  %s\n\n'%(lemma[0],sfx,ns,lst,sfx,knownlst,t)
        t='forall_nil'
        for P in reversed(p):
            it='fun h => absurd (%s) h'%memt(no.index(P['key'])) if P['key'] in no else 'fun _ => retRun_returns (%s) (by decide +kernel)'%code(pathto(P,True))
            t='forall_cons (%s)\n    (%s)'%(it,t)
        o+='theorem %s%s_returns : ∀ e ∈ %s.%s%s, e.1 ∉ %s → Returns e.2 true :=\n  %s\n\n'%(lemma[0],sfx,ns,lst,sfx,notonelst,t)
    if mult>1:
        for kind in('safe','returns'):
            t='%s1_%s'%(lemma[0],kind)
            for n in range(1,mult): t='forall_append (%s)\n    %s%d_%s'%(t,lemma[0],n+1,kind)
            o+='theorem %s_%s : ∀ e ∈ %s.%s, %s :=\n  %s\n\n'%(lemma[0],kind,ns,lst,'e ∉ %s → Safe e.2'%knownlst if kind=='safe' else 'e.1 ∉ %s → Returns e.2 true'%notonelst,t)
    o+='end Verif.Owner\n'
    open(OUT+'/Verif/Lemmas/%s.lean'%lemfile,'w').write(o)
    return A,bad,W,no
def pf(k,ok,path,a):
    c=code(path); return '%s (%s) %d (by decide +kernel)'%('leakRun_leaks' if k=='leak' else 'dangRun_dangles',c,a)
def chain(bad,W):
    t='forall_nil'
    for P in reversed(bad):
        (k,ok),(path,a)=[x for x in W[P['key']] if x[0][0]!='fault'][0]
        t='forall_cons (not_safe_of_%s (ok := %s) (%s))\n    (%s)'%('leaks' if k=='leak' else 'dangles','true' if ok else 'false',pf(k,ok,path,a),t)
    return t
def single(ns,W,n):
    it=[x for x in W[n] if x[0][0]!='fault']
    return [('%s %s.%s %s'%('Leaks' if k=='leak' else 'Dangles',ns,n,'true' if ok else 'false'),pf(k,ok,path,a)) for (k,ok),(path,a) in it]
def thm(name,doc,ns,W,names):
    L=[x for n in names for x in single(ns,W,n)]
    if len(L)==1: return '/-- %s -/\ntheorem %s : %s :=\n  %s\n\n'%(doc,name,*L[0])
    return '/-- %s -/\ntheorem %s :\n    %s :=\n  ⟨%s⟩\n\n'%(doc,name,' ∧\n    '.join(x[0] for x in L),',\n   '.join(x[1] for x in L))
