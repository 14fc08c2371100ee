import sys; sys.path.insert(0,__import__('os').path.dirname(__import__('os').path.abspath(__file__))); sys.argv=['emit.py',__import__('os').path.dirname(__import__('os').path.abspath(__file__))+'/../../lean']
import io,contextlib
with contextlib.redirect_stdout(io.StringIO()): exec(open(__import__('os').path.dirname(__import__('os').path.abspath(__file__))+'/emit.py').read())
from gen import cstep
W,badA,badB,diff=pickle.load(open(__import__('os').path.dirname(__import__('os').path.abspath(__file__))+'/wit.pkl','rb'))
def q(P,tag): return ('Lib.' if tag=='Lib' or P['name'] not in diff else 'Single.')+ln(P['name'])
def pathto(P,want,limit=400000):
    import collections
    s0=(0,tuple([None]*len(P['cells'])),()); seen={s0:None}; dq=collections.deque([s0]); 
    while dq and len(seen)<limit:
        s=dq.popleft(); c=P['code'][s[0]]
        if c[0]=='ret':
            if (c[1]==1)==want:
                path=[];t=s
                while seen[t] is not None: t,b=seen[t]; path.append(b)
                return path[::-1]
            continue
        for b in ((True,False) if c[0] in('choice','maybe') else (True,)):
            t=cstep(P,s,b)
            if t=='FAULT' or t is None or t in seen: continue
            seen[t]=(s,b); dq.append(t)
    return None
def code(path): return 'bits %d %d'%(len(path),sum(1<<i for i,b in enumerate(path) if b))
# known
s='import Verif.Model.OwnerSingle\n\n/-\nThe functions for which the property does not hold.\n-/\n\nnamespace Verif.Spec.Owner\n\nopen Verif.Owner\n\n'
s+='/-- In the build with threads. -/\ndef losing : List (String × Fn) :=\n  [%s]\n\n'%',\n   '.join('("%s", %s)'%(P['name'],q(P,'Lib')) for P in A if P['name'] in badA)
s+='/-- In the build without threads. -/\ndef losingSingle : List (String × Fn) :=\n  [%s]\n\n/-- The functions that do not return 1: `_close` returns 0, and two that are not called by any other\ntake the success of the function that finds the inode for an error\n(libfsapfs_file_system_btree.c:5562, 6279). -/\ndef notOne : List String :=\n  [NOTONE]\n\nend Verif.Spec.Owner\n'%',\n   '.join('("%s", %s)'%(P['name'],q(P,'Single')) for P in B if P['name'] in badB)
s_known=s
def memt(k):
    r='.head _'
    for _ in range(k): r='.tail _ (%s)'%r
    return r
PLAIN={}
from cant import cansucceed
NOTONE=[P['name'] for P in A if not cansucceed(P)]
assert NOTONE==[P['name'] for P in B if not cansucceed(P)]
open(OUT+'/Verif/Spec/OwnershipKnown.lean','w').write(s_known.replace('[NOTONE]','[%s]'%',\n   '.join('"%s"'%n for n in NOTONE)))
def proofs(L,tag,files,known,kname):
    o=''
    for f in files:
        ps=[P for P in L if stem(P)==f]
        ns=('Single' if tag=='Single' and f in dfs else 'Lib')
        plain=not any(P['name'] in known for P in ps)
        items=[]
        for P in ps:
            if P['name'] in known: items.append('fun h => absurd (%s) h'%memt(known.index(P['name'])))
            else: items.append(('' if plain else 'fun _ => ')+'check_safe 20000 (by decide +kernel)')
        t='forall_nil'
        for it in reversed(items): t='forall_cons (%s)\n    (%s)'%(it,t)
        o+='theorem %s_%s : ∀ e ∈ %s.in_%s, %sSafe e.2 :=\n  %s\n\n'%(tag.lower(),f,ns,f,'' if plain else 'e ∉ %s → '%kname,t)
        PLAIN[(tag,f)]=plain
        if ns=='Lib' and tag=='Single': continue
        its=[]
        for P in ps:
            if P['name'] in NOTONE: its.append('(fun h => absurd (%s) h)'%memt(NOTONE.index(P['name']))); continue
            w=pathto(P,True)
            its.append('(fun _ => retRun_returns (%s) (by decide +kernel))'%code(w))
        t='forall_nil'
        for it in reversed(its): t='forall_cons %s\n    (%s)'%(it,t)
        o+='theorem %s_%s_returns : ∀ e ∈ %s.in_%s, e.1 ∉ notOne → Returns e.2 true :=\n  %s\n\n'%(tag.lower(),f,ns,f,t)
    return o
head='import Verif.Lemmas.OwnerRun\nimport Verif.Spec.OwnershipKnown\n\n/-!\nThe checks of the functions of %s.\n-/\n\nnamespace Verif.Owner\n\nopen Verif.Spec.Owner\n\n'
for g,t,fs in groups:
    open(OUT+'/Verif/Lemmas/OwnerOf%s.lean'%g,'w').write(head%t+proofs(A,'Lib',fs,badA,'losing')+'end Verif.Owner\n')
open(OUT+'/Verif/Lemmas/OwnerOfSingle.lean','w').write(head%'the build without threads'+proofs(B,'Single',[f for f in allf if f in dfs or any(stem(P)==f and P['name'] in badB for P in B)],badB,'losingSingle')+
 # files without differences: same list, other known list
 ''+'end Verif.Owner\n')
def ap(xs):
    if len(xs)==1: return xs[0]
    return 'forall_append (%s)\n    (%s)'%(ap(xs[:-1]),xs[-1])
def ref(f,tag):
    if tag=='Single' and ('Single',f) in PLAIN: return ('fun e h _ => single_%s e h' if PLAIN[('Single',f)] else 'single_%s')%f
    return ('fun e h _ => lib_%s e h' if PLAIN[('Lib',f)] else 'lib_%s')%f
o='import Verif.Lemmas.OwnerOfBlocks\nimport Verif.Lemmas.OwnerOfRecords\nimport Verif.Lemmas.OwnerOfTrees\nimport Verif.Lemmas.OwnerOfFileEntry\nimport Verif.Lemmas.OwnerOfVolume\nimport Verif.Lemmas.OwnerOfSingle\n\n/-!\nThe checks put together.\n-/\n\nnamespace Verif.Owner\n\nopen Verif.Spec.Owner\n\n'
o+='theorem library_safe : ∀ e ∈ library, e ∉ losing → Safe e.2 :=\n  '+ap([ref(f,'Lib') for f in allf])+'\n\n'
o+='theorem librarySingle_safe : ∀ e ∈ librarySingle, e ∉ losingSingle → Safe e.2 :=\n  '+ap([ref(f,'Single') for f in allf])+'\n\n'
o+='theorem library_returns : ∀ e ∈ library, e.1 ∉ notOne → Returns e.2 true :=\n  '+ap(['lib_%s_returns'%f for f in allf])+'\n\n'
o+='theorem librarySingle_returns : ∀ e ∈ librarySingle, e.1 ∉ notOne → Returns e.2 true :=\n  '+ap([('single' if f in dfs else 'lib')+'_%s_returns'%f for f in allf])+'\n\nend Verif.Owner\n'
open(OUT+'/Verif/Lemmas/OwnerAll.lean','w').write(o)
pickle.dump((dfs,allf),open(__import__('os').path.dirname(__import__('os').path.abspath(__file__))+'/files.pkl','wb'))
for (tag,n,k,ok,path,a) in W: print(tag,n,k,ok,code(path),a)
