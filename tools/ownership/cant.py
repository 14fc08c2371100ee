import sys; sys.path.insert(0,__import__('os').path.dirname(__import__('os').path.abspath(__file__)))
from gen import *
import pickle
def cansucceed(P):
    seen,_=explore(P)
    return any(P['code'][s[0]]==['ret',1] for s in seen)
if __name__=='__main__':
    for f in('mt','st'):
        A=pickle.load(open(__import__('os').path.dirname(__import__('os').path.abspath(__file__))+'/%s.pkl'%f,'rb'))
        print(f,[P['name'] for P in A if not cansucceed(P)])
