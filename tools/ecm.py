import random, math, sys, multiprocessing as mp
def isp(n):
    if n<2: return False
    for p in (2,3,5,7,11,13,17,19,23,29,31,37):
        if n%p==0: return n==p
    d=n-1;s=0
    while d%2==0: d//=2;s+=1
    for a in [2,3,5,7,11,13,17,19,23,29,31,37,41,43]:
        x=pow(a,d,n)
        if x in(1,n-1): continue
        for _ in range(s-1):
            x=x*x%n
            if x==n-1: break
        else: return False
    return True
def primes(n):
    s=bytearray([1])*(n+1); s[0]=s[1]=0
    for i in range(2,int(n**.5)+1):
        if s[i]: s[i*i::i]=bytearray(len(s[i*i::i]))
    return [i for i in range(n+1) if s[i]]
def ecm_curve(args):
    N,B1,B2,seed=args
    rnd=random.Random(seed)
    sg=rnd.randrange(6,N)
    u=(sg*sg-5)%N; v=4*sg%N
    X=pow(u,3,N); Z=pow(v,3,N)
    try: a24=(pow(v-u,3,N)*(3*u+v)*pow(16*X*v,-1,N))%N
    except ValueError:
        return math.gcd(16*X*v,N)
    def dbl(P):
        X,Z=P; a=(X+Z)**2%N; b=(X-Z)**2%N; c=a-b
        return a*b%N, c*(b+a24*c)%N
    def add(P,Q,D):
        u=(P[0]-P[1])*(Q[0]+Q[1]); v=(P[0]+P[1])*(Q[0]-Q[1])
        return D[1]*(u+v)**2%N, D[0]*(u-v)**2%N
    def mul(k,P):
        if k==1: return P
        R0=P;R1=dbl(P)
        for b in bin(k)[3:]:
            if b=='1': R0,R1=add(R0,R1,P),dbl(R1)
            else: R0,R1=dbl(R0),add(R0,R1,P)
        return R0
    Q=(X,Z)
    for p in PR:
        if p>B1: break
        e=p
        while e*p<=B1: e*=p
        Q=mul(e,Q)
    g=math.gcd(Q[1],N)
    if 1<g<N: return g
    # stage2 baby-giant
    D=2310
    js=[j for j in range(1,D//2+1) if math.gcd(j,D)==1]
    S={}
    S1=Q;S2=dbl(Q)
    # odd multiples
    odd={1:Q}; odd[3]=add(S2,Q,Q)
    for j in range(5,D//2+2,2): odd[j]=add(odd[j-2],S2,odd[j-4])
    G=mul(D,Q); 
    m=B1//D
    T0=mul(m,G) if m>0 else None
    T1=mul(m+1,G)
    acc=1
    base=[(odd[j][0],odd[j][1]) for j in js]
    cnt=0
    while m*D<B2:
        TX,TZ=T1
        for bx,bz in base:
            acc=acc*(TX*bz-TZ*bx)%N
        T0,T1=T1,add(T1,G,T0); m+=1
    g=math.gcd(acc,N)
    if 1<g<N: return g
    return None
PR=primes(60000)
def factor(N,B1=50000,B2=5000000):
    if N==1: return []
    if isp(N): return [N]
    with mp.Pool(4) as pool:
        for g in pool.imap_unordered(ecm_curve,((N,B1,B2,s) for s in range(100000))):
            if g and 1<g<N:
                pool.terminate()
                return factor(g,B1,B2)+factor(N//g,B1,B2)
if __name__=='__main__':
    N=int(sys.argv[1])
    fs=[]
    for p in PR:
        while N%p==0: fs.append(p); N//=p
    print(fs,N,flush=True)
    print(fs+factor(N,*(map(int,sys.argv[2:]))))
