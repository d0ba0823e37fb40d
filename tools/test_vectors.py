# ML-KEM written from FIPS 203 on top of hashlib. Prints the SHA-256 of the text of the first n test vectors
# in the format of test_vectors.c; for n = 10000 these are the sums in SHA256SUMS of the repository.
# Usage: python3 test_vectors.py k n [file for the first vector]
import hashlib,sys
q=3329
def br(i): return int(format(i,'07b')[::-1],2)
Z=[pow(17,br(i),q) for i in range(128)]
R=[pow(17,2*br(i)+1,q) for i in range(128)]
def NTT(f):
    f=f[:];i=1;l=128
    while l>=2:
        for s in range(0,256,2*l):
            z=Z[i];i+=1
            a=f[s:s+l]; b=[z*x%q for x in f[s+l:s+2*l]]
            f[s:s+l]=[x+y for x,y in zip(a,b)]; f[s+l:s+2*l]=[x-y for x,y in zip(a,b)]
        l//=2
    return [x%q for x in f]
def INTT(f):
    f=f[:];i=127;l=2
    while l<=128:
        for s in range(0,256,2*l):
            z=Z[i];i-=1
            a=f[s:s+l];b=f[s+l:s+2*l]
            f[s:s+l]=[x+y for x,y in zip(a,b)]; f[s+l:s+2*l]=[z*(y-x)%q for x,y in zip(a,b)]
        l*=2
    return [x*3303%q for x in f]
def dot(F,G):
    e=[0]*128;o=[0]*128
    for f,g in zip(F,G):
        f0=f[::2];f1=f[1::2];g0=g[::2];g1=g[1::2]
        e=[x+a*b+c*d%q*r for x,a,b,c,d,r in zip(e,f0,g0,f1,g1,R)]
        o=[x+a*d+c*b for x,a,b,c,d in zip(o,f0,g0,f1,g1)]
    r=[0]*256; r[::2]=[x%q for x in e]; r[1::2]=[x%q for x in o]
    return r
def add(f,g): return [(a+b)%q for a,b in zip(f,g)]
def enc(d,F):
    s=''.join([format(x,'0%db'%d) for x in reversed(F)]); return int(s,2).to_bytes(32*d,'little')
def dec(d,B):
    s=format(int.from_bytes(B,'little'),'0%db'%(256*d)); n=256*d
    return [int(s[n-d*(i+1):n-d*i],2) for i in range(256)]
CT={d:[((2**(d+1)*x+q)//(2*q))%2**d for x in range(q)] for d in (1,4,5,10,11)}
DT={d:[(2*q*y+2**d)//2**(d+1) for y in range(2**d)] for d in (1,4,5,10,11)}
CB={e:[(bin(x&(2**e-1)).count('1')-bin(x>>e).count('1'))%q for x in range(4**e)] for e in (2,3)}
def cbd(e,B): return [CB[e][x] for x in dec(2*e,B)]
def noise(e,s,n): return cbd(e,hashlib.shake_256(s+bytes([n])).digest(64*e))
def sample(B):
    X=hashlib.shake_128(B).digest(168*6);a=[]
    for i in range(0,168*6,3):
        c0,c1,c2=X[i],X[i+1],X[i+2]
        d1=c0+256*(c1&15);d2=(c1>>4)+16*c2
        if d1<q:a.append(d1)
        if d2<q:a.append(d2)
        if len(a)>=256:return a[:256]
    raise 1
def G(m): h=hashlib.sha3_512(m).digest(); return h[:32],h[32:]
H=lambda m:hashlib.sha3_256(m).digest()
cache={}
def mat(k,rho):
    if cache.get('r')!=rho:
        cache['r']=rho; cache['A']=[[sample(rho+bytes([j,i])) for j in range(k)] for i in range(k)]
    return cache['A']
PS={2:(3,10,4),3:(2,10,4),4:(2,11,5)}
def keygen(k,d,z):
    eta=PS[k][0]; rho,sig=G(d+bytes([k])); A=mat(k,rho)
    s=[NTT(noise(eta,sig,i)) for i in range(k)]; e=[NTT(noise(eta,sig,k+i)) for i in range(k)]
    ek=b''.join(enc(12,add(dot(A[i],s),e[i])) for i in range(k))+rho
    return ek,b''.join(enc(12,x) for x in s)+ek+H(ek)+z
def encrypt(k,ek,m,r):
    eta,du,dv=PS[k]; A=mat(k,ek[384*k:]); t=[dec(12,ek[384*i:384*i+384]) for i in range(k)]
    y=[NTT(noise(eta,r,i)) for i in range(k)]
    c=b''
    for i in range(k):
        u=add(INTT(dot([A[j][i] for j in range(k)],y)),noise(2,r,k+i)); c+=enc(du,[CT[du][x] for x in u])
    v=add(add(INTT(dot(t,y)),noise(2,r,2*k)),[1665*b for b in dec(1,m)])
    return c+enc(dv,[CT[dv][x] for x in v])
def decrypt(k,dk,c):
    eta,du,dv=PS[k]
    u=[NTT([DT[du][x] for x in dec(du,c[32*du*i:32*du*(i+1)])]) for i in range(k)]
    v=[DT[dv][x] for x in dec(dv,c[32*du*k:])]
    s=[dec(12,dk[384*i:384*i+384]) for i in range(k)]
    w=INTT(dot(s,u)); return enc(1,[CT[1][(a-b)%q] for a,b in zip(v,w)])
def encaps(k,ek,m):
    K,r=G(m+H(ek)); return encrypt(k,ek,m,r),K
def decaps(k,dk,c):
    ek=dk[384*k:768*k+32];h=dk[768*k+32:768*k+64];z=dk[768*k+64:]
    m=decrypt(k,dk,c);K,r=G(m+h)
    return K if encrypt(k,ek,m,r)==c else hashlib.shake_256(z+c).digest(32)
k=int(sys.argv[1]);n=int(sys.argv[2])
cl=32*(PS[k][1]*k+PS[k][2]); per=96+cl
S=hashlib.shake_128(b'').digest(per*n); o=0
out=hashlib.sha256()
for i in range(n):
    d=S[o:o+32];z=S[o+32:o+64];m=S[o+64:o+96];rc=S[o+96:o+96+cl];o+=per
    ek,dk=keygen(k,d,z);c,K=encaps(k,ek,m);K2=decaps(k,dk,c);assert K2==K
    K3=decaps(k,dk,rc)
    t='Public Key: %s\nSecret Key: %s\nCiphertext: %s\nShared Secret B: %s\nShared Secret A: %s\nPseudorandom shared Secret A: %s\n'%(ek.hex(),dk.hex(),c.hex(),K.hex(),K2.hex(),K3.hex())
    out.update(t.encode())
    if i==0 and len(sys.argv)>3: open(sys.argv[3],'w').write(t)
print(k,n,out.hexdigest())
