"""Lines of /repo cited by the model, per file; prints the uncited ranges (blank/comment lines ignored)."""
import re,glob,os,sys
root='/repo'
files={}
for d,_,fs in os.walk(root):
    for f in fs:
        if f.endswith(('.cpp','.h')):
            p=os.path.relpath(os.path.join(d,f),root); files[p]=open(os.path.join(d,f),errors='replace').read().split('\n')
base={}
for p in files: base.setdefault(os.path.basename(p),[]).append(p)
cov={p:set() for p in files}
num=r'\d+(?:\s*[-–]\s*\d+)?'
pat=re.compile(r'([\w/]+\.(?:cpp|h)):?\s*\(?((?:%s)(?:(?:,| and|, and)\s*(?:%s))*)'%(num,num))
for f in glob.glob('/verif/lean/Verif/**/*.lean',recursive=True):
    t=open(f).read()
    for m in pat.finditer(t):
        n=m.group(1)
        c=[n] if n in files else [p for p in files if p.endswith('/'+n)] 
        if len(c)!=1: continue
        for r in re.findall(r'(\d+)(?:\s*[-–]\s*(\d+))?',m.group(2)):
            a=int(r[0]);b=int(r[1] or a)
            if b<a:  # abbreviated
                b=a
            cov[c[0]]|=set(range(a,b+1))
for p in sorted(files):
    if p.startswith('tests'): continue
    code=[];inb=False
    for i,l in enumerate(files[p],1):
        s=l.strip()
        if inb:
            if '*/' in s: inb=False
            continue
        if s.startswith('/*'):
            if '*/' not in s: inb=True
            continue
        if not s or s.startswith('//') or s in '{}();': continue
        code.append(i)
    un=[i for i in code if i not in cov[p]]
    rs=[]
    for i in un:
        if rs and i-rs[-1][1]<=3: rs[-1][1]=i
        else: rs.append([i,i])
    print(f'{p}: {len(code)-len(un)}/{len(code)} ', ' '.join(f'{a}-{b}' for a,b in rs if b-a>=int(sys.argv[1]) if True)[:3000])
