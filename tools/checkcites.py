#!/usr/bin/env python3
"""every citation 'symbol ... file:lines' in the model: does one of the identifiers in the comment occur in the cited lines?"""
import re,glob
cache={}
def src(f):
    if f not in cache:
        import os
        c=[p for p in glob.glob(f'/repo/lib/**/{f}',recursive=True)]
        cache[f]=open(c[0]).read().split('\n') if c else None
    return cache[f]
bad=0;n=0
for p in sorted(glob.glob('lean/Verif/Model/*.lean')):
    t=open(p).read()
    for m in re.finditer(r'/--.*?-/',t,re.S):
        com=m.group(0)
        line=t.count('\n',0,m.start())+1
        for c in re.finditer(r'(nghttp3_\w+\.[ch]):(\d+)(?:-(\d+))?',com):
            f,a,b=c.group(1),int(c.group(2)),int(c.group(3) or c.group(2))
            s=src(f); n+=1
            if s is None: print(p,line,'no file',f); bad+=1; continue
            if b>len(s): print(p,line,'out of range',c.group(0)); bad+=1; continue
            body='\n'.join(s[max(0,a-3):b])
            ids=set(re.findall(r'\b[a-zA-Z_][a-zA-Z_0-9]{3,}\b',com))-{'nghttp3'}
            ids={i for i in ids if '_' in i}
            pre=com[:c.start()]
            hits=[i for i in ids if re.search(r'\b'+re.escape(i)+r'\b',body)]
            if ids and not hits:
                print(f'{p}:{line}: {c.group(0)} ids={sorted(ids)[:5]} src={s[a-1][:80]!r}'); bad+=1
print(n,'citations',bad,'suspicious')
