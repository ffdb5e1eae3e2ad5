#!/usr/bin/env python3
"""seeded/LOG.jsonl from the outputs of the mutation runner: mklog.py notes.json out1.jsonl out2.jsonl ...
`theorems_failed` are the first declarations Lean rejects; what depends on them is then not proved either."""
import json,sys,re,subprocess,os
R='/verif/lean/'
notes=json.load(open(sys.argv[1]))
BASE={'Balloc':'C39','Bidi':'C31 C42 C51 C52','Conn':'C34 C35 C36 C40 C41 C43 C49 C50 C55 C56','Control':'C27-C30','Conv':'C01','Err':'C37','Frame':'C03',
'Gaptr':'C04','Http':'C23-C25','Huffman':'C09-C11','Ksl':'C08','Map':'C07','Message':'C26','Nva':'C45','Outq':'C32 C33','Pq':'C06','Priority':'C36',
'QpackCtx':'C13 C16 C17 C20 C21 C53','QpackDec':'C18-C21 C53','QpackEnc':'C14-C17 C22','QpackInt':'C12','Rcbuf':'C38','Rd':'C02','Ringbuf':'C05','StaticTable':'C48'}
def defn(f,pos,fn):
    b='/tmp/mut/base_old/' if re.search(r'out[12]\.jsonl$',fn) else '/tmp/mut/base/'
    src=open(b+f).read() if os.path.exists(b+f) else open(R+f).read()
    m=None
    for m in re.finditer(r'^(?:def|structure|inductive|abbrev|instance)\s+([^\s:({\[]+)',src[:pos],re.M): pass
    return m.group(1) if m else '?'
def keyof(j): return f'{os.path.basename(j["file"])}|{j["old"]}|{j["new"]}'+(f'|{j["line"]}' if 'line' in j else '')
runs=[(fn,[j for j in map(json.loads,open(fn)) if not j.get('bad') and 'file' in j]) for fn in sys.argv[2:]]
out=[]
for i,(fn,js) in enumerate(runs):
    later={keyof(j) for _,x in runs[i+1:] for j in x}
    earlier={keyof(j) for _,x in runs[:i] for j in x if not j['errs']}
    for j in js:
        if not j['errs'] and keyof(j) in later: continue   # tried again later
        f=j['file']; errs=j['errs']
        if errs and all(e.startswith(f+':') for e in errs): continue   # did not compile: no program
        key=keyof(j)
        n=notes.get(key,{})
        d=j.get('definition') or defn(f,j['pos'][0] if 'pos' in j else max(0,open('/tmp/mut/base/'+f).read().find(j['old'])),fn)
        edit=f'{j["old"]}  →  {j["new"]}'+(f'   (in: {j["line"]})' if 'line' in j else '')
        claim=j.get('claim') or n.get('claim') or 'random operator/constant mutation; claims on this definition: '+BASE.get(os.path.basename(f)[:-5],'?')
        r={'definition':f'{f}:{d}','edit':edit,'claim_it_breaks':n.get('claim',claim),'theorems_failed':[e.split(':',1)[1]+' ('+e.split(':',1)[0]+')' if ':' in e else e for e in errs],
           'theorems_tightened':n.get('tightened',[])}
        if errs and key in earlier: r['note']='survived a first attempt; the theorems that reject it now were added or strengthened since'; r['theorems_tightened']=r['theorems_tightened'] or r['theorems_failed']
        if not errs: r['survived']=n.get('why','not yet analysed')
        out.append(r)
        if not errs and key not in notes: print('UNANNOTATED',key)
with open('/verif/seeded/LOG.jsonl','w') as o:
    for r in out: o.write(json.dumps(r,ensure_ascii=False)+'\n')
print(len(out),'lines;',sum(1 for r in out if not r['theorems_failed']),'survivors')
