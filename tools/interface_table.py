"""Writes lean/Verif/Model/InterfaceTable.lean from the sources of the C interface in /repo, and lists what it found unusual."""
import re,glob,collections
def split(body):
    out=[];cur='';d=0;p=0;i=0
    body=re.sub(r'//[^\n]*','',body)
    while i<len(body):
        c=body[i]; cur+=c
        if c=='(':p+=1
        if c==')':p-=1
        if c=='{':d+=1
        if c=='}':
            d-=1
            if d==0:
                rest=body[i+1:]
                m=re.match(r'\s*(else|CATCH_VANILLAPDF_EXCEPTIONS|catch)',rest)
                if not m: out.append(cur.strip());cur=''
                elif m.group(1).startswith('CATCH'):
                    out.append(cur.strip()+' CATCH'); cur=''; i+=m.end()
        if c==';' and d==0 and p==0: out.append(cur.strip());cur=''
        i+=1
    if cur.strip(): out.append(cur.strip())
    return out
import re,glob,collections,sys
def strip(s):
    # blank comments, keep newlines
    s=re.sub(r'//[^\n]*',lambda m:' '*len(m.group(0)),s)
    return re.sub(r'/\*.*?\*/',lambda m:re.sub(r'[^\n]',' ',m.group(0)),s,flags=re.S)
fns=[]
for f in sorted(glob.glob('/repo/src/vanillapdf/implementation/**/c_*.cpp',recursive=True)):
    raw=open(f).read()
    s=strip(raw); s2=re.sub(r'"(?:[^"\\\n]|\\.)*"',lambda m:'"'+' '*(len(m.group(0))-2)+'"',s)
    for m in re.finditer(r'VANILLAPDF_API\s+error_type\s+(?:CALLING_CONVENTION\s+)?(\w+)\s*\(([^)]*)\)\s*\{',s2):
        i=m.end();d=1
        while d:
            d+= (s2[i]=='{')-(s2[i]=='}'); i+=1
        a=s2[:m.start()].count('\n')+1; b=s2[:i].count('\n')+1
        ps=[p.strip() for p in m.group(2).replace('\n',' ').split(',') if p.strip() and p.strip()!='void']
        fns.append((f.split('implementation/')[1],a,b,m.group(1),[re.sub(r'\s+',' ',p) for p in ps],split(s2[m.end():i-1])))
ident=lambda c:re.sub(r'_+','_',re.sub(r'[^A-Za-z0-9]','_',c)).strip('_')
def norm(c):
    c=c.replace('const ','').replace('*','').strip()
    c=re.sub(r'\b(vanillapdf|syntax|semantics|contents|std)::','',c)
    return ident(c)
handles=set();classes=set();viewcount=collections.defaultdict(collections.Counter)
table={}
optional_names={'user_data'}
def tmpl(s,i):
    # s[i] == '<' ; return inside, end index
    d=0
    for j in range(i,len(s)):
        if s[j]=='<':d+=1
        if s[j]=='>':
            d-=1
            if d==0:return s[i+1:j],j+1
def targs(t):
    out=[];d=0;cur=''
    for c in t:
        if c=='<':d+=1
        if c=='>':d-=1
        if c==',' and d==0: out.append(cur);cur='';continue
        cur+=c
    out.append(cur);return out
entries=[]
bodies={}
for f,a,b,n,ps,st in fns:
    pn=[re.sub(r'\[\]','',p).split()[-1].strip('*') for p in ps]
    body=' '.join(st)
    kinds=[]
    for p,name in zip(ps,pn):
        h=re.match(r'(?:const )?(\w+)Handle ?\* ?(?:const )?\w+$',p)
        if h: kinds.append(('handle',h.group(1))); handles.add(h.group(1))
        elif re.match(r'(?:const )?(\w+)Handle ?\*\* ?\w+$',p):
            hh=re.match(r'(?:const )?(\w+)Handle',p).group(1); kinds.append(('result',hh)); handles.add(hh)
        elif '*' in p or p.startswith('string_type') or p.startswith('byte_array_type') or '_Function' in p or 'Function ' in p:
            if name=='user_data' or re.search(r'nullptr\s*!=\s*%s\b|\b%s\s*!=\s*nullptr'%(name,name),body) or n=='FileWriterObserver_CreateCustom' and 'Function' in p:
                kinds.append(('optional',None))
            else: kinds.append(('memory',None))
        else: kinds.append(('value',None))
    alias={name:(i,None) for i,name in enumerate(pn)}
    steps=[]
    def uses(x):
        u=[]
        for al,(i,c) in alias.items():
            if kinds[i][0] in('value','optional'):continue
            if re.search(r'\b%s\b'%al,x):
                if (i,c) not in u: u.append((i,c))
        return u
    for x in st:
        m=re.match(r'RETURN_ERROR_PARAM_VALUE_IF_NULL\((\w+)\)',x)
        if m: steps.append(('check',alias[m.group(1)][0]));continue
        k=x.find('SafeObjectConvert<')
        if k>=0:
            t,e=tmpl(x,k+len('SafeObjectConvert')); ta=[q.strip() for q in targs(t)]
            m=re.match(r'\s*\(\s*(\w+)\s*,\s*(\w+)\s*\)',x[e:])
            steps.append(('convert',alias[m.group(1)][0],alias[m.group(2)][0],norm(ta[0]),norm(ta[1]),ta[2],ta[3]));continue
        k=x.find('ObjectRelease<')
        if k>=0:
            t,e=tmpl(x,k+len('ObjectRelease')); ta=[q.strip() for q in targs(t)]
            m=re.match(r'\s*\(\s*(\w+)\s*\)',x[e:])
            steps.append(('release',alias[m.group(1)][0],norm(ta[0])));continue
        m=re.match(r'(?:const )?[\w:<>]+\s*\*?\s*(?:const )?\s*\*?\s*(\w+)\s*=\s*reinterpret_cast<',x)
        if m:
            k=x.find('reinterpret_cast<'); t,e=tmpl(x,k+len('reinterpret_cast'))
            q=re.match(r'\s*\(\s*(\w+)\s*\)',x[e:])
            if q.group(1)=='base_filter': alias[m.group(1)]=('base',alias[q.group(1)][0]); alias[m.group(1)]=(alias['handle'][0],'FilterBase'); continue
            assert q.group(1) in pn,(n,x)
            alias[m.group(1)]=(alias[q.group(1)][0],norm(t)); continue
        if re.match(r'FilterBase\* base_filter = static_cast',x): alias['base_filter']=(0,None); continue
        m=re.match(r'return (FilterBase_\w+)\(([^)]*)\)',x)
        if m:
            ar=[alias[q.strip()][0] for q in m.group(2).split(',')]
            for s_ in bodies[m.group(1)]:
                if s_[0]=='check': steps.append(('check',ar[s_[1]]))
                elif s_[0]=='work': steps.append(('work',s_[1],[(ar[i],c) for i,c in s_[2]]))
                else: raise Exception
            continue
        if x.startswith('return VANILLAPDF_ERROR_SUCCESS'):continue
        g=x.startswith('try') and x.endswith('CATCH')
        # casts inside the block
        for m in re.finditer(r'(\w+)\s*=\s*reinterpret_cast<',x):
            t,e=tmpl(x,m.end()-1); q=re.match(r'\s*\(\s*(\w+)\s*\)',x[e:])
            if q and q.group(1) in pn: alias[m.group(1)]=(alias[q.group(1)][0],norm(t))
        us=uses(x)
        # drop None-class duplicates for handles that have a class
        us=[(i,c) for i,c in us if not(c is None and kinds[i][0]=='handle' and any(j==i and d for j,d in us))]
        # nested reinterpret uses inside expressions
        us2=[]
        for i,c in us:
            if kinds[i][0]=='handle' and c is None:
                mm=None
                for m in re.finditer(r'reinterpret_cast<',x):
                    t,e=tmpl(x,m.end()-1)
                    if re.match(r'\s*\(\s*%s\s*\)'%pn[i],x[e:]): mm=norm(t)
                if mm is None: print('NOCLASS',n,ps[i],x[:80],file=sys.stderr)
                c=mm
            us2.append((i,c))
        if steps and steps[-1][0]=='work' and steps[-1][1]==g:
            for u in us2:
                if u not in steps[-1][2]: steps[-1][2].append(u)
        else: steps.append(('work',g,us2))
    bodies[n]=steps
    for s_ in steps:
        if s_[0]=='work':
            for i,c in s_[2]:
                if c: classes.add(c); 
                if kinds[i][0]=='handle': viewcount[kinds[i][1]][c]+=1
        if s_[0]=='convert':
            classes|={s_[3],s_[4]}; viewcount[kinds[s_[1]][1]][s_[3]]+=1
            hh=re.match(r'(\w+)Handle',s_[6].split('::')[-1]).group(1); handles.add(hh); viewcount[hh][s_[4]]+=1
            ph=re.search(r'(\w+)Handle ?\*\*',ps[s_[2]]).group(1)
            assert ph==hh,(n,ph,hh)
        if s_[0]=='release': classes.add(s_[2]); viewcount[kinds[s_[1]][1]][s_[2]]+=1
    entries.append((f,a,b,n,ps,kinds,steps))
own={h for h in handles if h in classes}
classOf={h:h if h in viewcount[h] else (viewcount[h].most_common(1)[0][0] if viewcount[h] else None) for h in handles}
# header index
meth=collections.defaultdict(lambda: collections.defaultdict(set)); base=collections.defaultdict(list)
typedefs={}
for f in glob.glob('/repo/src/vanillapdf/**/*.h',recursive=True):
    s=strip(open(f).read())
    for m in re.finditer(r'using\s+(\w+)\s*=\s*([^;]+);',s): typedefs.setdefault(m.group(1),m.group(2).strip())
    for m in re.finditer(r'\b(?:class|struct)\s+(\w+)\s*(?:final\s*)?(?::\s*([^{;]+))?\{',s):
        i=m.end();d=1
        while d and i<len(s):
            d+=(s[i]=='{')-(s[i]=='}');i+=1
        b=s[m.end():i-1]; c=m.group(1)
        if m.group(2):
            for q in re.split(r',(?![^<]*>)',m.group(2)):
                base[c].append(re.sub(r'\b(public|private|protected|virtual)\b','',q).strip())
        for q in re.finditer(r'(?:^|[;{}:])\s*((?:[\w:<>,&\* ]|\n)+?)\s+[\*&]?(\w+)\s*\(',b):
            r=re.sub(r'\b(virtual|static|inline|explicit|const|public:|return)\b|public:','',q.group(1)).strip()
            r=re.sub(r'\s+',' ',r)
            if r: meth[c][q.group(2)].add(r)
def find(c,m,seen=()):
    c0=re.sub(r'<.*','',c).split('::')[-1]
    if m in meth[c0]: return meth[c0][m]
    for b in base[c0]:
        r=find(b,m)
        if r: return r
    return set()
def deptr(t):
    t=t.replace('&','').strip()
    t=re.sub(r'\b(vanillapdf|syntax|semantics|contents|std)::','',t)
    m=re.match(r'Deferred(?:Container|Iterator)?<(.*)>$',t)
    if m: return deptr(m.group(1)) if m.group(1).startswith('Deferred') else m.group(1).strip()
    m=re.match(r'OutputPointer<(.*)>$',t)
    if m: return deptr(m.group(1))
    m=re.match(r'Output(\w+Ptr)$',t)
    if m: return deptr(m.group(1))
    if t in typedefs and t.endswith('Ptr'): return deptr(typedefs[t])
    m=re.match(r'(\w+)Ptr$',t)
    if m: return m.group(1)
    return t
bad=0;res={}
for f,a,b,n,ps,ks,st in entries:
    if not any(k=='result' for k,_ in ks): continue
    if any(s[0]=='convert' for s in st): continue
    body=' '.join([x for (ff,aa,bb,nn,pp,ss) in fns if nn==n for x in ss])
    cast={}
    for m in re.finditer(r'(\w+)\s*=\s*reinterpret_cast<',body):
        t,e=tmpl(body,m.end()-1); cast[m.group(1)]=re.sub(r'const|\*','',t).strip()
    decl={}
    for x in re.split(r'[;{}]',body):
        x=re.sub(r'\s+',' ',x).strip()
        m=re.match(r'(?:const )?([\w:]+(?:<.*?>)?)\s*[&\*]? (\w+)\s*(?:=\s*(.*)|\((.*)\))?$',x)
        if m and m.group(1) not in('return','else','case','throw','switch','if'): decl.setdefault(m.group(2),[]).append((m.group(1),m.group(3) or m.group(4) or ''))
    def typ(v,depth=0):
        if depth>6: return '?'
        if v in cast: return cast[v]
        if v not in decl: return '?novar '+v
        t,e=decl[v][-1]
        if t!='auto': return deptr(t)
        return texpr(e,depth+1)
    def texpr(e,depth):
        e=e.strip()
        m=re.match(r'(?:make_deferred|make_deferred_container|make_deferred_iterator)\s*<',e)
        if m: return tmpl(e,m.end()-1)[0]
        m=re.match(r'static_cast<',e)
        if m: return re.sub(r'\*','',tmpl(e,m.end()-1)[0]).strip()
        m=re.match(r'(\w+)\.AddRefGet\(\)',e)
        if m: return typ(m.group(1),depth)
        m=re.match(r'ObjectUtils::GetObjectBase',e)
        if m: return 'Object'
        m=re.match(r'ObjectUtils::ConvertTo<',e) or re.match(r'ConvertUtils<',e)
        m2=re.match(r'(\w+)\s*(?:->|\.)\s*(\w+)\s*(<[^(]*>)?\(',e)
        if m2:
            c=typ(m2.group(1),depth)
            r=find(c,m2.group(2))
            rs={deptr(x) for x in r}
            return '|'.join(sorted(rs)) if rs else f'?meth {c}.{m2.group(2)}'
        m=re.match(r'([\w:]+)::(\w+)\(',e)
        if m:
            c=m.group(1).split('::')[-1]; rs={deptr(x) for x in find(c,m.group(2))}
            return '|'.join(sorted(rs)) if rs else '?stat '+e[:40]
        if re.match(r'\w+$',e): return typ(e,depth)
        return '?expr '+e[:60]
    for m in re.finditer(r'\*\s*(\w+)\s*=\s*reinterpret_cast<\s*(\w+)Handle\s*\*\s*>\s*\(\s*([^;]*?)\s*\)\s*;',body):
        if m.group(1) not in [re.sub(r'\[\]','',p).split()[-1].strip('*') for p,k in zip(ps,ks) if k[0]=='result']: continue
        h=m.group(2);e=m.group(3)
        t=texpr(e,0)
        c=norm(t)
        res.setdefault(n,[]).append((h,t))
        want=classOf[h]
        if False: print(n,'handle',h,'wants',want,'gets',t)

OV={'ContentInstructionCollection_At':'InstructionBase','ContentInstructionCollectionIterator_GetValue':'InstructionBase','DeveloperExtensionsIterator_GetKey':'NameObject','DeveloperExtensionsIterator_GetValue':'DeveloperExtension','PageContents_GetBaseObject':'Object','PageObject_GetBaseObject':'DictionaryObject','PageRange_GetSubrange':'PageRange_SubRange','DictionaryObject_Create':'DictionaryObject','File_AllocateNewEntry':'XrefUsedEntry','IntegerObject_FromObject':'IntegerObject','RealObject_FromObject':'RealObject','XrefIterator_GetValue':'XrefEntryBase','XrefChainIterator_GetValue':'XrefBase','InputOutputStream_ReadBuffer':'Buffer','InputStream_ReadBuffer':'Buffer','DeveloperExtensions_GetIterator':'DeveloperExtensions_Iterator','Xref_GetIterator':'XrefBase_Iterator','XrefChain_GetIterator':'XrefChain_Iterator'}
bodies2={}
for e in entries:
    n,ks,st=e[3],e[5],e[6]
    rs=[i for i,k in enumerate(ks) if k[0]=='result']
    if not rs or any(s[0]=='convert' for s in st): continue
    assert len(rs)==1
    h=ks[rs[0]][1]
    c=OV.get(n)
    if c is None:
        if n in res:
            cs={norm(tt) for hh,tt in res[n]}
            assert len(cs)==1 and all(hh==h for hh,_ in res[n]),(n,res[n],h)
            c=cs.pop()
            if c=='StringObject': c='StringObjectBase'
        elif re.match(r'(Flate|DCT|ASCII85|ASCIIHex|LZW|JPX)DecodeFilter_(En|De)code',n): c='Buffer'
        else: print('NORES',n); continue
    if c!=classOf[h]: print('HANDS',n,h,classOf[h],c)
    classes.add(c)
    st.append(('hand',rs[0],c))

if __name__=='__main__':
    print(len(entries),len(handles),len(classes))
    for h in sorted(handles):
        if len(viewcount[h])!=1: print(h,dict(viewcount[h]))
    print(sorted(classes))
    print(collections.Counter(k for e in entries for k,_ in e[5]))
    for e in entries:
        ks=e[5]
        chk=set()
        for s in e[6]:
            if s[0]=='check':chk.add(s[1])
            elif s[0]=='convert':chk|={s[1],s[2]}
            elif s[0]=='release':chk.add(s[1])
        un=[i for i,k in enumerate(ks) if k[0] in('handle','memory','result') and i not in chk]
        if un: print('UNCHECKED',e[3],un)
        if len([s for s in e[6] if s[0]=='work'])>1: print('MULTI',e[3],e[6])
        if [1 for i,s in enumerate(e[6]) if s[0] not in('check','hand') and i<len([q for q in e[6] if q[0]!='hand'])-1]: print('ORDER',e[3],e[6])

    o=open('/verif/lean/Verif/Model/InterfaceTable.lean','w')
    w=o.write
    w("""import Verif.Model.Interface
/-
  The functions of the C interface, made from src/vanillapdf/implementation by a script that is not part of the model.  For
  every function: its parameters, the null checks, the conversions of handles, and the blocks of its body with the parameters
  they use and the classes these are cast to, and the class of the object that is handed out (the declared type; for
  `File_AllocateNewEntry` and `DictionaryObject_Create` the class that is made).  The numbers before an entry are the lines of the function in the file.
-/
namespace VPdf

""")
    byf=collections.OrderedDict()
    for e in entries: byf.setdefault(e[0],[]).append(e)
    names=[]
    K={'value':lambda h:'.value','handle':lambda h:f'.handle .{h}','result':lambda h:f'.result .{h}','memory':lambda h:'.memory','optional':lambda h:'.optional'}
    def stp(s):
        if s[0]=='check': return f'.check {s[1]}'
        if s[0]=='convert': return f'.convert {s[1]} {s[2]} .{s[3]} .{s[4]}'
        if s[0]=='release': return f'.release {s[1]} .{s[2]}'
        if s[0]=='hand': return f'.hand {s[1]} .{s[2]}'
        return '.work '+('true' if s[1] else 'false')+' ['+', '.join(f'({i}, {"some ."+c if c else "none"})' for i,c in s[2])+']'
    for f,es in byf.items():
        base=f.split('/')[-1][2:-4]
        cam=''.join(x.capitalize() if k else x for k,x in enumerate(base.split('_')))
        nm=cam+'Functions'; names.append(nm)
        w(f'/-- src/vanillapdf/implementation/{f}. -/\ndef {nm} : List ApiFunction := [\n')
        rows=[]
        for (_,a,b,n,ps,ks,st) in es:
            rows.append(f'  -- {a}-{b}\n  ⟨"{n}", [{", ".join(K[k](h) for k,h in ks)}],\n    [{", ".join(stp(s) for s in st)}]⟩')
        # comments come first, the comma behind the entry
        w(',\n'.join(rows)+']\n\n')
    w('/-- All functions of the interface, src/vanillapdf/implementation/*/c_*.cpp. -/\ndef interface : List ApiFunction :=\n  '+' ++\n  '.join(' ++ '.join(names[i:i+4]) for i in range(0,len(names),4))+'\n\nend VPdf\n')
    o.close()
