#!/usr/bin/env python3
"""Reads the Go message packages and the JSON schemas of /repo as text and writes
lean/Verif/Model/Messages.lean and lean/Verif/Spec/Schemas.lean.  Fails on any line it does not know."""
import re, json, os, sys
REPO='/repo/'
PK=['cpreq','cpresp','csreq','csresp']
def die(*a): print(*a,file=sys.stderr); sys.exit(1)
def T(s): return '"%s".toList'%s.replace('\\','\\\\').replace('"','\\"')
def S(s): return '"%s"'%s.replace('\\','\\\\').replace('"','\\"')

# ---- Go struct tags: reflect.StructTag.Lookup
def lookup(tag,key):
    while tag:
        i=0
        while i<len(tag) and tag[i]==' ': i+=1
        tag=tag[i:]
        if not tag: break
        i=0
        while i<len(tag) and tag[i]>' ' and tag[i] not in ':"\x7f': i+=1
        if i==0 or i+1>=len(tag) or tag[i]!=':' or tag[i+1]!='"': break
        name=tag[:i]; tag=tag[i+1:]
        i=1
        while i<len(tag) and tag[i]!='"':
            if tag[i]=='\\': i+=1
            i+=1
        if i>=len(tag): break
        q=tag[:i+1]; tag=tag[i+1:]
        if name==key: return q[1:-1]
    return None

def structs(pkg):
    p=f'messages/v1x/{pkg}/messages.go'
    L=open(REPO+p).read().split('\n')
    out={}; cur=None
    for n,l in enumerate(L,1):
        s=l.strip()
        m=re.fullmatch(r'type (\w+) struct \{',s)
        if m: cur=dict(name=m[1],file=p,first=n,fields=[],xmlname=None,embed=None); out[m[1]]=cur; continue
        if cur is None: continue
        if s=='}': cur['last']=n; cur=None; continue
        if s=='' or s.startswith('//'): continue
        if re.fullmatch(r'(chargepointRequest|chargepointResponse|centralSystemRequest|centralSystemResponse)',s):
            cur['embed']=s; continue
        m=re.fullmatch(r'XMLName xml\.Name `json:"-" xml:"(\S+) (\S+)"`',s)
        if m: cur['xmlname']=(m[1],m[2]); continue
        m=re.fullmatch(r'(\w+)\s+(\S+)\s+`(.*)`',s)
        if not m: die('struct line',p,n,l)
        cur['fields'].append(dict(go=m[1],type=m[2],tag=m[3],line=n))
    return out

def fieldinfo(f):
    j=lookup(f['tag'],'json'); x=lookup(f['tag'],'xml')
    jn,jo=f['go'],False
    if j is not None:
        parts=j.split(',')
        # encoding/json isValidTag: letters, digits and some punctuation
        if parts[0]: 
            if not re.fullmatch(r"[A-Za-z0-9]+",parts[0]): die('json tag',f)
            jn=parts[0]
        jo='omitempty' in parts[1:]
    kind,xn,xo='elem',f['go'],False
    if x is not None:
        if x=='-': kind,xn='skip',''
        else:
            parts=x.split(',')
            flags=parts[1:]
            for fl in flags:
                if fl not in('omitempty','attr','chardata'): die('xml flag',f)
            if 'attr' in flags: kind='attr'
            if 'chardata' in flags: kind='chardata'
            xo='omitempty' in flags
            if parts[0]: xn=parts[0]
            if kind=='chardata': xn=''
    return jn,jo,kind,xn,xo

# ---- json_encode.go
def funcs(pkg):
    p=f'messages/v1x/{pkg}/json_encode.go'
    L=open(REPO+p).read().split('\n')
    out={}; cur=None
    for n,l in enumerate(L,1):
        if cur is None:
            m=re.fullmatch(r'func \((\w+) \*(\w+)\) (MarshalJSON|UnmarshalJSON)\((b \[\]byte)?\) (\(\[\]byte, error\)|error) \{',l)
            if m:
                cur=dict(recv=m[1],name=m[2],fn=m[3],file=p,first=n,lines=[]); out[(m[2],m[3])]=cur
            elif l.startswith('func '): die('func',p,n,l)
            continue
        if l=='}': cur['last']=n; cur=None; continue
        s=l.strip()
        if s=='' or s.startswith('//'): continue
        cur['lines'].append((n,s))
    return out

def golit(s):
    assert s[0]=='"' and s[-1]=='"'
    r=''; i=1
    while i<len(s)-1:
        if s[i]=='\\':
            if s[i+1] not in '"\\': die('escape',s)
            r+=s[i+1]; i+=2
        else: r+=s[i]; i+=1
    return r

class Rd:
    def __init__(s,f): s.f=f; s.i=0
    def peek(s): return s.f['lines'][s.i][1] if s.i<len(s.f['lines']) else None
    def take(s,rx):
        l=s.peek()
        if l is None: return None
        m=re.fullmatch(rx,l)
        if m: s.i+=1
        return m
    def need(s,rx):
        m=s.take(rx)
        if not m: die('expected',rx,'at',s.f['file'],s.f['lines'][s.i] if s.i<len(s.f['lines']) else 'end')
        return m

def parse_enc(f,idx):
    r=Rd(f)
    if r.take(r'obj := make\(map\[string\]interface\{\}\)') or r.take(r'obj := map\[string\]interface\{\}\{\}'):
        v=r.need(r'if m\.(\w+) != nil \{')[1]
        m=r.need(r'obj\["(\w+)"\] = m\.(\w+)'); assert m[2]==v
        r.need(r'\}'); r.need(r'return json\.Marshal\(obj\)'); assert r.peek() is None
        return f'.mapIfNotNil {T(m[1])} {idx[v]}'
    r.need(r'buf := bytes\.NewBuffer\(make\(\[\]byte, 0\)\)')
    st=[]
    def simple():
        if r.take(r'if comma \{'):
            r.need(r'buf\.WriteString\(","\)'); r.need(r'\}'); return '.commaIf'
        if r.take(r'comma = true'): return '.setComma'
        m=r.take(r'buf\.WriteString\((".*")\)')
        if m: return f'.lit {T(golit(m[1]))}'
        m=r.take(r'if tmp, err := json\.Marshal\(m\.(\w+)(\.Format\(time\.RFC3339\))?\); err != nil \{')
        if m:
            r.need(r'return nil, err'); r.need(r'\} else \{'); r.need(r'buf\.Write\(tmp\)'); r.need(r'\}')
            return f'.{"timeField" if m[2] else "field"} {idx[m[1]]}'
        return None
    while True:
        if r.take(r'comma := false'): continue
        if r.take(r'rv := buf\.Bytes\(\)'): break
        m=r.take(r'if m\.(\w+) == nil \{')
        if m:
            e=r.need(r'return nil, errors\.New\((".*")\)'); r.need(r'\}')
            st.append(f'.requireNonNil {idx[m[1]]} ({T(golit(e[1]))})'); continue
        m=r.take(r'if m\.(\w+) != nil \{')
        if m:
            b=[]
            while not r.take(r'\}'):
                s=simple()
                if s is None: die('body',f['file'],f['lines'][r.i])
                b.append(s)
            st.append(f'.ifNotNil {idx[m[1]]} [{", ".join(b)}]'); continue
        s=simple()
        if s is None: die('stmt',f['file'],f['lines'][r.i])
        st.append(f'.simple ({s})')
    r.need(r'return rv, nil'); assert r.peek() is None
    return '.prog [\n      '+',\n      '.join(st)+']'

def parse_dec(f,idx):
    r=Rd(f); flags=[]
    while True:
        m=r.take(r'(\w+)Received := false')
        if not m: break
        flags.append(m[1])
    r.need(r'var jsonMap map\[string\]json\.RawMessage')
    r.need(r'if err := json\.Unmarshal\(b, &jsonMap\); err != nil \{'); r.need('return err'); r.need(r'\}')
    r.need(r'for k(, v|, _)? := range jsonMap \{'); r.need(r'switch k \{')
    cs=[]; sets={}; strict=False
    while not r.take(r'\}'):
        if r.take(r'default:'):
            r.need(r'return fmt\.Errorf\("additional property not allowed: \\"" \+ k \+ "\\""\)'); strict=True; continue
        k=r.need(r'case "(\w+)":')[1]
        m=r.need(r'if err := json\.Unmarshal\(\[\]byte\(v\), &m\.(\w+)\); err != nil \{'); r.need('return err'); r.need(r'\}')
        cs.append((k,idx[m[1]]))
        m=r.take(r'(\w+)Received = true')
        if m: sets[m[1]]=k
    r.need(r'\}')
    req=[]
    while True:
        m=r.take(r'if !(\w+)Received \{')
        if not m: break
        e=r.need(r'return errors\.New\("\\"(\w+)\\" is required but was not present"\)'); r.need(r'\}')
        # the flag is set by the case of the property it stands for
        req.append(sets[m[1]]); assert m[1] in flags
        assert e[1]==sets[m[1]]
    r.need('return nil'); assert r.peek() is None, (f['file'],f['lines'][r.i])
    assert set(flags)==set(sets) and len(flags)==len(req)
    return '.cases [%s] %s [%s]'%(', '.join(f'({T(k)}, {i})' for k,i in cs),'true' if strict else 'false',', '.join(T(x) for x in req))

def ty(t,pkg,deps):
    if t in('string','cpstatus.ErrorCode'): return '.str'
    if t=='int': return '.int 64'
    if t=='int32': return '.int 32'
    if t=='float64': return '.float'
    if t=='bool': return '.bool'
    if t=='time.Time': return '.time'
    if t.startswith('*'): return f'.ptr ({ty(t[1:],pkg,deps)})'
    if t.startswith('[]'): return f'.slice ({ty(t[2:],pkg,deps)})'
    if re.fullmatch(r'[A-Z]\w+',t): deps.append(t); return f'{pkg}.{t}'
    die('type',t)

def gen():
    o=[]; all_={}
    top={}
    for pkg in PK:
        st=structs(pkg); fn=funcs(pkg); all_[pkg]=st
        for k in fn:
            if k[0] not in st: die('method of unknown type',k)
        done=set()
        def emit(name):
            if name in done: return
            done.add(name)
            s=st[name]; deps=[]
            idx={f['go']:i for i,f in enumerate(s['fields'])}
            tys=[ty(f['type'],pkg,deps) for f in s['fields']]
            for d in deps: emit(d)
            fi=[]
            for f in s['fields']:
                jn,jo,k,xn,xo=fieldinfo(f)
                fi.append(f'⟨{S(f["go"])}, {T(jn)}, {str(jo).lower()}, .{k}, {T(xn)}, {str(xo).lower()}⟩')
            m=fn.get((name,'MarshalJSON')); u=fn.get((name,'UnmarshalJSON'))
            if (m is None)!=(u is None): die('half codec',name)
            cite=f'{s["file"]}:{s["first"]}-{s["last"]}'
            if m:
                cite+=f'; json_encode.go:{m["first"]}-{m["last"]} (MarshalJSON), {u["first"]}-{u["last"]} (UnmarshalJSON)'
                enc=parse_enc(m,idx); dec=parse_dec(u,idx)
            else:
                cite+='; no codec methods: encoding/json reflection'
                J=[fieldinfo(f) for f in s['fields']]
                enc='.reflect [%s]'%', '.join(f'({T(j[0])}, {i}, {str(j[1]).lower()})' for i,j in enumerate(J))
                dec='.reflect [%s]'%', '.join(f'({T(j[0])}, {i})' for i,j in enumerate(J))
            xn='none' if s['xmlname'] is None else f'some ({T(s["xmlname"][0])}, {T(s["xmlname"][1])})'
            o.append(f'/-- {cite} -/\ndef {pkg}.{name}.info : StructInfo where\n  pkg := {S(pkg)}\n  name := {S(name)}\n  fields := [{(","+chr(10)+"    ").join(fi)}]\n  enc := {enc}\n  dec := {dec}\n  xmlName := {xn}\n')
            o.append(f'/-- {s["file"]}:{s["first"]}-{s["last"]} -/\ndef {pkg}.{name} : Ty := .struct {pkg}.{name}.info [{", ".join(tys)}]\n')
        for name in st: emit(name)
        top[pkg]=[n for n in st if st[n]['embed']]
        want={'cpreq':'chargepointRequest','cpresp':'chargepointResponse','csreq':'centralSystemRequest','csresp':'centralSystemResponse'}[pkg]
        for n in top[pkg]:
            assert st[n]['embed']==want and st[n]['xmlname']
        for n in st:
            if n not in top[pkg]: assert st[n]['xmlname'] is None
    # Action / GetResponse
    act={}; gr={}; lines={}
    for pkg,rp in(('cpreq','cpresp'),('csreq','csresp')):
        txt=open(REPO+f'messages/v1x/{pkg}/messages.go').read()
        for m in re.finditer(r'func \(m \*(\w+)\) Action\(\) string\s*\{\s*return "(\w+)"\s*\}',txt):
            act[(pkg,m[1])]=m[2]; lines[(pkg,m[1],'a')]=txt.count('\n',0,m.start())+1
        for m in re.finditer(r'func \(m \*(\w+)\) GetResponse\(\) messages\.Response\s*\{\s*return &(\w+)\.(\w+)\{\}\s*\}',txt):
            gr[(pkg,m[1])]=(m[2],m[3]); lines[(pkg,m[1],'g')]=txt.count('\n',0,m.start())+1
        assert len([k for k in act if k[0]==pkg])==txt.count(') Action()')
        assert len([k for k in gr if k[0]==pkg])==txt.count(') GetResponse()')
    reqs=[(p,n) for p in('cpreq','csreq') for n in top[p]]
    resps=[(p,n) for p in('cpresp','csresp') for n in top[p]]
    assert set(act)==set(reqs)==set(gr)
    c=lambda p,n: f'{p}{n}'
    o.append('/-- The request types: the structs of messages/v1x/cpreq/messages.go and csreq/messages.go that embed\n`chargepointRequest` or `centralSystemRequest`. -/\ninductive ReqType where\n'+''.join(f'  | {c(*r)}\n' for r in reqs)+'  deriving DecidableEq, Repr\n')
    o.append('/-- The response types of messages/v1x/cpresp/messages.go and csresp/messages.go. -/\ninductive RespType where\n'+''.join(f'  | {c(*r)}\n' for r in resps)+'  deriving DecidableEq, Repr\n')
    def tab(name,doc,typ,dom,f):
        o.append(f'/-- {doc} -/\ndef {name} : {typ}\n'+''.join(f'  | .{c(*r)} => {f(r)}\n' for r in dom))
    tab('ReqType.ty','The struct behind a request type.','ReqType → Ty',reqs,lambda r:f'{r[0]}.{r[1]}')
    tab('RespType.ty','The struct behind a response type.','RespType → Ty',resps,lambda r:f'{r[0]}.{r[1]}')
    ra=lambda p,k:(min(v for (a,b,x),v in lines.items() if a==p and x==k),max(v for (a,b,x),v in lines.items() if a==p and x==k))
    tab('ReqType.action','`Action()`: messages/v1x/cpreq/messages.go:%d-%d, csreq/messages.go:%d-%d.'%(*ra('cpreq','a'),*ra('csreq','a')),'ReqType → Text',reqs,lambda r:T(act[r]))
    tab('ReqType.response','`GetResponse()`: messages/v1x/cpreq/messages.go:%d-, csreq/messages.go:%d-.'%(ra('cpreq','g')[0],ra('csreq','g')[0]),'ReqType → RespType',reqs,lambda r:f'.{c(*gr[r])}')
    tab('ReqType.isChargePoint','Does the type have the method `IsChargePointRequest` (embeds `chargepointRequest`, cpreq/cpreq.go:10-17), as opposed to\n`IsCentralSystemRequest` (csreq/csreq.go:10-17)?','ReqType → Bool',reqs,lambda r:str(all_[r[0]][r[1]]['embed']=='chargepointRequest').lower())
    tab('RespType.isChargePoint','Does the type have the method `IsChargePointResponse` (embeds `chargepointResponse`, cpresp/cpresp.go:10-17), as opposed to\n`IsCentralSystemResponse` (csresp/csresp.go:10-17)?','RespType → Bool',resps,lambda r:str(all_[r[0]][r[1]]['embed']=='chargepointResponse').lower())
    o.append('/-- All request types. -/\ndef ReqType.all : List ReqType := ['+', '.join('.'+c(*r) for r in reqs)+']\n')
    o.append('/-- All response types. -/\ndef RespType.all : List RespType := ['+', '.join('.'+c(*r) for r in resps)+']\n')
    for nm,file,T_ in(('reqFromAction','messages/req/actions.go','ReqType'),('resFromAction','messages/res/actions.go','RespType')):
        L=open(REPO+file).read().split('\n'); i=0; ent=[]; first=None
        for n,l in enumerate(L,1):
            s=l.strip()
            if s.startswith('func FromActionName'): first=n; continue
            if first is None or s=='' or s.startswith('//') or s in('switch action {','}','return nil'): last=n; continue
            m=re.fullmatch(r'case "(\w+)":',s)
            if m: key=m[1]; continue
            m=re.fullmatch(r'return &(\w+)\.(\w+)\{\}',s)
            if not m: die(file,n,l)
            ent.append((key,m[1],m[2]))
        o.append(f'/-- `FromActionName`, {file}:{first}-{len(L)-1}; `none` is the nil interface. -/\ndef {nm}Table : List (Text × {T_}) := [\n  '+',\n  '.join(f'({T(k)}, .{p}{n})' for k,p,n in ent)+f']\n\n/-- `FromActionName`, {file}:{first}-{len(L)-1}. -/\ndef {nm} (action : Text) : Option {T_} := {nm}Table.lookup action\n')
    hd='''import Verif.Model.Codec
/-!
# The message types of go-ocpp

Generated by tools/gen.py from the Go text of messages/v1x, messages/req and messages/res: every
struct with its tags, MarshalJSON program, UnmarshalJSON table, action name and response type.
Do not edit by hand.
-/
namespace Verif

'''
    open('/verif/lean/Verif/Model/Messages.lean','w').write(hd+'\n'.join(o)+'\nend Verif\n')
    return all_,top

def schema(d,path,ind='    '):
    known={'$schema','title','type','properties','required','additionalProperties','items','enum','maxLength','format','multipleOf','id'}
    for k in d:
        if k not in known: print('note: stray schema keyword',k,'in',path)
    t=d.get('type')
    if t=='string': return '.str'
    if t=='integer': return '.int'
    if t=='number': return '.num'
    if t=='boolean': return '.bool'
    if t=='array': return f'.arr ({schema(d["items"],path,ind)})'
    if t=='object':
        ps=d.get('properties',{}); ni=ind+'  '
        b=(',\n'+ni).join(f'({T(k)}, {schema(v,path,ni)})' for k,v in ps.items())
        ap=d.get('additionalProperties',True); assert ap in(True,False)
        return f'.obj [{b}] [{", ".join(T(x) for x in d.get("required",[]))}] {"false" if ap else "true"}'
    die('schema',path,d)

def jschema(d,path,ind='    '):
    t=d.get('type')
    if t=='string':
        en=f'(some [{", ".join(T(x) for x in d["enum"])}])' if 'enum' in d else 'none'
        ml=f'(some {d["maxLength"]})' if 'maxLength' in d else 'none'
        return f'.str {en} {ml}'
    if t in('integer','number','boolean'): return {'integer':'.int','number':'.num','boolean':'.bool'}[t]
    if t=='array': return f'.arr ({jschema(d["items"],path,ind)})'
    if t=='object':
        ps=d.get('properties',{}); ni=ind+'  '
        b=(',\n'+ni).join(f'({T(k)}, {jschema(v,path,ni)})' for k,v in ps.items())
        ap=d.get('additionalProperties',True); assert ap in(True,False)
        return f'.obj [{b}] [{", ".join(T(x) for x in d.get("required",[]))}] {"false" if ap else "true"}'
    die('schema',path,d)

def jschemas(top):
    o=[]
    for fn in sorted(os.listdir(REPO+'ws/json')):
        d=json.load(open(REPO+'ws/json/'+fn))
        o.append(f'/-- ws/json/{fn} -/\ndef JSchemas.{fn[:-5]} : JSchema :=\n  {jschema(d,fn)}\n')
    def tab(name,typ,pks,suf):
        o.append(f'/-- The schema of a message type: the file of ws/json named after it. -/\ndef {name} : {typ} → JSchema\n'+''.join(f'  | .{p}{n} => JSchemas.{n}{suf}\n' for p in pks for n in top[p]))
    tab('ReqType.jschema','ReqType',('cpreq','csreq'),'')
    tab('RespType.jschema','RespType',('cpresp','csresp'),'Response')
    hd='''import Verif.Spec.JSchema
import Verif.Model.Messages
/-!
# The OCPP 1.6 JSON schemas shipped in ws/json, with enumerations and lengths

Generated by tools/gen.py; `format` and `multipleOf` are dropped.  Do not edit by hand.
-/
namespace Verif

'''
    open('/verif/lean/Verif/Spec/JSchemas.lean','w').write(hd+'\n'.join(o)+'\nend Verif\n')

def schemas(top):
    o=[]
    names={}
    for fn in sorted(os.listdir(REPO+'ws/json')):
        n=fn[:-5]
        d=json.load(open(REPO+'ws/json/'+fn))
        names[n]=True
        o.append(f'/-- ws/json/{fn} -/\ndef Schemas.{n} : Schema :=\n  {schema(d,fn)}\n')
    def tab(name,typ,pks,suf):
        o.append(f'/-- The schema of a message type: the file of ws/json named after it. -/\ndef {name} : {typ} → Schema\n'+''.join(f'  | .{p}{n} => Schemas.{n}{suf}\n' for p in pks for n in top[p]))
    tab('ReqType.schema','ReqType',('cpreq','csreq'),'')
    tab('RespType.schema','RespType',('cpresp','csresp'),'Response')
    hd='''import Verif.Spec.Schema
import Verif.Model.Messages
/-!
# The OCPP 1.6 JSON schemas shipped in ws/json

Generated by tools/gen.py; only types, property names, `required` and `additionalProperties` are kept
(`enum`, `maxLength`, `format` and `multipleOf` are dropped).  Do not edit by hand.
-/
namespace Verif

'''
    open('/verif/lean/Verif/Spec/Schemas.lean','w').write(hd+'\n'.join(o)+'\nend Verif\n')
    return names

def wsdl(top):
    """Spec/Wsdl.lean from soap/wsdl/*.wsdl"""
    import xml.etree.ElementTree as ET
    X='{http://www.w3.org/2001/XMLSchema}'
    o=[]
    known={}
    for key,fn in(('Cs','ocpp_centralsystemservice_1.5_final.wsdl'),('Cp','ocpp_chargepointservice_1.5_final.wsdl')):
        sc=ET.parse(REPO+'soap/wsdl/'+fn).getroot().find('.//'+X+'schema')
        assert sc.get('elementFormDefault')=='qualified'
        ns=sc.get('targetNamespace')
        ty={t.get('name'):t for t in sc if t.tag in(X+'simpleType',X+'complexType')}
        lean=lambda n:f'Wsdl.{key}.{n[0].lower()+n[1:]}'
        def ref(t):
            if t.startswith('s:'): return {'s:string':'(.simple .string)','s:int':'(.simple .int)','s:boolean':'(.simple .boolean)','s:dateTime':'(.simple .dateTime)','s:anyURI':'(.simple .uri)'}[t]
            n=t[4:]; assert t.startswith('tns:')
            if n=='RemoteSta1rtStopStatus': n='RemoteStartStopStatus'; print('note: undefined type',t,'in',fn)
            return f'(.simple {lean(n)})' if ty[n].tag==X+'simpleType' else lean(n)
        done=set()
        def particles(sq):
            out=[]
            for e in sq:
                assert e.tag==X+'element' and set(e.keys())<={'name','type','minOccurs','maxOccurs'},e.attrib
                mn=e.get('minOccurs','1'); mx=e.get('maxOccurs','1'); assert mn in'01' and mx in('1','unbounded')
                if e.get('type'): c=ref(e.get('type'))
                else:
                    (ct,)=list(e); (scn,)=list(ct); (ex,)=list(scn); assert ex.get('base')=='s:string'
                    at=[]
                    for a in ex:
                        assert a.tag==X+'attribute' and a.get('use')=='optional'
                        at.append(f'({T(a.get("name"))}, {lean(a.get("type")[4:])})')
                    c='(.attributed ['+',\n      '.join(at)+'])'
                out.append((e.get('name'),mn=='1',mx=='unbounded',c))
            return out
        def deps(t):
            r=[]
            for e in t.iter():
                for a in('type','base'):
                    if e.get(a,'').startswith('tns:'): r.append(e.get(a)[4:].replace('RemoteSta1rt','RemoteStart'))
            return r
        def emit(n):
            if n in done: return
            done.add(n); t=ty[n]
            for d in deps(t): emit(d)
            if t.tag==X+'simpleType':
                (r,)=[c for c in t if c.tag!=X+'annotation']; assert r.get('base')=='s:string'
                kinds={c.tag for c in r}
                if kinds=={X+'enumeration'}: v='.enum ['+', '.join(T(c.get('value')) for c in r)+']'
                else:
                    (c,)=list(r); assert c.tag==X+'maxLength'; v=f'.max {c.get("value")}'
                o.append(f'/-- soap/wsdl/{fn}, simpleType {n} -/\ndef {lean(n)} : XSimple := {v}\n')
            else:
                body=[c for c in t if c.tag!=X+'annotation']
                ps=[]
                if body:
                    (sq,)=body; assert sq.tag==X+'sequence'; ps=particles(sq)
                v=''.join(f'.elem {T(a)} {str(r).lower()} {str(m).lower()} {c} <|\n  ' for a,r,m,c in ps)+'.empty'
                o.append(f'/-- soap/wsdl/{fn}, complexType {n} -/\ndef {lean(n)} : XType :=\n  {v}\n')
        for n in ty: emit(n)
        for e in sc:
            if e.tag==X+'element' and e.get('name')!='chargeBoxIdentity': known[(key,e.get('name'))]=(ns,ref(e.get('type')))
    used=set()
    def tab(name,typ,pks,suf):
        rows=[]
        for p in pks:
            key={'cpreq':'Cs','cpresp':'Cs','csreq':'Cp','csresp':'Cp'}[p]
            for n in top[p]:
                el=n[0].lower()+n[1:]+suf
                if (key,el) in known:
                    used.add((key,el)); ns,r=known[(key,el)]
                    rows.append(f'  | .{p}{n} => some (⟨{T(ns)}, {T(el)}⟩, {r})\n')
                else: rows.append(f'  | .{p}{n} => none\n')
        o.append(f'/-- The global element named after a message, with its type. -/\ndef {name} : {typ} → Option (XName × XType)\n'+''.join(rows))
    tab('ReqType.wsdl','ReqType',('cpreq','csreq'),'Request')
    tab('RespType.wsdl','RespType',('cpresp','csresp'),'Response')
    print('wsdl elements without message:',set(known)-used)
    hd='''import Verif.Spec.Xsd
import Verif.Model.Messages
/-!
# The OCPP 1.5 WSDL files shipped in soap/wsdl

Generated by tools/gen.py: the XML schemas in them.  The type of the RemoteStartTransaction response's status is
misspelled in the file (`RemoteSta1rtStopStatus`) and is read as `RemoteStartStopStatus`.  Do not edit by hand.
-/
namespace Verif
open Xml

'''
    o.append('/-- The global element of a message. -/\ndef MsgType.wsdl : MsgType → Option (XName × XType)\n  | .req r => r.wsdl\n  | .resp r => r.wsdl\n')
    open('/verif/lean/Verif/Spec/Wsdl.lean','w').write(hd+'\n'.join(o)+'\nend Verif\n')

if __name__=='__main__':
    a,top=gen()
    n=schemas(top)
    jschemas(top)
    wsdl(top)
    want={x for p in('cpreq','csreq') for x in top[p]}|{x+'Response' for p in('cpresp','csresp') for x in top[p]}
    print(sorted(want-set(n)),sorted(set(n)-want))
