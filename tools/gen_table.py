#!/usr/bin/env python3
"""Reads /repo/nmea2k/pgn_array.go as text and writes lean/Verif/Nmea2k/Table.lean, the shipped
PGN table.  Run by hand; the generated module is committed."""
import re, json, sys
src=open('/repo/nmea2k/pgn_array.go').read().split('\n')
# find PgnList start/end
s=next(i for i,l in enumerate(src) if l.startswith('var PgnList'))
e=next(i for i,l in enumerate(src) if i>s and l=='}')
# tokenise
toks=[]
for ln in range(s+1,e):
    l=re.sub(r'/\*.*?\*/','',src[ln]); p=0
    while p<len(l):
        c=l[p]
        if c in ' \t': p+=1;continue
        if l.startswith('//',p): break
        if c=='"':
            q=p+1
            while l[q]!='"':
                if l[q]=='\\': q+=1
                q+=1
            toks.append(('str',l[p+1:q],ln+1)); p=q+1;continue
        if c in '{},[]+-*/()': toks.append((c,c,ln+1)); p+=1;continue
        m=re.match(r'0x[0-9a-fA-F]+|[0-9]+\.?[0-9]*(e[+-]?[0-9]+)?|[A-Za-z_][A-Za-z_0-9]*',l[p:])
        toks.append(('w',m.group(0),ln+1)); p+=m.end()
    
pos=0
def peek(): return toks[pos] if pos<len(toks) else ('eof','',0)
def nxt():
    global pos; t=toks[pos]; pos+=1; return t
def expect(c):
    t=nxt(); assert t[0]==c,(t,c)
def expr():
    out=[]
    d=0
    while True:
        t=peek()
        if t[0]in(',','}') and d==0: break
        if t[0]=='(':d+=1
        if t[0]==')':d-=1
        out.append(nxt())
    return out
def fields():
    r=[]
    while peek()[0]!='}':
        ln=peek()[2]
        expect('{')
        f=[]
        while peek()[0]!='}':
            f.append(expr())
            if peek()[0]==',': nxt()
        expect('}')
        assert len(f)==8,(f)
        r.append((ln,f))
        if peek()[0]==',': nxt()
    return r
pgns=[]
while pos<len(toks):
    ln=peek()[2]
    expect('{')
    hdr=[]
    for _ in range(6):
        hdr.append(expr()); expect(',')
    expect('[');expect(']');t=nxt();assert t[1]=='Field'
    expect('{')
    fs=fields()
    expect('}')
    if peek()[0]==',':nxt()
    expect('}')
    if peek()[0]==',':nxt()
    pgns.append((ln,hdr,fs))
def txt(x): return ' '.join(('"'+t[1]+'"') if t[0]=='str' else t[1] for t in x)
consts={}
import math
for l in src:
    m=re.match(r'const (\w+) = ([^/]+?(/[^/]+)*)\s*(//.*)?$',l)
    if m:
        consts[m.group(1)]=eval(m.group(2).replace('math.Pi','math.pi'),{'math':math},dict(consts))
def jstr(x): return '"'+''.join(t[1] for t in x if t[0]=='str')+'"'
def num(x): return eval(txt(x),{},dict(consts))
out=[]
for ln,h,fs in pgns:
    d=dict(line=ln,desc=h[0][0][1],cat=h[1][0][1],pgn=num(h[2]),known=txt(h[3])=='true',size=num(h[4]),rep=num(h[5]),fields=[])
    for fl,f in fs:
        u=f[4]
        ut=txt(u)
        if u[0][0]=='str': uu=('str',u[0][1])
        elif ut=='nil': uu=('nil',)
        elif re.match(r'lookup',ut): uu=('lookup',ut)
        else: uu=('int',num(u))
        d['fields'].append(dict(line=fl,name=f[0][0][1],size=num(f[1]),sizet=txt(f[1]),res=num(f[2]),rest=txt(f[2]),signed=txt(f[3])=='true',units=uu,desc=jstr(f[5]),path=jstr(f[6]),off=num(f[7])))
    out.append(d)

RES={'RES_ASCII':'ascii','RES_LATITUDE':'latitude','RES_LONGITUDE':'longitude','RES_DATE':'date','RES_TIME':'time',
'RES_TEMPERATURE':'temperature','RES_6BITASCII':'sixBitAscii','RES_INTEGER':'integer','RES_LOOKUP':'lookup',
'RES_LOOKUP2':'lookup2','RES_BINARY':'binary','RES_MANUFACTURER':'manufacturer','RES_STRING':'string',
'RES_FLOAT':'float','RES_PRESSURE':'pressure','RES_STRINGLZ':'stringLZ'}
def res(f):
    if f['rest'] in RES: return '.'+RES[f['rest']]
    assert f['res']>=0
    if f['res']==0: return '.notUsed'
    if f['res']==1: return '.one'
    return '(.scale "%s")'%f['rest']
def units(u):
    if u[0]=='nil': return '.nil'
    if u[0]=='int': return '(.int %d)'%u[1]
    if u[0]=='lookup': return '(.subLookup "lookupDeviceFunction")' if u[1]=='lookupDeviceFunction' else '(.lookup "%s")'%u[1]
    v=u[1]
    if v=='': return '.empty'
    if v[0]=='=':
        assert re.fullmatch('[0-9]+',v[1:]); return '(.must %d)'%int(v[1:])
    return '(.text "%s")'%v
import os
root=os.path.dirname(os.path.dirname(os.path.abspath(__file__)))
o=open(os.path.join(root,'lean/Verif/Nmea2k/Table.lean'),'w')
o.write("""import Verif.Nmea2k.Model

/-!
# The shipped PGN table

Generated by tools/gen_table.py from nmea2k/pgn_array.go (`PgnList`, lines %d-%d); do not edit.
Each definition cites the line of the entry it transcribes.
-/

namespace Argo.Nmea2k.Table

open Argo.Nmea2k

""" % (s+1,e+1))
for i,d in enumerate(out):
    o.write('/-- pgn_array.go:%d, index %d. -/\n'%(d['line'],i))
    o.write('def p%d : Pgn := ⟨"%s", "%s", %d, %s, %d, %d, [\n'%(i,d['desc'],d['cat'],d['pgn'],str(d['known']).lower(),d['size'],d['rep']))
    o.write(',\n'.join('  ⟨"%s", %d, %s, %s, %s, %s, %s, %d⟩'%(f['name'],f['size'],res(f),str(f['signed']).lower(),units(f['units']),f['desc'],f['path'],f['off']) for f in d['fields']))
    o.write(']⟩\n\n')
o.write('/-- pgn_array.go:%d-%d `PgnList`. -/\ndef pgnList : List Pgn := [\n'%(s+1,e+1))
names=['p%d'%i for i in range(len(out))]
o.write(',\n'.join('  '+', '.join(names[k:k+12]) for k in range(0,len(names),12)))
o.write(']\n\nend Argo.Nmea2k.Table\n')
