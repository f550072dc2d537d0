#!/usr/bin/env python3
"""Generate lean/Verif/Signalk/MapTable.lean from /repo/map.xml."""
import xml.etree.ElementTree as ET
src='/repo/map.xml'
lines=open(src).read().split('\n')
# line of each <mapping>
starts=[i+1 for i,l in enumerate(lines) if '<mapping>' in l]
ends=[i+1 for i,l in enumerate(lines) if '</mapping>' in l]
root=ET.parse(src).getroot()
def q(s): return 'bs "%s"'%(s or '') if s else '[]'
def text(e,t):
    x=e.find(t); return (x.text or '') if x is not None else ''
out=['import Verif.Signalk.Model','','/-! Generated by tools/gen_map.py from map.xml; sentences are never used by the program and omitted. -/','','namespace Argo.Signalk.MapTable','','open Argo.Signalk','']
names=[]
for n,m in enumerate(root.findall('mapping')):
    gs=[]
    for g in m.findall('parameter_group'):
        fs=g.find('fieldset')
        if fs is None: fset='⟨[], []⟩'
        else: fset='⟨%s, [%s]⟩'%(q(fs.get('type')),', '.join('(%s, %s)'%(q(f.get('type')),f.text) for f in fs.findall('field')))
        mu,cl=g.find('multiplier'),g.find('classifier')
        mi,mf=(text(mu,'id'),text(mu,'field')) if mu is not None else ('','')
        ci,cf=(text(cl,'id'),text(cl,'field')) if cl is not None else ('','')
        conds=', '.join('⟨%s, %s, %s⟩'%(q(text(c,'op')),text(c,'field'),q(text(c,'value'))) for c in g.findall('condition'))
        gs.append('⟨%s, %s, %s, %s, %s, %s, %s, [%s]⟩'%(text(g,'pgn'),fset,q(text(g,'field')),q(mi),q(mf),q(ci),q(cf),conds))
    out+=['/-- map.xml:%d-%d -/'%(starts[n],ends[n]),'def m%d : Mapping := ⟨%s, [%s]⟩'%(n,q(text(m,'path')),', '.join(gs)),'']
    names.append('m%d'%n)
import textwrap
out+=['/-- map.xml: all mappings in file order. -/','def maps : List Mapping := [']
out+=textwrap.wrap(', '.join(names)+']',95,initial_indent='  ',subsequent_indent='  ')
out+=['','end Argo.Signalk.MapTable','']
open('/verif/lean/Verif/Signalk/MapTable.lean','w').write('\n'.join(out))
