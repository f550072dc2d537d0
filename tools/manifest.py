#!/usr/bin/env python3
"""Writes MANIFEST.json. Each claim: property id, status, theorem names, note."""
import json, os, re
A = 'Argo.Actisense.'
claims = []
def c(pid, status, thms, note=''):
    claims.append({'property': pid, 'status': status, 'theorems': thms, 'note': note})

def actisense():
    c('C01','proved',[A+x for x in ['C01_Write','C01_commands','C01_injective','C08_Send']])
    c('C02','partial',[A+x for x in ['C02_roundtrip_iff','C02_partial','C02_false','C02_read_partial','C02_read_false']],
      'False as an unconditional claim: length and checksum bytes are not escaped. Exact iff proved.')
    c('C03','proved',[A+'C03_all_frames'])
    c('C04','proved',[A+'C04_resync',A+'C04_error_resets'])
    c('C05','proved',[A+'C05_checksum',A+'C05_history',A+'C05_single_byte',A+'C05_wire_false'],
      'Altered byte of the unescaped content; altering a byte on the wire can defeat the checksum (C05_wire_false).')
    c('C06','proved',[A+'C06_contents',A+'C06_accepts'])
    c('C07','partial',[A+'C07_false',A+'C07_partial',A+'C07_overrun'],'False; exact crash condition proved.')
    c('C08','proved',[A+'C08_Send'])
    c('C09','proved',[A+'C09_envelope',A+'C09_silent',A+'C09_result',A+'C09_encoding',A+'C09_understood',A+'C09_pgn_roundtrip'])
    c('C10','proved',[A+'C10_bytes',A+'C10_open'])
    c('C11','partial',[A+'C11_false',A+'C11_partial',A+'C11_exact'],'False inside a frame; harmless at frame boundaries; the exact effect in every sequence of bytes, errors and empty reads is C11_exact.')
    c('C12','partial',[A+'C12_false',A+'C12_partial',A+'C06_contents'],'False when the declared length exceeds the frame.')
actisense()
root = os.path.dirname(os.path.dirname(os.path.abspath(__file__)))
for f in sorted(os.listdir(os.path.join(root,'tools'))):
    if f.startswith('claims_') and f.endswith('.py'):
        exec(open(os.path.join(root,'tools',f)).read())
ids = [json.loads(l)['id'] for l in open(os.path.join(root,'properties.jsonl'))]
claims.sort(key=lambda d: ids.index(d['property']))
json.dump({'claims': claims}, open(os.path.join(root,'MANIFEST.json'),'w'), indent=1)
print(len(claims), 'claims; missing:', [i for i in ids if i not in {d['property'] for d in claims}])
