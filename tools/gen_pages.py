#!/usr/bin/env python3
"""Writes lean/Verif/Html/Pages.lean from /repo/templates/*.gtpl: the text of the templates as it is, cut at the actions."""
import re, sys
R = '/repo/templates/'
SET = {'.Vessel.Name': 'vesselName', '.Vessel.Manufacturer': 'manufacturer', '.Vessel.Model': 'model', '.Vessel.Year': 'year',
  '.Vessel.Mmsi': 'mmsi', '.Vessel.Callsign': 'callsign', '.Vessel.Registration': 'registration',
  '.Server.ListenOn': 'listenOn', '.Server.Port': 'serverPort', '.Server.EnableWebsockets': 'enableWebsockets',
  '.Server.UseTls': 'serverUseTls', '.Mqtt.Enable': 'mqttEnable', '.Mqtt.UseTls': 'mqttUseTls', '.Mqtt.Host': 'mqttHost',
  '.Mqtt.Port': 'mqttPort', '.Mqtt.ClientId': 'clientId', '.Mqtt.Username': 'username', '.Mqtt.Password': 'password'}
for i in range(5): SET['.Vessel.Uuid%d' % i] = 'uuid%d' % i
APP = {'$app.Package.Name': 'name', '$app.Package.Version': 'version', '$app.Version': 'installed', '$app.Path': 'path',
  '$app.Package.Description': 'description', '$app.Package.Author.Name': 'author', '$app.Package.Links.Npm': 'npm'}
def lit(s):
    s = s.replace('\\', '\\\\').replace('"', '\\"')
    return 'lines [' + ',\n      '.join('"' + x + '"' for x in s.split('\n')) + ']'
def parts(name):
    t = open(R + name).read()
    out = []
    for i, p in enumerate(re.split(r'\{\{(.*?)\}\}', t, flags=re.S)):
        out.append(('act', p.strip()) if i % 2 else ('text', p))
    return out
def esc(before):
    m = re.search(r'([a-zA-Z-]+)="$', before)
    if not m: return '.text'
    return '.url' if m.group(1).lower() == 'href' else '.attr'
def body(ps, names):
    """nodes of a list of parts without define/range"""
    out, stack, prev = [], None, ''
    for k, p in ps:
        if k == 'text':
            prev = p
            n = '.text (%s)' % lit(p)
        elif p.startswith('if '):
            stack = (names[p[3:]], [], []); cur = 1; continue
        elif p == 'else':
            cur = 2; continue
        elif p == 'end':
            f, y, no = stack; stack = None
            out.append('.cond .%s\n      [%s]\n      [%s]' % (f, ',\n       '.join(y), ',\n       '.join(no))); continue
        else:
            n = '.act %s .%s' % (esc(prev), names[p]); 
        if stack: stack[cur].append(n)
        else: out.append('.leaf (%s)' % n)
    return out
def define(name, ty, doc, nodes):
    """cut at the conditions: name0, name1, ... are the parts between them"""
    out, k, cur, names = '', 0, [], []
    def flush():
        nonlocal cur, k, out
        out += '/-- %s, part %d. -/\ndef %s%d : List (Leaf %s) :=\n  [ ' % (doc, k, name, k, ty) + ',\n    '.join(cur) + ' ]\n\n'
        names.append('%s%d.map .leaf' % (name, k)); k += 1; cur = []
    for n in nodes:
        if n.startswith('.cond'):
            flush(); names.append('[' + n + ']')
        else:
            assert n.startswith('.leaf (') and n[-1] == ')'
            cur.append(n[7:-1])
    flush()
    return out + '/-- %s. -/\ndef %s : List (Node %s) :=\n  ' % (doc, name, ty) + ' ++\n  '.join(names) + '\n\n'
def inner(ps, what):
    assert ps[0] == ('text', '') and ps[1] == ('act', 'define "%s"' % what) and ps[-2] == ('act', 'end') and ps[-1][1] == '\n', (ps[0], ps[1], ps[-2:])
    return ps[2:-2]
lay = inner(parts('layout.gtpl'), 'layout')
k = lay.index(('act', 'template "content" .'))
assert len(lay) == 3 and k == 1
idx = inner(parts('index.gtpl'), 'content')
app = inner(parts('apps.gtpl'), 'content')
r = app.index(('act', 'range $idx, $app := .'))
e = len(app) - 1 - app[::-1].index(('act', 'end'))
s = '''import Verif.Html.Model

set_option autoImplicit false

/-!
# The templates

Written by tools/gen_pages.py from templates/layout.gtpl, templates/index.gtpl and templates/apps.gtpl: the text as it is, cut
at the actions.
-/

namespace Argo.Html

open Argo.Signalk (Str bs)
open Argo.Config (Setting)

'''
s += '/-- templates/layout.gtpl:1-40, up to `{{template "content" .}}`. -/\ndef layoutHead : Str := %s\n\n' % lit(lay[0][1])
s += '/-- templates/layout.gtpl:40-63, after `{{template "content" .}}`. -/\ndef layoutFoot : Str := %s\n\n' % lit(lay[2][1])
s += define('indexContent', 'Setting', 'templates/index.gtpl:1-291', body(idx, SET))
assert len(app[:r]) == 1 and len(app[e+1:]) == 1
s += '/-- templates/apps.gtpl:1-15, up to `{{range}}`. -/\ndef appsHead : Str := %s\n\n' % lit(app[0][1])
s += define('appsRow', 'AppField', 'templates/apps.gtpl:15-40: what `{{range}}` repeats', body(app[r+1:e], APP))
s += '/-- templates/apps.gtpl:40-43, after the `{{end}}` of `{{range}}`. -/\ndef appsFoot : Str := %s\n\n' % lit(app[e+1][1])
s += '''/-- main/ui_server.go:189-198 `indexHandler`: the page of the settings `c`. -/
def indexPage (c : Config.Conf) : Str :=
  render (fun s => sprint (c.val s)) (symsOf (fun s => isTrue (c.val s))
    (.leaf (.text layoutHead) :: (indexContent ++ [.leaf (.text layoutFoot)])))

/-- main/ui_server.go:147 and templates/apps.gtpl: the page of these packages. -/
def appsPage (l : List Packages.NpmObject) : Str :=
  render (F := AppField) (fun _ => []) (symsOf (fun _ => false) [.leaf (.text layoutHead), .leaf (.text appsHead)]) ++
  l.flatMap (fun o => render (AppField.get o) (symsOf (fun f => AppField.get o f != []) appsRow)) ++
  render (F := AppField) (fun _ => []) (symsOf (fun _ => false) [.leaf (.text appsFoot), .leaf (.text layoutFoot)])

'''
s += 'end Argo.Html\n'
open(sys.argv[1] if len(sys.argv) > 1 else '/verif/lean/Verif/Html/Pages.lean', 'w').write(s)
