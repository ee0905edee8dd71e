#!/usr/bin/env python3
"""Reads the templates in /repo/v0/gen and the tables of the generators in /repo/v0/tools/gen and
compares what they give with the generated files in the repository, up to white space and the time
stamp.  Text is compared only; nothing of the repository is run.  This backs the use of one
definition for all generated examples and one for all generated data types in the model."""
import difflib
import glob
import re
import sys

ROOT = '/repo/v0/'


def blocks(text):
    """Template text to a list of (is_action, string), trim markers applied."""
    toks = re.split(r'(\{\{.*?\}\})', text, flags=re.S)
    for i in range(1, len(toks), 2):
        if toks[i].startswith('{{-'):
            toks[i - 1] = toks[i - 1].rstrip()
        if toks[i].endswith('-}}'):
            toks[i + 1] = toks[i + 1].lstrip()
    return [(i % 2 == 1, t[2:-2].strip('-').strip() if i % 2 else t) for i, t in enumerate(toks)]


def defines(files):
    out = {}
    for f in files:
        name, depth, cur = None, 0, []
        for act, t in blocks(open(f).read()):
            if act and t.startswith('define '):
                name, depth, cur = t.split('"')[1], 0, []
            elif name is not None:
                if act and t.startswith('if '):
                    depth += 1
                elif act and t == 'end':
                    if depth == 0:
                        out[name], name = cur, None
                        continue
                    depth -= 1
                cur.append((act, t))
    return out


def cond(c, env):
    c = c.strip()
    m = re.fullmatch(r'not \((.*)\)', c)
    if m:
        return not cond(m[1], env)
    m = re.fullmatch(r'eq \.(\w+)((?: "[^"]*")+)', c)
    if m:
        return env[m[1]] in re.findall(r'"([^"]*)"', m[2])
    return bool(env[c[1:]])


def render(name, defs, env):
    out, stack = [], []
    for act, t in defs[name]:
        live = all(s[0] for s in stack)
        if not act:
            if live:
                out.append(t)
        elif t.startswith('/*'):
            pass
        elif t.startswith('if '):
            v = live and cond(t[3:], env)
            stack.append([v, v])
        elif t.startswith('else if '):
            s = stack[-1]
            s[0] = not s[1] and cond(t[8:], env)
            s[1] = s[1] or s[0]
        elif t == 'else':
            s = stack[-1]
            s[0], s[1] = not s[1], True
        elif t == 'end':
            stack.pop()
        elif t.startswith('template '):
            if live:
                parts = t.split('"')
                out.append(render(parts[1], defs, {'': parts[3]} if len(parts) > 3 else env))
        elif live:
            out.append(str(env[t[1:].strip()]))
    return ''.join(out)


def words(s):
    s = re.sub(r'(?i)generated @ ?.*', '', s)
    s = re.sub(r'import \((.*?)\)', lambda m: ' '.join(sorted(m[1].split())), s, count=1, flags=re.S)
    return re.findall(r'\w+|[^\w\s]', s)


bad = 0


def compare(path, text, prep=lambda t: t):
    global bad
    a, b = words(text), words(prep(open(path).read()))
    if a != b:
        bad += 1
        print('DIFFERS', path)
        print('\n'.join(list(difflib.unified_diff(a, b, lineterm='', n=2))[:40]))
    else:
        print('same', path)


src = open(ROOT + 'tools/gen/example/main.go').read()
for r in re.findall(r'\{Name: "(\w+)", Type: "([^"]+)", EType: "([^"]+)", Time: now, UseOption: (\w+)\}', src):
    env = dict(Name=r[0], Type=r[1], EType=r[2], Time='', UseOption=r[3] == 'true')
    for d, t in (('internal', 'm'), ('pkg', 'i')):
        compare(ROOT + '%s/raml/x-gen-ex-%s.go' % (d, r[0].lower()),
                render('example', defines([ROOT + 'gen/example-%s.tpl' % t]), env))

src = open(ROOT + 'tools/gen/type/main.go').read()
const = dict(re.findall(r'(\w+)\s*= "([^"]*)"', src))
for k, v in re.findall(r'(\w+)\s*= (type\w+)\n', src):
    const[k] = const[v]
for line in re.findall(r'^\t\{(Name: .*)\},$', src, flags=re.M):
    env = dict(DefType='', DefTypeName='', DefIsOpt=False, EnumType='', Base=False)
    for k, v in re.findall(r'(\w+): ("[^"]*"|\w+)', line):
        env[k] = v[1:-1] if v[0] == '"' else {'true': True, 'now': ''}.get(v, const.get(v))
    env['IsDefPtr'] = not env['DefType'].startswith(('[]', 'map'))
    for d, t in (('internal', 'm'), ('pkg', 'i')):
        compare(ROOT + '%s/raml/x-gen-type-%s.go' % (d, env['Type']),
                render('root', defines(sorted(glob.glob(ROOT + 'gen/type-%s/*' % t))), env))

src = open(ROOT + 'tools/gen/doc/main.go').read()
rows = re.findall(r'\{"([^"]+)", "([^"]+)", "([^"]+)"\}', src)
defs = defines([ROOT + 'gen/doc/' + r[0] for r in rows] + sorted(glob.glob(ROOT + 'gen/traits-i/*')))
for r in rows:
    compare(ROOT + 'pkg/raml/%s.go' % r[2], render(r[1], defs, {}))
# The maps come from a generator outside the repository.  Each is compared with FacetMap.go after
# renaming, and those of interface{} values with UntypedMap.go, leaving out GetOpt, which only four
# of them have.  `map[string]interface{}` in MarshalJSON is not the key type.
json_map = 'make(map[string]interface{}, len(i.index))'


def without_opt(text):
    text = re.sub(r'(?m)^func .* GetOpt\((?:.|\n)*?\n}\n', '', text)
    text = re.sub(r'(?m)(?:^\s*//.*\n)*^\s*GetOpt\(.*\n', '', text)
    return text.replace('"github.com/Foxcapades/goop/v1/pkg/option"', '')


for line in open(ROOT + 'extras/gomp-conf.yml').read().split('\n'):
    m = re.match(r'\s+(?:- )?(key|type|name): (.*)', line)
    if m and m[1] == 'key':
        key = m[2]
    elif m and m[1] == 'type':
        val = m[2]
    elif m:
        name = 'UntypedMap' if val == 'interface{}' else 'FacetMap'
        text = open(ROOT + 'pkg/raml/%s.go' % name).read().replace(json_map, 'JSONMAP')
        text = text.replace(name, 'THEMAP').replace('Facet', val)
        text = re.sub(r'\bstring\b', key, text).replace('THEMAP', m[2]).replace('JSONMAP', json_map)
        compare(ROOT + 'pkg/raml/%s.go' % m[2], without_opt(text), without_opt)
sys.exit(bad != 0)
