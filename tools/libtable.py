#!/usr/bin/env python3
"""Generate lean/Verif/LibTable.lean: the public methods the headers of /repo/DotNetLibrary/include declare, and the calls /repo/CppTranslator/ValidTypes.xml
accepts split into class, name and parameter types."""
import re, glob, os
R = '/repo'
rows = re.findall(r'<Valid>(.*?)</Valid>', open(R + '/CppTranslator/ValidTypes.xml').read())
def strip(s):
    keep = lambda m: re.sub(r'[^\n]', ' ', m.group(0))
    s = re.sub(r'/\*.*?\*/', keep, s, flags=re.S)
    s = re.sub(r'//[^\n]*', keep, s)
    return re.sub(r'^[ \t]*#[^\n]*(?:\\\n[^\n]*)*', keep, s, flags=re.M)
def ty(a):
    a = a.split('=')[0]
    a = re.sub(r'\bconst\b', '', a).strip()
    m = re.match(r'(.*?[\*&]|\S+)\s*(\w+)?\s*(\[\])?$', a)
    t = m.group(1).replace(' ', '')
    return {'double': 'Double', 'bool': 'Boolean', 'float': 'Single'}.get(t, t)
classes = []
for f in sorted(glob.glob(R + '/DotNetLibrary/include/*.h')):
    s = strip(open(f, encoding='utf-8-sig').read())
    for m in re.finditer(r'\b(class|struct)\s+DLL_EXPORT\s+(\w+)\s*(?::\s*public\s+(\w+))?\s*\{', s):
        i = j = m.end(); d = 1
        while d:
            d += (s[j] == '{') - (s[j] == '}'); j += 1
        body = s[i:j-1]; b = ''; d = 0
        for ch in body:
            if ch == '{': d += 1
            b += ch if d == 0 else ('\n' if ch == '\n' else ' ')
            if ch == '}':
                d -= 1
                if d == 0: b = b[:-1] + ';'
        acc = 'public' if m.group(1) == 'struct' else 'private'
        ms = []
        pos = 0; stm = []
        for lab in list(re.finditer(r'\b(public|private|protected)\s*:(?!:)', b)) + [None]:
            for st in re.finditer(r'[^;]+;', b[pos:lab.start() if lab else len(b)]):
                if acc == 'public': stm.append((pos + st.start(), st.group(0)))
            if lab: pos = lab.end(); acc = lab.group(1)
        for at, t in stm:
            mm = re.match(r'\s*((?:[\w\*&]+\s+|[\w]+[\*&]\s*)*?)([A-Za-z_]\w*)\s*\(([^()]*)\)', t)
            if not mm: continue
            name, args = mm.group(2), mm.group(3).strip()
            if name == m.group(2) or '~' in t.split('(')[0]: continue
            al = args.split(',') if args and args != 'void' else []
            if any('...' in a for a in al): continue
            req = sum('=' not in a for a in al)
            line = s[:i + at + (len(t) - len(t.lstrip()))].count('\n') + 1
            ms.append((name, req, [ty(a) for a in al], line, 'static' in t.split('(')[0]))
        classes.append((m.group(2), m.group(3), os.path.basename(f), ms))
code = lambda t: '0x' + t.encode().hex()
prim = 'Boolean Byte SByte Char Int16 UInt16 Int32 UInt32 Int64 UInt64 Single Double DateTime TimeSpan'.split()
out = ['import Verif.TextModel', '/-!', '# What the library declares and what the translator accepts', '',
 'Generated by tools/libtable.py. Texts are numbers in base 256 (ASCII codes, first character most significant), as in ValidTable.', '-/',
 'namespace Verif.LibTable', '',
 '/-- A public method of a library class: name, number of parameters without default, parameter types. -/',
 'structure Method where', '  name : Nat', '  req : Nat', '  params : List Nat', '',
 '/-- A library class, its base class (0 if none) and its public methods. -/',
 'structure Class where', '  name : Nat', '  base : Nat', '  methods : List Method', '',
 '/-- A library method accepted by the translator: full name of the class, name, parameter types. -/',
 'structure Call where', '  cls : Nat', '  name : Nat', '  args : List Nat', '']
need = {'Object', 'ValueType'}
for r in rows:
    if '(' in r:
        c = r.split('(')[0]
        c = c.split('..')[0].split('.')[-1] if '..' in c else c.split('.')[-2]
        need.add(c + 'Value' if c in prim else c)
names = []
for n, b, f, ms in classes:
    if n not in need: continue
    d = n[0].lower() + n[1:]
    names.append(d)
    out += [f'/-- {f}: public methods of `{n}`. -/', f'def {d}Class : Class := ⟨{code(n)}, {code(b) if b else 0}, [']
    out += [f'  ⟨{code(x[0])}, {x[1]}, [{", ".join(code(t) for t in x[2])}]⟩{"," if k < len(ms)-1 else ""} -- line {x[3]}: {x[0]}({", ".join(x[2])})' for k, x in enumerate(ms)]
    out += ['  ]⟩', '']
out += ['/-- The classes whose methods the translator accepts. -/', 'def library : List Class := [' + ', '.join(d + 'Class' for d in names) + ']', '',
 '/-- The method rows of ValidTypes.xml, in file order. -/', 'def calls : List Call := [']
cs = [r for r in rows if '(' in r]
for k, r in enumerate(cs):
    full, args = r[:-1].split('(', 1)
    if '..' in full: c, nm = full.split('..'); nm = '.' + nm
    else: c, nm = full.rsplit('.', 1)
    al = re.findall(r'[^,\[\]]+(?:\[[^\]]*\])?', args) if args else []
    assert c + '.' + nm + '(' + ','.join(al) + ')' == r
    out.append(f'  ⟨{code(c)}, {code(nm)}, [{", ".join(code(a) for a in al)}]⟩{"," if k < len(cs)-1 else ""} -- {r}')
out += [']', '', 'end Verif.LibTable', '']
open(os.path.join(os.path.dirname(os.path.abspath(__file__)), '..', 'lean/Verif/LibTable.lean'), 'w').write('\n'.join(out))
print(len(classes), sum(len(c[3]) for c in classes), len(cs), [ (c[0],c[1],len(c[3])) for c in classes if c[0] in need], need - {c[0] for c in classes})
