#!/usr/bin/env python3
"""Generate lean/Verif/Model/Database.lean from the shipped XML (udunits2_combined.xml): one Tag per element, as built by
Tag.from_element.  The texts of <comment> and <definition> elements (prose, never read) are left out."""
import xml.etree.ElementTree as E, sys
SRC = '/repo/pyudunits2/udunits2_combined.xml'
root = E.parse(SRC).getroot()
[us] = [e for e in root.iter() if e.tag.split('}')[-1] == 'unit-system']
def q(s):
    return 'c!"' + s.replace('\\', '\\\\').replace('"', '\\"') + '"'
CON = {'prefix':'tPrefix','unit':'tUnit','value':'tValue','name':'tName','symbol':'tSymbol','def':'tDef','base':'tBase',
  'dimensionless':'tDimensionless','aliases':'tAliases','singular':'tSingular','plural':'tPlural','noplural':'tNoplural',
  'comment':'tComment','definition':'tDefinition'}
def lean(e):
    n = e.tag.partition('}')[2]
    t = (e.text or '').strip()
    if n in ('comment', 'definition'): t = ''
    cs = ', '.join(lean(c) for c in e)
    return f'.mk {CON[n]} [{cs}] {q(t)}' if t else f'.mk {CON[n]} [{cs}] []'
items = [lean(c) for c in us]
chunks = [items[i:i+40] for i in range(0, len(items), 40)]
o = ['import Verif.Model.Xml', '/-!', '# The shipped database (generated by tools/mkdb.py)', '',
 'The `unit-system` element of `pyudunits2/udunits2_combined.xml`, element by element, as `Tag.from_element` builds it',
 '(namespaces dropped, texts stripped).  The prose inside `comment` and `definition` elements is left out.', '-/', '',
 'namespace Verif.Db', '']
for k, v in CON.items():
    o.append(f'/-- tag name -/\nabbrev {v} : Str := c!"{k}"')
o.append('')
for i, ch in enumerate(chunks):
    o.append(f'/-- `udunits2_combined.xml`, children {40*i}–{40*i+len(ch)-1} of `unit-system` -/')
    o.append(f'def part{i} : List Tag := [')
    o.append(',\n'.join('  ' + x for x in ch))
    o.append(']\n')
o.append('/-- the whole `unit-system` element of `udunits2_combined.xml` -/')
o.append('def unitSystem : Tag := .mk c!"unit-system" (' + ' ++ '.join(f'part{i}' for i in range(len(chunks))) + ') []')
o.append('\nend Verif.Db')
open(sys.argv[1] if len(sys.argv) > 1 else '/verif/lean/Verif/Model/Database.lean', 'w').write('\n'.join(o) + '\n')
print(len(items))

# ---- what the declarations amount to (checked by the kernel against the model, not trusted) ----
def name(e):
    g = {c.tag.partition('}')[2]: (c.text or '').strip() for c in reversed(list(e))}
    s = g['singular']
    if 'noplural' in g: return (s, None)
    if 'plural' in g: return (s, g['plural'])
    return (s, s + ('es' if s.endswith(('s', 'sh', 'ch', 'x', 'z')) else 's'))
def lname(n):
    return f'⟨{q(n[0])}, {"none" if n[1] is None else "some " + q(n[1])}⟩'
def decl(u):
    nm, sy, an, asy, df, kind = None, [], [], [], None, None
    for c in u:
        t = c.tag.partition('}')[2]; x = (c.text or '').strip()
        if t == 'name': nm = name(c)
        elif t == 'symbol': sy.append(x)
        elif t == 'aliases':
            for a in c:
                at = a.tag.partition('}')[2]
                if at == 'name': an.append(name(a))
                elif at == 'symbol': asy.append(a.text.strip())
        elif t == 'def': df = x
        elif t in ('base', 'dimensionless'): kind = t
    L = lambda f, l: '[' + ', '.join(map(f, l)) + ']'
    ref = f'⟨{"none" if nm is None else "some " + lname(nm)}, {L(q, sy)}, {L(lname, an)}, {L(q, asy)}⟩'
    if df is not None: return f'.lazy {q(df)} {ref}', ('lazy', df, nm, sy, an, asy)
    b = lambda v: 'true' if v else 'false'
    return f'.basis ⟨{q(nm[0])}, {b(kind == "dimensionless")}, {b(nm[0] == "second")}, {ref}⟩', ('basis', nm[0], nm, sy, an, asy)
units = [c for c in us if c.tag.partition('}')[2] == 'unit']
prefixes = [c for c in us if c.tag.partition('}')[2] == 'prefix']
o = ['import Verif.Model.Xml', '/-!', '# What the shipped database declares (generated by tools/mkdb.py)', '',
 'The declarations of `udunits2_combined.xml` as values.  That these are what the model of the reader gets out of the',
 'transcribed document is proved in `Props/Database.lean`.', '-/', '', 'namespace Verif.Db', '']
UC = [units[i:i+40] for i in range(0, len(units), 40)]
for i, ch in enumerate(UC):
    o.append(f'/-- declarations of units {40*i}–{40*i+len(ch)-1} of `udunits2_combined.xml` -/')
    o.append(f'def decls{i} : List UnitDecl := [')
    o.append(',\n'.join('  ' + decl(u)[0] for u in ch))
    o.append(']\n')
o.append('/-- all units declared in `udunits2_combined.xml` -/')
o.append('def decls : List UnitDecl := ' + ' ++ '.join(f'decls{i}' for i in range(len(UC))))
o.append('\n/-- all prefixes declared in `udunits2_combined.xml`, symbols in document order -/')
o.append('def prefixes : List Prefix := [')
ps = []
for p in prefixes:
    g = {}
    for c in p: g.setdefault(c.tag.partition('}')[2], []).append((c.text or '').strip())
    ps.append(f'  ⟨{q(g["name"][0])}, {q(g["value"][0])}, [{", ".join(map(q, g.get("symbol", [])))}]⟩')
o.append(',\n'.join(ps)); o.append(']')
o.append('\nend Verif.Db')
open('/verif/lean/Verif/Model/Declarations.lean', 'w').write('\n'.join(o) + '\n')
print(len(units), len(prefixes))
