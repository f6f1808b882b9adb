#!/usr/bin/env python3
"""Generate lean/Verif/Spec/ShippedTable.lean: the meaning of every unit of udunits2_combined.xml, computed here with exact
fractions by a small evaluator that shares nothing with the model.  The kernel checks the model against this table
(Props/ShippedUnits.lean); the table is a specification, not trusted input of a proof."""
import re, sys, xml.etree.ElementTree as E
from fractions import Fraction as F
root = E.parse('/repo/pyudunits2/udunits2_combined.xml').getroot()
ln = lambda e: e.tag.partition('}')[2] if '}' in e.tag else e.tag
[us] = [e for e in root.iter() if isinstance(e.tag, str) and ln(e) == 'unit-system']
def name(e):
    g = {}
    for c in e: g.setdefault(ln(c), (c.text or '').strip())
    s = g['singular']
    if 'noplural' in g: return [s]
    return [s, g.get('plural') or s + ('es' if s.endswith(('s', 'sh', 'ch', 'x', 'z')) else 's')]
units, T = [], [dict(), dict(), dict(), dict()]   # names, alias names, symbols, alias symbols
pn, ps = {}, {}
for u in us:
    if ln(u) == 'prefix':
        v = F([c.text.strip() for c in u if ln(c) == 'value'][0])
        for c in u:
            if ln(c) == 'name': pn[c.text.strip()] = v
            if ln(c) == 'symbol': ps[c.text.strip()] = v
        continue
    if ln(u) != 'unit': continue
    k, d = [[], [], [], []], dict(id=len(units), df=None)
    for c in u:
        t = ln(c)
        if t == 'name': k[0] += name(c)
        elif t == 'symbol': k[2].append(c.text.strip())
        elif t == 'aliases':
            for a in c:
                if ln(a) == 'name': k[1] += name(a)
                elif ln(a) == 'symbol': k[3].append(a.text.strip())
        elif t == 'def': d['df'] = c.text.strip()
    d['k'] = k
    for i in range(4):
        for s in k[i]: T[i][s] = d
    units.append(d)
def find(n):
    for t in T:
        if n in t: return t[n]
class Bad(Exception): pass
def read(n):
    d = find(n)
    if d is not None: return value(d)
    for tab in (pn, ps):
        for p, v in tab.items():
            if n.startswith(p) and find(n[len(p):]) is not None:
                t, f, e = value(find(n[len(p):]))
                if t: raise Bad
                return (), v * f, e
    raise Bad(n)
TOK = re.compile(r'\s*(?:(?P<num>-?\d+\.?\d*(?:[eE][+-]?\d+)?|\.\d+(?:[eE][+-]?\d+)?)|(?P<id>[^\W\d]+(?:_[^\W\d]+)*|[°\'"%‰Ω″′Å]+[A-Za-z]*)|(?P<op>\^|\*|/|\.|·|\(|\)|@|-))')
def mul(a, b, s=1):
    e = dict(a[1])
    for k, v in b[1].items(): e[k] = e.get(k, 0) + s * v
    return (a[0] * b[0] ** s, {k: v for k, v in e.items() if v})
def parse(df):
    i, toks = 0, []
    df = df.strip()
    while i < len(df):
        m = TOK.match(df, i)
        if not m: raise Bad(df)
        toks.append((m.lastgroup, m.group(m.lastgroup), m.start(m.lastgroup) == i)); i = m.end()
    pos = 0
    def peek(): return toks[pos] if pos < len(toks) else (None, None, True)
    def atom():
        nonlocal pos
        k, v, _ = peek()
        if k == 'num': pos += 1; return (F(v), {})
        if k == 'id':
            if re.search(r'\d', v): raise Bad
            pos += 1
            t, f, e = read(v)
            if t: raise Bad(df)
            return (f, e)
        if v == '(':
            pos += 1; r = prod()
            if peek()[1] != ')': raise Bad(df)
            pos += 1; return r
        raise Bad(df)
    def power():
        nonlocal pos
        isnum = peek()[0] == 'num'
        a = atom()
        if peek()[1] == '^':
            pos += 1
            n = int(peek()[1]); pos += 1
            return (a[0] ** n, {k: v * n for k, v in a[1].items() if v * n})
        if peek()[0] == 'num' and peek()[2] and re.fullmatch(r'-?\d+', peek()[1]) and not isnum:
            n = int(peek()[1]); pos += 1
            return (a[0] ** n, {k: v * n for k, v in a[1].items() if v * n})
        return a
    def prod():
        nonlocal pos
        a = power()
        while True:
            k, v, _ = peek()
            if v in ('.', '*', '·'): pos += 1; a = mul(a, power())
            elif v == '/': pos += 1; a = mul(a, power(), -1)
            elif k in ('num', 'id') or v == '(': a = mul(a, power())
            else: return a
    if df.startswith('lg(re'):
        toks = toks[0:0]; inner = df[5:].strip()
        assert inner.endswith(')')
        t, f, e = parse(inner[:-1])
        assert not t
        return (('log', 10),), f, e
    if len(toks) == 1 and toks[0][0] == 'id': return read(toks[0][1])
    r = prod()
    if peek()[1] == '@':
        pos += 1; q = F(peek()[1]); pos += 1
        assert pos == len(toks)
        return (('off', q),), r[0], r[1]
    if pos != len(toks): raise Bad(df)
    return (), r[0], r[1]
memo = {}
def value(d):
    if d['id'] in memo:
        if memo[d['id']] is None: raise Bad
        return memo[d['id']]
    try:
        if d['df'] is None: v = ((), F(1), {d['k'][0][0]: 1})
        else: v = parse(d['df'])
    except Bad:
        memo[d['id']] = None; raise
    memo[d['id']] = v
    return v
sys.set_int_max_str_digits(0)
bad, rows = [], []
for d in units:
    sp = [s for t in d['k'] for s in t]
    try: v = value(d)
    except Bad: bad += sp; continue
    rows.append((sp, v))
q = lambda s: 'c!"' + s.replace('\\', '\\\\').replace('"', '\\"') + '"'
def rat(f): return f'{f.numerator}' if f.denominator == 1 else f'{f.numerator}/{f.denominator}'
def kind(t):
    if not t: return '.linear'
    return f'.offset ({rat(t[0][1])})' if t[0][0] == 'off' else '.log10'
o = ['import Verif.Py', '/-!', '# What the units of the shipped database mean (generated by tools/mktable.py)', '',
 'One line per unit of `udunits2_combined.xml`: its spellings, how values are to be read, its factor and the powers of the basis',
 'units.  Computed with exact fractions by an evaluator independent of the model.', '-/', '', 'namespace Verif.Spec', '',
 '/-- How `x` of a unit is to be read, `m` being its linear magnitude: `x m`, `(x + q) m`, `10^x m`, `2^x m`, `e^x m`. -/',
 'inductive Scale where', '  | linear', '  | offset (q : Rat)', '  | log10', '  | log2', '  | ln', '  deriving DecidableEq, Repr', '',
 '/-- A unit of the shipped database: all its spellings, its scale, `factor · Π basis^power`. -/',
 'structure ShippedUnit where', '  spellings : List Str', '  scale : Scale', '  factor : Rat', '  powers : List (Str × Int)', '  deriving DecidableEq', '']
C = [rows[i:i+40] for i in range(0, len(rows), 40)]
for i, ch in enumerate(C):
    o.append('/-- see `shipped` -/'); o.append(f'def shipped{i} : List ShippedUnit := [')
    o.append(',\n'.join(f'  ⟨[{", ".join(map(q, sp))}], {kind(t)}, {rat(f)}, [{", ".join(f"({q(k)}, {v})" for k, v in e.items())}]⟩' for sp, (t, f, e) in ch))
    o.append(']\n')
o.append('/-- every usable unit of `udunits2_combined.xml` -/')
o.append('def shipped : List ShippedUnit := ' + ' ++ '.join(f'shipped{i}' for i in range(len(C))))
o.append('\nend Verif.Spec')
open('/verif/lean/Verif/Spec/ShippedTable.lean', 'w').write('\n'.join(o) + '\n')
print(len(rows), 'units;', len(bad), 'unusable spellings:', sorted(bad))
