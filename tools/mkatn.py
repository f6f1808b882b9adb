"""Transcribe `serializedATN()` of the generated lexer and parser (read as text, not executed) into
lean/Verif/Model/AtnData.lean.  Trusted: that the integers are copied."""
import ast, os
HERE = os.path.dirname(os.path.abspath(__file__))
OUT = os.path.join(HERE, '..', 'lean', 'Verif', 'Model', 'AtnData.lean')
BASE = '/repo/pyudunits2/_grammar/parser/'
def data(path):
    for n in ast.parse(open(path).read()).body:
        if isinstance(n, ast.FunctionDef) and n.name == 'serializedATN':
            return [ast.literal_eval(x) for x in n.body[0].value.elts], n.lineno, n.end_lineno
def emit(out, name, f, doc):
    d, a, b = data(BASE + f)
    n = 250
    parts = [d[i:i + n] for i in range(0, len(d), n)]
    for i, p in enumerate(parts):
        body, line = [], '  ['
        for j, x in enumerate(p):
            s = str(x) + (', ' if j + 1 < len(p) else ']')
            if len(line) + len(s) > 116: body.append(line.rstrip()); line = '   '
            line += s
        body.append(line)
        out.append(f'/-- `_grammar/parser/{f}:{a}-{b}`, part {i} -/')
        out.append(f'def {name}{i} : List Int :=\n' + '\n'.join(body) + '\n')
    out.append(f'/-- {doc} (`_grammar/parser/{f}:{a}-{b}`). -/')
    out.append(f'def {name} : List Int :=\n  ' + ' ++ ('.join(f'{name}{i}' for i in range(len(parts))) + ')' * (len(parts) - 1) + '\n')
out = ['/-!', '# The serialized automata of the generated lexer and parser', '',
       'Generated by `tools/mkatn.py` from the integer lists in `_grammar/parser/udunits2Lexer.py` and',
       '`_grammar/parser/udunits2Parser.py`.  Do not edit.', '-/', '', 'namespace Verif', '']
emit(out, 'lexerAtnData', 'udunits2Lexer.py', 'What `serializedATN()` of the generated lexer returns')
emit(out, 'parserAtnData', 'udunits2Parser.py', 'What `serializedATN()` of the generated parser returns')
out.append('end Verif')
open(OUT, 'w').write('\n'.join(out) + '\n')
