"""Print the axioms of every manifest theorem into DESIGN.md (section 6). Needs a built project."""
import json, os, re, subprocess
root = os.path.join(os.path.dirname(os.path.abspath(__file__)), '..')
ths = [t for c in json.load(open(root + '/MANIFEST.json'))['claims'] for t in c['theorems']]
f = '/tmp/ax_all.lean'
open(f, 'w').write('import Verif\n' + ''.join(f'#print axioms {t}\n' for t in ths))
out = subprocess.run(['lake', 'env', 'lean', f], cwd=root + '/lean', capture_output=True, text=True).stdout
out = out.replace('\n ', ' ')
groups = {}
for t in ths:
    m = re.search(r"'%s' depends on axioms: \[([^\]]*)\]" % re.escape(t), out)
    if m: key = ', '.join(sorted(x.strip() for x in m.group(1).split(',')))
    else:
        assert f"'{t}' does not depend on any axioms" in out, t
        key = 'none'
    groups.setdefault(key, []).append(t.replace('Verif.', ''))
body = ''
for k, v in sorted(groups.items()):
    body += f'* **{k}** ({len(v)}): ' + ', '.join(f'`{x}`' for x in v) + '\n'
d = open(root + '/DESIGN.md').read()
i = d.index('<!-- AXIOMS -->')
open(root + '/DESIGN.md', 'w').write(d[:i] + '<!-- AXIOMS -->\n\n(all in namespace `Verif`)\n\n' + body)
print({k: len(v) for k, v in groups.items()})
