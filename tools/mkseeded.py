"""Turn the raw results of the mutation runs (in /tmp/mut, outside /verif) into seeded/LOG.jsonl.
One line per attempt: what was edited, how, which claim it breaks, which theorems failed, and which
theorems were tightened or added because of it."""
import json, os, sys
TIGHT = {
 'x5': ['C51_unit_elements'], 'x6': ['C51_unit_elements'], 'x8': ['C51_unit_elements'], 'x10': ['C51_documents'],
 'p1': ['C43_superscript_texts', 'C30_superscripts'], 'p6': ['C30_log_functions'],
 'l5': ['C29_token_shapes', 'C47 (identRanges spelled out)'], 'l8': ['C29_tokens_by_mode'],
 'u4': ['C24_time_unit_iff'], 's6': ['C03_lookup_finds_existing'], 's16': ['C52_prefix_registered', 'C52_prefixed_spellings_found', 'C52_prefixed_unit'],
}
extra = '/tmp/mut/tight.json'
if os.path.exists(extra): TIGHT.update(json.load(open(extra)))
EQUIV = {
 'ud3': 'claim still true: normalisation never changes an expression it accepts (normalise_id), so the result is the same',
 'q2': 'claim still true: the condition only decides when the SLL stage gives up; the full-context stage then decides, with the same result',
 'q7': 'claim still true: in full context no configuration can finish the start rule before EOF, so nothing is forgotten',
 'g8': 'claim still true: the items of a list are unwrapped before the list is, so one step is enough',
 'uu10': 'claim still true, see the claim text', 'uu14': 'claim still true, see the claim text',
 'xx22': 'claim still true: hashing less keeps equal objects equal',
 'll1': 'claim still true: every mode has a catch-all rule, so no character is ever unmatched',
 'll12': 'claim still true: a cached edge gives what would be computed',
}
out = []
seen = set()
for f in ('results.jsonl', 'results2.jsonl', 'results3.jsonl', 'results4.jsonl', 'results5.jsonl', 'results6.jsonl', 'results7.jsonl', 'results8.jsonl'):
    p = '/tmp/mut/' + f
    if not os.path.exists(p): continue
    for l in open(p):
        r = json.loads(l)
        if f in ('results7.jsonl', 'results8.jsonl'):
            if r['id'] in seen: continue
            seen.add(r['id'])
        failed = sorted({t for ts in r['failed'].values() for t in ts if not t.startswith('example@')})
        ex = sum(1 for ts in r['failed'].values() for t in ts if t.startswith('example@'))
        hit = r.get('claims_hit') or []
        killed = bool(r['failed'])
        out.append({
            'id': r['id'], 'run': f, 'definition': r['definition'], 'file': r['file'],
            'edit': {'old': r['old'], 'new': r['new']},
            'claim_broken': f"{r['prop']}: {r['claim']}",
            'verdict': 'equivalent mutant (' + EQUIV[r['id']] + ')' if r['id'] in EQUIV and not killed else 'killed' if hit else ('only examples/lemmas failed' if killed else 'survived'),
            'theorems_failed': sorted(set(failed) | set(hit)),
            'failed_directly': failed, 'examples_failed': ex,
            'theorems_tightened': TIGHT.get(r['id'], []) if f == 'results.jsonl' or r['id'] not in ('u4',) else [],
        })
path = os.path.join(os.path.dirname(__file__), '..', 'seeded', 'LOG.jsonl')
with open(path, 'w') as g:
    for o in out: g.write(json.dumps(o, ensure_ascii=False) + '\n')
print(len(out), sum(o['verdict'] == 'survived' for o in out))
