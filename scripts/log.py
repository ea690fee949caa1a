#!/usr/bin/env python3
"""Turn raw results of seed.py into lines of seeded/LOG.jsonl.

Usage: log.py DEPS.tsv TIGHTENED.json OUT1.jsonl OUT2.jsonl ...
DEPS.tsv: constant <tab> constants of Verif it uses. A claim whose proof rests on a failed helper lemma is lost
with it and is listed under "claims_lost".
TIGHTENED.json: {"definition | edit": [theorems written or tightened because that edit survived]}, or a text in place of
the list that says why no claim is false of the edited program.
"""
import collections, json, re, sys

users = collections.defaultdict(set)
names = collections.defaultdict(set)
for l in open(sys.argv[1]):
    n, _, used = l.rstrip('\n').partition('\t')
    names[n.split('.')[-1]].add(n)
    names[n.removeprefix('Verif.')].add(n)
    for u in used.split():
        users[u].add(n)
tight = json.load(open(sys.argv[2]))


def lost(failed):
    todo = [n for f in failed for n in names.get(f, ())]
    seen = set(todo)
    while todo:
        for u in users[todo.pop()]:
            if u not in seen:
                seen.add(u)
                todo.append(u)
    return sorted({s.split('.')[-1] for s in seen if re.match(r'C\d\d\d?_', s.split('.')[-1])})


for path in sys.argv[3:]:
    for l in open(path):
        m = json.loads(l)
        if m.get('error') or (m.get('failed') is not None and not m['failed'] and not m['ok']):
            continue
        failed = [f for f in m['failed'] if not f.startswith('example@')]
        examples = ['%s: %s' % (m['files'][0], f) for f in m['failed'] if f.startswith('example@')]
        t = tight.get(m['definition'] + ' | ' + m['edit'], [])
        print(json.dumps({
            'definition': m['definition'], 'edit': m['edit'], 'old': m['old'], 'new': m['new'], 'claim': m['claim'],
            'outcome': 'survived' if m['ok'] else 'caught', 'theorems_failed': failed,
            **({'examples_failed': examples} if examples else {}),
            'claims_lost': lost(failed), 'tightened': [] if isinstance(t, str) else t,
            **({'note': t} if isinstance(t, str) else {})},
            ensure_ascii=False))
