#!/usr/bin/env python3
"""Seeded-bug runs. Usage: seed.py MUTATIONS.jsonl OUT.jsonl [SCRATCH]

Each line of MUTATIONS.jsonl: {"file": "Model/X.lean", "definition": ..., "old": ..., "new": ..., "edit": ..., "claim": ...}.
The edit is made in a scratch copy of lean/, the copy is rebuilt, and the theorems whose proofs fail are listed.
"""
import json, os, re, shutil, subprocess, sys

src = '/verif/lean'
muts, out = sys.argv[1], sys.argv[2]
dst = sys.argv[3] if len(sys.argv) > 3 else '/tmp/scratch/lean'


def sync():
    os.makedirs(dst, exist_ok=True)
    subprocess.run(['rsync', '-a', '--delete', src + '/', dst + '/'], check=False) if shutil.which('rsync') else (
        shutil.rmtree(dst), shutil.copytree(src, dst, symlinks=True))


def owner(path, line):
    """The declaration an error is in. An error of a whole theorem is reported at its doc comment, which belongs to it."""
    name = None
    with open(path) as f:
        texts = f.readlines()
        if texts[line - 1].startswith('/--'):
            while line < len(texts) and not re.match(r'(private |noncomputable )*(theorem|lemma|def|instance|structure|example)\b', texts[line - 1]):
                line += 1
        for n, text in enumerate(texts, 1):
            if n > line:
                break
            m = re.match(r'\s*(?:private |noncomputable |@\[[^\]]*\] )*(theorem|lemma|def|instance|structure|example)\b\s*([^\s:({\[]*)', text)
            if m:
                name = m.group(2) if m.group(1) != 'example' else 'example@%d' % n
    return name


def run(m):
    path = os.path.join(dst, 'Verif', m['file'])
    text = open(path).read()
    if text.count(m['old']) < 1:
        return {'error': 'pattern not found'}
    if text.count(m['old']) > 1 and not m.get('nth') and not m.get('all'):
        return {'error': 'pattern occurs %d times' % text.count(m['old'])}
    if m.get('nth'):
        parts = text.split(m['old'])
        k = m['nth']
        mutated = m['old'].join(parts[:k]) + m['new'] + m['old'].join(parts[k:])
    else:
        mutated = text.replace(m['old'], m['new'])
    open(path, 'w').write(mutated)
    p = subprocess.run(['lake', 'build'], cwd=dst, capture_output=True, text=True)
    open(path, 'w').write(text)
    log = p.stdout + p.stderr
    failed, files = [], set()
    for f, ln in re.findall(r'error: (?:\./)?(Verif/\S+\.lean):(\d+):', log):
        files.add(f)
        o = owner(os.path.join(dst, f), int(ln))
        tag = o or f
        if tag not in failed:
            failed.append(tag)
    if any(f.startswith('Verif/Model/') for f in files):
        return {'error': 'edited program does not compile: ' + ', '.join(failed)}
    return {'failed': failed, 'files': sorted(files), 'ok': p.returncode == 0}


if not os.path.isdir(dst):
    sync()
sync()
with open(out, 'a') as o:
    for l in open(muts):
        if not l.strip():
            continue
        m = json.loads(l)
        r = run(m)
        o.write(json.dumps({**m, **r}, ensure_ascii=False) + '\n')
        o.flush()
        print(('SURVIVED' if r.get('ok') else r.get('error') or 'killed'), m['definition'], '|', m['edit'], '|', r.get('failed', [])[:6], flush=True)
