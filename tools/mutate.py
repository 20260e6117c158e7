#!/usr/bin/env python3
"""Seeded-bug testing: copies the Lake project to a scratch directory, applies one edit to one model
definition, rebuilds, and records which declarations no longer check.
usage: mutate.py MUTATIONS.json OUT.jsonl   (entries: file, old, new, claim, [nth], [lemmas], [admit], [targets])"""
import json, os, re, subprocess, sys, shutil
root = os.path.dirname(os.path.dirname(os.path.abspath(__file__)))
scratch = '/tmp/mut/lean'
pristine = '/tmp/mut/pristine'
def sh(c, **k): return subprocess.run(c, shell=True, capture_output=True, text=True, **k)
def fresh():
    sh(f'rm -rf {pristine} && cp -a {root}/lean {pristine} && rm -rf {pristine}/Verif {pristine}/Verif.lean'
       f' && git -C {root} archive HEAD lean | tar x --strip-components=1 -C {pristine}')
    r = sh('lake build', cwd=pristine)
    assert r.returncode == 0, r.stdout[-2000:]
def restore(): sh(f'rm -rf {scratch} && cp -a {pristine} {scratch}')
def decl_at(path, line):
    L = open(path).read().split('\n')
    for i in range(min(line, len(L)) - 1, -1, -1):
        m = re.match(r'(?:@\[[^\]]*\] )?(?:private )?(?:noncomputable )?(theorem|def|example|structure|instance|inductive|abbrev)\b ?(\S*)', L[i])
        if m: return m.group(2) if m.group(1) != 'example' else f'example@{os.path.basename(path)}:{i+1}'
    return '?'
def run(m):
    restore()
    p = f'{scratch}/Verif/Model/{m["file"]}' if '/' not in m['file'] else f'{scratch}/Verif/{m["file"]}'
    s = open(p).read()
    n = s.count(m['old'])
    if n < 1 or (n > 1 and 'nth' not in m): return dict(m, error=f'matches {n}')
    if 'nth' in m:
        parts = s.split(m['old']); k = m['nth']
        s2 = m['old'].join(parts[:k+1]) + m['new'] + m['old'].join(parts[k+1:])
        pos = len(m['old'].join(parts[:k+1]))
    else:
        pos = s.index(m['old']); s2 = s.replace(m['old'], m['new'])
    open(p, 'w').write(s2)
    # optional second stage: restate the evaluation lemmas so that they are true of the edited program (their proofs
    # are skipped, in the scratch copy only), to see whether the property theorems themselves notice the edit
    for f, o, n2 in m.get('lemmas', []):
        q = f'{scratch}/Verif/{f}'; t = open(q).read()
        if t.count(o) < 1: return dict(m, error=f'lemma text not found: {o}')
        open(q, 'w').write(t.replace(o, n2))
    for f, name in m.get('admit', []):
        q = f'{scratch}/Verif/{f}'; t = open(q).read()
        i = t.index(f'theorem {name} '); j = t.index(':= by', i); k = t.index('\n\n', j)
        open(q, 'w').write(t[:j] + ':= by\n  s' + 'orry' + t[k:])
    definition = decl_at(p, s2[:pos].count('\n') + 1)
    r = sh('timeout 1500 lake build ' + m.get('targets', '') + ' 2>&1', cwd=scratch)
    failed = []
    for mm in re.finditer(r'error: (?:\./)?(?:\././)?(Verif/\S+\.lean):(\d+):', r.stdout):
        d = decl_at(f'{scratch}/{mm.group(1)}', int(mm.group(2)))
        e = f'{os.path.basename(mm.group(1))[:-5]}/{os.path.dirname(mm.group(1)).split("/")[-1]}:{d}'
        if e not in failed: failed.append(e)
    return dict(definition=f'{m["file"]}:{definition}', edit=f'{m["old"]!r} -> {m["new"]!r}', claim_broken=m['claim'],
                theorems_failed=failed, theorems_tightened=[], **({'stage': 'the evaluation lemmas ' + ', '.join(x[1] for x in m['admit']) + ' were restated to be true of the edited program, so these failures are of the statements about it'} if m.get('admit') else {}), survived=(r.returncode == 0))
if __name__ == '__main__':
    fresh()
    out = open(sys.argv[2], 'a')
    for m in json.load(open(sys.argv[1])):
        x = run(m)
        out.write(json.dumps(x, ensure_ascii=False) + '\n'); out.flush()
        print('SURVIVED' if x.get('survived') else x.get('error') or 'killed', x.get('definition', m['file']), m['new'][:60].replace('\n', ' '), len(x.get('theorems_failed', [])), flush=True)
