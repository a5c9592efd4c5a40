#!/usr/bin/env python3
"""Seeded-bug runs.  For every entry of seeded/mutants.jsonl that is not yet in seeded/LOG.jsonl: copy the
Lean project to a scratch directory outside of /verif, apply the edit to one model definition, rebuild, and
record the declarations whose proofs fail.  An entry with no failing declaration is a survivor: a theorem
must be tightened (or the edit is harmless, which the log then says)."""
import json, os, re, shutil, signal, subprocess, sys, time
V = os.path.dirname(os.path.dirname(os.path.abspath(__file__)))
S = os.environ.get('SCRATCH', '/tmp/mut')
L = os.path.join(S, 'lean')
LIMIT = int(os.environ.get('LIMIT', '100000'))
log = os.path.join(V, 'seeded', 'LOG.jsonl')
done = set()
if os.path.exists(log):
    done = {json.loads(l)['mutant'] for l in open(log) if l.strip()}
muts = [json.loads(l) for l in open(os.path.join(V, 'seeded', 'mutants.jsonl')) if l.strip()]
only = set(sys.argv[1:])

def sync():
    """S/base: the last commit, built; S/lean: a copy of it to edit."""
    base = os.path.join(S, 'base')
    os.makedirs(base, exist_ok=True)
    head = subprocess.run(['git', '-C', V, 'rev-parse', 'HEAD'], capture_output=True, text=True).stdout.strip()
    stamp = os.path.join(base, 'STAMP')
    if not os.path.exists(stamp) or open(stamp).read() != head:
        shutil.rmtree(os.path.join(base, 'lean', 'Verif'), ignore_errors=True)
        subprocess.run('git -C %s archive HEAD lean | tar -x -C %s' % (V, base), shell=True, check=True)
        b = os.path.join(base, 'lean')
        if not os.path.exists(os.path.join(b, '.lake')):
            shutil.copytree(os.path.join(V, 'lean', '.lake'), os.path.join(b, '.lake'))
        subprocess.run(['lake', 'build'], cwd=b, capture_output=True, check=True)
        open(stamp, 'w').write(head)
    shutil.rmtree(L, ignore_errors=True)
    subprocess.run(['cp', '-a', os.path.join(base, 'lean'), L], check=True)

DECL = re.compile(r'^(?:@\[[^\]]*\]\s*)?(?:private |protected |noncomputable )*(?:theorem|lemma|def|instance|abbrev|structure|inductive|example)\s+(\S+)')
def enclosing(path, line):
    # an error at the first line of a comment (a timeout, say) belongs to the declaration that follows
    T = open(path, encoding='utf8').read().split('\n')
    if T[line - 1].startswith('/--'):
        while line < len(T) and not DECL.match(T[line - 1]): line += 1
    ns, name = [], '?'
    for k, t in enumerate(open(path, encoding='utf8'), 1):
        m = re.match(r'namespace\s+(\S+)', t)
        if m: ns = [m.group(1)]
        m = DECL.match(t)
        if m and k <= line: name = '.'.join(ns + [m.group(1)])
        if k > line: break
    return name

for m in muts:
    if m['mutant'] in done or (only and m['mutant'] not in only): continue
    sync()
    p = os.path.join(L, 'Verif', m['file'])
    s = open(p, encoding='utf8').read()
    if s.count(m['old']) < 1:
        print('NOT FOUND', m['mutant'], flush=True); continue
    if s.count(m['old']) > 1 and not m.get('first'):
        print('AMBIGUOUS', m['mutant'], s.count(m['old']), flush=True); continue
    open(p, 'w', encoding='utf8').write(s.replace(m['old'], m['new'], 1))
    t = time.time()
    # after LIMIT seconds a build that has failed already is stopped, so that only the first failing declarations are listed
    with open(os.path.join(S, 'out'), 'w') as f:
        r = subprocess.Popen(['lake', 'build'], cwd=L, stdout=f, stderr=f, start_new_session=True)
    stopped = False
    while r.poll() is None:
        time.sleep(1)
        if time.time() - t > LIMIT and 'error: Verif/' in open(os.path.join(S, 'out'), errors='replace').read():
            os.killpg(r.pid, signal.SIGTERM); r.wait(); stopped = True
    out = open(os.path.join(S, 'out'), errors='replace').read()
    bad = []
    for f, ln in re.findall(r'error: (Verif/[^:]+\.lean):(\d+):', out):
        n = enclosing(os.path.join(L, f), int(ln))
        if n not in bad: bad.append(n)
    e = {'mutant': m['mutant'], 'definition': m['definition'], 'edit': m['old'].strip() + '  =>  ' + m['new'].strip(),
         'file': 'lean/Verif/' + m['file'], 'claim_broken': m['claim'], 'theorems_failed': bad,
         'theorems_tightened': [], 'build_ok': r.returncode == 0, 'seconds': int(time.time() - t)}
    if stopped: e['stopped'] = True
    if m.get('note'): e['note'] = m['note']
    with open(log, 'a') as f: f.write(json.dumps(e, ensure_ascii=False) + '\n')
    print(('SURVIVED' if r.returncode == 0 else 'killed'), m['mutant'], len(bad), bad[:4], e['seconds'], flush=True)
