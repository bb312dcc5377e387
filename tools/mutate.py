#!/usr/bin/env python3
"""Mutation test: apply each edit of a JSON list to a scratch copy of the Lean project and report which
property theorems no longer prove.

usage: mutate.py mutants.json [--log] [--fast]
With MUT_TARGETS (names of modules) only these and what they import are built and looked at.
mutant: {"definition":..., "file": "Verif/Model/X.lean", "old":..., "new":..., "claim": "Cnn: ..."}
A failing lemma is replaced by a hole in the scratch copy, so that every theorem downstream is still
checked; a theorem counts as failed when its own proof fails or when it depends on a failed lemma.
"""
import json, sys, re, os, subprocess, shutil, glob
S = os.environ.get('MUT_DIR', '/tmp/mutscratch')
TARGETS = os.environ.get('MUT_TARGETS', '').split()
SRC = S + '.src/lean'  # snapshot of the last commit
def snapshot():
    shutil.rmtree(S + '.src', ignore_errors=True); os.makedirs(S + '.src')
    subprocess.run('git -C /verif archive HEAD lean MANIFEST.json | tar -x -C %s.src' % S, shell=True, check=True)
def copy():
    if not os.path.exists(S + '/lakefile.toml'):
        shutil.rmtree(S, ignore_errors=True)
        shutil.copytree('/verif/lean', S, symlinks=True)
    want = set()
    for r, d, fs in os.walk(SRC):
        if '.lake' in r: continue
        for f in fs:
            p = os.path.join(r, f); q = S + p[len(SRC):]; want.add(q)
            a = open(p, 'rb').read()
            if not os.path.exists(q) or open(q, 'rb').read() != a:
                os.makedirs(os.path.dirname(q), exist_ok=True); open(q, 'wb').write(a)
    for q in glob.glob(S + '/Verif/**/*.lean', recursive=True):
        if q not in want: os.remove(q)
DECL = re.compile(r'^(?:@\[[^\]]*\]\s*)?(?:private |protected |noncomputable )*(theorem|lemma|example|def|abbrev|structure|inductive|instance|namespace|end|section|open|variable|/--|/-!|set_option|mutual|attribute|local)\b|^/-', re.M)
def build():
    r = subprocess.run(['lake', 'build'] + TARGETS, cwd=S, capture_output=True, text=True)
    out = r.stdout + r.stderr
    errs = sorted(set(re.findall(r'^error: (\S+?\.lean):(\d+):\d+:', out, re.M)))
    return r.returncode, errs, out
def hole(f, ln):
    """replace the proof of the declaration around line ln by a hole; returns its name"""
    p = S + '/' + f; L = open(p).read().split('\n')
    i = ln - 1
    while i >= 0 and not re.match(r'^(?:@\[[^\]]*\]\s*)?(?:private |protected |noncomputable )*(theorem|example|def|abbrev|instance|inductive|structure)\b', L[i]): i -= 1
    if i < 0: return None
    m = re.match(r'^(?:@\[[^\]]*\]\s*)?(?:private |protected |noncomputable )*(theorem|example|def|abbrev|instance|inductive|structure)\s*(\S*)', L[i])
    if m.group(1) not in ('theorem', 'example'): return 'DEF ' + m.group(2)
    j = i + 1
    while j < len(L) and not (L[j][:1] not in ('', ' ', '|', '\t', '·', ')') ): j += 1
    body = '\n'.join(L[i:j])
    k = find_assign(body)
    if k is None: return 'NOASSIGN ' + m.group(2)
    new = body[:k] + ':= sorry'
    pad = body.count('\n') - new.count('\n')
    L[i:j] = (new + '\n' * pad).split('\n')
    open(p, 'w').write('\n'.join(L))
    return m.group(2) if m.group(1) == 'theorem' else 'example@%s:%d' % (f, i + 1)
def find_assign(b):
    b = re.sub(r"'[^'\\]'", "'_'", b)
    b = re.sub(r'"[^"\n]*"', lambda m: '"' + '_' * (len(m.group(0)) - 2) + '"', b)
    d = 0
    for k in range(len(b) - 1):
        c = b[k]
        if c in '([{⟨': d += 1
        elif c in ')]}⟩': d -= 1
        elif d == 0 and b[k:k+2] == ':=' : 
            # skip `let x := e` in statements
            line = b[b.rfind('\n', 0, k) + 1:k]
            if re.match(r'\s*(let|have)\b', line) or re.search(r'[(;∃,:→]\s*let \S+( : [^=]*)?\s*$', line): continue
            return k
        elif d == 0 and c == '\n' and b[k+1:].lstrip().startswith('| ') and not re.search(r'\bmatch\b', b[:k]):
            return k + 1
    return None
def run(mt):
    copy()
    edits = mt.get('edits') or [mt]
    for e in edits:
        p = S + '/' + (e.get('file') or mt['file']); t = open(p).read()
        if t.count(e['old']) < 1: return None, 'PATTERN NOT FOUND'
        if t.count(e['old']) > 1 and not e.get('multi'): return None, 'PATTERN AMBIGUOUS %d' % t.count(e['old'])
        open(p, 'w').write(t.replace(e['old'], e['new']))
    lem, seen = [], set()
    ths = [t for c in json.load(open(S + '.src/MANIFEST.json'))['claims'] for t in c['theorems']]
    for r in range(12):
        rc, errs, out = build()
        if rc == 0: break
        new = False; done = set()
        for f, ln in errs:
            n = hole(f, int(ln))
            if n and n.startswith('DEF'): return None, 'model does not compile: ' + n + out[-1500:]
            if n and n not in seen: seen.add(n); lem.append(n); new = True
            
        if not new: return None, 'stuck: ' + out[-1500:]
        # with --fast two rounds are enough once a property theorem failed
        hit = [t for t in ths if t.split('.')[-1] in lem]
        if '--fast' in sys.argv and hit and r >= 1: return (hit, lem), ''
    else: return None, 'no convergence'
    open(S + '/Ax.lean', 'w').write(''.join('import %s\n' % x for x in TARGETS or ['Verif']) + ''.join('#print axioms %s\n' % t for t in ths))
    r = subprocess.run(['lake', 'env', 'lean', 'Ax.lean'], cwd=S, capture_output=True, text=True)
    os.remove(S + '/Ax.lean')
    failed = re.findall(r"'(\S+)' depends on axioms: \[[^\]]*sorryAx", r.stdout)
    return (failed, lem), ''
if __name__ == '__main__':
    snapshot()
    for mt in json.load(open(sys.argv[1])):
        res, why = run(mt)
        print('==', mt['definition'], '|', mt['claim'])
        if res is None: print('   ERROR', why); continue
        failed, lem = res
        print('   failed:', ' '.join(t.replace('PT.Props.', '') for t in failed) or '*** SURVIVED ***')
        print('   broken:', ' '.join(lem))
        if '--log' in sys.argv:
            ed = mt.get('edits') or [mt]
            with open('/verif/seeded/LOG.jsonl', 'a') as fh:
                fh.write(json.dumps(dict(definition=mt['definition'], edit=' ; '.join(e['old'].strip() + '  ==>  ' + e['new'].strip() for e in ed),
                    claim=mt['claim'], failed=failed, broken=lem, tightened=mt.get('tightened', [])), ensure_ascii=False) + '\n')
        sys.stdout.flush()
