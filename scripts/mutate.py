"""Seed bugs into a scratch copy of the model and see which theorems notice.

usage: mutate.py specs.json   (list of {id, file, def, old, new, claim, expect: [property ids], tightened?})
       mutate.py --recheck    (repeat the logged attempts and correct their lists of failed theorems)
The project is copied to /tmp/mut for every attempt; /verif is never touched except seeded/LOG.jsonl.

Every attempt is logged, whether or not the theorems noticed; `missed` lists the properties that were
expected to break but did not. A module that fails hides the modules importing it, so the declarations that
fail are removed and the copy is built again until it compiles: the theorems removed are those that fail
themselves or use one that does.
"""
import json, re, subprocess, sys, os, glob, time

SRC = os.environ.get('MUT_SRC', '/verif/lean'); MUT = '/tmp/mut/lean'; LOG = '/verif/seeded/LOG.jsonl'
HEAD = re.compile(r'^(?:@\[[^\]]*\] )?(?:private |noncomputable |protected |nonrec )*(theorem|lemma|def|structure|inductive|abbrev|example|instance)\b ?(\S*)')
PREFIX = re.compile(r'^(open .* in|omit .* in|set_option .* in|include .* in|@\[.*\])\s*$')

def decls(lines):
    """[(kind, name, first line, last line)] (0-based, inclusive) including docstring and prefixes."""
    out = []
    for i, l in enumerate(lines):
        m = HEAD.match(l)
        if not m: continue
        e = i
        while e + 1 < len(lines) and (lines[e + 1] == '' or lines[e + 1][0] in ' ·'): e += 1
        s = i
        while s > 0 and PREFIX.match(lines[s - 1]): s -= 1
        if s > 0 and lines[s - 1].rstrip().endswith('-/'):
            d = s - 1
            while d >= 0 and not lines[d].startswith('/-'): d -= 1
            if d >= 0 and lines[d].startswith('/--'): s = d
        while s > 0 and PREFIX.match(lines[s - 1]): s -= 1
        out.append((m.group(1), m.group(2), s, e))
    return out

def run(spec):
    os.makedirs('/tmp/mut', exist_ok=True)
    subprocess.run(['rm', '-rf', MUT]); subprocess.run(['cp', '-a', SRC, MUT], check=True)
    p = f"{MUT}/{spec['file']}"; s = open(p).read()
    n = s.count(spec['old'])
    if n != 1: return {'error': f'pattern occurs {n} times'}
    open(p, 'w').write(s.replace(spec['old'], spec['new']))
    t = time.time(); removed = set()
    for rnd in range(40):
        r = subprocess.run(['lake', 'build'], cwd=MUT, capture_output=True, text=True, timeout=3000)
        out = r.stdout + r.stderr
        if r.returncode == 0: break
        errs = {}
        for f, l in re.findall(r'error: (Verif/\S+?\.lean):(\d+)', out): errs.setdefault(f, set()).add(int(l) - 1)
        if any('/Model/' in f or '/Spec/' in f for f in errs):
            return {'error': 'model does not compile: ' + re.search(r'error: Verif/[^\n]*\n?[^\n]*', out).group(0)[:300]}
        if not errs: return {'error': 'build failed without a location: ' + out[-300:]}
        for f, ls in errs.items():
            lines = open(f'{MUT}/{f}').read().split('\n'); hit = 0
            for kind, name, a, b in decls(lines):
                if kind in ('theorem', 'lemma', 'example') and any(a <= l <= b for l in ls):
                    removed.add(name if kind != 'example' else f'example {f}:{a + 1}'); hit += 1
                    lines[a:b + 1] = [''] * (b + 1 - a)
            if not hit: return {'error': f'cannot attribute errors in {f}: {sorted(ls)[:5]}'}
            open(f'{MUT}/{f}', 'w').write('\n'.join(lines))
    else:
        return {'error': 'too many rounds'}
    return {'failed': sorted(n for n in removed if re.match(r'C\d\d', n)), 'rounds': rnd, 'secs': round(time.time() - t)}

def missed(expect, failed):
    return [e for e in expect if not any(t.startswith(e + '_') for t in failed)]

def load(): return [json.loads(l) for l in open(LOG)] if os.path.exists(LOG) else []

def save(L):
    open(LOG + '.new', 'w').write(''.join(json.dumps(e, ensure_ascii=False) + '\n' for e in L)); os.replace(LOG + '.new', LOG)

def report(i, r, ms): print(i, 'MISSED ' + str(ms) if ms else 'ok', r['secs'], 's', r['rounds'], 'rounds', r['failed'], flush=True)

if __name__ == '__main__':
    if sys.argv[1] == '--recheck':
        for i in [e['id'] for e in load() if e.get('method') != 'exact' and 'superseded' not in e]:
            e = next(e for e in load() if e['id'] == i and 'superseded' not in e)
            r = run({'file': 'Verif/Model/' + e['definition'].split('.')[0] + '.lean', **e['edit']})
            if 'error' in r: print(i, 'INVALID', r['error'], flush=True); continue
            L = load(); e = next(e for e in L if e['id'] == i and 'superseded' not in e)
            e['theorems_failed'] = r['failed']; e['method'] = 'exact'; e.pop('missed', None)
            ms = missed(e['properties'], r['failed'])
            if ms: e['missed'] = ms
            save(L); report(i, r, ms)
        sys.exit()
    for sp in json.load(open(sys.argv[1])):
        if any(e['id'] == sp['id'] and 'superseded' not in e and not e.get('missed') for e in load()): continue
        r = run(sp)
        if 'error' in r: print(sp['id'], 'INVALID', r['error'], flush=True); continue
        ms = missed(sp['expect'], r['failed']); report(sp['id'], r, ms)
        L = load()
        for e in L:
            if e['id'] == sp['id']: e['superseded'] = 'repeated below'
        rec = {'id': sp['id'], 'definition': sp['file'].replace('Verif/Model/', '').replace('.lean', '') + '.' + sp.get('def', ''),
               'edit': {'old': sp['old'], 'new': sp['new']}, 'claim_broken': sp['claim'], 'properties': sp['expect'],
               'theorems_failed': r['failed'], 'theorems_tightened': sp.get('tightened', []), 'method': 'exact'}
        if ms: rec['missed'] = ms
        save(L + [rec])
