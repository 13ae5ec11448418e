"""Random single-token edits of the model: which ones does no theorem notice?

usage: automut.py PER_FILE SEED [file ...]
       automut.py PER_DEFINITION SEED --untested     (definitions that occur in neither of the logs)
For every file of Verif/Model a few places (operators, comparisons, constants, projections, conditions) are
chosen at random, edited in the scratch copy /tmp/amut and the project is built until the first error.
Results go to seeded/AUTO.jsonl: `killed` (first declaration that fails), `survived` (the whole project still
builds: look at it by hand, tighten a theorem or find the edit equivalent) or `invalid` (does not compile).
"""
import json, os, random, re, subprocess, sys, time, glob
sys.path.insert(0, os.path.dirname(__file__))
import mutate

SRC = os.environ.get('MUT_SRC', '/tmp/mutsrc'); MUT = '/tmp/amut/lean'; LOG = '/verif/seeded/AUTO.jsonl'
OPS = [(r' \+ ', [' - ']), (r' - ', [' + ']), (r' \* ', [' / ']), (r' / ', [' * ']), (r' < ', [' ≤ ', ' > ']),
       (r' ≤ ', [' < ', ' ≥ ']), (r' > ', [' ≥ ']), (r' ≥ ', [' > ']), (r'\bmax\b', ['min']), (r'\bmin\b', ['max']),
       (r' && ', [' || ']), (r' ∧ ', [' ∨ ']), (r' ∨ ', [' ∧ ']), (r'\btrue\b', ['false']), (r'\bfalse\b', ['true']),
       (r'\.1\b', ['.2']), (r'\.2\b', ['.1']), (r'(?<![\w.])(\d+)(?![\w.])', ['N+1']), (r'\bif ([^()\n]*?) then', ['NEG']),
       (r' = ', [' ≠ ']), (r' ≠ ', [' = ']), (r'\bsome \(', ['DROPSOME']), (r'\bisNone\b', ['isSome']),
       (r'\bisSome\b', ['isNone']), (r'\bhead\?', ['getLast?']), (r'\bgetLast\?', ['head?'])]

def places(text):
    """(position, end, replacement, definition) inside of definition bodies"""
    lines = text.split('\n'); off = [0]
    for l in lines: off.append(off[-1] + len(l) + 1)
    out = []
    for i, l in enumerate(lines):
        m = mutate.HEAD.match(l)
        if not m or m.group(1) not in ('def', 'abbrev'): continue
        e = i
        while e + 1 < len(lines) and (lines[e + 1] == '' or lines[e + 1][0] in ' ·|'): e += 1
        a, b = off[i], off[e + 1]
        body = text[a:b]
        k = re.search(r':=|\n  \|', body)
        if not k: continue
        for rx, reps in OPS:
            for x in re.finditer(rx, body[k.start():]):
                s, t = a + k.start() + x.start(), a + k.start() + x.end()
                ln = text[text.rfind('\n', 0, s) + 1:s]
                if '--' in ln or x.group(0) == ' = ' and ln.rstrip().endswith('let'): continue
                for r in reps:
                    if r == 'N+1': r = str(int(x.group(1)) + 1)
                    elif r == 'NEG': r = f'if ¬ ({x.group(1)}) then'
                    elif r == 'DROPSOME': continue
                    out.append((s, t, r, m.group(2)))
    return out

def build():
    p = subprocess.Popen(['nice', 'lake', 'build'], cwd=MUT, stdout=subprocess.PIPE, stderr=subprocess.STDOUT, text=True,
                         start_new_session=True)
    hit = None; t = time.time()
    for line in p.stdout:
        m = re.match(r'error: (Verif/\S+?\.lean):(\d+)', line)
        if m: hit = (m.group(1), int(m.group(2)) - 1, line.strip()[:160]); break
        if time.time() - t > 1500: hit = ('timeout', 0, 'timeout'); break
    if hit:
        os.killpg(p.pid, 15)
    p.wait()
    return hit

def main(n, seed, files):
    done = {(e['file'], e['old'], e['new'], e['at']) for e in map(json.loads, open(LOG))} if os.path.exists(LOG) else set()
    files = files or sorted(os.path.basename(f) for f in glob.glob(f'{SRC}/Verif/Model/*.lean'))
    jobs = []
    fresh = files == ['--untested']
    if fresh:
        files = sorted(os.path.basename(f) for f in glob.glob(f'{SRC}/Verif/Model/*.lean'))
        seen = open(LOG).read() + open('/verif/seeded/LOG.jsonl').read()
    for f in files:
        text = open(f'{SRC}/Verif/Model/{f}').read()
        ps = places(text); random.Random(f'{seed}{f}').shuffle(ps)
        if fresh:
            count = {}
            for p in ps:
                k = count[p[3]] = count.get(p[3], 0) + 1
                if k <= n and not re.search(r'"[^"]*\b' + re.escape(p[3]) + '"', seen): jobs.append((k, f, p))
            continue
        jobs += [(k, f, p) for k, p in enumerate(ps[:n])]
    jobs.sort()
    for k, f, (s, t, r, d) in jobs:
        text = open(f'{SRC}/Verif/Model/{f}').read()
        a, b = text.rfind('\n', 0, s) + 1, text.find('\n', t)
        old, new = text[a:b], text[a:s] + r + text[t:b]
        key = (f, old, new, text.count('\n', 0, s) + 1)
        if key in done: continue
        subprocess.run(['rm', '-rf', MUT]); os.makedirs('/tmp/amut', exist_ok=True)
        subprocess.run(['cp', '-a', SRC, MUT], check=True)
        open(f'{MUT}/Verif/Model/{f}', 'w').write(text[:s] + r + text[t:])
        t0 = time.time(); h = build()
        rec = {'file': f, 'def': d, 'at': key[3], 'old': old, 'new': new}
        if h is None: rec['result'] = 'survived'
        elif '/Model/' in h[0] or '/Spec/' in h[0] or h[0] == 'timeout': rec['result'] = 'invalid'
        else:
            rec['result'] = 'killed'
            for kind, name, x, y in mutate.decls(open(f'{MUT}/{h[0]}').read().split('\n')):
                if x <= h[1] <= y: rec['by'] = name if kind != 'example' else f'example {h[0]}:{x + 1}'
        open(LOG, 'a').write(json.dumps(rec, ensure_ascii=False) + '\n')
        print(rec['result'], round(time.time() - t0), f, d, key[3], new.strip(), rec.get('by', ''), flush=True)

if __name__ == '__main__': main(int(sys.argv[1]), sys.argv[2], sys.argv[3:])
