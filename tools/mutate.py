"""Apply seeded bugs one at a time to a scratch copy of the Lean project, rebuild, and log which
theorems fail.  Usage: mutate.py mutants.json ; appends to ../seeded/LOG.jsonl.
Each mutant: {"definition","file","old","new","edit","claim"}; "old" must occur exactly once."""
import json, os, re, shutil, subprocess, sys
here = os.path.dirname(os.path.abspath(__file__))
src = os.path.join(here, '..', 'lean')
scratch = '/tmp/mut/lean'
os.makedirs('/tmp/mut', exist_ok=True)
subprocess.run(['rsync', '-a', '--delete', src + '/', scratch + '/'], check=False) if shutil.which('rsync') else (
    shutil.rmtree(scratch, ignore_errors=True), shutil.copytree(src, scratch, symlinks=True))


def enclosing(path, line):
    name = None
    for i, l in enumerate(open(path), 1):
        if i > line:
            break
        m = re.match(r'\s*(?:@\[.*?\]\s*)?(?:private |noncomputable |protected )*(theorem|lemma|def|instance|example|structure|inductive|abbrev)\b\s*([^\s:({\[]*)', l)
        if m:
            name = m.group(2) if m.group(1) != 'example' else 'example@%d' % i
    return name


for mu in json.load(open(sys.argv[1])):
    f = os.path.join(scratch, mu['file'])
    orig = open(f).read()
    if orig.count(mu['old']) != 1:
        print('BAD PATTERN', orig.count(mu['old']), mu['edit']); continue
    open(f, 'w').write(orig.replace(mu['old'], mu['new']))
    r = subprocess.run(['lake', 'build'], cwd=scratch, capture_output=True, text=True)
    out = r.stdout + r.stderr
    failed = []
    for m in re.finditer(r'error: (?:\S*/)?(Verif/[\w/]+\.lean):(\d+):\d+', out):
        n = enclosing(os.path.join(scratch, m.group(1)), int(m.group(2)))
        t = '%s (%s)' % (n, m.group(1)[6:-5])
        if t not in failed:
            failed.append(t)
    open(f, 'w').write(orig)
    rec = {'definition': mu['definition'], 'edit': mu['edit'], 'claim': mu['claim'], 'failed': failed, 'tightened': mu.get('tightened', [])}
    print(json.dumps(rec)[:400], flush=True)
    if not failed:
        print('   *** SURVIVED', flush=True)
    with open(os.path.join(here, '..', 'seeded', 'LOG.jsonl'), 'a') as h:
        h.write(json.dumps(rec) + '\n')
