"""Mutation testing: apply an edit to the model in a scratch copy, rebuild, report which theorems fail.
usage: mutate.py BATCH.json   (list of {"file","def","old","new","edit","claim"})"""
import json, subprocess, sys, os, re, shutil
ROOT = '/verif/lean'
SCR = sys.argv[2] if len(sys.argv) > 2 else '/tmp/mut/lean'
subprocess.run(['rsync', '-a', '--delete', ROOT + '/', SCR + '/'], check=True) if shutil.which('rsync') else (
    shutil.rmtree(SCR, ignore_errors=True), shutil.copytree(ROOT, SCR, symlinks=True))
def theorem_at(path, line):
    ls = open(os.path.join(SCR, path)).read().split('\n')
    for i in range(min(line, len(ls)) - 1, -1, -1):
        m = re.match(r'\s*(?:@\[[^\]]*\]\s*)?(?:private |protected )?(theorem|def|example|instance|structure)\s*([^\s:({\[]*)', ls[i])
        if m: return m.group(1) + ' ' + m.group(2) if m.group(1) != 'theorem' else m.group(2)
    return path
def manifest():
    d = json.load(open('/verif/MANIFEST.json'))
    return {t: c['property'] for c in d['claims'] for t in c['theorems']}
for mu in json.load(open(sys.argv[1])):
    p = os.path.join(SCR, mu['file'])
    orig = open(p).read()
    if orig.count(mu['old']) < 1:
        print('NOT FOUND', mu['def'], mu['edit'], flush=True); continue
    open(p, 'w').write(orig.replace(mu['old'], mu['new'], 1))
    try:
        r = subprocess.run(['nice', '-n', '10', 'lake', 'build'], cwd=SCR, capture_output=True, text=True, timeout=3000)
        txt = r.stdout + r.stderr
    except subprocess.TimeoutExpired:
        txt = 'error: Verif.lean:1:0: timeout'; 
    fails, mods = [], []
    for m in re.finditer(r'error: (Verif/\S+?\.lean):(\d+):', txt):
        t = theorem_at(m.group(1), int(m.group(2)))
        if t not in fails: fails.append(t)
    for m in re.finditer(r'✖ \[\d+/\d+\] \S+ (\S+)', txt):
        if m.group(1) not in mods: mods.append(m.group(1))
    # property theorems in modules which (transitively) import a failed module cannot be built either
    imp = {}
    for d, _, fs in os.walk(os.path.join(SCR, 'Verif')):
        for f in fs:
            if f.endswith('.lean'):
                mod = os.path.relpath(os.path.join(d, f), SCR)[:-5].replace('/', '.')
                imp[mod] = re.findall(r'^import (Verif\S+)', open(os.path.join(d, f)).read(), re.M)
    bad = set(mods)
    while True:
        n = {m for m in imp if m not in bad and any(i in bad for i in imp[m])}
        if not n: break
        bad |= n
    res = {'definition': mu['def'], 'edit': mu['edit'], 'breaks': mu['claim'], 'failed': fails,
           'unbuilt_property_modules': sorted(m for m in bad if '.Props.' in m), 'tightened': []}
    if not fails: res['verdict'] = 'SURVIVED'
    print(json.dumps(res), flush=True)
    open(p, 'w').write(orig)
