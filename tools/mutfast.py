"""Mutation testing with early stop: apply an edit to the model in a scratch copy, build, stop at the first failing module.
usage: [TARGETS="modules"] mutfast.py BATCH.json SCRATCH [FIRST STEP]   (BATCH: list of [file, definition, old, new, edit, claim])"""
import json, os, re, signal, subprocess, sys
batch, SCR = json.load(open(sys.argv[1])), sys.argv[2]
first, step = (int(sys.argv[3]), int(sys.argv[4])) if len(sys.argv) > 4 else (0, 1)
def thm(path, line):
    ls = open(os.path.join(SCR, path)).read().split('\n')
    for i in range(min(line, len(ls)) - 1, -1, -1):
        m = re.match(r'\s*(?:@\[[^\]]*\]\s*)?(?:private |protected )?(theorem|def|example|instance|structure)\s*([^\s:({\[]*)', ls[i])
        if m: return m.group(2) if m.group(1) == 'theorem' else m.group(1) + ' ' + m.group(2)
    return path
for f, d, old, new, edit, claim in batch[first::step]:
    src = os.path.join('/verif/lean/Verif', f)
    p = os.path.join(SCR, 'Verif', f)
    orig = open(src).read()
    if orig.count(old) != 1:
        print(json.dumps(['BAD', orig.count(old), d, edit]), flush=True); continue
    open(p, 'w').write(orig.replace(old, new))
    pr = subprocess.Popen(['lake', 'build'] + os.environ.get('TARGETS', '').split(), cwd=SCR, stdout=subprocess.PIPE, stderr=subprocess.STDOUT, text=True, start_new_session=True)
    fails = []
    for line in pr.stdout:
        for m in re.finditer(r'error: (Verif/\S+?\.lean):(\d+):', line):
            fails.append(m.group(1)[6:-5] + ': ' + thm(m.group(1), int(m.group(2))))
        if fails and line.startswith(('error: Lean exited', 'warning', 'info')) or len(fails) > 5:
            break
    try: os.killpg(pr.pid, signal.SIGKILL)
    except ProcessLookupError: pass
    pr.wait()
    open(p, 'w').write(orig)
    print(json.dumps({'definition': d, 'edit': edit, 'claim': claim, 'failed': list(dict.fromkeys(fails)), 'verdict': 'killed' if fails else 'SURVIVED'}, ensure_ascii=False), flush=True)
