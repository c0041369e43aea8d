"""Extract the parser test cases of /repo and run the Lean model on them."""
import re, glob, subprocess, os
out = []
def unesc(s):
    s = re.sub(r'\\\n\s*', '', s)
    return re.sub(r'\\(.)', lambda m: {'n': '\n', 't': '\t', 'r': '\r', '0': '\0'}.get(m.group(1), m.group(1)), s)
STR = r'"((?:\\.|[^"\\])*)"'
for f in sorted(glob.glob('/repo/src/parser/tests/*.rs')):
    s = open(f).read()
    for m in re.finditer(r'SuccessTestCase::new\(\s*' + STR + r',\s*' + STR + r',\s*(\d+)', s, re.S):
        out.append(f'S\x02{unesc(m.group(1))}\x02{unesc(m.group(2))}\x02{m.group(3)}')
    for m in re.finditer(r'ErrorTestCase::new\(\s*' + STR + r',\s*([^,]+),\s*([^,)]+)', s, re.S):
        a, b = [x.strip().replace('usize::MAX', '4294967295') for x in m.group(2, 3)]
        out.append(f'E\x02{unesc(m.group(1))}\x02{a} {b}\x020')
    n = s.count('TestCase::new(')
    print(os.path.basename(f), n)
import shutil; shutil.copy(os.path.join(os.path.dirname(os.path.abspath(__file__)), 'Validate.lean.txt'), '/tmp/Validate.lean')
open('/tmp/cases.txt', 'w').write('\x01'.join(out))
print(len(out), 'cases')
here = os.path.dirname(os.path.abspath(__file__))
subprocess.run(['lake', 'env', 'lean', '--run', '/tmp/Validate.lean', '/tmp/cases.txt'], cwd=os.path.join(here, '..', 'lean'))
