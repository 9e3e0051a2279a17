#!/usr/bin/env python3
"""Writes COVERAGE.md: for each source file of /repo, the lines cited by the definitions of the model."""
import re, glob, os
ROOT = '/repo/'
cited = {}
pat = re.compile(r'((?:src|lib|ptest|test)/[\w/.+-]+\.(?:cpp|hpp|inl|h|c|csv|py)):(\d+(?:-\d+)?(?:, ?\d+(?:-\d+)?)*)')
for f in glob.glob('/verif/lean/Verif/**/*.lean', recursive=True):
    for m in pat.finditer(open(f).read()):
        for r in re.findall(r'\d+(?:-\d+)?', m.group(2)):
            a, _, b = r.partition('-')
            cited.setdefault(m.group(1), set()).update(range(int(a), int(b or a) + 1))
def code_lines(p):
    n = set(); block = False
    for i, l in enumerate(open(p, errors='replace'), 1):
        s = l.strip()
        if block:
            if '*/' in s: block = False
            continue
        if s.startswith('/*'):
            if '*/' not in s: block = True
            continue
        if s and not s.startswith('//') and not s.startswith('#') and s not in '{};': n.add(i)
    return n
rows = []
for d in ('src/fsw', 'src/common', 'src/adcs', 'src/gsw', 'src/prep'):
    for p in sorted(glob.glob(ROOT + d + '/**/*', recursive=True)):
        rel = p[len(ROOT):]
        if os.path.isfile(p) and re.search(r'\.(cpp|hpp|inl|h|c)$', p):
            c = code_lines(p)
            if c: rows.append((rel, len(c), len(c & cited.get(rel, set()))))
missing = [f for f in cited if not os.path.exists(ROOT + f)]
out = ['# Lines of the code cited by the model', '',
       'Generated by `tools/coverage.py`. "code" counts lines that are not blank, comments, preprocessor directives or single',
       'braces; "cited" those of them within a range cited by a definition of the model. A cited range may contain lines the',
       'definition says it leaves out; declarations in headers are rarely cited although their effect is modelled.', '',
       '| file | code | cited |', '|---|---|---|']
for r in rows: out.append(f'| {r[0]} | {r[1]} | {r[2]} |')
tot = sum(r[1] for r in rows); ci = sum(r[2] for r in rows)
out.append(f'| total | {tot} | {ci} |')
open('/verif/COVERAGE.md', 'w').write('\n'.join(out) + '\n')
print(tot, ci, 'missing files:', missing)
