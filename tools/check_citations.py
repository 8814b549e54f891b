#!/usr/bin/env python3
"""Checks the citations of the model: every definition under lean/Verif/Model has a comment; every cited file of /repo exists
and has the cited lines. Definitions whose comment cites nothing are listed, unless their module or section says where
they come from."""
import glob
import os
import re
import sys

ROOT = os.path.dirname(os.path.dirname(os.path.abspath(__file__)))
MODEL = os.path.join(ROOT, 'lean', 'Verif', 'Model')
CITE = re.compile(r'`(/repo/[^`\s]+)`((?:[ ,]*(?:and )?\d+(?:-\d+)?)*)')
DECL = re.compile(r'^(?:private |protected |noncomputable )*(?:def|structure|inductive|abbrev|instance)\s+(\S+)')

bad = []
bare = []
count = cited = 0
for name in sorted(os.listdir(MODEL)):
    text = open(os.path.join(MODEL, name), encoding='utf-8').read()
    for m in CITE.finditer(text):
        path = m.group(1).rstrip('/')
        if '*' in path and glob.glob(path):
            continue
        if not os.path.exists(path):
            bad.append((name, m.group(0), 'no such file'))
            continue
        if os.path.isdir(path):
            continue
        n = len(open(path, encoding='utf-8', errors='replace').read().split('\n'))
        for r in re.findall(r'\d+(?:-\d+)?', m.group(2)):
            a, _, b = r.partition('-')
            if int(a) < 1 or int(b or a) > n or int(b or a) < int(a):
                bad.append((name, m.group(0), 'lines %s of %d' % (r, n)))
    lines = text.split('\n')
    header = ' '.join(text.split('-/')[0].split()).lower()
    section_cites = '/repo/' in header or 'none of this is code of `/repo`' in header
    comment, open_comment = '', False
    for i, l in enumerate(lines):
        if l.startswith('/-!'):
            j = i
            while '-/' not in lines[j]:
                j += 1
            block = '\n'.join(lines[i:j + 1])
            if i > 5:
                section_cites = section_cites or 'not in /repo' in block or '/repo/' in block
        d = DECL.match(l)
        if d and not l.startswith('instance :'):
            count += 1
            j = i - 1
            while j >= 0 and lines[j].startswith('@['):
                j -= 1
            block = ''
            if j >= 0 and lines[j].rstrip().endswith('-/'):
                k = j
                while k >= 0 and '/--' not in lines[k]:
                    k -= 1
                block = '\n'.join(lines[k:j + 1])
            if '/repo/' in block or 'not in /repo' in block:
                cited += 1
            elif not block:
                bad.append((name, d.group(1), 'no comment'))
            elif not section_cites:
                bare.append((name, d.group(1)))
            else:
                cited += 1
print(count, 'definitions,', cited, 'cited')
for x in bare:
    print('cites nothing:', *x)
for x in bad:
    print('BAD:', *x)
sys.exit(1 if bad else 0)
