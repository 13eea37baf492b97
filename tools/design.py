"""Rewrite the list of disagreements in DESIGN.md from the comments of the theorems named in disagreements.txt."""
import glob
import os
import re

here = os.path.dirname(os.path.abspath(__file__))
root = os.path.dirname(here)
docs = {}
for f in glob.glob(root + '/lean/Verif/Props/*.lean'):
    text = open(f).read()
    for m in re.finditer(r'/--((?:(?!-/).)*)-/\s*theorem (\S+)', text, re.S):
        docs[m.group(2)] = ' '.join(m.group(1).split())
lines = []
for name in open(here + '/disagreements.txt').read().split():
    doc = re.sub(r'^\**(C\d\d)?\**( is false)?\**,?( disagreement( with the documentation| for arrays)?)?\**( is false for the code)?( \(fluctuations\))?[.:]? *',
                 '', docs[name])
    doc = re.sub(r'^(A failure|The failure|for the code|a failure|the failure|Where the code violates C\d\d)( for the splashback model)?: ', '', doc.replace('**', ''))
    lines.append('* `%s`: %s' % (name, doc[0].upper() + doc[1:]))
path = root + '/DESIGN.md'
text = open(path).read()
begin, end = '<!-- disagreements -->\n', '<!-- end -->\n'
i, j = text.index(begin) + len(begin), text.index(end)
open(path, 'w').write(text[:i] + '\n'.join(lines) + '\n' + text[j:])
