#!/usr/bin/env python3
"""append a property: addprop.py < json lines with id,title,statement,quantifier,why_tests_cant,anchors"""
import sys, json, os
root = os.path.dirname(os.path.dirname(os.path.abspath(__file__)))
f = root + '/properties.jsonl'
have = {json.loads(l)['id']: json.loads(l) for l in open(f) if l.strip()}
for l in sys.stdin:
    if l.strip():
        d = json.loads(l)
        assert set(d) == {'id','title','statement','quantifier','why_tests_cant','anchors'}, d
        have[d['id']] = d
with open(f, 'w') as fh:
    for k in sorted(have):
        fh.write(json.dumps(have[k]) + '\n')
