#!/usr/bin/env python3
"""Append properties: reads tuples from a python file given as argument (variable P)."""
import json,sys,runpy
P=runpy.run_path(sys.argv[1])['P']
have={json.loads(l)['id'] for l in open('/verif/properties.jsonl')}
with open('/verif/properties.jsonl','a') as f:
    for i,t,s,q,w,a in P:
        assert i not in have, i
        f.write(json.dumps(dict(id=i,title=t,statement=s,quantifier=q,why_tests_cant=w,anchors=a))+'\n')
