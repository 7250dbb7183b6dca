#!/usr/bin/env python3
"""Generates ../properties.jsonl.  Keep the English here; run after editing."""
import json, os
M='src/core/sim.src/mem.cc'; MH='src/core/sim.src/memcl.h'; U='src/core/sim.src/uc.cc'
B='src/core/sim.src/brk.cc'; P='src/core/utils.src/pobj.cc'; V='src/core/sim.src/var.cc'
S='src/core/sim.src/sim.cc'; CB='src/core/cmd.src/cmd_bp.cc'; A='src/sims/s51.src/'
props=[]
def p(title, statement, quantifier, why, anchors):
    props.append(dict(id="C%02d"%(len(props)+1), title=title, statement=statement,
                      quantifier=quantifier, why_tests_cant=why, anchors=anchors))
exec(open(os.path.join(os.path.dirname(__file__),'props_data.py')).read())
with open(os.path.join(os.path.dirname(__file__),'..','properties.jsonl'),'w') as f:
    for q in props: f.write(json.dumps(q)+"\n")
print(len(props))
