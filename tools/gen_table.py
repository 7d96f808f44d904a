#!/usr/bin/env python3
"""Regenerates lean/Verif/Model/Table.lean from /repo/include/fast_float/fast_table.h (literals verbatim)."""
import re
src=open('/repo/include/fast_float/fast_table.h').read()
body=src[src.index('power_of_five_128[number_of_entries] = {'):]
body=body[body.index('{')+1:body.index('};')]
v=re.findall(r'0x[0-9a-fA-F]+',body)
assert len(v)==1302
lines=['  '+', '.join(v[i:i+4]) for i in range(0,1302,4)]
print(',\n'.join(lines))
