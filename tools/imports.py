#!/usr/bin/env python3
"""Regenerate lean/Verif.lean: import every module under lean/Verif."""
import os
root = os.path.join(os.path.dirname(os.path.abspath(__file__)), '..', 'lean')
order = {'Core': 0, 'Model': 1, 'Lemmas': 2, 'Props': 3}
mods = []
for d, _, fs in os.walk(os.path.join(root, 'Verif')):
    for f in fs:
        if f.endswith('.lean'):
            mods.append(os.path.relpath(os.path.join(d, f), root)[:-5].replace('/', '.'))
mods.sort(key=lambda m: (order.get(m.split('.')[1], 9), m))
open(os.path.join(root, 'Verif.lean'), 'w').write(''.join(f'import {m}\n' for m in mods))
