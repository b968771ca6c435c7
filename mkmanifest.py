"""Writes lean/Verif.lean, and MANIFEST.json from the theorem names in lean/Verif/Props and notes.json."""
import json, re, pathlib
root = pathlib.Path(__file__).parent
mods = sorted('.'.join(f.relative_to(root / 'lean').with_suffix('').parts) for f in (root / 'lean/Verif').rglob('*.lean'))
(root / 'lean/Verif.lean').write_text(''.join(f'import {m}\n' for m in mods))
names = {}
for f in sorted((root / 'lean/Verif/Props').glob('*.lean')):
    ns = []
    for line in f.read_text().splitlines():
        m = re.match(r'namespace (\S+)', line)
        if m: ns.append(m.group(1))
        m = re.match(r'end (\S+)', line)
        if m and ns and ns[-1] == m.group(1): ns.pop()
        m = re.match(r'(?:private )?theorem (C\d+)_(\w+)', line)
        if m:
            names.setdefault(m.group(1), []).append('.'.join(ns + [m.group(1) + '_' + m.group(2)]))
notes = json.loads((root / 'notes.json').read_text())
claims = []
for line in (root / 'properties.jsonl').read_text().splitlines():
    p = json.loads(line)['id']
    th = names.get(p, [])
    n = notes.get(p, {})
    status = n.get('status') or ('proved' if th else None)
    if status is None or not th:
        continue
    claims.append({'property': p, 'status': status, 'theorems': th, 'note': n.get('note', '')})
(root / 'MANIFEST.json').write_text(json.dumps({'claims': claims}, indent=1, ensure_ascii=False) + '\n')
have = {c['property'] for c in claims}
print(len(claims), 'claims; without theorems:', [json.loads(l)['id'] for l in (root / 'properties.jsonl').read_text().splitlines() if json.loads(l)['id'] not in have])
