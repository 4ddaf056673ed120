"""Writes MANIFEST.json: every theorem named Cnn_... in lean/Verif/Props is attached to claim Cnn; status and note come
from tools/status.json (default: proved if there is a theorem and none of them ends in _partial)."""
import json, re, glob, os
root = os.path.dirname(os.path.dirname(os.path.abspath(__file__)))
thms = {}
for f in sorted(glob.glob(root + '/lean/Verif/Props/*.lean')):
    ns = []
    for line in open(f, encoding='utf8'):
        m = re.match(r'namespace (\S+)', line)
        if m: ns.append(m.group(1))
        m = re.match(r'end (\S+)', line)
        if m and ns and ns[-1] == m.group(1): ns.pop()
        m = re.match(r'theorem (C\d+_\w+)', line)
        if m: thms.setdefault(m.group(1).split('_')[0], []).append('.'.join(ns + [m.group(1)]))
status = json.load(open(root + '/tools/status.json')) if os.path.exists(root + '/tools/status.json') else {}
claims = []
for line in open(root + '/properties.jsonl', encoding='utf8'):
    d = json.loads(line); i = d['id']; ts = thms.get(i, []); s = status.get(i, {})
    if not ts and i not in status: continue
    claims.append({'property': i, 'status': s.get('status', 'partial' if any(t.endswith('_partial') for t in ts) else 'proved'),
                   'theorems': ts, 'note': s.get('note', d['title'])})
json.dump({'claims': claims}, open(root + '/MANIFEST.json', 'w'), indent=1, ensure_ascii=False)
print(len(claims), 'claims', sum(len(c['theorems']) for c in claims), 'theorems')
