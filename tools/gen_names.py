# Prints the definitions `Group.name` and `Rec.name` of lean/Verif/Model/PrettyPrint.lean from the text of /repo/utg/relations.py (regex only).
import re
src = open('/repo/utg/relations.py', encoding='utf-8').read().split('\n')
groups = []; cur = None
for i, l in enumerate(src, 1):
    m = re.match(r'class (\w+)\((\w+)\)', l)
    if m:
        cur = (m.group(1), i, []) if m.group(2) == 'WORD_PROPERTY' else None
        if cur: groups.append(cur)
        continue
    if l.strip().startswith('#'): continue
    m = re.search(r"\('(\w+)', (\d+), '([^']*)', '([^']*)'", l)
    if m and cur: cur[2].append((m.group(1), i))
print('/-- The name of the class of a relation (utg/relations.py:10-118). -/')
print('def Group.name : Group → Str')
for g, i, rs in groups: print(f'  | .{g} => str! "{g}"  -- line {i}')
print()
print('/-- The name of a record: first column (utg/relations.py:10-126). -/')
print('def Rec.name : Rec → Str')
for g, _, rs in groups:
    for r, i in rs: print(f'  | .{g}_{r} => str! "{r}"  -- line {i}')
