# Generates lean/Verif/Model/Relations.lean from the text of /repo/utg/relations.py (regex only, nothing is executed).
import re
src = open('/repo/utg/relations.py', encoding='utf-8').read().split('\n')
groups = []  # (name, line, [(rec, value, text, verbose, line)])
cur = None
for i, l in enumerate(src, 1):
    m = re.match(r'class (\w+)\((\w+)\)', l)
    if m:
        cur = (m.group(1), i, []) if m.group(2) == 'WORD_PROPERTY' else None
        if cur: groups.append(cur)
        if m.group(1) == 'PROPERTY_TYPE': ptstart = i
        continue
    if l.strip().startswith('#'): continue
    m = re.search(r"\('(\w+)', (\d+), '([^']*)', '([^']*)'", l)
    if m and cur: cur[2].append((m.group(1), int(m.group(2)), m.group(3), m.group(4), i))
pt = []
for i, l in enumerate(src, 1):
    if i < ptstart or l.strip().startswith('#'): continue
    m = re.search(r"\('(\w+)', (\d+), '([^']*)', (\w+)\)", l)
    if m: pt.append((m.group(1), int(m.group(2)), m.group(4), i))
wt = []
for i, l in enumerate(src, 1):
    m = re.search(r"\('(\w+)', (\d+), '[^']*', '[^']*', \(([^)]*)\), \{([^}]*)\}", l)
    if m:
        sch = [x.strip() for x in m.group(3).split(',') if x.strip()]
        props = [tuple(y.strip() for y in x.split(':')) for x in m.group(4).split(',') if x.strip()]
        wt.append((m.group(1), int(m.group(2)), sch, props, i))
o = []
w = o.append
w('''import Verif.Py.Str
/-!
# `utg/relations.py`

Generated by `tools/gen_relations.py` from the text of `/repo/utg/relations.py` (regular expressions only), then read
against it. `rels` record classes become one flat enumeration `Rec`; relation classes become `Group`.
A record `CASE.DATIVE` of the source is `Rec.CASE_DATIVE` here. Record texts (third column) are display-only and dropped.
-/

namespace Utg
open Py

/-- The subclasses of `WORD_PROPERTY`, in order of definition (utg/relations.py:6-118). This is the value of
`logic.get_property_relations()` (utg/logic.py:6-9), which walks the module dictionary in that order. -/
inductive Group where''')
for g in groups: w('  | %s' % g[0])
w('  deriving DecidableEq, Repr\n')
w('/-- `logic.get_property_relations()` (utg/logic.py:6-9): all relations, in order of definition. -/')
w('def Group.all : List Group :=\n  [' + ', '.join('.'+g[0] for g in groups) + ']\n')
w('/-- All records of all property relations (utg/relations.py:10-118). -/\ninductive Rec where')
for g in groups:
    for r in g[2]: w('  | %s_%s' % (g[0], r[0]))
w('  deriving DecidableEq, Repr\n')
w('/-- `relation.records` (utg/relations.py:10-118), in order of declaration. -/\ndef Group.records : Group → List Rec')
for g in groups: w('  | .%s => [%s]  -- lines %d-%d' % (g[0], ', '.join('.%s_%s' % (g[0], r[0]) for r in g[2]), g[1], g[2][-1][4]))
w('\n/-- `record._relation` of `rels`: the relation a record belongs to. -/\ndef Rec.group : Rec → Group')
for g in groups:
    for r in g[2]: w('  | .%s_%s => .%s' % (g[0], r[0], g[0]))
w('\n/-- `record.value`: second column of the tables in utg/relations.py:10-118. -/\ndef Rec.value : Rec → Nat')
for g in groups:
    for r in g[2]: w('  | .%s_%s => %d  -- line %d' % (g[0], r[0], r[1], r[4]))
w('\n/-- `record.verbose_id`: fourth column of the tables in utg/relations.py:10-118. -/\ndef Rec.verboseId : Rec → Str')
for g in groups:
    for r in g[2]: w('  | .%s_%s => str! "%s"  -- line %d' % (g[0], r[0], r[3], r[4]))
w('\n/-- `PROPERTY_TYPE.records` as relations, in order of declaration (utg/relations.py:%d-%d). -/' % (pt[0][3], pt[-1][3]))
w('def propertyTypeRecords : List Group :=\n  [' + ', '.join('.'+p[2] for p in pt) + ']\n')
w('/-- `PROPERTY_TYPE.index_relation[relation].value` (utg/relations.py:%d-%d). -/' % (pt[0][3], pt[-1][3]))
w('def Group.code : Group → Nat')
for p in pt: w('  | .%s => %d  -- line %d' % (p[2], p[1], p[3]))
w('\n/-- The records of `WORD_TYPE` as a type of their own (utg/relations.py:%d-%d); `WordType.toRec` embeds them in `Rec`. -/' % (wt[0][4], wt[-1][4]))
w('inductive WordType where')
for t in wt: w('  | %s' % t[0])
w('  deriving DecidableEq, Repr\n')
w('/-- `WORD_TYPE.records` (utg/relations.py:%d-%d). -/\ndef WordType.all : List WordType :=\n  [%s]\n' % (wt[0][4], wt[-1][4], ', '.join('.'+t[0] for t in wt)))
w('/-- A word type as a record of the relation `WORD_TYPE`. -/\ndef WordType.toRec : WordType → Rec')
for t in wt: w('  | .%s => .WORD_TYPE_%s' % (t[0], t[0]))
w('\n/-- `word_type.value` (utg/relations.py:%d-%d). -/\ndef WordType.value (t : WordType) : Nat := t.toRec.value\n' % (wt[0][4], wt[-1][4]))
w('/-- `word_type.schema`: fifth column of `WORD_TYPE` (utg/relations.py:%d-%d). -/\ndef WordType.schema : WordType → List Group' % (wt[0][4], wt[-1][4]))
for t in wt: w('  | .%s => [%s]  -- line %d' % (t[0], ', '.join('.'+s for s in t[2]), t[4]))
w('\n/-- `word_type.properties`: sixth column of `WORD_TYPE` (relation, required) (utg/relations.py:%d-%d). -/\ndef WordType.properties : WordType → List (Group × Bool)' % (wt[0][4], wt[-1][4]))
for t in wt: w('  | .%s => [%s]  -- line %d' % (t[0], ', '.join('(.%s, %s)' % (p[0], p[1].lower()) for p in t[3]), t[4]))
w('\nend Utg')
import os
os.makedirs('/verif/lean/Verif/Model', exist_ok=True)
open('/verif/lean/Verif/Model/Relations.lean', 'w').write('\n'.join(o) + '\n')
