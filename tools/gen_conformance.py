"""Translate the tables of /repo/utg/tests/test_transformators.py into Lean (tests, not proofs)."""
import re
src = open('/repo/utg/tests/test_transformators.py', encoding='utf-8').read()
def recs(t): return ['.%s_%s' % m for m in re.findall(r'r\.(\w+)\.(\w+)', t)]
out = []
for name in ['test_noun_integer', 'test_noun_integer__semantic_dependency', 'test_adjective_integer', 'test_adjective_integer__semantic_dependency']:
    body = src.split('def %s(self):' % name)[1].split('def ')[0]
    start = src[:src.index('def %s(self):' % name)].count('\n') + 1
    end = start + body.rstrip().count('\n')
    table = {}
    for a, b in re.findall(r'\(((?:r\.\w+\.\w+,?\s*)+)\)\s*:\s*\(((?:r\.\w+\.\w+,?\s*)+)\)', body):
        table[tuple(recs(a))] = recs(b)
    fn = 'nounInteger' if 'noun' in name else 'adjectiveInteger'
    pre = ['.DEPENDENCY_MODE_SEMANTIC'] if 'semantic' in name else []
    out.append('/-- `%s` (utg/tests/test_transformators.py:%d-%d). -/' % (name, start, end))
    out.append('example : [')
    rows = ['  ([%s], [%s])' % (', '.join(pre + list(k)), ', '.join(pre + v)) for k, v in table.items()]
    out.append(',\n'.join(rows) + '].all (fun (e : List Rec × List Rec) => sameProps (%s (props e.1)) (props e.2)) = true := by decide +kernel\n' % fn)
    print(name, len(table))
head = '''import Verif.Conformance.Util
/-! # The tables of utg/tests/test_transformators.py, run in the model

Generated by `tools/gen_conformance.py` from the source text of the tests. A later row for the same key replaces an earlier one, as
in a Python `dict` display. -/

namespace Utg
open Py

'''
open('lean/Verif/Conformance/Tables.lean', 'w', encoding='utf-8').write(head + '\n'.join(out) + '\nend Utg\n')
