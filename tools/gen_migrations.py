# Generates lean/Verif/Model/Migrations/*.lean from the text of /repo/utg/migrations/*.py (regex only, nothing is executed).
import re, glob, os
OUT = '/verif/lean/Verif/Model/Migrations'
os.makedirs(OUT, exist_ok=True)
ENTRY = re.compile(r'\(([A-Z_., a-z]*?)\): (\d+)')

def key(s, old=False):
    parts = [p.strip() for p in s.split(',') if p.strip()]
    r = []
    for p in parts:
        if p == 'None': r.append('none')
        elif p == 'VERB_FORM.CONDITIONAL':
            assert old; r.append('some .VERB_FORM_CONDITIONAL')
        else:
            g, n = p.split('.')
            r.append(('some (.cur .%s_%s)' if old else 'some .%s_%s') % (g, n))
    return '[' + ', '.join(r) + ']'

def tables(path, names):
    """-> {name: {word_type: [(key, idx)], ...}, with line ranges}"""
    res = {}
    cur = None; wt = None
    for i, l in enumerate(open(path, encoding='utf-8').read().split('\n'), 1):
        code = l.split('#')[0] if l.strip().startswith('#') else l
        if not code.strip(): continue
        m = re.match(r'(\w+) = \{', code)
        if m and m.group(1) in names:
            cur = m.group(1); res[cur] = {}; wt = None
        if cur is None: continue
        m = re.search(r'WORD_TYPE\.(\w+): *\{', code)
        if m:
            wt = m.group(1); res[cur][wt] = [i, i, []]
        for k, n in ENTRY.findall(code):
            if wt is None: wt = ''; res[cur][wt] = [i, i, []]
            res[cur][wt][2].append((k, int(n))); res[cur][wt][1] = i
    return res

def lst(entries, old=False):
    return '[' + ',\n   '.join('(%s, %d)' % (key(k, old), n) for k, n in entries) + ']'

TYPES = ['NOUN', 'ADJECTIVE', 'PRONOUN', 'VERB', 'PARTICIPLE', 'INTEGER', 'TEXT', 'PREPOSITION']
HEAD = '''import Verif.Model.Migrations.Common
/-!
# The key tables of `utg/migrations/%s`

Generated by `tools/gen_migrations.py` from the text of the source (regular expressions only), then read against it.
-/

namespace Utg.%s
open Py

'''
for mod in ['m_0007_reduce_words_forms', 'm_0008_lower_animiality_nearest_priority', 'm_0009_pronoun_modernization', 'm_0006_per_word_type_restrictions']:
    path = '/repo/utg/migrations/%s.py' % mod
    ns = 'M' + mod[2:6]
    old6 = ns == 'M0006'
    t = tables(path, ['OLD_CACHES'] if old6 else ['OLD_CACHES', 'NEW_CACHES'])
    o = [HEAD % (mod + '.py', ns)]
    if old6:
        o[0] = o[0].replace('Verif.Model.Migrations.Common', 'Verif.Model.Migrations.OldRec')
    for name, lean in (('OLD_CACHES', 'old'), ('NEW_CACHES', 'new')):
        if name not in t: continue
        assert list(t[name]) == TYPES, list(t[name])
        for wt in TYPES:
            a, b, es = t[name][wt]
            dup = len(set(k for k, n in es)) != len(es)
            print(mod, name, wt, len(es), es[0][1], es[-1][1], 'DUP' if dup else '')
            o.append('/-- `%s[WORD_TYPE.%s]` (utg/migrations/%s.py:%d-%d). -/\n' % (name, wt, mod, a, b))
            if dup:
                o[-1] = o[-1].replace('. -/', ', all items of the dictionary literal. -/')
                o.append('def %s%sItems : List (Key × Nat) :=\n  %s\n\n' % (lean, wt.capitalize(), lst(es, old6)))
                o.append('/-- `%s[WORD_TYPE.%s]` (utg/migrations/%s.py:%d-%d): the literal repeats keys, a later item overrides the value of\nan earlier one. -/\n' % (name, wt, mod, a, b))
                o.append('def %s%s : Dict Key Nat := Dict.update [] %s%sItems\n\n' % (lean, wt.capitalize(), lean, wt.capitalize()))
            else:
                o.append('def %s%s : Dict %s Nat :=\n  %s\n\n' % (lean, wt.capitalize(), 'OldKey' if old6 else 'Key', lst(es, old6)))
        o.append('/-- `%s` (utg/migrations/%s.py). -/\n' % (name, mod))
        o.append('def %s : WordType → Dict %s Nat\n' % (lean + 'Caches', 'OldKey' if old6 else 'Key'))
        for wt in TYPES: o.append('  | .%s => %s%s\n' % (wt, lean, wt.capitalize()))
        o.append('\n')
    o.append('end Utg.%s\n' % ns)
    open('%s/%s.lean' % (OUT, ns), 'w').write(''.join(o))

mod = 'm_0001_include_short_forms_in_full'
t = tables('/repo/utg/migrations/%s.py' % mod, ['OLD_ADJECTIVE_CACHE', 'OLD_PARTICIPLE_CACHE'])
o = [HEAD % (mod + '.py', 'M0001')]
for name, lean in (('OLD_ADJECTIVE_CACHE', 'oldAdjective'), ('OLD_PARTICIPLE_CACHE', 'oldParticiple')):
    a, b, es = t[name]['']
    assert len(set(k for k, n in es)) == len(es)
    print(mod, name, len(es))
    o.append('/-- `%s` (utg/migrations/%s.py:%d). -/\ndef %s : Dict Key Nat :=\n  %s\n\n' % (name, mod, a, lean, lst(es)))
o.append('end Utg.M0001\n')
open(OUT + '/M0001.lean', 'w').write(''.join(o))

mod = 'm_0003_change_verb_forms'
t = tables('/repo/utg/migrations/%s.py' % mod, ['OLD_VERB_CACHE'])
o = [(HEAD % (mod + '.py', 'M0003')).replace('Verif.Model.Migrations.Common', 'Verif.Model.Migrations.OldRec')]
a, b, es = t['OLD_VERB_CACHE']['']
print(mod, len(es))
o.append('/-- `OLD_VERB_CACHE` (utg/migrations/%s.py:%d). -/\ndef oldVerb : Dict OldKey Nat :=\n  %s\n\n' % (mod, a, lst(es, True)))
o.append('end Utg.M0003\n')
open(OUT + '/M0003.lean', 'w').write(''.join(o))
