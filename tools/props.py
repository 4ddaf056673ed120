# Generates /verif/properties.jsonl (one JSON object per line). Run: python3 tools/props.py
import json, os
P = []
def c(title, statement, quantifier, why, anchors):
    P.append(dict(id='C%02d' % (len(P)+1), title=title, statement=statement, quantifier=quantifier, why_tests_cant=why, anchors=anchors))

W='utg/words.py'; L='utg/logic.py'; R='utg/relations.py'; RS='utg/restrictions.py'; D='utg/data.py'; DI='utg/dictionary.py'
LX='utg/lexicon.py'; T='utg/templates.py'; TR='utg/transformators.py'; CO='utg/constructors.py'; U='utg/utils.py'; EX='utg/exceptions.py'
def M(n): return {1:'utg/migrations/m_0001_include_short_forms_in_full.py',2:'utg/migrations/m_0002_countable_noun_form.py',3:'utg/migrations/m_0003_change_verb_forms.py',4:'utg/migrations/m_0004_new_preposition_form.py',5:'utg/migrations/m_0005_remove_time_participle_property.py',6:'utg/migrations/m_0006_per_word_type_restrictions.py',7:'utg/migrations/m_0007_reduce_words_forms.py',8:'utg/migrations/m_0008_lower_animiality_nearest_priority.py',9:'utg/migrations/m_0009_pronoun_modernization.py'}[n]

# --- words / forms
c('Asking a word for a form always succeeds',
  'For any word the constructor accepted and any Properties object, word.form(properties) raises nothing and returns one of the strings in word.forms.',
  'all word types, all form lists of the accepted length, all word properties, all requested properties',
  'There are 20 property kinds with up to 10 values each, so the space of Properties objects is far too big to enumerate, and the form strings are unbounded.',
  [W+':Word.form,_form', L+':_get_raw_cache', D+':RAW_WORDS_CACHES'])
c('A requested combination selects the slot documented for it',
  'If the effective properties (request overridden by the word\'s own properties, defaults for the rest) agree with the key of slot i on every property that key mentions, word.form returns forms[i]; properties the key leaves open never matter.',
  'all word types, all slots, all words, all requested properties',
  'Slot keys leave positions open, so each stands for many combinations; the claim couples three nested generators for every combination.',
  [W+':Word._form,Properties.get_raw_key', L+':_keys_generator,_raw_keys_generator,_get_raw_cache'])
c('Slots never overlap and only explicitly excluded combinations have none',
  'For any schema, any restriction table and any list of forbidden parts, every full combination of property values matches at most one slot key, and it matches none exactly when the pattern it belongs to contains a forbidden part.',
  'all schemas, restriction tables, forbidden part lists and full combinations',
  'Tests check a few hand-written schemas; the claim ranges over every restriction table.',
  [L+':_keys_generator,_restricted_keys_generator', RS+':RESTRICTIONS,RESTRICTED_KEY_PARTS'])
c('Properties outside a word type\'s schema never influence its form',
  'If two requests agree on every property in the schema of the word\'s type, word.form returns the same string for both.',
  'all words, all pairs of requests', 'Relational property over pairs of Properties objects.',
  [W+':Word.form,Properties.get_raw_key', R+':WORD_TYPE'])
c('A word\'s own properties override what is requested',
  'word.form(p) does not depend on what p says about any property the word itself specifies.',
  'all words, all pairs of requests that differ only on properties the word specifies', 'Relational property over unbounded words and requests.',
  [W+':Word.form'])
c('Excluded combinations fall back to a fixed slot',
  'A noun asked for the countable singular in case c gives its normal singular form in case c; a verb asked for the imperative of the third person, or of the first person singular, gives its infinitive.',
  'all nouns, all verbs, all requests that resolve to an excluded combination',
  'The fallback goes through a nearest-key search whose ties are broken by dictionary order and float rounding; tests only cover a handful of combinations.',
  [L+':_get_raw_cache,get_nearest_key', RS+':RESTRICTED_KEY_PARTS'])
c('Slot numbering is a bijection',
  'For every word type Word.get_keys lists every slot key exactly once, in slot order, its length is Word.get_forms_number, and looking a key up gives back its position.',
  'all schemas and restriction tables, hence all word types', 'Holds for every restriction table, not just the shipped one.',
  [W+':Word.get_keys,get_forms_number', L+':_get_cache,get_caches'])
c('The constructor accepts exactly the right number of forms',
  'Word(type, forms, properties) succeeds iff len(forms) equals the number of slots of the type, and otherwise raises WrongFormsNumberError carrying the given and the expected number; on success the three fields are stored unchanged.',
  'all types, form lists and properties', 'Form lists are unbounded.', [W+':Word.__init__', EX+':WrongFormsNumberError'])
c('all_forms enumerates the forms in slot order',
  'all_forms yields one word form per slot. The i-th one is spelled as the word is with the properties of slot i, the word\'s own ones coming first: it spells forms[i], with a capital letter if the word demands one, whenever the word\'s own properties permit slot i (for a word that fixes no schema property, always). In a word without a capital letter each one spells some form of the word.',
  'all words', 'Quantifies over every word and every slot.', [W+':Word.all_forms,WordForm.get_form'])
c('The last specification of a property wins',
  'Properties(a1, ..., an).get(g) is what the last argument that says something about g says; None arguments are ignored; a property nobody mentions has its documented default (first record; None for the part of speech).',
  'all argument lists (records, Properties objects and None), all property groups', 'Argument lists are unbounded and may nest.', [W+':Properties.__init__,_update,get', L+':get_default_properties'])
c('clone is a right-biased merge',
  'p.clone(q) reads like q where q specifies a property and like p elsewhere; merging is associative and idempotent, and the empty Properties is neutral on both sides.',
  'all Properties objects', 'Algebraic law over all values.', [W+':Properties.clone,_update'])
c('Equality of Properties ignores construction order and agrees with hash',
  'Two Properties objects are equal iff they specify the same values for the same groups; this is an equivalence relation, and equal objects have equal hashes (manhattan distance).',
  'all Properties objects', 'Equality and hash must agree for every pair of histories.', [W+':Properties.__eq__,__hash__,manhattan_distance'])
c('Properties survive serialization, also through JSON',
  'Properties.deserialize(p.serialize()) == p, also when the dictionary keys were turned into strings on the way.',
  'all Properties objects', 'All combinations of values; depends on uniqueness of every numeric code.', [W+':Properties.serialize,deserialize', R+':PROPERTY_TYPE'])
c('Deserialization ignores codes it does not know',
  'Properties.deserialize of any dictionary with integer-like keys never raises; the result specifies exactly the known (type, value) codes of the input, the last entry for a type winning.',
  'all dictionaries with integer or decimal-string keys and integer values', 'The input space is unbounded.', [W+':Properties.deserialize'])
c('Words survive serialization',
  'Word.deserialize(w.serialize()) == w for every word; deserialize raises WrongFormsNumberError for a wrong number of forms and a lookup error for an unknown type code, and never anything else.',
  'all words; all serialized dictionaries', 'Unbounded form lists.', [W+':Word.serialize,deserialize'])
c('Word equality agrees with hash',
  'Word equality is an equivalence relation and equal words have equal hashes.',
  'all words', 'All pairs.', [W+':Word.__eq__,__hash__'])
c('WordForm equality agrees with hash',
  'Equal WordForm objects have equal hashes. (The code violates this when form_properties is given separately; it holds when form_properties is not given.)',
  'all word forms', 'A contract over all pairs of objects.', [W+':WordForm.__eq__,__hash__'])
c('The normal form honours the word\'s own properties',
  'normal_form() equals form(q) for any request q that specifies only properties the word specifies, and is forms[0] for a word that specifies no schema property.',
  'all words', 'All words, all own properties.', [W+':Word.normal_form'])
c('Upper-casing touches only the first letter',
  'A word form with the upper WORD_CASE spells the same text with only its first character upper-cased; with the lower one the text is unchanged; the only failure is IndexError on an empty form in upper case.',
  'all word forms and Unicode case mappings', 'All strings.', [W+':WordForm.get_form'])
c('Autofill never touches a form that is present',
  'autofill_missed_forms keeps the number of forms and every non-empty form.',
  'all words', 'All subsets of present slots (2^144 for participles).', [W+':Word.autofill_missed_forms'])
c('Autofill completes a word that has at least one form',
  'After autofill_missed_forms no form is empty if at least one was non-empty, every filled slot holds the text of a slot present before the call, nothing changes if all were empty, and a second call changes nothing.',
  'all words', 'All subsets of present slots.', [W+':Word.autofill_missed_forms'])
c('Autofill takes the nearest present slot',
  'A missing slot receives the text of the present slot whose key matches most properties of the missing slot\'s key; among equal counts the one with the larger sum of matched schema positions; among equal sums the lowest slot number.',
  'all words, all missing slots', 'All subsets of present slots; comparison goes through floating point.', [W+':Word.autofill_missed_forms', L+':get_nearest_key'])
c('Nearest-key search is an argmax',
  'get_nearest_key returns None iff there are no available keys; otherwise an available key of maximal similarity, the first such in iteration order; a key that is itself available is returned unchanged.',
  'all keys, all lists of available keys (the last part: keys of up to 40 properties, more than the library has groups)', 'Unbounded lists; float similarity.', [L+':get_nearest_key'])
c('Float rounding never reverses the similarity order',
  'For keys as long as any in the library, comparing the accumulated binary64 similarities orders match sets as the exact sums of (1 + index/100) do whenever those differ, so more matching properties always beat fewer.',
  'all pairs of match sets over at most 8 positions', 'Every pair of match sets under IEEE rounding.', [L+':get_nearest_key'])
# --- dictionary
c('A lookup returns a form spelled as asked',
  'If dictionary.get_word(t) returns f then f.form == t and f.word is one of the added words.',
  'all histories of add_word, all texts', 'All histories.', [DI+':Dictionary.add_word,get_word'])
c('has_word, get_word and the added words agree',
  'has_word(t) is True iff get_word(t) does not raise iff some added word has a form spelled t; otherwise get_word raises NoWordsFoundError carrying t.',
  'all histories, all texts', 'All histories.', [DI+':Dictionary.has_word,get_word'])
c('The registered form is the least candidate',
  'get_word(t) is the first, in order of addition and slot, of the forms spelled t that minimise (type code, form list in lexicographic order, number of non-default properties).',
  'all histories, all texts', 'All histories of unbounded length.', [DI+':Dictionary.add_word'])
c('Order of addition matters only on complete ties',
  'For two orders of adding the same words, get_word(t) gives forms with the same type, form list and number of non-default properties; the form itself may differ only when two candidates tie on all three.',
  'all permutations of all word lists', 'All permutations.', [DI+':Dictionary.add_word'])
c('Adding words never loses texts and re-adding is harmless',
  'add_word keeps every known text known; adding a word that is already there changes no lookup; Dictionary(words) equals adding them one by one.',
  'all histories', 'All histories.', [DI+':Dictionary.add_word,__init__'])
c('get_words returns exactly the words that own some text',
  'get_words returns exactly the words that are returned by get_word for some text; each was added, and no two of them are equal.',
  'all histories', 'All histories.', [DI+':Dictionary.get_words'])
# --- lexicon
c('get_templates filters by restrictions',
  'get_templates(k, rs) returns, in order of addition, exactly the templates added under k whose restrictions are all in rs; an unknown key gives an empty result.',
  'all histories of add_template, all keys and restriction sets', 'All histories and sets.', [LX+':Lexicon.add_template,get_templates'])
c('get_random_template is sound and complete',
  'It raises UnknownLexiconKeyError iff nothing was added under the key, NoTemplatesWithSpecifiedRestrictions iff something was but nothing is applicable, and otherwise returns an applicable template; each applicable template is returned for some random draw.',
  'all histories, keys, restriction sets and random draws', 'Random outcomes cannot be exhausted by tests.', [LX+':Lexicon.get_random_template'])
c('get_random_nearest_template returns a most specific applicable template',
  'The result is applicable and no applicable template has more restrictions; each such template is possible; it raises in exactly the same situations as get_random_template.',
  'all histories, keys, restriction sets and random draws', 'Random outcomes and unbounded histories.', [LX+':Lexicon._get_nearest_templates,get_random_nearest_template'])
c('Adding a template affects only its key',
  'add_template(k, ...) makes has_key(k) true, appends to what is offered under k and leaves every other key as it was.',
  'all histories, all keys', 'All histories.', [LX+':Lexicon.add_template,has_key'])
# --- integers
c('Every integer gets the right agreement class',
  'construct_integer(n) carries: million/billion for |n| in {10^6, 10^9}; singular (NUMBER singular only for |n| = 1) if |n| ends in 1 but not 11; dual for 2, 3, 4; composite dual for larger numbers ending in 2, 3, 4 but not 12-14; plural otherwise.',
  'all integers', 'Infinitely many integers.', [CO+':_construct_integer,INTEGER_PROPERTIES'])
c('The integer cache is transparent',
  'Whatever calls happened before, construct_integer(n) returns a value equal to a freshly built one; two calls with the same n in 0..10000 return the same object, and outside that range a new object.',
  'all call histories, all integers', 'All histories.', [CO+':construct_integer'])
c('The text of an integer is its decimal notation',
  'The only form of construct_integer(n) is the decimal notation of n with its sign; different integers get different texts.',
  'all integers', 'Infinitely many integers.', [CO+':_construct_integer'])
# --- transformators
c('Agreement with a number never fails and follows the grammar (nouns, pronouns)',
  'Transforming a noun or pronoun by an integer raises nothing and yields: semantic dependency - normal form, singular iff class singular; class singular - normal singular, case kept; dual - nominative, or accusative of an inanimate: normal genitive singular, otherwise countable plural, case kept; composite dual - nominative/accusative: normal genitive singular, otherwise countable plural, case kept; plural - nominative/accusative: countable genitive plural, otherwise countable plural, case kept; million/billion - countable genitive plural.',
  'all Properties objects', 'All combinations of 20 properties.', [TR+':_noun_integer'])
c('Agreement with a number never fails and follows the grammar (adjectives, verbs, participles)',
  'Transforming an adjective, verb or participle by an integer raises nothing and yields the documented number and case: semantic - number only; singular - singular; dual - nominative/accusative: genitive plural for masculine and neuter, nominative plural for feminine, else plural; composite dual - nominative/accusative: genitive singular, else plural; plural - nominative/accusative: genitive plural, else plural; million/billion - genitive plural.',
  'all Properties objects', 'All combinations of 20 properties.', [TR+':_adjective_integer'])
c('A transformation changes nothing else',
  'The number transformations change only noun form, number and case; the preposition one only the preposition form; for any other pair of word types transform returns its argument unchanged.',
  'all Properties objects, all pairs of word types', 'Frame condition over all values.', [TR+':transform,_TRANSFORMATORS'])
c('A counted noun is spelled in the right slot for every number',
  'For a noun that fixes no schema property, substituting [noun|n|case] with n an integer external spells the slot the grammar prescribes for n, the case and the animality.',
  'all integers, all nouns, all cases', 'Infinitely many integers and nouns.', [T+':Substitution.get_text', TR+':_noun_integer', CO+':construct_integer'])
c('A preposition takes the right variant',
  'A preposition ending in a consonant takes its alternative form iff the next word is a one-syllable word with a fluent vowel starting with a consonant cluster, or the preposition is v or s, the next word starts with the same letter and a consonant cluster; one ending otherwise takes the special form iff it is o before one of the five listed words, else the alternative iff the next word starts with a non-iotated vowel.',
  'all prepositions, all words', 'All strings.', [TR+':_preposition_any,_consonant_preposition_any,_vowels_preposition_any'])
c('A word\'s own properties hold in every substitution',
  'In a substitution the chosen form always honours the properties the word itself fixes. (The code violates this: agreement with a number overrides a noun\'s fixed number; it holds for substitutions without number dependencies.)',
  'all words, externals and dependency lists', 'All dependency lists.', [T+':Substitution.get_text', TR+':transform'])
# --- templates
c('Literal text is reproduced verbatim',
  'For any text made of literal pieces and bracketed variables, substitute returns the literal pieces unchanged, percent signs included, with each variable replaced, in order, by its own substitution.',
  'all texts, externals and dictionaries', 'Unbounded texts; replacement is by repeated search for the first occurrence.', [T+':Template.parse,substitute,_VARIABLE_REGEX'])
c('Parsing finds exactly the bracketed variables',
  'Template.parse creates one substitution per leftmost non-overlapping bracket group with a non-empty body, in order, and the stored template is the text with percent signs doubled and each group replaced by %s.',
  'all texts', 'Unbounded texts.', [T+':Template.parse'])
c('A substitution is parsed as documented',
  'Substitution.parse takes the part before the first bar, stripped and lower-cased, as the id; each further part, lower-cased and stripped, is a dependency on an external if it names one and a property list otherwise; a capital initial adds the upper-case property last; an empty id raises WrongDependencyFormatError and an unknown property id UnknownVerboseIdError carrying it.',
  'all variable texts, all external names', 'Unbounded texts.', [T+':Substitution.parse,parse_properties'])
c('Later specifications override earlier ones in a substitution',
  'Without number or preposition dependencies, the property used for spelling is, in order of precedence: the word\'s own, then the last dependency (external or property list) that specifies it, then the recognised form\'s, then the default.',
  'all substitutions, externals and dictionaries', 'Unbounded dependency lists.', [T+':Substitution._list_propeties,get_text'])
c('Externals shadow the dictionary',
  'If the id names an external, the dictionary is irrelevant to the substitution; otherwise externals not named by a dependency are irrelevant.',
  'all substitutions, pairs of dictionaries and pairs of externals', 'Relational property.', [T+':Substitution.get_text'])
c('get_undictionaried_words is exact',
  'It lists, in template order and with repetitions, exactly the ids that are neither externals nor dictionary texts; it is empty iff no substitution of the template raises NoWordsFoundError.',
  'all templates, externals and dictionaries', 'Unbounded.', [T+':Template.get_undictionaried_words'])
c('A checked template substitutes without error',
  'If every id is an external or a dictionary text, every external dependency is supplied, and all forms involved are non-empty, substitute on a parsed template raises nothing.',
  'all templates, externals and dictionaries', 'Unbounded.', [T+':Template.substitute'])
c('Templates survive serialization',
  'Template.deserialize(t.serialize()) == t and substitutes identically.',
  'all templates, externals and dictionaries', 'Unbounded.', [T+':Template.serialize,deserialize,Substitution.serialize,deserialize'])
c('Parsing replaces the content of a template',
  'Calling parse on a template object makes it a template of the new text. (The code violates this: the substitutions of an earlier parse stay, and substitute then raises; it holds for a fresh object.)',
  'all pairs of texts', 'Histories of calls.', [T+':Template.parse'])
c('Every Properties object can be written in a template and is read back',
  'Printing a Properties object as text and parsing the comma-separated ids gives an equal object; each id documented in the README denotes the documented value; two objects are equal iff they print the same.',
  'all Properties objects', 'All combinations.', [W+':Properties.__unicode__', T+':Substitution.parse_properties', L+':get_verbose_to_relations'])
c('Lazy properties are computed once',
  'A lazy property returns the value computed at its first access since creation or the last delete, whatever happens to the object in between; delete makes the next access recompute.',
  'all sequences of reads, deletes and mutations', 'All histories.', [U+':lazy_property'])
c('number_of_syllables counts vowels',
  'number_of_syllables is the number of vowel letters in the first form, but at least 1.',
  'all words', 'All strings.', [W+':Word.number_of_syllables', D+':VOWELS'])
c('has_fluent_vowel compares vowel skeletons',
  'has_fluent_vowel is True iff some non-empty form other than the first has a vowel sequence that does not begin with the first form\'s vowel sequence.',
  'all words', 'All strings.', [W+':Word.has_fluent_vowel'])
c('starts_with_consonant_cluster is decided by the first two letters',
  'It is True iff the first letter of the spelled form is a consonant and so is the second if there is one; it raises IndexError only on an empty form.',
  'all word forms', 'All strings.', [W+':WordForm.starts_with_consonant_cluster', D+':CONSONANTS'])
# --- migrations
c('Words migrated by the last migration can be loaded',
  'For any serialized word in the layout the migration expects, m_0009.migrate returns data Word.deserialize accepts, with type and properties unchanged; forms are unchanged too, except that a pronoun is then spelled, for every number, case and gender, with its old form of the third person.',
  'all word types, all form lists of the old layout', 'Unbounded forms.', [M(9)+':migrate', W+':Word.deserialize'])
c('m_0008 only reorders forms',
  'm_0008 moves each form to the slot with the same meaning: the form stored for a combination of properties before is the form found for it after, and no form is lost or duplicated.',
  'all word types, all form lists of the old layout', 'Unbounded forms.', [M(8)+':migrate'])
c('The frozen migrations compose',
  'm_0007, m_0008 and m_0009 applied in order to a word in the m_0007 layout raise nothing and give a loadable word with the same type and properties; a noun, verb, preposition, text or number, and an adjective outside the comparative (see C70), is then spelled for every combination of properties as it was stored before.',
  'all word types, all form lists of the m_0007 layout', 'Unbounded forms.', [M(7)+':migrate', M(8)+':migrate', M(9)+':migrate'])
c('The small data migrations do what they say',
  'm_0002 extends exactly nouns by six countable forms taken from the patch or the plural; m_0004 duplicates the last preposition form; m_0005 removes exactly the time property of participles read from JSON (and none of data serialized in memory, whose keys are integers); all leave other words unchanged.',
  'all serialized words', 'Unbounded data.', [M(2)+':migrate', M(4)+':migrate', M(5)+':migrate'])
c('Every shipped migration still works',
  'Each migration module can be imported and keeps the meaning of forms. (The code violates this: m_0003 and m_0006 refer to a removed verb form and cannot be imported; m_0001 compares keys of the old schema with keys of the current one scrambles adjectives and fills the short forms of participles with full forms of other cases.)',
  'all migration modules, all form lists', 'Unbounded forms.', [M(1)+':get_nearest_old_index', M(3)+':OLD_VERB_CACHE', M(6)+':OLD_CACHES'])

import sys
extra = os.path.join(os.path.dirname(__file__), 'props_extra.py')
if os.path.exists(extra): exec(open(extra).read())
with open(os.path.join(os.path.dirname(__file__), '..', 'properties.jsonl'), 'w') as f:
    for p in P: f.write(json.dumps(p, ensure_ascii=False) + '\n')
print(len(P))
