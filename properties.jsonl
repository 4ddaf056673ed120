{"id": "C01", "title": "Asking a word for a form always succeeds", "statement": "For any word the constructor accepted and any Properties object, word.form(properties) raises nothing and returns one of the strings in word.forms.", "quantifier": "all word types, all form lists of the accepted length, all word properties, all requested properties", "why_tests_cant": "There are 20 property kinds with up to 10 values each, so the space of Properties objects is far too big to enumerate, and the form strings are unbounded.", "anchors": ["utg/words.py:Word.form,_form", "utg/logic.py:_get_raw_cache", "utg/data.py:RAW_WORDS_CACHES"]}
{"id": "C02", "title": "A requested combination selects the slot documented for it", "statement": "If the effective properties (request overridden by the word's own properties, defaults for the rest) agree with the key of slot i on every property that key mentions, word.form returns forms[i]; properties the key leaves open never matter.", "quantifier": "all word types, all slots, all words, all requested properties", "why_tests_cant": "Slot keys leave positions open, so each stands for many combinations; the claim couples three nested generators for every combination.", "anchors": ["utg/words.py:Word._form,Properties.get_raw_key", "utg/logic.py:_keys_generator,_raw_keys_generator,_get_raw_cache"]}
{"id": "C03", "title": "Slots never overlap and only explicitly excluded combinations have none", "statement": "For any schema, any restriction table and any list of forbidden parts, every full combination of property values matches at most one slot key, and it matches none exactly when the pattern it belongs to contains a forbidden part.", "quantifier": "all schemas, restriction tables, forbidden part lists and full combinations", "why_tests_cant": "Tests check a few hand-written schemas; the claim ranges over every restriction table.", "anchors": ["utg/logic.py:_keys_generator,_restricted_keys_generator", "utg/restrictions.py:RESTRICTIONS,RESTRICTED_KEY_PARTS"]}
{"id": "C04", "title": "Properties outside a word type's schema never influence its form", "statement": "If two requests agree on every property in the schema of the word's type, word.form returns the same string for both.", "quantifier": "all words, all pairs of requests", "why_tests_cant": "Relational property over pairs of Properties objects.", "anchors": ["utg/words.py:Word.form,Properties.get_raw_key", "utg/relations.py:WORD_TYPE"]}
{"id": "C05", "title": "A word's own properties override what is requested", "statement": "word.form(p) does not depend on what p says about any property the word itself specifies.", "quantifier": "all words, all pairs of requests that differ only on properties the word specifies", "why_tests_cant": "Relational property over unbounded words and requests.", "anchors": ["utg/words.py:Word.form"]}
{"id": "C06", "title": "Excluded combinations fall back to a fixed slot", "statement": "A noun asked for the countable singular in case c gives its normal singular form in case c; a verb asked for the imperative of the third person, or of the first person singular, gives its infinitive.", "quantifier": "all nouns, all verbs, all requests that resolve to an excluded combination", "why_tests_cant": "The fallback goes through a nearest-key search whose ties are broken by dictionary order and float rounding; tests only cover a handful of combinations.", "anchors": ["utg/logic.py:_get_raw_cache,get_nearest_key", "utg/restrictions.py:RESTRICTED_KEY_PARTS"]}
{"id": "C07", "title": "Slot numbering is a bijection", "statement": "For every word type Word.get_keys lists every slot key exactly once, in slot order, its length is Word.get_forms_number, and looking a key up gives back its position.", "quantifier": "all schemas and restriction tables, hence all word types", "why_tests_cant": "Holds for every restriction table, not just the shipped one.", "anchors": ["utg/words.py:Word.get_keys,get_forms_number", "utg/logic.py:_get_cache,get_caches"]}
{"id": "C08", "title": "The constructor accepts exactly the right number of forms", "statement": "Word(type, forms, properties) succeeds iff len(forms) equals the number of slots of the type, and otherwise raises WrongFormsNumberError carrying the given and the expected number; on success the three fields are stored unchanged.", "quantifier": "all types, form lists and properties", "why_tests_cant": "Form lists are unbounded.", "anchors": ["utg/words.py:Word.__init__", "utg/exceptions.py:WrongFormsNumberError"]}
{"id": "C09", "title": "all_forms enumerates the forms in slot order", "statement": "all_forms yields one word form per slot. The i-th one is spelled as the word is with the properties of slot i, the word's own ones coming first: it spells forms[i], with a capital letter if the word demands one, whenever the word's own properties permit slot i (for a word that fixes no schema property, always). In a word without a capital letter each one spells some form of the word.", "quantifier": "all words", "why_tests_cant": "Quantifies over every word and every slot.", "anchors": ["utg/words.py:Word.all_forms,WordForm.get_form"]}
{"id": "C10", "title": "The last specification of a property wins", "statement": "Properties(a1, ..., an).get(g) is what the last argument that says something about g says; None arguments are ignored; a property nobody mentions has its documented default (first record; None for the part of speech).", "quantifier": "all argument lists (records, Properties objects and None), all property groups", "why_tests_cant": "Argument lists are unbounded and may nest.", "anchors": ["utg/words.py:Properties.__init__,_update,get", "utg/logic.py:get_default_properties"]}
{"id": "C11", "title": "clone is a right-biased merge", "statement": "p.clone(q) reads like q where q specifies a property and like p elsewhere; merging is associative and idempotent, and the empty Properties is neutral on both sides.", "quantifier": "all Properties objects", "why_tests_cant": "Algebraic law over all values.", "anchors": ["utg/words.py:Properties.clone,_update"]}
{"id": "C12", "title": "Equality of Properties ignores construction order and agrees with hash", "statement": "Two Properties objects are equal iff they specify the same values for the same groups; this is an equivalence relation, and equal objects have equal hashes (manhattan distance).", "quantifier": "all Properties objects", "why_tests_cant": "Equality and hash must agree for every pair of histories.", "anchors": ["utg/words.py:Properties.__eq__,__hash__,manhattan_distance"]}
{"id": "C13", "title": "Properties survive serialization, also through JSON", "statement": "Properties.deserialize(p.serialize()) == p, also when the dictionary keys were turned into strings on the way.", "quantifier": "all Properties objects", "why_tests_cant": "All combinations of values; depends on uniqueness of every numeric code.", "anchors": ["utg/words.py:Properties.serialize,deserialize", "utg/relations.py:PROPERTY_TYPE"]}
{"id": "C14", "title": "Deserialization ignores codes it does not know", "statement": "Properties.deserialize of any dictionary with integer-like keys never raises; the result specifies exactly the known (type, value) codes of the input, the last entry for a type winning.", "quantifier": "all dictionaries with integer or decimal-string keys and integer values", "why_tests_cant": "The input space is unbounded.", "anchors": ["utg/words.py:Properties.deserialize"]}
{"id": "C15", "title": "Words survive serialization", "statement": "Word.deserialize(w.serialize()) == w for every word; deserialize raises WrongFormsNumberError for a wrong number of forms and a lookup error for an unknown type code, and never anything else.", "quantifier": "all words; all serialized dictionaries", "why_tests_cant": "Unbounded form lists.", "anchors": ["utg/words.py:Word.serialize,deserialize"]}
{"id": "C16", "title": "Word equality agrees with hash", "statement": "Word equality is an equivalence relation and equal words have equal hashes.", "quantifier": "all words", "why_tests_cant": "All pairs.", "anchors": ["utg/words.py:Word.__eq__,__hash__"]}
{"id": "C17", "title": "WordForm equality agrees with hash", "statement": "Equal WordForm objects have equal hashes. (The code violates this when form_properties is given separately; it holds when form_properties is not given.)", "quantifier": "all word forms", "why_tests_cant": "A contract over all pairs of objects.", "anchors": ["utg/words.py:WordForm.__eq__,__hash__"]}
{"id": "C18", "title": "The normal form honours the word's own properties", "statement": "normal_form() equals form(q) for any request q that specifies only properties the word specifies, and is forms[0] for a word that specifies no schema property.", "quantifier": "all words", "why_tests_cant": "All words, all own properties.", "anchors": ["utg/words.py:Word.normal_form"]}
{"id": "C19", "title": "Upper-casing touches only the first letter", "statement": "A word form with the upper WORD_CASE spells the same text with only its first character upper-cased; with the lower one the text is unchanged; the only failure is IndexError on an empty form in upper case.", "quantifier": "all word forms and Unicode case mappings", "why_tests_cant": "All strings.", "anchors": ["utg/words.py:WordForm.get_form"]}
{"id": "C20", "title": "Autofill never touches a form that is present", "statement": "autofill_missed_forms keeps the number of forms and every non-empty form.", "quantifier": "all words", "why_tests_cant": "All subsets of present slots (2^144 for participles).", "anchors": ["utg/words.py:Word.autofill_missed_forms"]}
{"id": "C21", "title": "Autofill completes a word that has at least one form", "statement": "After autofill_missed_forms no form is empty if at least one was non-empty, every filled slot holds the text of a slot present before the call, nothing changes if all were empty, and a second call changes nothing.", "quantifier": "all words", "why_tests_cant": "All subsets of present slots.", "anchors": ["utg/words.py:Word.autofill_missed_forms"]}
{"id": "C22", "title": "Autofill takes the nearest present slot", "statement": "A missing slot receives the text of the present slot whose key matches most properties of the missing slot's key; among equal counts the one with the larger sum of matched schema positions; among equal sums the lowest slot number.", "quantifier": "all words, all missing slots", "why_tests_cant": "All subsets of present slots; comparison goes through floating point.", "anchors": ["utg/words.py:Word.autofill_missed_forms", "utg/logic.py:get_nearest_key"]}
{"id": "C23", "title": "Nearest-key search is an argmax", "statement": "get_nearest_key returns None iff there are no available keys; otherwise an available key of maximal similarity, the first such in iteration order; a key that is itself available is returned unchanged.", "quantifier": "all keys, all lists of available keys (the last part: keys of up to 40 properties, more than the library has groups)", "why_tests_cant": "Unbounded lists; float similarity.", "anchors": ["utg/logic.py:get_nearest_key"]}
{"id": "C24", "title": "Float rounding never reverses the similarity order", "statement": "For keys as long as any in the library, comparing the accumulated binary64 similarities orders match sets as the exact sums of (1 + index/100) do whenever those differ, so more matching properties always beat fewer.", "quantifier": "all pairs of match sets over at most 8 positions", "why_tests_cant": "Every pair of match sets under IEEE rounding.", "anchors": ["utg/logic.py:get_nearest_key"]}
{"id": "C25", "title": "A lookup returns a form spelled as asked", "statement": "If dictionary.get_word(t) returns f then f.form == t and f.word is one of the added words.", "quantifier": "all histories of add_word, all texts", "why_tests_cant": "All histories.", "anchors": ["utg/dictionary.py:Dictionary.add_word,get_word"]}
{"id": "C26", "title": "has_word, get_word and the added words agree", "statement": "has_word(t) is True iff get_word(t) does not raise iff some added word has a form spelled t; otherwise get_word raises NoWordsFoundError carrying t.", "quantifier": "all histories, all texts", "why_tests_cant": "All histories.", "anchors": ["utg/dictionary.py:Dictionary.has_word,get_word"]}
{"id": "C27", "title": "The registered form is the least candidate", "statement": "get_word(t) is the first, in order of addition and slot, of the forms spelled t that minimise (type code, form list in lexicographic order, number of non-default properties).", "quantifier": "all histories, all texts", "why_tests_cant": "All histories of unbounded length.", "anchors": ["utg/dictionary.py:Dictionary.add_word"]}
{"id": "C28", "title": "Order of addition matters only on complete ties", "statement": "For two orders of adding the same words, get_word(t) gives forms with the same type, form list and number of non-default properties; the form itself may differ only when two candidates tie on all three.", "quantifier": "all permutations of all word lists", "why_tests_cant": "All permutations.", "anchors": ["utg/dictionary.py:Dictionary.add_word"]}
{"id": "C29", "title": "Adding words never loses texts and re-adding is harmless", "statement": "add_word keeps every known text known; adding a word that is already there changes no lookup; Dictionary(words) equals adding them one by one.", "quantifier": "all histories", "why_tests_cant": "All histories.", "anchors": ["utg/dictionary.py:Dictionary.add_word,__init__"]}
{"id": "C30", "title": "get_words returns exactly the words that own some text", "statement": "get_words returns exactly the words that are returned by get_word for some text; each was added, and no two of them are equal.", "quantifier": "all histories", "why_tests_cant": "All histories.", "anchors": ["utg/dictionary.py:Dictionary.get_words"]}
{"id": "C31", "title": "get_templates filters by restrictions", "statement": "get_templates(k, rs) returns, in order of addition, exactly the templates added under k whose restrictions are all in rs; an unknown key gives an empty result.", "quantifier": "all histories of add_template, all keys and restriction sets", "why_tests_cant": "All histories and sets.", "anchors": ["utg/lexicon.py:Lexicon.add_template,get_templates"]}
{"id": "C32", "title": "get_random_template is sound and complete", "statement": "It raises UnknownLexiconKeyError iff nothing was added under the key, NoTemplatesWithSpecifiedRestrictions iff something was but nothing is applicable, and otherwise returns an applicable template; each applicable template is returned for some random draw.", "quantifier": "all histories, keys, restriction sets and random draws", "why_tests_cant": "Random outcomes cannot be exhausted by tests.", "anchors": ["utg/lexicon.py:Lexicon.get_random_template"]}
{"id": "C33", "title": "get_random_nearest_template returns a most specific applicable template", "statement": "The result is applicable and no applicable template has more restrictions; each such template is possible; it raises in exactly the same situations as get_random_template.", "quantifier": "all histories, keys, restriction sets and random draws", "why_tests_cant": "Random outcomes and unbounded histories.", "anchors": ["utg/lexicon.py:Lexicon._get_nearest_templates,get_random_nearest_template"]}
{"id": "C34", "title": "Adding a template affects only its key", "statement": "add_template(k, ...) makes has_key(k) true, appends to what is offered under k and leaves every other key as it was.", "quantifier": "all histories, all keys", "why_tests_cant": "All histories.", "anchors": ["utg/lexicon.py:Lexicon.add_template,has_key"]}
{"id": "C35", "title": "Every integer gets the right agreement class", "statement": "construct_integer(n) carries: million/billion for |n| in {10^6, 10^9}; singular (NUMBER singular only for |n| = 1) if |n| ends in 1 but not 11; dual for 2, 3, 4; composite dual for larger numbers ending in 2, 3, 4 but not 12-14; plural otherwise.", "quantifier": "all integers", "why_tests_cant": "Infinitely many integers.", "anchors": ["utg/constructors.py:_construct_integer,INTEGER_PROPERTIES"]}
{"id": "C36", "title": "The integer cache is transparent", "statement": "Whatever calls happened before, construct_integer(n) returns a value equal to a freshly built one; two calls with the same n in 0..10000 return the same object, and outside that range a new object.", "quantifier": "all call histories, all integers", "why_tests_cant": "All histories.", "anchors": ["utg/constructors.py:construct_integer"]}
{"id": "C37", "title": "The text of an integer is its decimal notation", "statement": "The only form of construct_integer(n) is the decimal notation of n with its sign; different integers get different texts.", "quantifier": "all integers", "why_tests_cant": "Infinitely many integers.", "anchors": ["utg/constructors.py:_construct_integer"]}
{"id": "C38", "title": "Agreement with a number never fails and follows the grammar (nouns, pronouns)", "statement": "Transforming a noun or pronoun by an integer raises nothing and yields: semantic dependency - normal form, singular iff class singular; class singular - normal singular, case kept; dual - nominative, or accusative of an inanimate: normal genitive singular, otherwise countable plural, case kept; composite dual - nominative/accusative: normal genitive singular, otherwise countable plural, case kept; plural - nominative/accusative: countable genitive plural, otherwise countable plural, case kept; million/billion - countable genitive plural.", "quantifier": "all Properties objects", "why_tests_cant": "All combinations of 20 properties.", "anchors": ["utg/transformators.py:_noun_integer"]}
{"id": "C39", "title": "Agreement with a number never fails and follows the grammar (adjectives, verbs, participles)", "statement": "Transforming an adjective, verb or participle by an integer raises nothing and yields the documented number and case: semantic - number only; singular - singular; dual - nominative/accusative: genitive plural for masculine and neuter, nominative plural for feminine, else plural; composite dual - nominative/accusative: genitive singular, else plural; plural - nominative/accusative: genitive plural, else plural; million/billion - genitive plural.", "quantifier": "all Properties objects", "why_tests_cant": "All combinations of 20 properties.", "anchors": ["utg/transformators.py:_adjective_integer"]}
{"id": "C40", "title": "A transformation changes nothing else", "statement": "The number transformations change only noun form, number and case; the preposition one only the preposition form; for any other pair of word types transform returns its argument unchanged.", "quantifier": "all Properties objects, all pairs of word types", "why_tests_cant": "Frame condition over all values.", "anchors": ["utg/transformators.py:transform,_TRANSFORMATORS"]}
{"id": "C41", "title": "A counted noun is spelled in the right slot for every number", "statement": "For a noun that fixes no schema property, substituting [noun|n|case] with n an integer external spells the slot the grammar prescribes for n, the case and the animality.", "quantifier": "all integers, all nouns, all cases", "why_tests_cant": "Infinitely many integers and nouns.", "anchors": ["utg/templates.py:Substitution.get_text", "utg/transformators.py:_noun_integer", "utg/constructors.py:construct_integer"]}
{"id": "C42", "title": "A preposition takes the right variant", "statement": "A preposition ending in a consonant takes its alternative form iff the next word is a one-syllable word with a fluent vowel starting with a consonant cluster, or the preposition is v or s, the next word starts with the same letter and a consonant cluster; one ending otherwise takes the special form iff it is o before one of the five listed words, else the alternative iff the next word starts with a non-iotated vowel.", "quantifier": "all prepositions, all words", "why_tests_cant": "All strings.", "anchors": ["utg/transformators.py:_preposition_any,_consonant_preposition_any,_vowels_preposition_any"]}
{"id": "C43", "title": "A word's own properties hold in every substitution", "statement": "In a substitution the chosen form always honours the properties the word itself fixes. (The code violates this: agreement with a number overrides a noun's fixed number; it holds for substitutions without number dependencies.)", "quantifier": "all words, externals and dependency lists", "why_tests_cant": "All dependency lists.", "anchors": ["utg/templates.py:Substitution.get_text", "utg/transformators.py:transform"]}
{"id": "C44", "title": "Literal text is reproduced verbatim", "statement": "For any text made of literal pieces and bracketed variables, substitute returns the literal pieces unchanged, percent signs included, with each variable replaced, in order, by its own substitution.", "quantifier": "all texts, externals and dictionaries", "why_tests_cant": "Unbounded texts; replacement is by repeated search for the first occurrence.", "anchors": ["utg/templates.py:Template.parse,substitute,_VARIABLE_REGEX"]}
{"id": "C45", "title": "Parsing finds exactly the bracketed variables", "statement": "Template.parse creates one substitution per leftmost non-overlapping bracket group with a non-empty body, in order, and the stored template is the text with percent signs doubled and each group replaced by %s.", "quantifier": "all texts", "why_tests_cant": "Unbounded texts.", "anchors": ["utg/templates.py:Template.parse"]}
{"id": "C46", "title": "A substitution is parsed as documented", "statement": "Substitution.parse takes the part before the first bar, stripped and lower-cased, as the id; each further part, lower-cased and stripped, is a dependency on an external if it names one and a property list otherwise; a capital initial adds the upper-case property last; an empty id raises WrongDependencyFormatError and an unknown property id UnknownVerboseIdError carrying it.", "quantifier": "all variable texts, all external names", "why_tests_cant": "Unbounded texts.", "anchors": ["utg/templates.py:Substitution.parse,parse_properties"]}
{"id": "C47", "title": "Later specifications override earlier ones in a substitution", "statement": "Without number or preposition dependencies, the property used for spelling is, in order of precedence: the word's own, then the last dependency (external or property list) that specifies it, then the recognised form's, then the default.", "quantifier": "all substitutions, externals and dictionaries", "why_tests_cant": "Unbounded dependency lists.", "anchors": ["utg/templates.py:Substitution._list_propeties,get_text"]}
{"id": "C48", "title": "Externals shadow the dictionary", "statement": "If the id names an external, the dictionary is irrelevant to the substitution; otherwise externals not named by a dependency are irrelevant.", "quantifier": "all substitutions, pairs of dictionaries and pairs of externals", "why_tests_cant": "Relational property.", "anchors": ["utg/templates.py:Substitution.get_text"]}
{"id": "C49", "title": "get_undictionaried_words is exact", "statement": "It lists, in template order and with repetitions, exactly the ids that are neither externals nor dictionary texts; it is empty iff no substitution of the template raises NoWordsFoundError.", "quantifier": "all templates, externals and dictionaries", "why_tests_cant": "Unbounded.", "anchors": ["utg/templates.py:Template.get_undictionaried_words"]}
{"id": "C50", "title": "A checked template substitutes without error", "statement": "If every id is an external or a dictionary text, every external dependency is supplied, and all forms involved are non-empty, substitute on a parsed template raises nothing.", "quantifier": "all templates, externals and dictionaries", "why_tests_cant": "Unbounded.", "anchors": ["utg/templates.py:Template.substitute"]}
{"id": "C51", "title": "Templates survive serialization", "statement": "Template.deserialize(t.serialize()) == t and substitutes identically.", "quantifier": "all templates, externals and dictionaries", "why_tests_cant": "Unbounded.", "anchors": ["utg/templates.py:Template.serialize,deserialize,Substitution.serialize,deserialize"]}
{"id": "C52", "title": "Parsing replaces the content of a template", "statement": "Calling parse on a template object makes it a template of the new text. (The code violates this: the substitutions of an earlier parse stay, and substitute then raises; it holds for a fresh object.)", "quantifier": "all pairs of texts", "why_tests_cant": "Histories of calls.", "anchors": ["utg/templates.py:Template.parse"]}
{"id": "C53", "title": "Every Properties object can be written in a template and is read back", "statement": "Printing a Properties object as text and parsing the comma-separated ids gives an equal object; each id documented in the README denotes the documented value; two objects are equal iff they print the same.", "quantifier": "all Properties objects", "why_tests_cant": "All combinations.", "anchors": ["utg/words.py:Properties.__unicode__", "utg/templates.py:Substitution.parse_properties", "utg/logic.py:get_verbose_to_relations"]}
{"id": "C54", "title": "Lazy properties are computed once", "statement": "A lazy property returns the value computed at its first access since creation or the last delete, whatever happens to the object in between; delete makes the next access recompute.", "quantifier": "all sequences of reads, deletes and mutations", "why_tests_cant": "All histories.", "anchors": ["utg/utils.py:lazy_property"]}
{"id": "C55", "title": "number_of_syllables counts vowels", "statement": "number_of_syllables is the number of vowel letters in the first form, but at least 1.", "quantifier": "all words", "why_tests_cant": "All strings.", "anchors": ["utg/words.py:Word.number_of_syllables", "utg/data.py:VOWELS"]}
{"id": "C56", "title": "has_fluent_vowel compares vowel skeletons", "statement": "has_fluent_vowel is True iff some non-empty form other than the first has a vowel sequence that does not begin with the first form's vowel sequence.", "quantifier": "all words", "why_tests_cant": "All strings.", "anchors": ["utg/words.py:Word.has_fluent_vowel"]}
{"id": "C57", "title": "starts_with_consonant_cluster is decided by the first two letters", "statement": "It is True iff the first letter of the spelled form is a consonant and so is the second if there is one; it raises IndexError only on an empty form.", "quantifier": "all word forms", "why_tests_cant": "All strings.", "anchors": ["utg/words.py:WordForm.starts_with_consonant_cluster", "utg/data.py:CONSONANTS"]}
{"id": "C58", "title": "Words migrated by the last migration can be loaded", "statement": "For any serialized word in the layout the migration expects, m_0009.migrate returns data Word.deserialize accepts, with type and properties unchanged; forms are unchanged too, except that a pronoun is then spelled, for every number, case and gender, with its old form of the third person.", "quantifier": "all word types, all form lists of the old layout", "why_tests_cant": "Unbounded forms.", "anchors": ["utg/migrations/m_0009_pronoun_modernization.py:migrate", "utg/words.py:Word.deserialize"]}
{"id": "C59", "title": "m_0008 only reorders forms", "statement": "m_0008 moves each form to the slot with the same meaning: the form stored for a combination of properties before is the form found for it after, and no form is lost or duplicated.", "quantifier": "all word types, all form lists of the old layout", "why_tests_cant": "Unbounded forms.", "anchors": ["utg/migrations/m_0008_lower_animiality_nearest_priority.py:migrate"]}
{"id": "C60", "title": "The frozen migrations compose", "statement": "m_0007, m_0008 and m_0009 applied in order to a word in the m_0007 layout raise nothing and give a loadable word with the same type and properties; a noun, verb, preposition, text or number, and an adjective outside the comparative (see C70), is then spelled for every combination of properties as it was stored before.", "quantifier": "all word types, all form lists of the m_0007 layout", "why_tests_cant": "Unbounded forms.", "anchors": ["utg/migrations/m_0007_reduce_words_forms.py:migrate", "utg/migrations/m_0008_lower_animiality_nearest_priority.py:migrate", "utg/migrations/m_0009_pronoun_modernization.py:migrate"]}
{"id": "C61", "title": "The small data migrations do what they say", "statement": "m_0002 extends exactly nouns by six countable forms taken from the patch or the plural; m_0004 duplicates the last preposition form; m_0005 removes exactly the time property of participles read from JSON (and none of data serialized in memory, whose keys are integers); all leave other words unchanged.", "quantifier": "all serialized words", "why_tests_cant": "Unbounded data.", "anchors": ["utg/migrations/m_0002_countable_noun_form.py:migrate", "utg/migrations/m_0004_new_preposition_form.py:migrate", "utg/migrations/m_0005_remove_time_participle_property.py:migrate"]}
{"id": "C62", "title": "Every shipped migration still works", "statement": "Each migration module can be imported and keeps the meaning of forms. (The code violates this: m_0003 and m_0006 refer to a removed verb form and cannot be imported; m_0001 compares keys of the old schema with keys of the current one scrambles adjectives and fills the short forms of participles with full forms of other cases.)", "quantifier": "all migration modules, all form lists", "why_tests_cant": "Unbounded forms.", "anchors": ["utg/migrations/m_0001_include_short_forms_in_full.py:get_nearest_old_index", "utg/migrations/m_0003_change_verb_forms.py:OLD_VERB_CACHE", "utg/migrations/m_0006_per_word_type_restrictions.py:OLD_CACHES"]}
{"id": "C63", "title": "Exact ties in nearest-key search go to the first key", "statement": "Among available keys whose exact similarity (sum of 1 + index/100 over the matching positions) is equal, get_nearest_key returns the first in iteration order. (The code violates this for keys of five or more properties: the rounded binary64 sums of equal exact similarities can differ, e.g. matches at 0, 2, 4 against matches at 1, 2, 3; it holds for keys of up to four properties, and for every word in autofill, see C22.)", "quantifier": "all keys and all lists of available keys", "why_tests_cant": "Only certain pairs of match patterns expose the rounding; a test would have to hit one of them.", "anchors": ["utg/logic.py:get_nearest_key"]}
{"id": "C64", "title": "What a failed parse leaves behind", "statement": "If parse raises, the template text of the object is unchanged, but the substitutions read before the faulty variable are appended to it; if there are any, a template that worked before then raises in substitute: what the first of its variables raises, or TypeError if none does.", "quantifier": "all template objects and texts", "why_tests_cant": "Every combination of earlier text and failing text leaves a different object.", "anchors": ["utg/templates.py:Template.parse", "utg/templates.py:Template.substitute"]}
{"id": "C65", "title": "Blanks around property ids are ignored", "statement": "White space around the property ids of a variable does not change its meaning. (The code violates this: the result of slug.strip() is discarded, so a blank after a comma raises UnknownVerboseIdError; it holds for blanks around the whole list, next to the bars and brackets.)", "quantifier": "all variables", "why_tests_cant": "Tests can only try some placements of blanks.", "anchors": ["utg/templates.py:Substitution.parse_properties", "utg/templates.py:Substitution.parse"]}
{"id": "C66", "title": "Agreement applies to the collected properties", "statement": "With exactly one number among the dependencies, a noun, pronoun, adjective, verb or participle is spelled with the properties collected in the order of precedence and then changed as the number demands; with exactly one external dependency, a preposition is spelled with the form its normal form and the text of that external demand.", "quantifier": "all substitutions, externals and dictionaries", "why_tests_cant": "The result depends on the whole dependency list, the word and the number at once.", "anchors": ["utg/templates.py:Substitution.get_text", "utg/transformators.py:transform"]}
{"id": "C67", "title": "Naming a number twice changes nothing", "statement": "Repeating an external dependency does not change the text. (The code violates this: agreement with two, three, four turns the nominative into the genitive, and a second agreement then sees a genitive and demands the plural; it holds for all other numbers.)", "quantifier": "all substitutions and externals", "why_tests_cant": "Only some combinations of number, case and part of speech show it.", "anchors": ["utg/templates.py:Substitution.get_text", "utg/transformators.py:_noun_integer", "utg/transformators.py:_adjective_integer"]}
{"id": "C68", "title": "A variable replaces the case recognised in the text", "statement": "README: in [красивого|hero] the nominative of the variable replaces the recognised case. (The code violates this: a variable built without properties specifies no case, so the recognised case stays; it holds for variables whose case is specified.)", "quantifier": "all words and variables", "why_tests_cant": "Whether a case is specified is invisible in the spelled text of the variable.", "anchors": ["README.rst", "utg/templates.py:Substitution.get_text", "utg/words.py:Properties.__init__"]}
{"id": "C69", "title": "Equal templates substitute identically", "statement": "If t == u then t and u substitute to the same text, or raise the same exception, for all externals and dictionaries.", "quantifier": "all pairs of templates, externals and dictionaries", "why_tests_cant": "Equality ignores the order of properties; every later computation must do so too.", "anchors": ["utg/templates.py:Template.__eq__", "utg/templates.py:Substitution.__eq__", "utg/templates.py:Template.substitute"]}
{"id": "C70", "title": "m_0007 keeps the meaning of forms", "statement": "After m_0007, the form stored for each combination of properties of the new layout is the form stored for that combination before. (The code violates this for the comparative of adjectives: nearest-key search counts two open positions as agreement, so the comparative becomes the old plural short form; it holds for every other combination of words that are not participles, for which see C71.)", "quantifier": "all word types, all form lists of the m_0007 layout", "why_tests_cant": "One slot of one part of speech is wrong; a test must look at that slot with forms that differ.", "anchors": ["utg/migrations/m_0007_reduce_words_forms.py:migrate", "utg/logic.py:get_nearest_key"]}
{"id": "C71", "title": "m_0007 keeps the voice of participles", "statement": "After m_0007 a participle has the forms of its own voice. (The code violates this: the table repeats every key for both voices, the later item wins, so every full form comes from the reverse voice and the direct forms are lost whatever the voice of the word; short forms are kept.)", "quantifier": "all participles of the m_0007 layout", "why_tests_cant": "The data of every participle is affected, for all forms.", "anchors": ["utg/migrations/m_0007_reduce_words_forms.py:OLD_CACHES"]}
{"id": "C72", "title": "A text is filled part by part", "statement": "The text substituted for a concatenation of two template texts is the concatenation of the texts substituted for the parts: what is written in one variable affects only the place where it stands.", "quantifier": "all texts split at a place outside variables, all externals and dictionaries", "why_tests_cant": "Substitution goes through one format string and one list of variables for the whole text; any number of variables and literals.", "anchors": ["utg/templates.py:Template.parse", "utg/templates.py:Template.substitute"]}
{"id": "C73", "title": "A known word in brackets is replaced by itself", "statement": "A text known to the dictionary, put in brackets without further instructions, is replaced by that very text; written with a capital letter it is replaced by the text with a capital letter, unless the word fixes its case.", "quantifier": "all dictionaries, all texts known to them, all externals not of that name", "why_tests_cant": "The recognised properties must lead back to the same slot of the same word for every form of every word type.", "anchors": ["utg/templates.py:Substitution.get_text", "utg/data.py:Dictionary.get_word", "utg/words.py:WordForm.form"]}
{"id": "C74", "title": "Every text the dictionary knows can be used in a template", "statement": "If the dictionary knows a text then a template with that text in brackets can be filled. (The code violates this: the text in brackets is lowered, so a form that contains capital letters, such as a proper name, is never found; it holds for texts that are their own lower case and contain no markup.)", "quantifier": "all dictionaries and all texts known to them", "why_tests_cant": "Only forms with capital letters show it.", "anchors": ["utg/templates.py:Substitution.parse", "utg/data.py:Dictionary.add_word"]}
{"id": "C75", "title": "Lazily computed counts of a word stay right when it is autofilled", "statement": "autofill_missed_forms never changes a form that is present nor number_of_syllables and has_fluent_vowel of the word, so these attributes, which are remembered when first read, are right whenever they are read later, as long as no form is assigned by hand. (This needs the first form to be present: a value read from a word whose first form is empty goes stale.)", "quantifier": "all accepted words, all sequences of operations on word objects", "why_tests_cant": "The staleness depends on the order of reading and filling.", "anchors": ["utg/words.py:Word.autofill_missed_forms", "utg/words.py:Word.number_of_syllables", "utg/words.py:Word.has_fluent_vowel"]}
{"id": "C76", "title": "A dictionary can be saved and rebuilt from its words", "statement": "A dictionary built from the words get_words returns, in any order, knows the same texts, and finds for each a word form of the same rank: the same part of speech and as many non-default properties. So does one built from those words after serialising and deserialising each. (Which of two word forms of equal rank is found depends on the order of the words.)", "quantifier": "all lists of accepted words", "why_tests_cant": "get_words returns a set: every order has to be considered, and every conflict between words.", "anchors": ["utg/data.py:Dictionary.get_words", "utg/data.py:Dictionary.add_word", "utg/words.py:Word.serialize"]}
{"id": "C77", "title": "A dictionary survives any treatment of its words", "statement": "Words are shared mutable objects. Whatever is done to words before or after they are added, get_word(t) gives a word form that says t, and a text once known stays known. As long as no word is changed after it was added, the dictionary is the one built from the values the words had. (A word changed later makes the dictionary give a form that the word no longer has.)", "quantifier": "all sequences of creating, adding, changing, autofilling and reading words", "why_tests_cant": "Aliasing and caching over any history of operations.", "anchors": ["utg/data.py:Dictionary.add_word", "utg/data.py:Dictionary.get_word", "utg/words.py:WordForm.form", "utg/words.py:Word"]}
{"id": "C78", "title": "Test words spell their slots", "statement": "create_test_word gives an accepted word, each of whose forms is the prefix, the names of the properties of its slot and the suffix; the forms are pairwise different, and a dictionary containing only that word finds, for each form, the slot it spells. It has the properties that were given and no others; only_required and chance have no effect.", "quantifier": "all word types, prefixes, suffixes, properties and outcomes of chance", "why_tests_cant": "All slots of all word types and all prefixes.", "anchors": ["utg/words.py:Word.create_test_word"]}
{"id": "C79", "title": "Every error is the documented exception with a readable message", "statement": "At every place where the library raises one of its exceptions the message is built without error and contains the values given, even when they contain percent signs; the abstract classes, which have no message, cannot be raised.", "quantifier": "all raise sites, all argument values", "why_tests_cant": "Arguments come from user texts; a percent sign in one must not break the formatting.", "anchors": ["utg/exceptions.py:UtgError.__init__", "utg/templates.py:Substitution.parse", "utg/data.py:Dictionary.get_word"]}
{"id": "C80", "title": "A word agrees with the variable it depends on", "statement": "In [word|variable] the word takes the form of the slot whose properties are: its own if it has one, else those of the variable if it specifies one, else those recognised in the text. In particular a verb written in the past takes the gender of the variable if it has one, and its number if it specifies one.", "quantifier": "all words but prepositions, all variables but numbers, all dictionaries", "why_tests_cant": "All slots of all parts of speech and all properties of variables.", "anchors": ["utg/templates.py:Substitution.get_text", "utg/templates.py:Substitution.parse", "utg/words.py:WordForm.form"]}
{"id": "C81", "title": "What a template object that is parsed again and again substitutes", "statement": "Whether parse succeeds, and its exception, do not depend on the earlier calls on the object. After any history of calls, substitute raises if none succeeded; otherwise let c be the last successful call: substitute succeeds iff no other call read a variable (its text has none, or its first one is faulty) and a fresh object parsed with c substitutes; then both give the same text.", "quantifier": "all histories of parse calls, successful or not, on one template object", "why_tests_cant": "Unbounded histories, with failures in between.", "anchors": ["utg/templates.py:Template.parse", "utg/templates.py:Template.substitute"]}
{"id": "C82", "title": "Lexicon, dictionary and templates work together, also after saving", "statement": "With words that have all their forms and a lexicon of templates parsed and checked against the externals that will be given, get_random_nearest_template and get_random_template, whenever some template is applicable, give one that substitutes without error. If words and template go through JSON, the loaded template reports the same missing words and substitutes the same text.", "quantifier": "all word lists, lexicons, keys, restrictions, random draws, externals and JSON encodings", "why_tests_cant": "The promise spans all modules and every combination of their inputs.", "anchors": ["utg/lexicon.py:Lexicon.get_random_nearest_template", "utg/templates.py:Template.substitute", "utg/templates.py:Template.get_undictionaried_words", "utg/words.py:Word.serialize"]}
{"id": "C83", "title": "Adding words never breaks a template", "statement": "A template with no missing words has none after further words are added. A lookup changes only to a better word form, of an added word; a template none of whose variables is spelled like a form of an added word gives the same text as before.", "quantifier": "all templates, externals, and all dictionaries and words added to them", "why_tests_cant": "The effect of an addition depends on all texts of all words.", "anchors": ["utg/data.py:Dictionary.add_word", "utg/templates.py:Template.get_undictionaried_words", "utg/templates.py:Template.substitute"]}
{"id": "C84", "title": "Autofilling words before adding them loses nothing", "statement": "A word with at least one form can be added once it is autofilled, also one written with a capital letter; and every non-empty text known to a dictionary of words is known to the dictionary of the autofilled words.", "quantifier": "all lists of accepted words", "why_tests_cant": "All patterns of missing forms and own properties.", "anchors": ["utg/words.py:Word.autofill_missed_forms", "utg/data.py:Dictionary.add_word"]}
{"id": "C85", "title": "Equal objects are interchangeable", "statement": "Equal words have the same form for equal requests; dictionaries of equal words have equal lookups; replacing externals by equal ones changes no text. (The code violates the last part for prepositions: WordForm equality ignores form_properties, but a preposition looks at the text they select; it holds if equal externals are also spelled the same, and for templates without prepositions.)", "quantifier": "all words, word forms, dictionaries and templates", "why_tests_cant": "Equality does not compare everything; each pair of equal but different objects could tell.", "anchors": ["utg/words.py:WordForm.__eq__", "utg/words.py:Word.__eq__", "utg/templates.py:Substitution.get_text"]}
{"id": "C86", "title": "Rendering computes the reference semantics", "statement": "What a template gives is a function of its text, the words of the dictionary and the externals that can be written down without caches: each variable stands for the best dictionary entry of its id (the first one among equals) or the external of that name; the values of the properties are the word's own, else those of the last dependency that specifies them, else those of the entry; then each external, in order, sets the values its number or its text demands; the text is the form at the position of the resulting combination in the documented list of forms (countable singular: the normal singular; missing imperatives: the infinitive), with a capital if asked for; the first variable with no word, a missing external or an empty text is the error.", "quantifier": "all word lists, externals, texts and variables with any number of dependencies", "why_tests_cant": "A full input-output specification of the program; every case of every table takes part.", "anchors": ["utg/templates.py:Template.parse", "utg/templates.py:Template.substitute", "utg/templates.py:Substitution.get_text", "utg/transformators.py:transform", "utg/words.py:WordForm.get_form", "utg/data.py:Dictionary.add_word"]}
{"id": "C87", "title": "A counted word takes its number from the number, whatever it fixes", "statement": "In [word|n|case] the noun form, number and case of a noun or pronoun follow from n, its animality and the case, which is the one the word fixes, else the one asked for; of an adjective, verb or participle the number and the case follow from n, its gender and the case. All other properties are the word's own, else those it was recognised with. A number or noun form the word fixes itself does not count, so a plural-only noun takes a singular form with two.", "quantifier": "all integers, cases, words of these five types that fix no integer form, dictionaries and externals", "why_tests_cant": "Every combination of own properties, requested case and number.", "anchors": ["utg/templates.py:Substitution.get_text", "utg/transformators.py:_noun_integer", "utg/transformators.py:_adjective_integer"]}
{"id": "C88", "title": "Naming a number again: what changes", "statement": "A word that depends two or more times on the same number takes the form it takes when it depends once, except in the full mode with a nominative (or an accusative; for two, three, four only of inanimate nouns): nouns and pronouns with numbers ending in two, three, four take the countable genitive plural instead of the genitive singular; adjectives, verbs and participles with composite numbers ending in two, three, four take the plural instead of the singular.", "quantifier": "all integers, any number of repetitions, all words of the five types that fix no integer form", "why_tests_cant": "Unbounded repetition; each step changes the input of the next one.", "anchors": ["utg/templates.py:Substitution.get_text", "utg/transformators.py:_noun_integer", "utg/transformators.py:_adjective_integer"]}
{"id": "C89", "title": "Which texts can be used in a template", "statement": "A text without markup characters, in brackets, can be filled exactly if the dictionary knows its lower case (without the blanks around it); otherwise substitute raises NoWordsFoundError with that lower-case text.", "quantifier": "all word lists, texts and externals of other names", "why_tests_cant": "All texts and all dictionaries.", "anchors": ["utg/templates.py:Substitution.parse", "utg/templates.py:Substitution.get_text", "utg/data.py:Dictionary.get_word"]}
{"id": "C90", "title": "When equal word forms have equal hashes", "statement": "Equal word forms whose text-selecting properties are equal too have equal hashes; and if Python's hash of a pair tells second components apart, equal word forms have equal hashes exactly if the hashes of their text-selecting properties are equal.", "quantifier": "all word forms and all hash functions", "why_tests_cant": "All pairs of objects.", "anchors": ["utg/words.py:WordForm.__hash__", "utg/words.py:WordForm.__eq__"]}
{"id": "C91", "title": "The semantic mode tells only one from many", "statement": "In the semantic dependency mode a noun, pronoun, adjective, verb or participle that depends on a number is the same for any two numbers that both end in one (and not in eleven), or both do not, whatever else it depends on.", "quantifier": "all pairs of integers, words, externals and lists of dependencies", "why_tests_cant": "All integers and all combinations with other dependencies.", "anchors": ["utg/transformators.py:_noun_integer", "utg/transformators.py:_adjective_integer", "utg/templates.py:Substitution.get_text"]}
{"id": "C92", "title": "A variable alone in brackets is its own text", "statement": "[variable] is replaced by the text of the word form given for the variable. (The code violates this for word forms built with form_properties, which templates ignore; it holds for all others.)", "quantifier": "all word forms, dictionaries and externals", "why_tests_cant": "All word forms, however they were built.", "anchors": ["utg/templates.py:Substitution.get_text", "utg/words.py:WordForm.__init__", "utg/words.py:WordForm.get_form"]}
{"id": "C93", "title": "A variable with properties is the form for these properties", "statement": "For a variable built from a word alone, [variable] gives the normal form of the word and [variable|properties] its form for the properties, with a capital first letter exactly if the properties ask for it.", "quantifier": "all words, properties, dictionaries and externals", "why_tests_cant": "All words and combinations of properties.", "anchors": ["utg/templates.py:Substitution.get_text", "utg/words.py:Word.form", "utg/words.py:Word.normal_form"]}
{"id": "C94", "title": "Saved data are a snapshot of the word", "statement": "Word.serialize() returns data that nothing done to the word later changes, and words loaded from the same data are independent of each other and of the data. (The code violates this: the data share the list of forms with the word; it holds for data that go through JSON.)", "quantifier": "all words, and all histories of creating, changing, filling, saving, loading and migrating", "why_tests_cant": "All histories of operations through shared lists.", "anchors": ["utg/words.py:Word.serialize", "utg/words.py:Word.deserialize", "utg/words.py:Word.autofill_missed_forms", "utg/migrations/m_0004_new_preposition_form.py"]}
{"id": "C95", "title": "Through JSON, words and saved data behave as values", "statement": "If each word is built from its own list and data go through JSON whenever a word is saved or loaded, then words and saved data behave as plain values: an operation on one changes no other, and every word keeps one form per slot.", "quantifier": "all histories of such operations", "why_tests_cant": "All histories.", "anchors": ["utg/words.py:Word.serialize", "utg/words.py:Word.deserialize", "utg/words.py:Word.autofill_missed_forms"]}
{"id": "C96", "title": "construct_integer can be called from several threads", "statement": "In every interleaving construct_integer(n) returns the word form of n, without failing and after a bounded number of own steps; once the cache is there and no call is building it, all calls with the same number inside the cache return the same object. (Calls that overlap while the cache is built may return different objects with equal values.)", "quantifier": "all sets of calls and all interleavings of their steps", "why_tests_cant": "All schedules.", "anchors": ["utg/constructors.py:construct_integer", "utg/constructors.py:_INTEGER_CACHE"]}
{"id": "C97", "title": "Lazy attributes can be read from several threads", "statement": "In every interleaving in which nobody deletes the attribute, a read of a lazy attribute does not fail and returns the value computed from a state that the object has had; if the object does not change, this is the value of that state. (With a concurrent deletion a read, and a second deletion, can fail.)", "quantifier": "all functions, states, and interleavings of reads and mutations", "why_tests_cant": "All schedules.", "anchors": ["utg/utils.py:lazy_property"]}
{"id": "C98", "title": "Adding templates from several threads loses none", "statement": "In every interleaving of calls of Lexicon.add_template, no call fails, and the lexicon has for each key all templates of the finished calls, each once. (The code violates this for a key added for the first time by overlapping calls, one of whose templates is lost; it holds for keys that are known.)", "quantifier": "all sets of calls and all interleavings of their steps", "why_tests_cant": "All schedules.", "anchors": ["utg/logic.py:Lexicon.add_template"]}
{"id": "C99", "title": "Adding words to a dictionary from several threads", "statement": "In every interleaving, adding word forms does not fail; a text that was known, or whose registration is finished, is known; the word form found is one that was there or is being registered under this text, and none of these that is finished is better. (The code violates the last part for overlapping registrations under one text; it holds if registrations under one text do not overlap.)", "quantifier": "all dictionaries, sets of word forms and interleavings", "why_tests_cant": "All schedules.", "anchors": ["utg/data.py:Dictionary.add_word"]}
{"id": "C100", "title": "Substitutions on shared objects do not disturb each other", "statement": "As long as no word changes, every call of Template.substitute gives the same text (or exception) as if it were the only one, and finishes after a bounded number of own steps, whatever other calls and reads of WordForm.form run before or at the same time on the same words, word forms and dictionary. (If a word changes, a preposition goes on agreeing with the text the next word had when its form was first read.)", "quantifier": "all objects, templates, externals, dictionaries, and interleavings of calls", "why_tests_cant": "All schedules and all histories of cached attributes.", "anchors": ["utg/templates.py:Template.substitute", "utg/templates.py:Substitution.get_text", "utg/transformators.py:_preposition_any", "utg/words.py:WordForm.form", "utg/words.py:Word.number_of_syllables", "utg/utils.py:lazy_property"]}
{"id": "C101", "title": "Substitution without prepositions sees the words as they are", "statement": "A call of Template.substitute whose variables are no prepositions gives the text for the words as they are when it begins, whatever attributes were read and whatever words were changed before, if no word changes until it has finished.", "quantifier": "all histories of calls, reads and changes of words", "why_tests_cant": "All histories and schedules.", "anchors": ["utg/templates.py:Template.substitute", "utg/templates.py:Substitution.get_text", "utg/words.py:WordForm.form", "utg/utils.py:lazy_property"]}
{"id": "C102", "title": "Objects do not disturb each other", "statement": "After any sequence of operations on any number of words, dictionaries, templates and lexicons: a dictionary holds what the calls of add_word on it, and the work on words, have made of it; a template what the calls of parse on it, a lexicon what the calls of add_template on it have made of it. What a template gives with a dictionary is not changed by work on other templates, dictionaries and lexicons.", "quantifier": "all sequences of operations on all objects", "why_tests_cant": "All histories.", "anchors": ["utg/data.py:Dictionary.add_word", "utg/templates.py:Template.parse", "utg/templates.py:Template.substitute", "utg/logic.py:Lexicon.add_template"]}
{"id": "C103", "title": "A lexicon serves its templates as they are now, and checked templates stay usable", "statement": "In any history a request to a lexicon gives a most specific applicable template, and filling it gives the text of what was parsed into it by now. A template that was parsed and checked against a dictionary (get_undictionaried_words is empty) can be filled from it at any later time, whatever was done to words, dictionaries, lexicons and other templates in between, if it was not parsed again and no word has an empty form then.", "quantifier": "all sequences of operations before and after the check, all draws and externals", "why_tests_cant": "All histories.", "anchors": ["utg/logic.py:Lexicon.get_random_nearest_template", "utg/templates.py:Template.get_undictionaried_words", "utg/templates.py:Template.substitute", "utg/data.py:Dictionary.add_word"]}
{"id": "C104", "title": "Blanks inside a list of properties are always refused", "statement": "A variable with a part that, stripped and in lower case, is no name of an external and still has a blank, is never accepted: parse raises UnknownVerboseIdError, or WrongDependencyFormatError if the variable has no head.", "quantifier": "all texts and names of externals", "why_tests_cant": "All texts.", "anchors": ["utg/templates.py:Substitution.parse"]}
{"id": "C105", "title": "Every form of a known word can be asked for", "statement": "A variable that lists the properties of a form of the word, in any order and possibly with others, and строч or загл, stands for exactly that form, as it is or with a capital letter, if the word fixes no other value for one of these. Conversely a variable with only property lists always stands for a form the word permits, the stand-ins for a countable singular and for a missing imperative apart.", "quantifier": "all words, forms, dictionaries, externals and orders of the properties", "why_tests_cant": "All words and all positions of the table.", "anchors": ["utg/templates.py:Substitution.parse", "utg/templates.py:Substitution.get_text", "utg/words.py:Word.form", "utg/words.py:WordForm.form", "utg/dictionary.py:WORDS_CACHES"]}
{"id": "C106", "title": "What can be lost when templates are added from several threads", "statement": "In every interleaving of calls of Lexicon.add_template the templates of a key are templates of finished calls for this key, at most one per call; a key for which a call has finished and none is running has a template; once a key has a template and no call for it is running, no template of a later call is lost; none at all is lost if the first call for the key has finished before another one begins.", "quantifier": "all interleavings of any number of calls", "why_tests_cant": "All schedules.", "anchors": ["utg/logic.py:Lexicon.add_template", "utg/logic.py:Lexicon.get_templates"]}
{"id": "C107", "title": "Overlapping registrations never make a known text worse", "statement": "Once a text is known to a dictionary and no registration under it is running, in every interleaving of registrations the word form found for it is the same one or a better one.", "quantifier": "all dictionaries, word forms and interleavings", "why_tests_cant": "All schedules.", "anchors": ["utg/data.py:Dictionary.add_word", "utg/data.py:Dictionary.get_word"]}
{"id": "C108", "title": "Filling a template while words are added in other threads", "statement": "In every interleaving of calls of substitute with calls of add_word: each variable is looked up in a dictionary that was there after the call began, later variables no earlier than former ones; a call finishes after one step per variable and one more; a template that was checked when the call began is filled without an error; registrations under other texts do not disturb it. (The variables of one call may be filled from different dictionaries.)", "quantifier": "all templates, externals, dictionaries and interleavings of any number of calls", "why_tests_cant": "All schedules.", "anchors": ["utg/templates.py:Template.substitute", "utg/data.py:Dictionary.add_word", "utg/data.py:Dictionary.get_word"]}
{"id": "C109", "title": "Asking a lexicon while templates are added in other threads", "statement": "In every interleaving of requests to a lexicon (get_random_template, get_random_nearest_template) with calls of add_template: a template returned was added for the key by a finished call, its restrictions are among those requested, and for the nearest one no applicable template the key had at some moment during the request has more restrictions; a request raises UnknownLexiconKeyError only if no call for the key had finished when it began, NoTemplatesWithSpecifiedRestrictions only if the key had no applicable template at some moment during it, and nothing else; it finishes; if calls for the key do not overlap with the first one, the result is that for the lexicon at one moment during the request.", "quantifier": "all interleavings of any number of calls and requests, all draws", "why_tests_cant": "All schedules.", "anchors": ["utg/logic.py:Lexicon.get_random_template", "utg/logic.py:Lexicon.get_random_nearest_template", "utg/logic.py:Lexicon.get_templates", "utg/logic.py:Lexicon.add_template"]}
{"id": "C110", "title": "Migrations between any two tables keep what the tables share", "statement": "Whatever the old and the new table of slots are, the functions of m_0003 and m_0006 to m_0009 give one form per new slot: the form of the old slot that agrees in the most properties, and of the same slot if it was there. With any table, m_0003 changes verbs only, m_0006 every word of a known type, and neither invents a form.", "quantifier": "all old and new tables and all word data", "why_tests_cant": "All tables and words.", "anchors": ["utg/migrations/m_0003_change_verb_forms.py:migrate", "utg/migrations/m_0006_per_word_type_restrictions.py:migrate", "utg/migrations/m_0007_reduce_words_forms.py:migrate_forms", "utg/logic.py:get_nearest_key"]}
{"id": "C111", "title": "What exactly becomes of a word saved before m_0007", "statement": "Every word in the layout before m_0007 can be taken through m_0007, m_0008 and m_0009 and loaded, with its type and properties, and for every combination of properties of its type the library then spells the form it had for this combination, except that the comparative is the old short plural, a full participle is the old one of the reverse voice and a pronoun the old one of the third person.", "quantifier": "all words of all types, all requests", "why_tests_cant": "All words and all combinations.", "anchors": ["utg/migrations/m_0007_reduce_words_forms.py:migrate", "utg/migrations/m_0008_lower_animiality_nearest_priority.py:migrate", "utg/migrations/m_0009_pronoun_modernization.py:migrate", "utg/words.py:Word.deserialize", "utg/words.py:Word.form"]}
{"id": "C112", "title": "The lookup tables are right for any schema and any restrictions", "statement": "For every schema of up to 13 properties, restriction table and list of forbidden parts that leave a slot, the lookup table is built without error and has an entry for every full combination and nothing else, always the number of a slot: the slot that matches the combination if there is one, otherwise that of another combination which agrees with it at least as well as any that matches a slot. If no slot is left, building it raises KeyError.", "quantifier": "all schemas of up to 13 properties, all restriction tables, all lists of forbidden parts, all combinations", "why_tests_cant": "All tables.", "anchors": ["utg/logic.py:get_caches", "utg/logic.py:get_raw_caches", "utg/logic.py:_get_raw_cache", "utg/logic.py:get_nearest_key"]}
{"id": "C113", "title": "Which form is taken does not depend on how words are spelled", "statement": "For any two casts of externals and dictionaries that differ in the spelling of the words only, a variable that is no preposition is replaced by the form in the same place of the list of forms, with the same capital, or the same external is reported missing. So giving another word of the same grammar for a name, or a number of the same agreement class and grammatical number, changes only the places where it stands and the prepositions depending on it. (Prepositions do look at the spelling.)", "quantifier": "all variables, externals and dictionaries, all pairs of words of the same grammar, all integers", "why_tests_cant": "All words.", "anchors": ["utg/templates.py:Substitution.get_text", "utg/transformators.py:transform", "utg/words.py:WordForm.form", "utg/constructors.py:construct_integer"]}
{"id": "C114", "title": "Asking a dictionary while words are added in other threads", "statement": "get_words running beside add_word either returns or raises RuntimeError, the latter only if a text became known during the call (and then it can). What it returns are words without equal ones, each the word of a text at some moment during the call, and every text known at the beginning has its word of some moment among them; if nothing is registered meanwhile, the result is that of the dictionary. get_undictionaried_words reports variables in order, none an external or known at the beginning, and all that are unknown at the end; a check without findings stays valid whatever is added later. Both finish after a number of steps given by the number of texts or variables.", "quantifier": "all dictionaries, schedules and numbers of threads", "why_tests_cant": "All schedules.", "anchors": ["utg/data.py:Dictionary.get_words", "utg/data.py:Dictionary.add_word", "utg/templates.py:Template.get_undictionaried_words"]}
{"id": "C115", "title": "Random templates are drawn fairly", "statement": "get_random_template gives every call of add_template that applies the same chance, and get_random_nearest_template every call that is most specific among these: the index drawn runs through exactly these calls, each once, in the order they were made. So the chance of a template is the share of these calls that added it: a template added twice is drawn twice as often.", "quantifier": "all histories of add_template, keys, restrictions and draws", "why_tests_cant": "Sampling a random function cannot establish its distribution, and all histories.", "anchors": ["utg/lexicon.py:Lexicon.get_random_template", "utg/lexicon.py:Lexicon.get_random_nearest_template"]}
{"id": "C116", "title": "Adding whole words in several threads", "statement": "However calls of add_word for any number of words interleave, each call ends as it would alone (it returns, or raises the same exception after registering the same forms); when it has ended, all its spellings are known; what is found for a text was there before or is a form of an added word spelled so; and a call needs at most four steps for each form and one more. A text that only one of the words has gets, as soon as this call has ended, the form it would have after this call alone; a text none has keeps its form. So if the words have no spelling in common, the lookups after all calls are those after adding the words one after the other, in any order. If they have one in common this can fail: a form that loses in both orders can win.", "quantifier": "all dictionaries, words, numbers of threads and schedules", "why_tests_cant": "All schedules.", "anchors": ["utg/data.py:Dictionary.add_word", "utg/words.py:Word.all_forms"]}
{"id": "C117", "title": "Any text in a saved template", "statement": "deserialize takes any text for a template. If the variables have texts, substitute returns exactly when the text is made of characters other than % and conversions that can show a string (flags, a width, a precision, the letters s, r, a, c or %), with as many letters other than % as there are variables; the result is the text with each conversion replaced by the text of its variable, cut to the precision and padded to the width. Otherwise it raises TypeError or ValueError and nothing else.", "quantifier": "all texts of templates, all texts of variables, whatever Unicode tables", "why_tests_cant": "All strings.", "anchors": ["utg/templates.py:Template.deserialize", "utg/templates.py:Template.substitute"]}
{"id": "C118", "title": "Filling gaps of one word in several threads", "statement": "However calls of autofill_missed_forms on one word interleave, no call raises, each returns after at most 4n+2 of its own steps for n forms, forms that were present never change, every other form is at any time empty or one of the texts that were present, a filled slot is never empty again, and when any call has returned no form is missing (if one was present). If no call looks which forms are present after another began to fill gaps, in particular if there is one call and the others only read, every form is at any time the old one or the one a single call gives, and the latter once a call has returned. Otherwise the result can differ from that of one call (the plural may get the text of the singular), and forms may change after a call has returned.", "quantifier": "all words, numbers of threads and schedules", "why_tests_cant": "All schedules.", "anchors": ["utg/words.py:Word.autofill_missed_forms"]}
{"id": "C119", "title": "Running a migration again after a crash", "statement": "Wherever a run of m_0007 or of m_0009 over saved words, or of m_0007, m_0008 and m_0009 word by word, is interrupted, running it again from the beginning (keeping words for which it raises) gives the same data as one run: on a word it has migrated before, a migration changes nothing or raises IndexError. For m_0008 this holds unless an adjective or participle was migrated before the crash: such a word with different forms is always spoiled, and nothing is raised. m_0005 can be repeated; m_0001 raises IndexError or changes nothing; after repeating m_0002 or m_0004 the word cannot be loaded.", "quantifier": "all stores of words in the old layouts, all crash points", "why_tests_cant": "All crash points and stores.", "anchors": ["utg/migrations/m_0007_reduce_words_forms.py:migrate", "utg/migrations/m_0008_lower_animiality_nearest_priority.py:migrate", "utg/migrations/m_0009_pronoun_modernization.py:migrate", "utg/migrations/m_0001_include_short_forms_in_full.py:migrate", "utg/migrations/m_0002_countable_noun_form.py:migrate", "utg/migrations/m_0004_new_preposition_form.py:migrate", "utg/migrations/m_0005_remove_time_participle_property.py:migrate"]}
{"id": "C120", "title": "An interrupted addition can be repeated", "statement": "Wherever a call of add_word is interrupted, and however often, calling it again returns or raises as if there had been no interruption and leaves exactly the same dictionary. Until then nothing known is forgotten or found in a worse form, and what is new is a form of the word spelled so. A call of add_template that is interrupted leaves the templates of every key as they were, or has added its template; repeated after n interruptions it has added the template at least once and at most n+1 times, exactly once if none of the interrupted calls got as far as appending. A first add_template for a key may leave the key without templates. An interrupted autofill_missed_forms can be repeated: it succeeds, keeps the forms that were present and leaves no gap, but the texts it fills in may differ from those without the interruption.", "quantifier": "all dictionaries, words, lexicons, interruption points and numbers of interruptions", "why_tests_cant": "All interruption points and histories.", "anchors": ["utg/data.py:Dictionary.add_word", "utg/lexicon.py:Lexicon.add_template", "utg/words.py:Word.autofill_missed_forms"]}
{"id": "C121", "title": "Names of externals do not matter", "statement": "If a text without percent signs in its variables is rewritten so that each external has a new name, wherever it is the head of a variable (with a capital letter at the beginning where there was one) or a part of one, and no text that was not a name becomes one, then parse raises for the new text and names just when it did for the old ones, with the same exception; otherwise, substituting word forms given under the new names gives the same text or raises the same exception as substituting them under the old names in the old template, and get_undictionaried_words returns the same list.", "quantifier": "all texts, names, renamings, word forms and dictionaries", "why_tests_cant": "All texts and renamings.", "anchors": ["utg/templates.py:Template.parse", "utg/templates.py:Substitution.parse", "utg/templates.py:Template.substitute", "utg/templates.py:Template.get_undictionaried_words"]}
{"id": "C122", "title": "Only the last word on each property counts", "statement": "Let two texts have the same literal text and, in the same places, variables without percent signs that can be read, with the same heads, that name the same externals in the same order and have the same last mention of each property (where an external mentions the properties its form specifies). Then both are parsed, substitute gives the same text or raises the same exception for both, and get_undictionaried_words returns the same list. So properties that are given one after another can be given in any order, in one list or in several parts, before or after an external that does not specify them, and a value that is given again later can be left out.", "quantifier": "all texts, externals and dictionaries built with add_word", "why_tests_cant": "All texts, orders and dictionaries.", "anchors": ["utg/templates.py:Template.parse", "utg/templates.py:Substitution.parse", "utg/templates.py:Substitution.get_constructor", "utg/templates.py:Template.substitute"]}
{"id": "C123", "title": "Printed tables can be pasted into a migration", "statement": "The text returned by pretty_format_current_keys_cache, in whatever order the entries are sorted, is a Python expression over the names of utg.relations that stands for exactly one table, and that table has the same slot for every key of every word type as the current one and no other keys. So a migration into whose OLD and NEW tables such texts were pasted leaves every saved word with the number of forms of its type as it is. The NEW table of the last migration equals the current one.", "quantifier": "all sorting orders, all saved words", "why_tests_cant": "All sorting orders and words.", "anchors": ["utg/logic.py:pretty_format_current_keys_cache", "utg/migrations/m_0009_pronoun_modernization.py:NEW_CACHES", "utg/migrations/m_0009_pronoun_modernization.py:migrate"]}
{"id": "C124", "title": "Objects are equal exactly if their saved data are", "statement": "Two Properties objects, two words, two templates are equal exactly if what serialize returns for them is equal, and exactly if it is equal after both have gone through JSON. So saved data can be compared to find out whether something has changed. Equality of templates is an equivalence relation.", "quantifier": "all properties, accepted words, and templates whose dependencies are names or properties", "why_tests_cant": "All pairs of objects.", "anchors": ["utg/words.py:Properties.serialize", "utg/words.py:Word.serialize", "utg/words.py:Properties.__eq__", "utg/words.py:Word.__eq__", "utg/templates.py:Template.serialize", "utg/templates.py:Template.__eq__", "utg/templates.py:Substitution.__eq__"]}
{"id": "C125", "title": "A number, an adjective and a noun make a phrase", "statement": "The template [number] [adjective|noun|number|case] [noun|number|case], for an integer and a noun given as externals and an adjective or participle known to the dictionary, is read without error and gives the decimal notation of the number, the form of the adjective in the gender and animality of the noun and in the number and case that go with the integer in the given case, and the form of the noun that goes with it, separated by single blanks.", "quantifier": "all integers, all accepted nouns that specify exactly gender and animality, all dictionaries of accepted words, all adjectives and participles that fix none of case, gender, animality and integer form, all cases, all names written in lower case without marks of the template language", "why_tests_cant": "All numbers, words, cases and dictionaries.", "anchors": ["utg/templates.py:Template.parse", "utg/templates.py:Template.substitute", "utg/templates.py:Substitution.get_text", "utg/transformators.py:_adjective_integer", "utg/transformators.py:_noun_integer", "utg/constructors.py:construct_integer"]}
{"id": "C126", "title": "A preposition goes with the text that follows it", "statement": "In [preposition|variable] [variable|case] the preposition takes the form that goes with the text printed after it. (The code violates this: it looks at the text of the variable as it was given, so that one reads \"s lvom\" instead of \"so lvom\"; it holds if both texts begin with the same two letters and none of them is one of the five exceptions of the preposition o.)", "quantifier": "all prepositions, words, cases and dictionaries", "why_tests_cant": "All pairs of texts of a word.", "anchors": ["utg/transformators.py:_preposition_any", "utg/transformators.py:_consonant_preposition_any", "utg/transformators.py:_vowels_preposition_any", "utg/templates.py:Substitution.get_text", "utg/words.py:WordForm.form"]}
{"id": "C127", "title": "Which text decides the form of a preposition", "statement": "In [preposition|variable] [variable|case] the variable is printed in the form for the case, and the preposition in the form that goes with the text of the variable as it was given, whatever follows.", "quantifier": "all prepositions that do not fix their form, all words that fix neither letter case nor preposition form, all cases and dictionaries", "why_tests_cant": "All prepositions, words and cases.", "anchors": ["utg/transformators.py:_preposition_any", "utg/transformators.py:_consonant_preposition_any", "utg/transformators.py:_vowels_preposition_any", "utg/templates.py:Substitution.get_text", "utg/words.py:WordForm.form"]}
{"id": "C128", "title": "A modifier and its noun agree", "statement": "In [modifier|properties|noun] [noun|properties] both words are printed in forms that have every property the noun has and every property asked for, the noun's own ones first; excepted are those the modifier has itself, and the kind of form of nouns and verbs (NOUN_FORM, VERB_FORM), which gives way where there is no such form. Naming the noun last matters: in [modifier|noun|properties] the modifier of a noun that has a plural only becomes singular if a singular is asked for.", "quantifier": "all modifiers but prepositions, all words but numbers given as variables, all lists of properties without repetitions that do not ask for a capital letter, all dictionaries", "why_tests_cant": "All words, properties and dictionaries.", "anchors": ["utg/templates.py:Template.parse", "utg/templates.py:Template.substitute", "utg/templates.py:Substitution.get_text", "utg/templates.py:Substitution._list_propeties", "utg/words.py:WordForm.get_form"]}
{"id": "C129", "title": "A capital letter changes the first letter only", "statement": "Writing a variable with a capital letter, [Герой|...] for [герой|...], does not change which form is printed: the same form appears with a capital first letter, or the same error is raised; a word that fixes its letter case is printed the same either way.", "quantifier": "all variables with any dependencies, all dictionaries and all sets of externals", "why_tests_cant": "All variables, dependencies, words and dictionaries.", "anchors": ["utg/templates.py:Substitution.parse", "utg/templates.py:Substitution.get_text", "utg/templates.py:Substitution._list_propeties", "utg/transformators.py:transform", "utg/words.py:WordForm.get_form"]}
{"id": "C130", "title": "Texts given by users are inserted letter by letter", "statement": "A variable that is a plain text (a name typed by a user) is inserted letter by letter wherever it is mentioned, whatever is asked of it and whatever characters it contains: brackets and percent signs in it are not read as marks of the template language. Only a capital letter asked for changes its first letter (an empty text then raises IndexError). Words that depend on it, except prepositions, are what they are without it.", "quantifier": "all texts, all templates, variables, dependencies and dictionaries", "why_tests_cant": "All texts a user may type, all templates.", "anchors": ["utg/templates.py:Template.parse", "utg/templates.py:Template.substitute", "utg/templates.py:Substitution.get_text", "utg/transformators.py:transform", "utg/words.py:WordForm.get_form"]}
{"id": "C131", "title": "When exactly a template cannot be filled", "statement": "A parsed template can be filled exactly if every variable can be replaced, and a variable can be replaced exactly if its word is an external or in the dictionary, the externals it names are given, no preposition has to look at a letter of an empty text, and no capital letter is asked of an empty form. The last two raise IndexError.", "quantifier": "all templates, externals and dictionaries", "why_tests_cant": "All templates, externals and dictionaries.", "anchors": ["utg/templates.py:Template.substitute", "utg/templates.py:Substitution.get_text", "utg/transformators.py:transform", "utg/transformators.py:_preposition_any", "utg/words.py:WordForm.get_form"]}
{"id": "C132", "title": "Which variables can be mentioned", "statement": "Variables are looked up in lower case: a variable announced under a name with a capital letter is never mentioned by any template and has no influence on the text; a variable whose name is in lower case, has no marks of the template language and no blanks around it, can be mentioned alone and as a dependency, also if its name is the id of a property (which it then hides).", "quantifier": "all names, texts of templates, externals and dictionaries", "why_tests_cant": "All names and template texts.", "anchors": ["utg/templates.py:Substitution.parse", "utg/templates.py:Template.parse", "utg/templates.py:Substitution.get_text"]}
{"id": "C133", "title": "A lexicon sees restrictions as they are now", "statement": "add_template keeps the very set it is given. In any history of creating and changing sets and adding templates, get_templates, get_random_template and get_random_nearest_template answer as if the templates had just been added with the sets as they are now; a set that is not changed (a frozenset) counts as it was when the template was added.", "quantifier": "all histories, keys, requested restrictions and draws", "why_tests_cant": "All histories of shared mutable sets.", "anchors": ["utg/lexicon.py:Lexicon.add_template", "utg/lexicon.py:Lexicon.get_templates", "utg/lexicon.py:Lexicon.get_random_template", "utg/lexicon.py:Lexicon.get_random_nearest_template"]}
{"id": "C134", "title": "What happens if restrictions are no sets", "statement": "Requests with a list or tuple of restrictions: get_templates and get_random_template answer as for the set of its elements; get_random_nearest_template raises TypeError exactly if some template is applicable, and otherwise answers as for the set. A template added with a list or tuple is accepted, but from then on every request for its key raises AttributeError (with a list, get_random_nearest_template may raise TypeError); other keys are not affected.", "quantifier": "all histories, keys, requests and draws", "why_tests_cant": "All histories and requests.", "anchors": ["utg/lexicon.py:Lexicon.add_template", "utg/lexicon.py:Lexicon.get_templates", "utg/lexicon.py:Lexicon.get_random_template", "utg/lexicon.py:Lexicon._get_nearest_templates", "utg/lexicon.py:Lexicon.get_random_nearest_template"]}
{"id": "C135", "title": "Upgrading a saved dictionary keeps its texts", "statement": "Migrating every word of a dictionary saved in the m_0007 layout with m_0007, m_0008 and m_0009 and loading it loses and refuses no word. A template that asks a variable for a combination prints the old text, and a dictionary of the loaded words knows that text if the word is in lower case and its own properties permit the combination. The old text is the one saved for the combination, except that the comparative is the old short plural, a full participle the old one of the reverse voice and a pronoun the old one of the third person.", "quantifier": "all saved dictionaries of that layout, combinations and templates", "why_tests_cant": "All saved dictionaries.", "anchors": ["utg/migrations/m_0007_reduce_words_forms.py:migrate", "utg/migrations/m_0008_lower_animiality_nearest_priority.py:migrate", "utg/migrations/m_0009_pronoun_modernization.py:migrate", "utg/words.py:Word.deserialize", "utg/data.py:Dictionary.add_word", "utg/templates.py:Substitution.get_text"]}
{"id": "C136", "title": "Something else given for a variable is noticed exactly where it is mentioned", "statement": "If for a name that a variable mentions, as its head or as a dependency, something other than a word form is given (a Word, a number, a string, None), get_text and substitute never return a text: they raise AttributeError, unless an unknown word, a missing external or a preposition in front of an empty text is met first. What is given for names that are not mentioned does not matter: the text is the one for the word forms given.", "quantifier": "all variables, templates, externals of any kind and dictionaries", "why_tests_cant": "All mixtures of externals.", "anchors": ["utg/templates.py:Substitution.get_text", "utg/templates.py:Substitution._list_propeties", "utg/templates.py:Template.substitute", "utg/transformators.py:transform"]}
{"id": "C137", "title": "Words whose forms are a tuple", "statement": "A Word keeps the sequence of forms it is given. As long as no text of a word that is added is registered for a word of the same type whose forms are of the other kind (list or tuple), add_word and all lookups work as for lists; otherwise add_word raises TypeError, forgetting nothing. autofill_missed_forms of a word with a tuple returns if there is nothing to fill, and raises TypeError otherwise. Saved data restore the word; through JSON it comes back with a list and is then not equal to the word with the tuple.", "quantifier": "all words, dictionaries with words of both kinds, and saved data", "why_tests_cant": "All dictionaries with words of both kinds.", "anchors": ["utg/words.py:Word.__init__", "utg/words.py:Word.__eq__", "utg/words.py:Word.autofill_missed_forms", "utg/words.py:Word.serialize", "utg/words.py:Word.deserialize", "utg/data.py:Dictionary.add_word"]}
{"id": "C138", "title": "Announcing more variables", "statement": "Template.parse looks at the announced names only to decide whether a part of a variable after a bar is one of them: if two collections of names agree on these parts, parse does the same, including the exception and what a failed parse leaves behind; order and repetition of the names never matter. A text that is accepted stays accepted if more names are announced; the stored text and the ids stay, and a part of a variable changes only from a list of properties to a mention, and only if it is one of the new names.", "quantifier": "all texts, templates and pairs of collections of names", "why_tests_cant": "Relational property over all texts.", "anchors": ["utg/templates.py:Template.parse", "utg/templates.py:Substitution.parse"]}
{"id": "C139", "title": "Adding a word to a dictionary while its gaps are being filled", "statement": "If autofill_missed_forms and add_word of the same words overlap in several threads: forms that are present stay, gaps get texts of present forms. add_word raises nothing but IndexError, and this only for a word in upper case that lacked forms; it comes to an end if it gets enough turns. Every entry is of a word that was given to add_word and that, at some moment, spelled it so; if no word is filled by two calls at once, it still does (the empty text apart). When add_word has returned, all texts the word had are known; for words that fix no property that selects a form, no other text than these becomes known (the empty one apart), whatever the schedule. (For words that fix one, a text that the word gets later may be unknown.) A call that runs alone does what add_word does.", "quantifier": "all words, dictionaries and interleavings of the calls", "why_tests_cant": "All schedules.", "anchors": ["utg/words.py:Word.autofill_missed_forms", "utg/words.py:Word.all_forms", "utg/data.py:Dictionary.add_word", "utg/utils.py:lazy_property"]}
{"id": "C140", "title": "Missing forms given as None", "statement": "Missing forms of a word may be given as None instead of the empty string (the code tests forms for truth). autofill_missed_forms treats both alike: if a form is present the word ends up the same and without gaps, otherwise it is left as it was. number_of_syllables and has_fluent_vowel are the same unless the first form is None, in which case they raise AttributeError and TypeError. add_word registers the same word forms under the same non-empty texts (and the text None, if it is a form) and ends in the same way, with TypeError for IndexError if a missing form has to be capitalized; but it raises TypeError, leaving the entry, if a text of the word is registered for a word of the same type and None and a string stand where their forms first differ. get_text gives the same text, or None for an empty one; the same exception, or TypeError for an IndexError; or AttributeError if an external is a form of a word whose first form is None. substitute writes the word \"None\" where the form is None. form and normal_form give the text in the slot where a word of strings has it, None if it is missing; words are equal iff type and properties are equal and the forms are, None only to None. Stored and loaded words have None in the same places. Without None everything is exactly as with strings.", "quantifier": "all words with None in any places, dictionaries, externals, variables and templates", "why_tests_cant": "All words and places of the gaps.", "anchors": ["utg/words.py:Word", "utg/words.py:Word.autofill_missed_forms", "utg/words.py:Word.has_fluent_vowel", "utg/words.py:Word.number_of_syllables", "utg/words.py:WordForm.get_form", "utg/data.py:Dictionary.add_word", "utg/transformators.py:_preposition_any", "utg/templates.py:Substitution.get_text", "utg/templates.py:Template.substitute"]}
{"id": "C141", "title": "Using a template while it is parsed in another thread", "statement": "While one thread parses a text with a new template, other threads may call substitute, serialize and get_undictionaried_words of it. Whatever the schedule, substitute gives what it gives after the parse (text or exception), or raises TypeError: never a text in part; serialize gives what it gives afterwards, or data with the text missing and only the first substitutions; get_undictionaried_words gives the first of its words. Calls that begin when parse has ended (also by an exception) give exactly what they give afterwards. parse itself is not disturbed: same template, same exception. Every call comes to an end if it gets enough turns. (If two texts are parsed with one template, substitute may put words of one text in the other.)", "quantifier": "all texts, names, dictionaries, externals and interleavings of the calls", "why_tests_cant": "All schedules.", "anchors": ["utg/templates.py:Template.parse", "utg/templates.py:Template.substitute", "utg/templates.py:Template.serialize", "utg/templates.py:Template.get_undictionaried_words"]}
{"id": "C142", "title": "A word from any JSON document", "statement": "Word.deserialize of whatever json.loads gives either returns a word or raises an exception that tells the fault: TypeError if the document is no object, KeyError for a missing type, forms or properties, the lookup error of rels for an unknown type, AttributeError for properties that are no object, ValueError for a key of them that is no number, TypeError for a list or object as the type or as a value, TypeError for forms that have no length, WrongFormsNumberError for a wrong number. It returns exactly when the type is the code of a part of speech (1.0 and true count as 1), forms has as many parts as it has slots and the properties are readable; then the word has that type, these very forms and the properties the items mean, the last one winning. Other fields and the order of fields do not matter. Saving the word and loading it again gives the same word. With a list of texts as forms it is a word like those the constructor accepts. (A text, an object or a list of anything is accepted for forms; then form returns a letter, raises KeyError, or returns the item.)", "quantifier": "all JSON documents", "why_tests_cant": "All documents, of any shape and depth.", "anchors": ["utg/words.py:Word.deserialize", "utg/words.py:Properties.deserialize", "utg/words.py:Word.__init__", "utg/words.py:Word.serialize", "utg/words.py:Word.form"]}
{"id": "C143", "title": "A template from any JSON document", "statement": "Template.deserialize of whatever json.loads gives either returns a template or raises an exception that tells the fault: TypeError for what is no object, KeyError for a missing template, substitutions, id or dependencies, TypeError for a number or null instead of a list, AttributeError for a dependency that is neither text nor object, ValueError and TypeError for unreadable properties. It returns exactly for documents with a template, whatever it is, and a list of substitutions (or an empty text or object), each with an id, whatever it is, and dependencies that are texts or readable properties (a text or an object instead of the list is read letter by letter, key by key). The result has these contents; other fields and the order of fields do not matter; saving it and loading it again gives the same template, also for templates that were not loaded.", "quantifier": "all JSON documents", "why_tests_cant": "All documents, of any shape and depth.", "anchors": ["utg/templates.py:Template.deserialize", "utg/templates.py:Substitution.deserialize", "utg/words.py:Properties.deserialize", "utg/templates.py:Template.serialize", "utg/templates.py:Substitution.serialize"]}
{"id": "C144", "title": "Numbers that are no integers", "statement": "construct_integer looks at no types. In any history of calls, failed ones included, a call gives what its argument alone says: an int its numeral; True and False the numerals 1 and 0; a float (or another real number) that is outside 0..10000 a numeral written as str writes it, with the properties of the integer it equals, or, for a fraction, with plural NUMBER and with INTEGER_FORM COMPOSITE_DUAL if the whole part of its absolute value ends in 2 or 3 but not in 12 or 13, and PLURAL otherwise; nan and the infinities get plural properties. A float from 0 to 10000, even 5.0, raises TypeError, and so does what cannot be compared. Two calls return one object exactly if both ask for the same int from 0 to 10000.", "quantifier": "all histories of calls with arguments of any kinds", "why_tests_cant": "All numbers and histories.", "anchors": ["utg/constructors.py:construct_integer", "utg/constructors.py:_construct_integer"]}
{"id": "C145", "title": "Keys in any writing of a number", "statement": "The keys of serialized properties are read by int. A key that is a text is read as n exactly if it writes n: white space (of Unicode, but not the characters 0x1c to 0x1f), perhaps one sign, groups of decimal digits of any script joined by single underscores, white space. No text writes two numbers. Every other text makes Properties.deserialize raise ValueError; properties can be loaded exactly if every key that is a text writes a number. A key in any writing of the code of a property, such as \"+0_7\", is read as that property.", "quantifier": "all texts, all serialized properties", "why_tests_cant": "All texts.", "anchors": ["utg/words.py:Properties.deserialize"]}
{"id": "C146", "title": "Numbers with very many digits", "statement": "CPython refuses to convert integers with more digits than a limit (0 for none, or at least 640; 4300 by default) from and to text. Under any such limit, in any history of calls of construct_integer, a call with an integer n with |n| >= 10^limit raises ValueError and leaves no trace: all the other calls give what they would have given, object by object, without it and without a limit. Properties.deserialize accepts the same data, with the same result, except that it raises ValueError for a key written with more digits than the limit, leading zeros counted. Properties that the library saved load under every limit.", "quantifier": "all limits, histories of integers, and serialized properties", "why_tests_cant": "All limits, numbers and histories.", "anchors": ["utg/constructors.py:construct_integer", "utg/constructors.py:_construct_integer", "utg/words.py:Properties.deserialize", "utg/words.py:Properties.serialize"]}
{"id": "C147", "title": "What may be given as externals to parse", "statement": "parse and get_undictionaried_words only ask whether a text is in externals. A list, tuple, set, dictionary or another collection therefore does as a list of its members, and is not changed; a string does as the list of all its parts, so that a property name that is a part of it counts as the name of a variable. An iterator or generator is used up: a text can be parsed with it exactly if all parts of its variables can be read, a part being the name of an external if and only if all the parts asked for so far, from the beginning of the text, come in this order in the iterator; get_undictionaried_words asks for the variables in the same manner.", "quantifier": "all texts, templates, collections, strings, iterators and dictionaries", "why_tests_cant": "All texts and containers, and the order of all questions.", "anchors": ["utg/templates.py:Template.parse", "utg/templates.py:Substitution.parse", "utg/templates.py:Template.get_undictionaried_words"]}
{"id": "C148", "title": "Migrations of any JSON document", "statement": "migrate of m_0001, m_0002, m_0004, m_0005, m_0007, m_0008 and m_0009 on whatever json.loads gives either raises, and leaves the document exactly as it was, or returns the document itself with at most one field changed: forms (properties for m_0005); all the other fields, unknown ones included, and their order stay. m_0007, m_0008 and m_0009 succeed exactly for documents whose type is the number of a part of speech (1.0 and true count) and whose forms are a list, or a text taken letter by letter, at least as long as the old slots they read; forms that are no texts are moved to the same places as texts would be. Otherwise the exception tells the fault: TypeError, KeyError with the missing key, IndexError, AttributeError, or the one of WORD_TYPE; which of them is determined by the document for each of the seven migrations. m_0001, m_0002 and m_0004 change only documents of their types (adjectives and participles, nouns, prepositions), m_0005 only participles, m_0004 needs a non-empty list of forms. A document that m_0007 takes goes through m_0008 and m_0009 too, and then loads as a word exactly if its properties are readable. A noun with patches that was read from JSON cannot be migrated by m_0002: the keys of its patches are texts, so the patch number 7 is never found.", "quantifier": "all JSON documents", "why_tests_cant": "All documents, of any shape and depth.", "anchors": ["utg/migrations/m_0001_include_short_forms_in_full.py:migrate", "utg/migrations/m_0002_countable_noun_form.py:migrate", "utg/migrations/m_0004_new_preposition_form.py:migrate", "utg/migrations/m_0005_remove_time_participle_property.py:migrate", "utg/migrations/m_0007_reduce_words_forms.py:migrate", "utg/migrations/m_0008_lower_animiality_nearest_priority.py:migrate", "utg/migrations/m_0009_pronoun_modernization.py:migrate"]}
{"id": "C149", "title": "Using a word loaded from any JSON document", "statement": "A word read from a damaged document can be used as far as its forms allow. If the forms are an object of the right length, number_of_syllables, has_fluent_vowel, autofill_missed_forms and the text of any form raise KeyError. If they are one text, each letter is a form: the word has one syllable, a fluent vowel exactly if it begins with a vowel and has another letter, and autofill_missed_forms leaves it alone. If they are a list: autofill_missed_forms never raises, keeps everything that is given, numbers and lists included, and replaces null, false, zero and empty values by what is given at the nearest position, or changes nothing if nothing is given; number_of_syllables is that of the first form if it is a text, the number of vowels among its items (at least 1) if it is a list, otherwise AttributeError; has_fluent_vowel is true if the vowels of some given form do not begin with those of the first form and all given forms before it are texts, or lists or objects of plain values, false if the vowels of all given forms begin so, otherwise TypeError. A form is given as it is, but with a capital letter only if it is a non-empty text, otherwise an exception is raised. For lists of texts all this is as for any other word.", "quantifier": "all JSON documents that can be loaded as a word, all properties", "why_tests_cant": "All shapes of forms and all documents.", "anchors": ["utg/words.py:Word.deserialize", "utg/words.py:Word.number_of_syllables", "utg/words.py:Word.has_fluent_vowel", "utg/words.py:Word.autofill_missed_forms", "utg/words.py:WordForm.get_form"]}
{"id": "C150", "title": "Using a template loaded from any JSON document", "statement": "A loaded template whose text and ids are texts does what the template with these does: substitute gives the same text or raises the same exception, get_undictionaried_words lists the same words. Only such templates can be substituted: if the texts of the substitutions before it can be made, an id that is a list or an object raises TypeError and one that is a number, a truth value or null NoWordsFoundError; if all of them can be made and the template is no text, TypeError is raised. get_undictionaried_words raises TypeError exactly if some id is a list or an object; otherwise it lists the ids that are no texts and the texts that are neither externals nor in the dictionary, in the order of the template.", "quantifier": "all loaded templates, externals and dictionaries", "why_tests_cant": "All JSON documents and all dictionaries.", "anchors": ["utg/templates.py:Template.deserialize", "utg/templates.py:Template.substitute", "utg/templates.py:Substitution.get_text", "utg/templates.py:Template.get_undictionaried_words"]}
{"id": "C151", "title": "A dictionary of words loaded from any JSON documents", "statement": "Words loaded from damaged documents may be added to a dictionary, in any order, whether or not add_word raises: a word that get_word returns for a text was added and has a form that is this text; a text that is known stays known; if add_word returns, none of the forms of the word is a list or an object and all that are texts are known. add_word raises if and only if a form cannot be spelled (with that exception), a form is a list or an object (TypeError), or a word of the same part of speech was registered under the same key and Python cannot compare the forms of the two (TypeError): they are no lists or texts both, or the first items that differ are not both numbers, both texts or such lists; what was registered before stays. Two words may be such that either can be added but not both. Words whose forms are lists of texts are found as in any other dictionary.", "quantifier": "all sequences of words loaded from JSON documents, all texts", "why_tests_cant": "All histories and all shapes of forms.", "anchors": ["utg/dictionary.py:Dictionary.add_word", "utg/dictionary.py:Dictionary.get_word", "utg/words.py:Word.deserialize", "utg/words.py:Word.all_forms", "utg/words.py:WordForm.get_form"]}
{"id": "C152", "title": "A subject and its verb: what is recognised in a written word is kept", "statement": "README: in '[hero] [побежал|hero]' the time of the verb need not be given, because the properties of a word are recognised in its form. For a variable built from a word without properties and a dictionary word that fixes none of its own grammatical properties, '[subject] [word|subject]' can be parsed and gives the normal form of the subject, a space, and a form of the word in which every property is the one the subject's word has, else the one of the form in which the word is written, else the default; also the noun form and the verb form are those written, unless there is no such form (a countable singular, an imperative of the third person or of the first person singular). So a verb written in the indicative stays in the indicative and in the time in which it is written. Its number is the subject's only if the subject's word fixes one: a verb written in the plural stays so with an ordinary noun, whose singular is a default only.", "quantifier": "all dictionaries, subjects, words and texts they can be written with", "why_tests_cant": "All dictionaries and all words and forms.", "anchors": ["utg/templates.py:Template.parse", "utg/templates.py:Template.substitute", "utg/templates.py:Substitution.get_text", "utg/dictionary.py:Dictionary.get_word", "utg/words.py:WordForm.form"]}
{"id": "C153", "title": "The sentence of the README, for all words and numbers", "statement": "README: '[Npc] [подарил|npc] [hero|дт] [coins] [монета|coins|вн].' gives 'Русалка подарила герою 125 монет.'. For all nouns as npc and hero (of which npc fixes its gender, and neither a case, number, noun form or letter size), all integers, all verbs recognised as a past singular and all nouns of the dictionary, and any two cases, such a template can be parsed and gives: the nominative singular of npc with a capital letter, the past of the verb in the gender of npc, the singular of hero in the case asked for, the number in decimal notation, the noun in the form that goes with this number in the case asked for (by its animality), and the dot. With the words of the README every number of coins is right.", "quantifier": "all words, integers, cases, dictionaries and names", "why_tests_cant": "All words, numbers and cases.", "anchors": ["utg/templates.py:Template.parse", "utg/templates.py:Template.substitute", "utg/constructors.py:construct_integer", "utg/dictionary.py:Dictionary.get_word", "utg/transformators.py:_noun_integer", "utg/words.py:WordForm.form"]}
{"id": "C154", "title": "Filling a template with words loaded from any JSON documents", "statement": "Variables and dictionary words may come from damaged documents, with forms that are no list of texts. Which form is taken does not depend on what the forms are, unless the word is a preposition that depends on a variable: it is the item at the position, and with the capital letter, that is taken for proper words of the same parts of speech and properties, and if those raise an exception that does not come from a form, the same is raised. A form that is no text is printed by %s where no capital is asked for, and raises where one is. A preposition that depends on a variable raises if the form of the variable has no first letter: TypeError for null, numbers and truth values, IndexError for an empty text or list, KeyError for an object; likewise for the last letter of its own text. If the form is a list that begins with something that is no letter, the variable acts through its properties only. The exception of the first variable without a form is the one raised, else the text is that of the template with the forms put in. If all the forms are lists of texts, texts and exceptions are those of the other properties.", "quantifier": "all words and externals loaded from JSON documents, all templates and dictionaries", "why_tests_cant": "All shapes of forms, all templates and all dictionaries.", "anchors": ["utg/templates.py:Template.substitute", "utg/templates.py:Substitution.get_text", "utg/transformators.py:transform", "utg/transformators.py:_preposition_any", "utg/words.py:WordForm.get_form", "utg/words.py:Word.deserialize"]}
{"id": "C155", "title": "Only the class of a number matters", "statement": "If a number among the externals is replaced by another of the same agreement class (and both or none of them is one), every template made of a text gives the same text with the other number where the first was printed, or raises the same exception: no other variable or word, a preposition that depends on the number included, changes its form. Numbers above four with the same two last digits are of the same class, but for a million and a billion; so are a number and its negative.", "quantifier": "all templates, externals, dictionaries and pairs of integers of one class", "why_tests_cant": "All numbers and all templates.", "anchors": ["utg/templates.py:Template.substitute", "utg/constructors.py:construct_integer", "utg/transformators.py:transform", "utg/transformators.py:_preposition_any"]}
{"id": "C156", "title": "What may be given to Properties", "statement": "Properties accepts None, records, and whatever has an attribute _data (another Properties, but also a Dictionary); anything else raises AttributeError. Records of relations that are no properties (PROPERTY_TYPE.CASE for CASE.GENITIVE, say) are accepted silently. They stay in the object and in all that is made of it. get, is_specified, the text of the properties, Word.form, WordForm.form and filled templates are exactly as if they had not been given. But an object that has one raises KeyError when it is saved or hashed, and makes saving of its word raise KeyError. add_word raises KeyError exactly at a form that is spelled as a registered one of a word of the same type and with the same forms (so possibly of the word itself), if one of the two words has such a record; otherwise it does what it does without. A word with such a record can be added to an empty dictionary exactly if no two of its forms are spelled alike, and can then not be added again; get_words raises KeyError while it is registered.", "quantifier": "all arguments, words, forms, dictionaries, externals and templates", "why_tests_cant": "All arguments and all dictionaries.", "anchors": ["utg/words.py:Properties._update", "utg/words.py:Properties.serialize", "utg/words.py:Properties.manhattan_distance", "utg/dictionary.py:Dictionary.add_word", "utg/dictionary.py:Dictionary.get_words", "utg/templates.py:Substitution.get_text"]}
{"id": "C157", "title": "A word whose properties are None", "statement": "Word accepts None for properties and keeps it. Such a word has the forms that the same word with Properties() has, whatever is asked for; a dictionary takes it and knows the same texts for the same forms, with the same exceptions; and templates are filled alike, as long as an external made of it was given properties of its own. But it cannot be saved (AttributeError); it equals only words made with None, so get_words lists it beside the same word with Properties(); WordForm(word) without properties cannot be spelled, cannot be a variable that is mentioned by itself, and a preposition cannot depend on it (AttributeError).", "quantifier": "all words, properties asked for, dictionaries, externals and templates", "why_tests_cant": "All words, dictionaries and templates.", "anchors": ["utg/words.py:Word", "utg/words.py:WordForm", "utg/dictionary.py:Dictionary.add_word", "utg/dictionary.py:Dictionary.get_words", "utg/templates.py:Substitution.get_text", "utg/transformators.py:_preposition_any"]}
{"id": "C158", "title": "A preposition in front of a number", "statement": "In front of a number a preposition is what it is by itself, whichever number it is and however the number is read aloud: '[о|n] [n] [монета|n|пр]' gives 'о 11 монетах' (read 'об одиннадцати'). For every integer, every preposition and noun that the dictionary knows, and any case, such a template can be parsed and gives the preposition, the number in decimal notation, and the noun in the slot that goes with the number in that case.", "quantifier": "all integers, dictionaries, prepositions, nouns and cases", "why_tests_cant": "All integers and all words.", "anchors": ["utg/transformators.py:_preposition_any", "utg/transformators.py:_noun_integer", "utg/constructors.py:construct_integer", "utg/templates.py:Template.parse", "utg/templates.py:Template.substitute"]}
{"id": "C159", "title": "A counted subject and its verb", "statement": "'[n] [npc|n|им] [подарил|npc|n]' gives '5 русалок подарили'. For every integer, every noun with a gender of its own and every verb recognised as a past, such a template can be parsed and gives the number in decimal notation, the noun in the nominative slot that goes with the number, and the past of the verb: plural, but singular in the gender of the noun if the number ends in one (not eleven), and also (unlike the grammar, which wants the plural) if it is above twenty and ends in two, three or four: '22 русалки подарила'.", "quantifier": "all integers, nouns, verbs and dictionaries", "why_tests_cant": "All integers and all words.", "anchors": ["utg/transformators.py:_adjective_integer", "utg/transformators.py:_noun_integer", "utg/constructors.py:construct_integer", "utg/templates.py:Template.parse", "utg/templates.py:Template.substitute"]}
{"id": "C160", "title": "The adjective of a counted noun", "statement": "'[n] [новый|npc|n|вн] [npc|n|вн]' gives '5 новых русалок'. For every integer, case, noun with a gender and animality of its own and adjective recognised in a full form, such a template can be parsed, and the adjective is printed in the gender and animality of the noun and in a number and case that Russian admits (as the comments in the code quote the grammar) exactly unless (1) the number is above twenty, ends in two, three or four, and the case is nominative or accusative ('22 новой русалки'), or (2) the number is two, three or four, the case is accusative and the noun is feminine and animate ('2 новые русалок').", "quantifier": "all integers, cases, nouns, adjectives and dictionaries", "why_tests_cant": "All integers and all words.", "anchors": ["utg/transformators.py:_adjective_integer", "utg/transformators.py:_noun_integer", "utg/constructors.py:construct_integer", "utg/templates.py:Template.parse", "utg/templates.py:Template.substitute"]}
{"id": "C161", "title": "A number is printed in the same digits", "statement": "Whatever a template says about a number ('[n|тв,мн]', '[N|герой]'), it prints its decimal notation, and only an external that is not given is missed; a number added to a dictionary can be written as it is ('[5]'). A number is no property, however: in '[монета|5]' it is refused with UnknownVerboseIdError unless a variable 5 is announced.", "quantifier": "all integers, templates, externals and dictionaries", "why_tests_cant": "All integers and all words.", "anchors": ["utg/templates.py:Substitution.get_text", "utg/templates.py:Substitution.parse", "utg/constructors.py:construct_integer", "utg/transformators.py:transform", "utg/words.py:WordForm.get_form"]}
{"id": "C162", "title": "A counted subject and its verb in the present or the future", "statement": "'[n] [npc|n|им] [идёт|npc|n]' gives '5 русалок идут'. For every integer, every noun with a gender of its own and every verb recognised as a present or a future, such a template can be parsed and gives the number in decimal notation, the noun in the nominative slot that goes with the number, and the verb in the time and person it is written in: plural, but singular if the number ends in one (not eleven), and also (unlike the grammar) if it is above twenty and ends in two, three or four: '22 русалки идёт'.", "quantifier": "all integers, nouns, verbs and dictionaries", "why_tests_cant": "All integers and all words.", "anchors": ["utg/transformators.py:_adjective_integer", "utg/transformators.py:_noun_integer", "utg/constructors.py:construct_integer", "utg/templates.py:Template.parse", "utg/templates.py:Template.substitute"]}
{"id": "C163", "title": "Of several numbers only the last one counts", "statement": "If a variable names several numbers ('[монета|n|m]'), which number the earlier ones are does not matter: replacing an earlier one by the last one changes neither the text nor the exception, whatever the word and whatever else is said in between. An earlier number is not ignored, though: it does what naming the last one twice does, so '[монета|n|two]' gives 'монет' for every n, while '[монета|two]' gives 'монеты'.", "quantifier": "all integers, words, dependencies, externals and dictionaries", "why_tests_cant": "All integers and all variables.", "anchors": ["utg/templates.py:Substitution.get_text", "utg/transformators.py:transform", "utg/transformators.py:_noun_integer", "utg/transformators.py:_adjective_integer", "utg/transformators.py:_preposition_any", "utg/constructors.py:construct_integer"]}
{"id": "C164", "title": "Dictionaries can be merged", "statement": "A dictionary made of the words get_words() returns for several dictionaries, in any order and with any repetitions, knows a text exactly if one of them does. What it returns for a text has the rank (part of speech, forms of the word, number of non-default properties) of what one of them returns, and none of them returns anything better. So merging comes to the same as adding all words ever added to one dictionary, although get_words forgets the words that own no text.", "quantifier": "all families of dictionaries, all words, all orders of addition", "why_tests_cant": "All families of dictionaries and all histories.", "anchors": ["utg/dictionary.py:Dictionary.add_word", "utg/dictionary.py:Dictionary.get_words", "utg/dictionary.py:Dictionary.get_word", "utg/dictionary.py:Dictionary.has_word"]}
{"id": "C165", "title": "Words that a template misses can be supplied", "statement": "After words are added to a dictionary, get_undictionaried_words reports exactly those of the texts reported before, in the same order and as often, that the added words alone would not make known. If for every reported text a word with a form spelled so is added (no form being empty), nothing is reported any more and the template can be filled with any externals it was parsed for. Hence every template that can be parsed can be completed, whatever the dictionary: a word of type text for each reported text suffices, and it is printed where it was missing (with a capital letter if one is asked for), while every other variable prints what it printed before.", "quantifier": "all texts of templates, all dictionaries, all added words, all externals", "why_tests_cant": "All templates and all histories of additions.", "anchors": ["utg/templates.py:Template.get_undictionaried_words", "utg/templates.py:Template.substitute", "utg/dictionary.py:Dictionary.add_word", "utg/dictionary.py:Dictionary.has_word"]}
