
c('Exact ties in nearest-key search go to the first key',
  'Among available keys whose exact similarity (sum of 1 + index/100 over the matching positions) is equal, get_nearest_key returns the first in iteration order. (The code violates this for keys of five or more properties: the rounded binary64 sums of equal exact similarities can differ, e.g. matches at 0, 2, 4 against matches at 1, 2, 3; it holds for keys of up to four properties, and for every word in autofill, see C22.)',
  'all keys and all lists of available keys', 'Only certain pairs of match patterns expose the rounding; a test would have to hit one of them.',
  [L + ':get_nearest_key'])

c('What a failed parse leaves behind',
  'If parse raises, the template text of the object is unchanged, but the substitutions read before the faulty variable are appended to it; if there are any, a template that worked before then raises in substitute: what the first of its variables raises, or TypeError if none does.',
  'all template objects and texts', 'Every combination of earlier text and failing text leaves a different object.',
  ['utg/templates.py:Template.parse', 'utg/templates.py:Template.substitute'])

c('Blanks around property ids are ignored',
  'White space around the property ids of a variable does not change its meaning. (The code violates this: the result of slug.strip() is discarded, so a blank after a comma raises UnknownVerboseIdError; it holds for blanks around the whole list, next to the bars and brackets.)',
  'all variables', 'Tests can only try some placements of blanks.',
  ['utg/templates.py:Substitution.parse_properties', 'utg/templates.py:Substitution.parse'])

c('Agreement applies to the collected properties',
  'With exactly one number among the dependencies, a noun, pronoun, adjective, verb or participle is spelled with the properties collected in the order of precedence and then changed as the number demands; with exactly one external dependency, a preposition is spelled with the form its normal form and the text of that external demand.',
  'all substitutions, externals and dictionaries', 'The result depends on the whole dependency list, the word and the number at once.',
  [T + ':Substitution.get_text', TR + ':transform'])

c('Naming a number twice changes nothing',
  'Repeating an external dependency does not change the text. (The code violates this: agreement with two, three, four turns the nominative into the genitive, and a second agreement then sees a genitive and demands the plural; it holds for all other numbers.)',
  'all substitutions and externals', 'Only some combinations of number, case and part of speech show it.',
  [T + ':Substitution.get_text', TR + ':_noun_integer', TR + ':_adjective_integer'])

c('A variable replaces the case recognised in the text',
  'README: in [красивого|hero] the nominative of the variable replaces the recognised case. (The code violates this: a variable built without properties specifies no case, so the recognised case stays; it holds for variables whose case is specified.)',
  'all words and variables', 'Whether a case is specified is invisible in the spelled text of the variable.',
  ['README.rst', T + ':Substitution.get_text', W + ':Properties.__init__'])

c('Equal templates substitute identically',
  'If t == u then t and u substitute to the same text, or raise the same exception, for all externals and dictionaries.',
  'all pairs of templates, externals and dictionaries', 'Equality ignores the order of properties; every later computation must do so too.',
  [T + ':Template.__eq__', T + ':Substitution.__eq__', T + ':Template.substitute'])

c('m_0007 keeps the meaning of forms',
  'After m_0007, the form stored for each combination of properties of the new layout is the form stored for that combination before. (The code violates this for the comparative of adjectives: nearest-key search counts two open positions as agreement, so the comparative becomes the old plural short form; it holds for every other combination of words that are not participles, for which see C71.)',
  'all word types, all form lists of the m_0007 layout', 'One slot of one part of speech is wrong; a test must look at that slot with forms that differ.',
  ['utg/migrations/m_0007_reduce_words_forms.py:migrate', L + ':get_nearest_key'])

c('m_0007 keeps the voice of participles',
  'After m_0007 a participle has the forms of its own voice. (The code violates this: the table repeats every key for both voices, the later item wins, so every full form comes from the reverse voice and the direct forms are lost whatever the voice of the word; short forms are kept.)',
  'all participles of the m_0007 layout', 'The data of every participle is affected, for all forms.',
  ['utg/migrations/m_0007_reduce_words_forms.py:OLD_CACHES'])

c('A text is filled part by part',
  'The text substituted for a concatenation of two template texts is the concatenation of the texts substituted for the parts: what is written in one variable affects only the place where it stands.',
  'all texts split at a place outside variables, all externals and dictionaries', 'Substitution goes through one format string and one list of variables for the whole text; any number of variables and literals.',
  [T + ':Template.parse', T + ':Template.substitute'])

c('A known word in brackets is replaced by itself',
  'A text known to the dictionary, put in brackets without further instructions, is replaced by that very text; written with a capital letter it is replaced by the text with a capital letter, unless the word fixes its case.',
  'all dictionaries, all texts known to them, all externals not of that name', 'The recognised properties must lead back to the same slot of the same word for every form of every word type.',
  [T + ':Substitution.get_text', D + ':Dictionary.get_word', W + ':WordForm.form'])

c('Every text the dictionary knows can be used in a template',
  'If the dictionary knows a text then a template with that text in brackets can be filled. (The code violates this: the text in brackets is lowered, so a form that contains capital letters, such as a proper name, is never found; it holds for texts that are their own lower case and contain no markup.)',
  'all dictionaries and all texts known to them', 'Only forms with capital letters show it.',
  [T + ':Substitution.parse', D + ':Dictionary.add_word'])

c('Lazily computed counts of a word stay right when it is autofilled',
  'autofill_missed_forms never changes a form that is present nor number_of_syllables and has_fluent_vowel of the word, so these attributes, which are remembered when first read, are right whenever they are read later, as long as no form is assigned by hand. (This needs the first form to be present: a value read from a word whose first form is empty goes stale.)',
  'all accepted words, all sequences of operations on word objects', 'The staleness depends on the order of reading and filling.',
  [W + ':Word.autofill_missed_forms', W + ':Word.number_of_syllables', W + ':Word.has_fluent_vowel'])

c('A dictionary can be saved and rebuilt from its words',
  'A dictionary built from the words get_words returns, in any order, knows the same texts, and finds for each a word form of the same rank: the same part of speech and as many non-default properties. So does one built from those words after serialising and deserialising each. (Which of two word forms of equal rank is found depends on the order of the words.)',
  'all lists of accepted words', 'get_words returns a set: every order has to be considered, and every conflict between words.',
  [D + ':Dictionary.get_words', D + ':Dictionary.add_word', W + ':Word.serialize'])

c('A dictionary survives any treatment of its words',
  'Words are shared mutable objects. Whatever is done to words before or after they are added, get_word(t) gives a word form that says t, and a text once known stays known. As long as no word is changed after it was added, the dictionary is the one built from the values the words had. (A word changed later makes the dictionary give a form that the word no longer has.)',
  'all sequences of creating, adding, changing, autofilling and reading words', 'Aliasing and caching over any history of operations.',
  [D + ':Dictionary.add_word', D + ':Dictionary.get_word', W + ':WordForm.form', W + ':Word'])

c('Test words spell their slots',
  'create_test_word gives an accepted word, each of whose forms is the prefix, the names of the properties of its slot and the suffix; the forms are pairwise different, and a dictionary containing only that word finds, for each form, the slot it spells. It has the properties that were given and no others; only_required and chance have no effect.',
  'all word types, prefixes, suffixes, properties and outcomes of chance', 'All slots of all word types and all prefixes.',
  [W + ':Word.create_test_word'])

c('Every error is the documented exception with a readable message',
  'At every place where the library raises one of its exceptions the message is built without error and contains the values given, even when they contain percent signs; the abstract classes, which have no message, cannot be raised.',
  'all raise sites, all argument values', 'Arguments come from user texts; a percent sign in one must not break the formatting.',
  [EX + ':UtgError.__init__', T + ':Substitution.parse', D + ':Dictionary.get_word'])

c('A word agrees with the variable it depends on',
  'In [word|variable] the word takes the form of the slot whose properties are: its own if it has one, else those of the variable if it specifies one, else those recognised in the text. In particular a verb written in the past takes the gender of the variable if it has one, and its number if it specifies one.',
  'all words but prepositions, all variables but numbers, all dictionaries', 'All slots of all parts of speech and all properties of variables.',
  [T + ':Substitution.get_text', T + ':Substitution.parse', W + ':WordForm.form'])

c('What a template object that is parsed again and again substitutes',
  'Whether parse succeeds, and its exception, do not depend on the earlier calls on the object. After any history of calls, substitute raises if none succeeded; otherwise let c be the last successful call: substitute succeeds iff no other call read a variable (its text has none, or its first one is faulty) and a fresh object parsed with c substitutes; then both give the same text.',
  'all histories of parse calls, successful or not, on one template object', 'Unbounded histories, with failures in between.',
  [T + ':Template.parse', T + ':Template.substitute'])

c('Lexicon, dictionary and templates work together, also after saving',
  'With words that have all their forms and a lexicon of templates parsed and checked against the externals that will be given, get_random_nearest_template and get_random_template, whenever some template is applicable, give one that substitutes without error. If words and template go through JSON, the loaded template reports the same missing words and substitutes the same text.',
  'all word lists, lexicons, keys, restrictions, random draws, externals and JSON encodings', 'The promise spans all modules and every combination of their inputs.',
  [LX + ':Lexicon.get_random_nearest_template', T + ':Template.substitute', T + ':Template.get_undictionaried_words', W + ':Word.serialize'])

c('Adding words never breaks a template',
  'A template with no missing words has none after further words are added. A lookup changes only to a better word form, of an added word; a template none of whose variables is spelled like a form of an added word gives the same text as before.',
  'all templates, externals, and all dictionaries and words added to them', 'The effect of an addition depends on all texts of all words.',
  [D + ':Dictionary.add_word', T + ':Template.get_undictionaried_words', T + ':Template.substitute'])

c('Autofilling words before adding them loses nothing',
  'A word with at least one form can be added once it is autofilled, also one written with a capital letter; and every non-empty text known to a dictionary of words is known to the dictionary of the autofilled words.',
  'all lists of accepted words', 'All patterns of missing forms and own properties.',
  [W + ':Word.autofill_missed_forms', D + ':Dictionary.add_word'])

c('Equal objects are interchangeable',
  'Equal words have the same form for equal requests; dictionaries of equal words have equal lookups; replacing externals by equal ones changes no text. (The code violates the last part for prepositions: WordForm equality ignores form_properties, but a preposition looks at the text they select; it holds if equal externals are also spelled the same, and for templates without prepositions.)',
  'all words, word forms, dictionaries and templates', 'Equality does not compare everything; each pair of equal but different objects could tell.',
  [W + ':WordForm.__eq__', W + ':Word.__eq__', T + ':Substitution.get_text'])

c('Rendering computes the reference semantics',
  'What a template gives is a function of its text, the words of the dictionary and the externals that can be written down without caches: each variable stands for the best dictionary entry of its id (the first one among equals) or the external of that name; the values of the properties are the word\'s own, else those of the last dependency that specifies them, else those of the entry; then each external, in order, sets the values its number or its text demands; the text is the form at the position of the resulting combination in the documented list of forms (countable singular: the normal singular; missing imperatives: the infinitive), with a capital if asked for; the first variable with no word, a missing external or an empty text is the error.',
  'all word lists, externals, texts and variables with any number of dependencies', 'A full input-output specification of the program; every case of every table takes part.',
  [T + ':Template.parse', T + ':Template.substitute', T + ':Substitution.get_text', TR + ':transform', W + ':WordForm.get_form', D + ':Dictionary.add_word'])

c('A counted word takes its number from the number, whatever it fixes',
  'In [word|n|case] the noun form, number and case of a noun or pronoun follow from n, its animality and the case, which is the one the word fixes, else the one asked for; of an adjective, verb or participle the number and the case follow from n, its gender and the case. All other properties are the word\'s own, else those it was recognised with. A number or noun form the word fixes itself does not count, so a plural-only noun takes a singular form with two.',
  'all integers, cases, words of these five types that fix no integer form, dictionaries and externals', 'Every combination of own properties, requested case and number.',
  [T + ':Substitution.get_text', TR + ':_noun_integer', TR + ':_adjective_integer'])

c('Naming a number again: what changes',
  'A word that depends two or more times on the same number takes the form it takes when it depends once, except in the full mode with a nominative (or an accusative; for two, three, four only of inanimate nouns): nouns and pronouns with numbers ending in two, three, four take the countable genitive plural instead of the genitive singular; adjectives, verbs and participles with composite numbers ending in two, three, four take the plural instead of the singular.',
  'all integers, any number of repetitions, all words of the five types that fix no integer form', 'Unbounded repetition; each step changes the input of the next one.',
  [T + ':Substitution.get_text', TR + ':_noun_integer', TR + ':_adjective_integer'])

c('Which texts can be used in a template',
  'A text without markup characters, in brackets, can be filled exactly if the dictionary knows its lower case (without the blanks around it); otherwise substitute raises NoWordsFoundError with that lower-case text.',
  'all word lists, texts and externals of other names', 'All texts and all dictionaries.',
  [T + ':Substitution.parse', T + ':Substitution.get_text', D + ':Dictionary.get_word'])

c('When equal word forms have equal hashes',
  'Equal word forms whose text-selecting properties are equal too have equal hashes; and if Python\'s hash of a pair tells second components apart, equal word forms have equal hashes exactly if the hashes of their text-selecting properties are equal.',
  'all word forms and all hash functions', 'All pairs of objects.',
  [W + ':WordForm.__hash__', W + ':WordForm.__eq__'])

c('The semantic mode tells only one from many',
  'In the semantic dependency mode a noun, pronoun, adjective, verb or participle that depends on a number is the same for any two numbers that both end in one (and not in eleven), or both do not, whatever else it depends on.',
  'all pairs of integers, words, externals and lists of dependencies', 'All integers and all combinations with other dependencies.',
  [TR + ':_noun_integer', TR + ':_adjective_integer', T + ':Substitution.get_text'])

c('A variable alone in brackets is its own text',
  '[variable] is replaced by the text of the word form given for the variable. (The code violates this for word forms built with form_properties, which templates ignore; it holds for all others.)',
  'all word forms, dictionaries and externals', 'All word forms, however they were built.',
  [T + ':Substitution.get_text', W + ':WordForm.__init__', W + ':WordForm.get_form'])

c('A variable with properties is the form for these properties',
  'For a variable built from a word alone, [variable] gives the normal form of the word and [variable|properties] its form for the properties, with a capital first letter exactly if the properties ask for it.',
  'all words, properties, dictionaries and externals', 'All words and combinations of properties.',
  [T + ':Substitution.get_text', W + ':Word.form', W + ':Word.normal_form'])

c('Saved data are a snapshot of the word',
  'Word.serialize() returns data that nothing done to the word later changes, and words loaded from the same data are independent of each other and of the data. (The code violates this: the data share the list of forms with the word; it holds for data that go through JSON.)',
  'all words, and all histories of creating, changing, filling, saving, loading and migrating', 'All histories of operations through shared lists.',
  [W + ':Word.serialize', W + ':Word.deserialize', W + ':Word.autofill_missed_forms', 'utg/migrations/m_0004_new_preposition_form.py'])

c('Through JSON, words and saved data behave as values',
  'If each word is built from its own list and data go through JSON whenever a word is saved or loaded, then words and saved data behave as plain values: an operation on one changes no other, and every word keeps one form per slot.',
  'all histories of such operations', 'All histories.',
  [W + ':Word.serialize', W + ':Word.deserialize', W + ':Word.autofill_missed_forms'])

c('construct_integer can be called from several threads',
  'In every interleaving construct_integer(n) returns the word form of n, without failing and after a bounded number of own steps; once the cache is there and no call is building it, all calls with the same number inside the cache return the same object. (Calls that overlap while the cache is built may return different objects with equal values.)',
  'all sets of calls and all interleavings of their steps', 'All schedules.',
  [CO + ':construct_integer', CO + ':_INTEGER_CACHE'])

c('Lazy attributes can be read from several threads',
  'In every interleaving in which nobody deletes the attribute, a read of a lazy attribute does not fail and returns the value computed from a state that the object has had; if the object does not change, this is the value of that state. (With a concurrent deletion a read, and a second deletion, can fail.)',
  'all functions, states, and interleavings of reads and mutations', 'All schedules.',
  [U + ':lazy_property'])

c('Adding templates from several threads loses none',
  'In every interleaving of calls of Lexicon.add_template, no call fails, and the lexicon has for each key all templates of the finished calls, each once. (The code violates this for a key added for the first time by overlapping calls, one of whose templates is lost; it holds for keys that are known.)',
  'all sets of calls and all interleavings of their steps', 'All schedules.',
  [L + ':Lexicon.add_template'])

c('Adding words to a dictionary from several threads',
  'In every interleaving, adding word forms does not fail; a text that was known, or whose registration is finished, is known; the word form found is one that was there or is being registered under this text, and none of these that is finished is better. (The code violates the last part for overlapping registrations under one text; it holds if registrations under one text do not overlap.)',
  'all dictionaries, sets of word forms and interleavings', 'All schedules.',
  [D + ':Dictionary.add_word'])

c('Substitutions on shared objects do not disturb each other',
  'As long as no word changes, every call of Template.substitute gives the same text (or exception) as if it were the only one, and finishes after a bounded number of own steps, whatever other calls and reads of WordForm.form run before or at the same time on the same words, word forms and dictionary. (If a word changes, a preposition goes on agreeing with the text the next word had when its form was first read.)',
  'all objects, templates, externals, dictionaries, and interleavings of calls', 'All schedules and all histories of cached attributes.',
  [T + ':Template.substitute', T + ':Substitution.get_text', TR + ':_preposition_any', W + ':WordForm.form', W + ':Word.number_of_syllables', U + ':lazy_property'])

c('Substitution without prepositions sees the words as they are',
  'A call of Template.substitute whose variables are no prepositions gives the text for the words as they are when it begins, whatever attributes were read and whatever words were changed before, if no word changes until it has finished.',
  'all histories of calls, reads and changes of words', 'All histories and schedules.',
  [T + ':Template.substitute', T + ':Substitution.get_text', W + ':WordForm.form', U + ':lazy_property'])

c('Objects do not disturb each other',
  'After any sequence of operations on any number of words, dictionaries, templates and lexicons: a dictionary holds what the calls of add_word on it, and the work on words, have made of it; a template what the calls of parse on it, a lexicon what the calls of add_template on it have made of it. What a template gives with a dictionary is not changed by work on other templates, dictionaries and lexicons.',
  'all sequences of operations on all objects', 'All histories.',
  [D + ':Dictionary.add_word', T + ':Template.parse', T + ':Template.substitute', L + ':Lexicon.add_template'])

c('A lexicon serves its templates as they are now, and checked templates stay usable',
  'In any history a request to a lexicon gives a most specific applicable template, and filling it gives the text of what was parsed into it by now. A template that was parsed and checked against a dictionary (get_undictionaried_words is empty) can be filled from it at any later time, whatever was done to words, dictionaries, lexicons and other templates in between, if it was not parsed again and no word has an empty form then.',
  'all sequences of operations before and after the check, all draws and externals', 'All histories.',
  [L + ':Lexicon.get_random_nearest_template', T + ':Template.get_undictionaried_words', T + ':Template.substitute', D + ':Dictionary.add_word'])

c('Blanks inside a list of properties are always refused',
  'A variable with a part that, stripped and in lower case, is no name of an external and still has a blank, is never accepted: parse raises UnknownVerboseIdError, or WrongDependencyFormatError if the variable has no head.',
  'all texts and names of externals', 'All texts.',
  [T + ':Substitution.parse'])

c('Every form of a known word can be asked for',
  'A variable that lists the properties of a form of the word, in any order and possibly with others, and строч or загл, stands for exactly that form, as it is or with a capital letter, if the word fixes no other value for one of these. Conversely a variable with only property lists always stands for a form the word permits, the stand-ins for a countable singular and for a missing imperative apart.',
  'all words, forms, dictionaries, externals and orders of the properties', 'All words and all positions of the table.',
  [T + ':Substitution.parse', T + ':Substitution.get_text', W + ':Word.form', W + ':WordForm.form', DI + ':WORDS_CACHES'])

c('What can be lost when templates are added from several threads',
  'In every interleaving of calls of Lexicon.add_template the templates of a key are templates of finished calls for this key, at most one per call; a key for which a call has finished and none is running has a template; once a key has a template and no call for it is running, no template of a later call is lost; none at all is lost if the first call for the key has finished before another one begins.',
  'all interleavings of any number of calls', 'All schedules.',
  [L + ':Lexicon.add_template', L + ':Lexicon.get_templates'])

c('Overlapping registrations never make a known text worse',
  'Once a text is known to a dictionary and no registration under it is running, in every interleaving of registrations the word form found for it is the same one or a better one.',
  'all dictionaries, word forms and interleavings', 'All schedules.',
  [D + ':Dictionary.add_word', D + ':Dictionary.get_word'])

c('Filling a template while words are added in other threads',
  'In every interleaving of calls of substitute with calls of add_word: each variable is looked up in a dictionary that was there after the call began, later variables no earlier than former ones; a call finishes after one step per variable and one more; a template that was checked when the call began is filled without an error; registrations under other texts do not disturb it. (The variables of one call may be filled from different dictionaries.)',
  'all templates, externals, dictionaries and interleavings of any number of calls', 'All schedules.',
  [T + ':Template.substitute', D + ':Dictionary.add_word', D + ':Dictionary.get_word'])

c('Asking a lexicon while templates are added in other threads',
  'In every interleaving of requests to a lexicon (get_random_template, get_random_nearest_template) with calls of add_template: a template returned was added for the key by a finished call, its restrictions are among those requested, and for the nearest one no applicable template the key had at some moment during the request has more restrictions; a request raises UnknownLexiconKeyError only if no call for the key had finished when it began, NoTemplatesWithSpecifiedRestrictions only if the key had no applicable template at some moment during it, and nothing else; it finishes; if calls for the key do not overlap with the first one, the result is that for the lexicon at one moment during the request.',
  'all interleavings of any number of calls and requests, all draws', 'All schedules.',
  [L + ':Lexicon.get_random_template', L + ':Lexicon.get_random_nearest_template', L + ':Lexicon.get_templates', L + ':Lexicon.add_template'])

c('Migrations between any two tables keep what the tables share',
  'Whatever the old and the new table of slots are, the functions of m_0003 and m_0006 to m_0009 give one form per new slot: the form of the old slot that agrees in the most properties, and of the same slot if it was there. With any table, m_0003 changes verbs only, m_0006 every word of a known type, and neither invents a form.',
  'all old and new tables and all word data', 'All tables and words.',
  ['utg/migrations/m_0003_change_verb_forms.py:migrate', 'utg/migrations/m_0006_per_word_type_restrictions.py:migrate', 'utg/migrations/m_0007_reduce_words_forms.py:migrate_forms', LG + ':get_nearest_key' if 'LG' in globals() else 'utg/logic.py:get_nearest_key'])

c('What exactly becomes of a word saved before m_0007',
  'Every word in the layout before m_0007 can be taken through m_0007, m_0008 and m_0009 and loaded, with its type and properties, and for every combination of properties of its type the library then spells the form it had for this combination, except that the comparative is the old short plural, a full participle is the old one of the reverse voice and a pronoun the old one of the third person.',
  'all words of all types, all requests', 'All words and all combinations.',
  ['utg/migrations/m_0007_reduce_words_forms.py:migrate', 'utg/migrations/m_0008_lower_animiality_nearest_priority.py:migrate', 'utg/migrations/m_0009_pronoun_modernization.py:migrate', W + ':Word.deserialize', W + ':Word.form'])

c('The lookup tables are right for any schema and any restrictions',
  'For every schema of up to 13 properties, restriction table and list of forbidden parts that leave a slot, the lookup table is built without error and has an entry for every full combination and nothing else, always the number of a slot: the slot that matches the combination if there is one, otherwise that of another combination which agrees with it at least as well as any that matches a slot. If no slot is left, building it raises KeyError.',
  'all schemas of up to 13 properties, all restriction tables, all lists of forbidden parts, all combinations', 'All tables.',
  ['utg/logic.py:get_caches', 'utg/logic.py:get_raw_caches', 'utg/logic.py:_get_raw_cache', 'utg/logic.py:get_nearest_key'])

c('Which form is taken does not depend on how words are spelled',
  'For any two casts of externals and dictionaries that differ in the spelling of the words only, a variable that is no preposition is replaced by the form in the same place of the list of forms, with the same capital, or the same external is reported missing. So giving another word of the same grammar for a name, or a number of the same agreement class and grammatical number, changes only the places where it stands and the prepositions depending on it. (Prepositions do look at the spelling.)',
  'all variables, externals and dictionaries, all pairs of words of the same grammar, all integers', 'All words.',
  [T + ':Substitution.get_text', TR + ':transform', W + ':WordForm.form', CO + ':construct_integer'])

c('Asking a dictionary while words are added in other threads',
  'get_words running beside add_word either returns or raises RuntimeError, the latter only if a text became known during the call (and then it can). What it returns are words without equal ones, each the word of a text at some moment during the call, and every text known at the beginning has its word of some moment among them; if nothing is registered meanwhile, the result is that of the dictionary. get_undictionaried_words reports variables in order, none an external or known at the beginning, and all that are unknown at the end; a check without findings stays valid whatever is added later. Both finish after a number of steps given by the number of texts or variables.',
  'all dictionaries, schedules and numbers of threads', 'All schedules.',
  [D + ':Dictionary.get_words', D + ':Dictionary.add_word', T + ':Template.get_undictionaried_words'])

c('Random templates are drawn fairly',
  'get_random_template gives every call of add_template that applies the same chance, and get_random_nearest_template every call that is most specific among these: the index drawn runs through exactly these calls, each once, in the order they were made. So the chance of a template is the share of these calls that added it: a template added twice is drawn twice as often.',
  'all histories of add_template, keys, restrictions and draws', 'Sampling a random function cannot establish its distribution, and all histories.',
  [LX + ':Lexicon.get_random_template', LX + ':Lexicon.get_random_nearest_template'])

c('Adding whole words in several threads',
  'However calls of add_word for any number of words interleave, each call ends as it would alone (it returns, or raises the same exception after registering the same forms); when it has ended, all its spellings are known; what is found for a text was there before or is a form of an added word spelled so; and a call needs at most four steps for each form and one more. A text that only one of the words has gets, as soon as this call has ended, the form it would have after this call alone; a text none has keeps its form. So if the words have no spelling in common, the lookups after all calls are those after adding the words one after the other, in any order. If they have one in common this can fail: a form that loses in both orders can win.',
  'all dictionaries, words, numbers of threads and schedules', 'All schedules.',
  [D + ':Dictionary.add_word', W + ':Word.all_forms'])

c('Any text in a saved template',
  'deserialize takes any text for a template. If the variables have texts, substitute returns exactly when the text is made of characters other than % and conversions that can show a string (flags, a width, a precision, the letters s, r, a, c or %), with as many letters other than % as there are variables; the result is the text with each conversion replaced by the text of its variable, cut to the precision and padded to the width. Otherwise it raises TypeError or ValueError and nothing else.',
  'all texts of templates, all texts of variables, whatever Unicode tables', 'All strings.',
  [T + ':Template.deserialize', T + ':Template.substitute'])

c('Filling gaps of one word in several threads',
  'However calls of autofill_missed_forms on one word interleave, no call raises, each returns after at most 4n+2 of its own steps for n forms, forms that were present never change, every other form is at any time empty or one of the texts that were present, a filled slot is never empty again, and when any call has returned no form is missing (if one was present). If no call looks which forms are present after another began to fill gaps, in particular if there is one call and the others only read, every form is at any time the old one or the one a single call gives, and the latter once a call has returned. Otherwise the result can differ from that of one call (the plural may get the text of the singular), and forms may change after a call has returned.',
  'all words, numbers of threads and schedules', 'All schedules.',
  [W + ':Word.autofill_missed_forms'])

c('Running a migration again after a crash',
  'Wherever a run of m_0007 or of m_0009 over saved words, or of m_0007, m_0008 and m_0009 word by word, is interrupted, running it again from the beginning (keeping words for which it raises) gives the same data as one run: on a word it has migrated before, a migration changes nothing or raises IndexError. For m_0008 this holds unless an adjective or participle was migrated before the crash: such a word with different forms is always spoiled, and nothing is raised. m_0005 can be repeated; m_0001 raises IndexError or changes nothing; after repeating m_0002 or m_0004 the word cannot be loaded.',
  'all stores of words in the old layouts, all crash points', 'All crash points and stores.',
  ['utg/migrations/m_0007_reduce_words_forms.py:migrate', 'utg/migrations/m_0008_lower_animiality_nearest_priority.py:migrate', 'utg/migrations/m_0009_pronoun_modernization.py:migrate', 'utg/migrations/m_0001_include_short_forms_in_full.py:migrate', 'utg/migrations/m_0002_countable_noun_form.py:migrate', 'utg/migrations/m_0004_new_preposition_form.py:migrate', 'utg/migrations/m_0005_remove_time_participle_property.py:migrate'])

c('An interrupted addition can be repeated',
  'Wherever a call of add_word is interrupted, and however often, calling it again returns or raises as if there had been no interruption and leaves exactly the same dictionary. Until then nothing known is forgotten or found in a worse form, and what is new is a form of the word spelled so. A call of add_template that is interrupted leaves the templates of every key as they were, or has added its template; repeated after n interruptions it has added the template at least once and at most n+1 times, exactly once if none of the interrupted calls got as far as appending. A first add_template for a key may leave the key without templates. An interrupted autofill_missed_forms can be repeated: it succeeds, keeps the forms that were present and leaves no gap, but the texts it fills in may differ from those without the interruption.',
  'all dictionaries, words, lexicons, interruption points and numbers of interruptions', 'All interruption points and histories.',
  [D + ':Dictionary.add_word', LX + ':Lexicon.add_template', W + ':Word.autofill_missed_forms'])

c('Names of externals do not matter',
  'If a text without percent signs in its variables is rewritten so that each external has a new name, wherever it is the head of a variable (with a capital letter at the beginning where there was one) or a part of one, and no text that was not a name becomes one, then parse raises for the new text and names just when it did for the old ones, with the same exception; otherwise, substituting word forms given under the new names gives the same text or raises the same exception as substituting them under the old names in the old template, and get_undictionaried_words returns the same list.',
  'all texts, names, renamings, word forms and dictionaries', 'All texts and renamings.',
  [T + ':Template.parse', T + ':Substitution.parse', T + ':Template.substitute', T + ':Template.get_undictionaried_words'])

c('Only the last word on each property counts',
  'Let two texts have the same literal text and, in the same places, variables without percent signs that can be read, with the same heads, that name the same externals in the same order and have the same last mention of each property (where an external mentions the properties its form specifies). Then both are parsed, substitute gives the same text or raises the same exception for both, and get_undictionaried_words returns the same list. So properties that are given one after another can be given in any order, in one list or in several parts, before or after an external that does not specify them, and a value that is given again later can be left out.',
  'all texts, externals and dictionaries built with add_word', 'All texts, orders and dictionaries.',
  [T + ':Template.parse', T + ':Substitution.parse', T + ':Substitution.get_constructor', T + ':Template.substitute'])

c('Printed tables can be pasted into a migration',
  'The text returned by pretty_format_current_keys_cache, in whatever order the entries are sorted, is a Python expression over the names of utg.relations that stands for exactly one table, and that table has the same slot for every key of every word type as the current one and no other keys. So a migration into whose OLD and NEW tables such texts were pasted leaves every saved word with the number of forms of its type as it is. The NEW table of the last migration equals the current one.',
  'all sorting orders, all saved words', 'All sorting orders and words.',
  [L + ':pretty_format_current_keys_cache', 'utg/migrations/m_0009_pronoun_modernization.py:NEW_CACHES', 'utg/migrations/m_0009_pronoun_modernization.py:migrate'])

c('Objects are equal exactly if their saved data are',
  'Two Properties objects, two words, two templates are equal exactly if what serialize returns for them is equal, and exactly if it is equal after both have gone through JSON. So saved data can be compared to find out whether something has changed. Equality of templates is an equivalence relation.',
  'all properties, accepted words, and templates whose dependencies are names or properties', 'All pairs of objects.',
  [W + ':Properties.serialize', W + ':Word.serialize', W + ':Properties.__eq__', W + ':Word.__eq__', T + ':Template.serialize', T + ':Template.__eq__', T + ':Substitution.__eq__'])

c('A number, an adjective and a noun make a phrase',
  'The template [number] [adjective|noun|number|case] [noun|number|case], for an integer and a noun given as externals and an adjective or participle known to the dictionary, is read without error and gives the decimal notation of the number, the form of the adjective in the gender and animality of the noun and in the number and case that go with the integer in the given case, and the form of the noun that goes with it, separated by single blanks.',
  'all integers, all accepted nouns that specify exactly gender and animality, all dictionaries of accepted words, all adjectives and participles that fix none of case, gender, animality and integer form, all cases, all names written in lower case without marks of the template language', 'All numbers, words, cases and dictionaries.',
  [T + ':Template.parse', T + ':Template.substitute', T + ':Substitution.get_text', TR + ':_adjective_integer', TR + ':_noun_integer', CO + ':construct_integer'])

c('A preposition goes with the text that follows it',
  'In [preposition|variable] [variable|case] the preposition takes the form that goes with the text printed after it. (The code violates this: it looks at the text of the variable as it was given, so that one reads "s lvom" instead of "so lvom"; it holds if both texts begin with the same two letters and none of them is one of the five exceptions of the preposition o.)',
  'all prepositions, words, cases and dictionaries', 'All pairs of texts of a word.',
  [TR + ':_preposition_any', TR + ':_consonant_preposition_any', TR + ':_vowels_preposition_any', T + ':Substitution.get_text', W + ':WordForm.form'])

c('Which text decides the form of a preposition',
  'In [preposition|variable] [variable|case] the variable is printed in the form for the case, and the preposition in the form that goes with the text of the variable as it was given, whatever follows.',
  'all prepositions that do not fix their form, all words that fix neither letter case nor preposition form, all cases and dictionaries', 'All prepositions, words and cases.',
  [TR + ':_preposition_any', TR + ':_consonant_preposition_any', TR + ':_vowels_preposition_any', T + ':Substitution.get_text', W + ':WordForm.form'])

c('A modifier and its noun agree',
  'In [modifier|properties|noun] [noun|properties] both words are printed in forms that have every property the noun has and every property asked for, the noun\'s own ones first; excepted are those the modifier has itself, and the kind of form of nouns and verbs (NOUN_FORM, VERB_FORM), which gives way where there is no such form. Naming the noun last matters: in [modifier|noun|properties] the modifier of a noun that has a plural only becomes singular if a singular is asked for.',
  'all modifiers but prepositions, all words but numbers given as variables, all lists of properties without repetitions that do not ask for a capital letter, all dictionaries', 'All words, properties and dictionaries.',
  [T + ':Template.parse', T + ':Template.substitute', T + ':Substitution.get_text', T + ':Substitution._list_propeties', W + ':WordForm.get_form'])

c('A capital letter changes the first letter only',
  'Writing a variable with a capital letter, [Герой|...] for [герой|...], does not change which form is printed: the same form appears with a capital first letter, or the same error is raised; a word that fixes its letter case is printed the same either way.',
  'all variables with any dependencies, all dictionaries and all sets of externals', 'All variables, dependencies, words and dictionaries.',
  [T + ':Substitution.parse', T + ':Substitution.get_text', T + ':Substitution._list_propeties', TR + ':transform', W + ':WordForm.get_form'])

c('Texts given by users are inserted letter by letter',
  'A variable that is a plain text (a name typed by a user) is inserted letter by letter wherever it is mentioned, whatever is asked of it and whatever characters it contains: brackets and percent signs in it are not read as marks of the template language. Only a capital letter asked for changes its first letter (an empty text then raises IndexError). Words that depend on it, except prepositions, are what they are without it.',
  'all texts, all templates, variables, dependencies and dictionaries', 'All texts a user may type, all templates.',
  [T + ':Template.parse', T + ':Template.substitute', T + ':Substitution.get_text', TR + ':transform', W + ':WordForm.get_form'])

c('When exactly a template cannot be filled',
  'A parsed template can be filled exactly if every variable can be replaced, and a variable can be replaced exactly if its word is an external or in the dictionary, the externals it names are given, no preposition has to look at a letter of an empty text, and no capital letter is asked of an empty form. The last two raise IndexError.',
  'all templates, externals and dictionaries', 'All templates, externals and dictionaries.',
  [T + ':Template.substitute', T + ':Substitution.get_text', TR + ':transform', TR + ':_preposition_any', W + ':WordForm.get_form'])

c('Which variables can be mentioned',
  'Variables are looked up in lower case: a variable announced under a name with a capital letter is never mentioned by any template and has no influence on the text; a variable whose name is in lower case, has no marks of the template language and no blanks around it, can be mentioned alone and as a dependency, also if its name is the id of a property (which it then hides).',
  'all names, texts of templates, externals and dictionaries', 'All names and template texts.',
  [T + ':Substitution.parse', T + ':Template.parse', T + ':Substitution.get_text'])

c('A lexicon sees restrictions as they are now',
  'add_template keeps the very set it is given. In any history of creating and changing sets and adding templates, get_templates, get_random_template and get_random_nearest_template answer as if the templates had just been added with the sets as they are now; a set that is not changed (a frozenset) counts as it was when the template was added.',
  'all histories, keys, requested restrictions and draws', 'All histories of shared mutable sets.',
  [LX + ':Lexicon.add_template', LX + ':Lexicon.get_templates', LX + ':Lexicon.get_random_template', LX + ':Lexicon.get_random_nearest_template'])

c('What happens if restrictions are no sets',
  'Requests with a list or tuple of restrictions: get_templates and get_random_template answer as for the set of its elements; get_random_nearest_template raises TypeError exactly if some template is applicable, and otherwise answers as for the set. A template added with a list or tuple is accepted, but from then on every request for its key raises AttributeError (with a list, get_random_nearest_template may raise TypeError); other keys are not affected.',
  'all histories, keys, requests and draws', 'All histories and requests.',
  [LX + ':Lexicon.add_template', LX + ':Lexicon.get_templates', LX + ':Lexicon.get_random_template', LX + ':Lexicon._get_nearest_templates', LX + ':Lexicon.get_random_nearest_template'])

c('Upgrading a saved dictionary keeps its texts',
  'Migrating every word of a dictionary saved in the m_0007 layout with m_0007, m_0008 and m_0009 and loading it loses and refuses no word. A template that asks a variable for a combination prints the old text, and a dictionary of the loaded words knows that text if the word is in lower case and its own properties permit the combination. The old text is the one saved for the combination, except that the comparative is the old short plural, a full participle the old one of the reverse voice and a pronoun the old one of the third person.',
  'all saved dictionaries of that layout, combinations and templates', 'All saved dictionaries.',
  ['utg/migrations/m_0007_reduce_words_forms.py:migrate', 'utg/migrations/m_0008_lower_animiality_nearest_priority.py:migrate', 'utg/migrations/m_0009_pronoun_modernization.py:migrate', W + ':Word.deserialize', D + ':Dictionary.add_word', T + ':Substitution.get_text'])

c('Something else given for a variable is noticed exactly where it is mentioned',
  'If for a name that a variable mentions, as its head or as a dependency, something other than a word form is given (a Word, a number, a string, None), get_text and substitute never return a text: they raise AttributeError, unless an unknown word, a missing external or a preposition in front of an empty text is met first. What is given for names that are not mentioned does not matter: the text is the one for the word forms given.',
  'all variables, templates, externals of any kind and dictionaries', 'All mixtures of externals.',
  [T + ':Substitution.get_text', T + ':Substitution._list_propeties', T + ':Template.substitute', TR + ':transform'])

c('Words whose forms are a tuple',
  'A Word keeps the sequence of forms it is given. As long as no text of a word that is added is registered for a word of the same type whose forms are of the other kind (list or tuple), add_word and all lookups work as for lists; otherwise add_word raises TypeError, forgetting nothing. autofill_missed_forms of a word with a tuple returns if there is nothing to fill, and raises TypeError otherwise. Saved data restore the word; through JSON it comes back with a list and is then not equal to the word with the tuple.',
  'all words, dictionaries with words of both kinds, and saved data', 'All dictionaries with words of both kinds.',
  [W + ':Word.__init__', W + ':Word.__eq__', W + ':Word.autofill_missed_forms', W + ':Word.serialize', W + ':Word.deserialize', D + ':Dictionary.add_word'])

c('Announcing more variables',
  'Template.parse looks at the announced names only to decide whether a part of a variable after a bar is one of them: if two collections of names agree on these parts, parse does the same, including the exception and what a failed parse leaves behind; order and repetition of the names never matter. A text that is accepted stays accepted if more names are announced; the stored text and the ids stay, and a part of a variable changes only from a list of properties to a mention, and only if it is one of the new names.',
  'all texts, templates and pairs of collections of names', 'Relational property over all texts.',
  [T + ':Template.parse', T + ':Substitution.parse'])

c('Adding a word to a dictionary while its gaps are being filled',
  'If autofill_missed_forms and add_word of the same words overlap in several threads: forms that are present stay, gaps get texts of present forms. add_word raises nothing but IndexError, and this only for a word in upper case that lacked forms; it comes to an end if it gets enough turns. Every entry is of a word that was given to add_word and that, at some moment, spelled it so; if no word is filled by two calls at once, it still does (the empty text apart). When add_word has returned, all texts the word had are known; for words that fix no property that selects a form, no other text than these becomes known (the empty one apart), whatever the schedule. (For words that fix one, a text that the word gets later may be unknown.) A call that runs alone does what add_word does.',
  'all words, dictionaries and interleavings of the calls', 'All schedules.',
  [W + ':Word.autofill_missed_forms', W + ':Word.all_forms', D + ':Dictionary.add_word', U + ':lazy_property'])

c('Missing forms given as None',
  'Missing forms of a word may be given as None instead of the empty string (the code tests forms for truth). autofill_missed_forms treats both alike: if a form is present the word ends up the same and without gaps, otherwise it is left as it was. number_of_syllables and has_fluent_vowel are the same unless the first form is None, in which case they raise AttributeError and TypeError. add_word registers the same word forms under the same non-empty texts (and the text None, if it is a form) and ends in the same way, with TypeError for IndexError if a missing form has to be capitalized; but it raises TypeError, leaving the entry, if a text of the word is registered for a word of the same type and None and a string stand where their forms first differ. get_text gives the same text, or None for an empty one; the same exception, or TypeError for an IndexError; or AttributeError if an external is a form of a word whose first form is None. substitute writes the word "None" where the form is None. form and normal_form give the text in the slot where a word of strings has it, None if it is missing; words are equal iff type and properties are equal and the forms are, None only to None. Stored and loaded words have None in the same places. Without None everything is exactly as with strings.',
  'all words with None in any places, dictionaries, externals, variables and templates', 'All words and places of the gaps.',
  [W + ':Word', W + ':Word.autofill_missed_forms', W + ':Word.has_fluent_vowel', W + ':Word.number_of_syllables', W + ':WordForm.get_form', D + ':Dictionary.add_word', TR + ':_preposition_any', T + ':Substitution.get_text', T + ':Template.substitute'])

c('Using a template while it is parsed in another thread',
  'While one thread parses a text with a new template, other threads may call substitute, serialize and get_undictionaried_words of it. Whatever the schedule, substitute gives what it gives after the parse (text or exception), or raises TypeError: never a text in part; serialize gives what it gives afterwards, or data with the text missing and only the first substitutions; get_undictionaried_words gives the first of its words. Calls that begin when parse has ended (also by an exception) give exactly what they give afterwards. parse itself is not disturbed: same template, same exception. Every call comes to an end if it gets enough turns. (If two texts are parsed with one template, substitute may put words of one text in the other.)',
  'all texts, names, dictionaries, externals and interleavings of the calls', 'All schedules.',
  [T + ':Template.parse', T + ':Template.substitute', T + ':Template.serialize', T + ':Template.get_undictionaried_words'])

c('A word from any JSON document',
  'Word.deserialize of whatever json.loads gives either returns a word or raises an exception that tells the fault: TypeError if the document is no object, KeyError for a missing type, forms or properties, the lookup error of rels for an unknown type, AttributeError for properties that are no object, ValueError for a key of them that is no number, TypeError for a list or object as the type or as a value, TypeError for forms that have no length, WrongFormsNumberError for a wrong number. It returns exactly when the type is the code of a part of speech (1.0 and true count as 1), forms has as many parts as it has slots and the properties are readable; then the word has that type, these very forms and the properties the items mean, the last one winning. Other fields and the order of fields do not matter. Saving the word and loading it again gives the same word. With a list of texts as forms it is a word like those the constructor accepts. (A text, an object or a list of anything is accepted for forms; then form returns a letter, raises KeyError, or returns the item.)',
  'all JSON documents', 'All documents, of any shape and depth.',
  [W + ':Word.deserialize', W + ':Properties.deserialize', W + ':Word.__init__', W + ':Word.serialize', W + ':Word.form'])

c('A template from any JSON document',
  'Template.deserialize of whatever json.loads gives either returns a template or raises an exception that tells the fault: TypeError for what is no object, KeyError for a missing template, substitutions, id or dependencies, TypeError for a number or null instead of a list, AttributeError for a dependency that is neither text nor object, ValueError and TypeError for unreadable properties. It returns exactly for documents with a template, whatever it is, and a list of substitutions (or an empty text or object), each with an id, whatever it is, and dependencies that are texts or readable properties (a text or an object instead of the list is read letter by letter, key by key). The result has these contents; other fields and the order of fields do not matter; saving it and loading it again gives the same template, also for templates that were not loaded.',
  'all JSON documents', 'All documents, of any shape and depth.',
  [T + ':Template.deserialize', T + ':Substitution.deserialize', W + ':Properties.deserialize', T + ':Template.serialize', T + ':Substitution.serialize'])

c('Numbers that are no integers',
  'construct_integer looks at no types. In any history of calls, failed ones included, a call gives what its argument alone says: an int its numeral; True and False the numerals 1 and 0; a float (or another real number) that is outside 0..10000 a numeral written as str writes it, with the properties of the integer it equals, or, for a fraction, with plural NUMBER and with INTEGER_FORM COMPOSITE_DUAL if the whole part of its absolute value ends in 2 or 3 but not in 12 or 13, and PLURAL otherwise; nan and the infinities get plural properties. A float from 0 to 10000, even 5.0, raises TypeError, and so does what cannot be compared. Two calls return one object exactly if both ask for the same int from 0 to 10000.',
  'all histories of calls with arguments of any kinds', 'All numbers and histories.',
  [CO + ':construct_integer', CO + ':_construct_integer'])

c('Keys in any writing of a number',
  'The keys of serialized properties are read by int. A key that is a text is read as n exactly if it writes n: white space (of Unicode, but not the characters 0x1c to 0x1f), perhaps one sign, groups of decimal digits of any script joined by single underscores, white space. No text writes two numbers. Every other text makes Properties.deserialize raise ValueError; properties can be loaded exactly if every key that is a text writes a number. A key in any writing of the code of a property, such as "+0_7", is read as that property.',
  'all texts, all serialized properties', 'All texts.',
  [W + ':Properties.deserialize'])

c('Numbers with very many digits',
  "CPython refuses to convert integers with more digits than a limit (0 for none, or at least 640; 4300 by default) from and to text. Under any such limit, in any history of calls of construct_integer, a call with an integer n with |n| >= 10^limit raises ValueError and leaves no trace: all the other calls give what they would have given, object by object, without it and without a limit. Properties.deserialize accepts the same data, with the same result, except that it raises ValueError for a key written with more digits than the limit, leading zeros counted. Properties that the library saved load under every limit.",
  'all limits, histories of integers, and serialized properties', 'All limits, numbers and histories.',
  [CO + ':construct_integer', CO + ':_construct_integer', W + ':Properties.deserialize', W + ':Properties.serialize'])

c('What may be given as externals to parse',
  'parse and get_undictionaried_words only ask whether a text is in externals. A list, tuple, set, dictionary or another collection therefore does as a list of its members, and is not changed; a string does as the list of all its parts, so that a property name that is a part of it counts as the name of a variable. An iterator or generator is used up: a text can be parsed with it exactly if all parts of its variables can be read, a part being the name of an external if and only if all the parts asked for so far, from the beginning of the text, come in this order in the iterator; get_undictionaried_words asks for the variables in the same manner.',
  'all texts, templates, collections, strings, iterators and dictionaries', 'All texts and containers, and the order of all questions.',
  [T + ':Template.parse', T + ':Substitution.parse', T + ':Template.get_undictionaried_words'])

c('Migrations of any JSON document',
  'migrate of m_0001, m_0002, m_0004, m_0005, m_0007, m_0008 and m_0009 on whatever json.loads gives either raises, and leaves the document exactly as it was, or returns the document itself with at most one field changed: forms (properties for m_0005); all the other fields, unknown ones included, and their order stay. m_0007, m_0008 and m_0009 succeed exactly for documents whose type is the number of a part of speech (1.0 and true count) and whose forms are a list, or a text taken letter by letter, at least as long as the old slots they read; forms that are no texts are moved to the same places as texts would be. Otherwise the exception tells the fault: TypeError, KeyError with the missing key, IndexError, AttributeError, or the one of WORD_TYPE; which of them is determined by the document for each of the seven migrations. m_0001, m_0002 and m_0004 change only documents of their types (adjectives and participles, nouns, prepositions), m_0005 only participles, m_0004 needs a non-empty list of forms. A document that m_0007 takes goes through m_0008 and m_0009 too, and then loads as a word exactly if its properties are readable. A noun with patches that was read from JSON cannot be migrated by m_0002: the keys of its patches are texts, so the patch number 7 is never found.',
  'all JSON documents', 'All documents, of any shape and depth.',
  ['utg/migrations/m_0001_include_short_forms_in_full.py:migrate', 'utg/migrations/m_0002_countable_noun_form.py:migrate', 'utg/migrations/m_0004_new_preposition_form.py:migrate', 'utg/migrations/m_0005_remove_time_participle_property.py:migrate', 'utg/migrations/m_0007_reduce_words_forms.py:migrate', 'utg/migrations/m_0008_lower_animiality_nearest_priority.py:migrate', 'utg/migrations/m_0009_pronoun_modernization.py:migrate'])

c('Using a word loaded from any JSON document',
  'A word read from a damaged document can be used as far as its forms allow. If the forms are an object of the right length, number_of_syllables, has_fluent_vowel, autofill_missed_forms and the text of any form raise KeyError. If they are one text, each letter is a form: the word has one syllable, a fluent vowel exactly if it begins with a vowel and has another letter, and autofill_missed_forms leaves it alone. If they are a list: autofill_missed_forms never raises, keeps everything that is given, numbers and lists included, and replaces null, false, zero and empty values by what is given at the nearest position, or changes nothing if nothing is given; number_of_syllables is that of the first form if it is a text, the number of vowels among its items (at least 1) if it is a list, otherwise AttributeError; has_fluent_vowel is true if the vowels of some given form do not begin with those of the first form and all given forms before it are texts, or lists or objects of plain values, false if the vowels of all given forms begin so, otherwise TypeError. A form is given as it is, but with a capital letter only if it is a non-empty text, otherwise an exception is raised. For lists of texts all this is as for any other word.',
  'all JSON documents that can be loaded as a word, all properties', 'All shapes of forms and all documents.',
  [W + ':Word.deserialize', W + ':Word.number_of_syllables', W + ':Word.has_fluent_vowel', W + ':Word.autofill_missed_forms', W + ':WordForm.get_form'])

c('Using a template loaded from any JSON document',
  'A loaded template whose text and ids are texts does what the template with these does: substitute gives the same text or raises the same exception, get_undictionaried_words lists the same words. Only such templates can be substituted: if the texts of the substitutions before it can be made, an id that is a list or an object raises TypeError and one that is a number, a truth value or null NoWordsFoundError; if all of them can be made and the template is no text, TypeError is raised. get_undictionaried_words raises TypeError exactly if some id is a list or an object; otherwise it lists the ids that are no texts and the texts that are neither externals nor in the dictionary, in the order of the template.',
  'all loaded templates, externals and dictionaries', 'All JSON documents and all dictionaries.',
  [T + ':Template.deserialize', T + ':Template.substitute', T + ':Substitution.get_text', T + ':Template.get_undictionaried_words'])

c('A dictionary of words loaded from any JSON documents',
  'Words loaded from damaged documents may be added to a dictionary, in any order, whether or not add_word raises: a word that get_word returns for a text was added and has a form that is this text; a text that is known stays known; if add_word returns, none of the forms of the word is a list or an object and all that are texts are known. add_word raises if and only if a form cannot be spelled (with that exception), a form is a list or an object (TypeError), or a word of the same part of speech was registered under the same key and Python cannot compare the forms of the two (TypeError): they are no lists or texts both, or the first items that differ are not both numbers, both texts or such lists; what was registered before stays. Two words may be such that either can be added but not both. Words whose forms are lists of texts are found as in any other dictionary.',
  'all sequences of words loaded from JSON documents, all texts', 'All histories and all shapes of forms.',
  [DI + ':Dictionary.add_word', DI + ':Dictionary.get_word', W + ':Word.deserialize', W + ':Word.all_forms', W + ':WordForm.get_form'])

c('A subject and its verb: what is recognised in a written word is kept',
  "README: in '[hero] [побежал|hero]' the time of the verb need not be given, because the properties of a word are recognised in its form. For a variable built from a word without properties and a dictionary word that fixes none of its own grammatical properties, '[subject] [word|subject]' can be parsed and gives the normal form of the subject, a space, and a form of the word in which every property is the one the subject's word has, else the one of the form in which the word is written, else the default; also the noun form and the verb form are those written, unless there is no such form (a countable singular, an imperative of the third person or of the first person singular). So a verb written in the indicative stays in the indicative and in the time in which it is written. Its number is the subject's only if the subject's word fixes one: a verb written in the plural stays so with an ordinary noun, whose singular is a default only.",
  'all dictionaries, subjects, words and texts they can be written with', 'All dictionaries and all words and forms.',
  [T + ':Template.parse', T + ':Template.substitute', T + ':Substitution.get_text', DI + ':Dictionary.get_word', W + ':WordForm.form'])

c('The sentence of the README, for all words and numbers',
  "README: '[Npc] [подарил|npc] [hero|дт] [coins] [монета|coins|вн].' gives 'Русалка подарила герою 125 монет.'. For all nouns as npc and hero (of which npc fixes its gender, and neither a case, number, noun form or letter size), all integers, all verbs recognised as a past singular and all nouns of the dictionary, and any two cases, such a template can be parsed and gives: the nominative singular of npc with a capital letter, the past of the verb in the gender of npc, the singular of hero in the case asked for, the number in decimal notation, the noun in the form that goes with this number in the case asked for (by its animality), and the dot. With the words of the README every number of coins is right.",
  'all words, integers, cases, dictionaries and names', 'All words, numbers and cases.',
  [T + ':Template.parse', T + ':Template.substitute', CO + ':construct_integer', DI + ':Dictionary.get_word', TR + ':_noun_integer', W + ':WordForm.form'])

c('Filling a template with words loaded from any JSON documents',
  'Variables and dictionary words may come from damaged documents, with forms that are no list of texts. Which form is taken does not depend on what the forms are, unless the word is a preposition that depends on a variable: it is the item at the position, and with the capital letter, that is taken for proper words of the same parts of speech and properties, and if those raise an exception that does not come from a form, the same is raised. A form that is no text is printed by %s where no capital is asked for, and raises where one is. A preposition that depends on a variable raises if the form of the variable has no first letter: TypeError for null, numbers and truth values, IndexError for an empty text or list, KeyError for an object; likewise for the last letter of its own text. If the form is a list that begins with something that is no letter, the variable acts through its properties only. The exception of the first variable without a form is the one raised, else the text is that of the template with the forms put in. If all the forms are lists of texts, texts and exceptions are those of the other properties.',
  'all words and externals loaded from JSON documents, all templates and dictionaries', 'All shapes of forms, all templates and all dictionaries.',
  [T + ':Template.substitute', T + ':Substitution.get_text', TR + ':transform', TR + ':_preposition_any', W + ':WordForm.get_form', W + ':Word.deserialize'])

c('Only the class of a number matters',
  'If a number among the externals is replaced by another of the same agreement class (and both or none of them is one), every template made of a text gives the same text with the other number where the first was printed, or raises the same exception: no other variable or word, a preposition that depends on the number included, changes its form. Numbers above four with the same two last digits are of the same class, but for a million and a billion; so are a number and its negative.',
  'all templates, externals, dictionaries and pairs of integers of one class', 'All numbers and all templates.',
  [T + ':Template.substitute', CO + ':construct_integer', TR + ':transform', TR + ':_preposition_any'])

c('What may be given to Properties',
  'Properties accepts None, records, and whatever has an attribute _data (another Properties, but also a Dictionary); anything else raises AttributeError. Records of relations that are no properties (PROPERTY_TYPE.CASE for CASE.GENITIVE, say) are accepted silently. They stay in the object and in all that is made of it. get, is_specified, the text of the properties, Word.form, WordForm.form and filled templates are exactly as if they had not been given. But an object that has one raises KeyError when it is saved or hashed, and makes saving of its word raise KeyError. add_word raises KeyError exactly at a form that is spelled as a registered one of a word of the same type and with the same forms (so possibly of the word itself), if one of the two words has such a record; otherwise it does what it does without. A word with such a record can be added to an empty dictionary exactly if no two of its forms are spelled alike, and can then not be added again; get_words raises KeyError while it is registered.',
  'all arguments, words, forms, dictionaries, externals and templates', 'All arguments and all dictionaries.',
  [W + ':Properties._update', W + ':Properties.serialize', W + ':Properties.manhattan_distance', DI + ':Dictionary.add_word', DI + ':Dictionary.get_words', T + ':Substitution.get_text'])

c('A word whose properties are None',
  'Word accepts None for properties and keeps it. Such a word has the forms that the same word with Properties() has, whatever is asked for; a dictionary takes it and knows the same texts for the same forms, with the same exceptions; and templates are filled alike, as long as an external made of it was given properties of its own. But it cannot be saved (AttributeError); it equals only words made with None, so get_words lists it beside the same word with Properties(); WordForm(word) without properties cannot be spelled, cannot be a variable that is mentioned by itself, and a preposition cannot depend on it (AttributeError).',
  'all words, properties asked for, dictionaries, externals and templates', 'All words, dictionaries and templates.',
  [W + ':Word', W + ':WordForm', DI + ':Dictionary.add_word', DI + ':Dictionary.get_words', T + ':Substitution.get_text', TR + ':_preposition_any'])

c('A preposition in front of a number',
  "In front of a number a preposition is what it is by itself, whichever number it is and however the number is read aloud: '[о|n] [n] [монета|n|пр]' gives 'о 11 монетах' (read 'об одиннадцати'). For every integer, every preposition and noun that the dictionary knows, and any case, such a template can be parsed and gives the preposition, the number in decimal notation, and the noun in the slot that goes with the number in that case.",
  'all integers, dictionaries, prepositions, nouns and cases', 'All integers and all words.',
  [TR + ':_preposition_any', TR + ':_noun_integer', CO + ':construct_integer', T + ':Template.parse', T + ':Template.substitute'])

c('A counted subject and its verb',
  "'[n] [npc|n|им] [подарил|npc|n]' gives '5 русалок подарили'. For every integer, every noun with a gender of its own and every verb recognised as a past, such a template can be parsed and gives the number in decimal notation, the noun in the nominative slot that goes with the number, and the past of the verb: plural, but singular in the gender of the noun if the number ends in one (not eleven), and also (unlike the grammar, which wants the plural) if it is above twenty and ends in two, three or four: '22 русалки подарила'.",
  'all integers, nouns, verbs and dictionaries', 'All integers and all words.',
  [TR + ':_adjective_integer', TR + ':_noun_integer', CO + ':construct_integer', T + ':Template.parse', T + ':Template.substitute'])

c('The adjective of a counted noun',
  "'[n] [новый|npc|n|вн] [npc|n|вн]' gives '5 новых русалок'. For every integer, case, noun with a gender and animality of its own and adjective recognised in a full form, such a template can be parsed, and the adjective is printed in the gender and animality of the noun and in a number and case that Russian admits (as the comments in the code quote the grammar) exactly unless (1) the number is above twenty, ends in two, three or four, and the case is nominative or accusative ('22 новой русалки'), or (2) the number is two, three or four, the case is accusative and the noun is feminine and animate ('2 новые русалок').",
  'all integers, cases, nouns, adjectives and dictionaries', 'All integers and all words.',
  [TR + ':_adjective_integer', TR + ':_noun_integer', CO + ':construct_integer', T + ':Template.parse', T + ':Template.substitute'])

c('A number is printed in the same digits',
  "Whatever a template says about a number ('[n|тв,мн]', '[N|герой]'), it prints its decimal notation, and only an external that is not given is missed; a number added to a dictionary can be written as it is ('[5]'). A number is no property, however: in '[монета|5]' it is refused with UnknownVerboseIdError unless a variable 5 is announced.",
  'all integers, templates, externals and dictionaries', 'All integers and all words.',
  [T + ':Substitution.get_text', T + ':Substitution.parse', CO + ':construct_integer', TR + ':transform', W + ':WordForm.get_form'])

c('A counted subject and its verb in the present or the future',
  "'[n] [npc|n|им] [идёт|npc|n]' gives '5 русалок идут'. For every integer, every noun with a gender of its own and every verb recognised as a present or a future, such a template can be parsed and gives the number in decimal notation, the noun in the nominative slot that goes with the number, and the verb in the time and person it is written in: plural, but singular if the number ends in one (not eleven), and also (unlike the grammar) if it is above twenty and ends in two, three or four: '22 русалки идёт'.",
  'all integers, nouns, verbs and dictionaries', 'All integers and all words.',
  [TR + ':_adjective_integer', TR + ':_noun_integer', CO + ':construct_integer', T + ':Template.parse', T + ':Template.substitute'])

c('Of several numbers only the last one counts',
  "If a variable names several numbers ('[монета|n|m]'), which number the earlier ones are does not matter: replacing an earlier one by the last one changes neither the text nor the exception, whatever the word and whatever else is said in between. An earlier number is not ignored, though: it does what naming the last one twice does, so '[монета|n|two]' gives 'монет' for every n, while '[монета|two]' gives 'монеты'.",
  'all integers, words, dependencies, externals and dictionaries', 'All integers and all variables.',
  [T + ':Substitution.get_text', TR + ':transform', TR + ':_noun_integer', TR + ':_adjective_integer', TR + ':_preposition_any', CO + ':construct_integer'])

c('Dictionaries can be merged',
  "A dictionary made of the words get_words() returns for several dictionaries, in any order and with any repetitions, knows a text exactly if one of them does. What it returns for a text has the rank (part of speech, forms of the word, number of non-default properties) of what one of them returns, and none of them returns anything better. So merging comes to the same as adding all words ever added to one dictionary, although get_words forgets the words that own no text.",
  'all families of dictionaries, all words, all orders of addition', 'All families of dictionaries and all histories.',
  [DI + ':Dictionary.add_word', DI + ':Dictionary.get_words', DI + ':Dictionary.get_word', DI + ':Dictionary.has_word'])

c('Words that a template misses can be supplied',
  "After words are added to a dictionary, get_undictionaried_words reports exactly those of the texts reported before, in the same order and as often, that the added words alone would not make known. If for every reported text a word with a form spelled so is added (no form being empty), nothing is reported any more and the template can be filled with any externals it was parsed for. Hence every template that can be parsed can be completed, whatever the dictionary: a word of type text for each reported text suffices, and it is printed where it was missing (with a capital letter if one is asked for), while every other variable prints what it printed before.",
  'all texts of templates, all dictionaries, all added words, all externals', 'All templates and all histories of additions.',
  [T + ':Template.get_undictionaried_words', T + ':Template.substitute', DI + ':Dictionary.add_word', DI + ':Dictionary.has_word'])
