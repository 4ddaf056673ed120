# Formal model of the-tale/utg in Lean 4 — design

## What is modelled, and how

`/repo` is a pure-Python library without I/O; it starts no threads, but keeps module-level and per-object state that threads share. The model mirrors it function by function; every definition of
`Verif/Model` and `Verif/Py` carries the file and lines it models, and says where it simplifies.

| module | models | technique |
|---|---|---|
| `Verif/Py/*` | the Python built-ins the code uses: insertion-ordered `dict`, `str` methods, `%`-formatting of strings, the one regular expression, IEEE binary64 `+`/`*` on small non-negative values, exceptions as values of `Except PyErr` | executable, structural recursion |
| `Verif/Model/Relations` | `utg/relations.py` | flat enumeration `Rec` of all records, `Group` of all relations, tables |
| `Verif/Model/Logic`, `Restrictions`, `Data` | `utg/logic.py`, `restrictions.py`, `data.py` | generators become lists |
| `Verif/Model/Words` | `utg/words.py` | `Properties` is an insertion-ordered dict; a mutation returns a new value |
| `Verif/Model/Dictionary`, `Lexicon`, `Constructors`, `Transformators`, `Templates`, `Lazy` | the modules of the same name (`Lazy`: `utils.py`) | state machines / functions |
| `Verif/Model/Objects` | words as shared mutable objects: the heap of words, their lazy attributes, the word forms a dictionary holds with their remembered texts | `step : Heap -> Op -> Heap`, theorems over all operation sequences; C77 says when the value model of `Dictionary` is the same |
| `Verif/Model/Aliasing` | the lists of forms that words, `serialize`, `deserialize`, `autofill_missed_forms` and the migrations share | lists have names; `Memory.step` |
| `Verif/Model/Threads` | `construct_integer`, `lazy_property`, `add_template`, `add_word` split into atomic steps | program counters; theorems over all schedules |
| `Verif/Model/Filling` | `Template.substitute` in steps beside `add_word` in steps | one look-up and text per step; theorems over all schedules |
| `Verif/Model/LexReads` | `get_random_template`, `get_random_nearest_template` in steps beside `add_template` in steps | one look at the dictionary or at an element of the list per step; theorems over all schedules |
| `Verif/Model/AnyExternals` | `Substitution.get_text`, `Template.substitute` with externals that are no word forms | values with or without the attributes `properties` and `word` |
| `Verif/Model/Tuples` | `Word.__eq__`, `serialize`, `autofill_missed_forms`, `Dictionary.add_word` for words whose forms are a tuple | words and entries with the kind of sequence |
| `Verif/Model/FillAdd` | `autofill_missed_forms` and `add_word` of the same word objects in several threads | atomic looks at and assignments to lists of forms and entries |
| `Verif/Model/NoneForms` | `words.py`, `dictionary.py`, `transform`, `get_text`, `substitute` for words some of whose forms are `None` | forms are optional strings; `None` where a string is needed raises |
| `Verif/Model/ParseThreads` | `parse`, `substitute`, `serialize`, `get_undictionaried_words` of one template in several threads | one step per look at, or change of, the list of substitutions or the text; the dictionary and externals are not changed |
| `Verif/Model/AnyJson` | `Word.deserialize`, `Template.deserialize`, `Substitution.deserialize`, `Properties.deserialize`, `Word.form` on anything made by `json.loads` | a float is given by the integer it equals, if any; `relation(value)` is a look into a dictionary (so `True`, `1.0` are 1, lists raise `TypeError`) |
| `Verif/Model/Numbers` | `construct_integer` of `bool`s, real numbers and what is no number | a float or `Fraction` is given by its `str` and its exact value (none for nan and the infinities); `Decimal` is not modelled (its comparisons and remainders may raise) |
| `Verif/Model/TestWords` | `create_test_word` with its loop over properties | the throws of the coin are a parameter |
| `Verif/Model/AnyWords` | `Word.number_of_syllables`, `has_fluent_vowel`, `autofill_missed_forms`, `WordForm.form` for forms that are any value from `json.loads` | `lazy_property` keeps no answer here; `VOWELS` is gone through in a fixed order |
| `Verif/Model/AnyTemplates` | `Template.substitute`, `Substitution.get_text`, `get_undictionaried_words` of templates read from any JSON | externals and dictionary as elsewhere |
| `Verif/Model/AnyFilling` | `Template.substitute`, `Substitution.get_text` and `transform` with words read from any JSON | the template is as `parse` makes it; `str` of a form that is no text is a parameter |
| `Verif/Model/AnyDictionary` | `Dictionary.add_word`, `has_word`, `get_word` with words read from any JSON; `==` and `<` of JSON values | `NaN` left out; how two numbers compare is a parameter; words are values |
| `Verif/Model/MixedProperties`, `MixedFilling` | `Properties`, `Word`, `WordForm`, `Dictionary`, `transform`, `get_text`, `substitute` with `Properties` that hold something that is no property | relations that are no properties, and texts, are numbers |
| `Verif/Model/NoneProperties` | `Word`, `WordForm`, `Dictionary`, `transform`, `get_text`, `substitute` for words whose properties are `None` | — |
| `Verif/Model/AnyMigrations` | the migrations that can be imported, on any value from `json.loads` | the sum of two numbers (m_0002 on damaged data) is a parameter; `list(x[6:])` of a dictionary raises `TypeError` (Python before 3.12) |
| `Verif/Model/Containers` | `parse` and `get_undictionaried_words` with strings and iterators as `externals` | the container is a state |
| `Verif/Model/Digits` | `construct_integer` and `Properties.deserialize` under CPython's limit on digits | the limit is a parameter |
| `Verif/Model/LexSets` | the restrictions of a lexicon as shared objects, sets or other collections | store of collections; `SetWorld.step`, theorems over all operation sequences |
| `Verif/Model/Queries` | `Dictionary.get_words`, `Template.get_undictionaried_words` in steps beside `add_word` in steps | one step of the dictionary iterator (which compares sizes) or one look per step; theorems over all schedules |
| `Verif/Model/AddWords` | whole calls of `Dictionary.add_word` in several threads | the generator of forms and `regStep` for each; theorems over all schedules |
| `Verif/Model/FillThreads` | calls of `Word.autofill_missed_forms` on one word in several threads | each look at and assignment to the list of forms is a step; theorems over all schedules |
| `Verif/Model/Rendering` | `substitute` on shared word and word form objects with their four lazy attributes | free monad of attribute accesses; machine with threads |
| `Verif/Model/World` | any number of words, dictionaries, templates, lexicons that refer to each other | state machine over all operations; words and dictionaries by `Model/Objects`, templates by `parseState` |
| `Verif/Model/Exceptions` | `utg/exceptions.py` and the arguments of every `raise` statement | `%(name)s` formatting as a scanner over the message text |
| `Verif/Model/PrettyPrint` | `logic.pretty_format_current_keys_cache`, with as much of `pprint.pformat` as it uses | names of records printed by `tools/gen_names.py`; line breaks by width; the order of the entries is a parameter |
| `Verif/Model/Migrations/*` | `utg/migrations/*` | tables generated from the source text by `tools/gen_migrations.py` |

`Verif/Spec/*` holds small independent specifications; `Verif/Proofs/*` helper lemmas; `Verif/Props/*` the property theorems with
their non-vacuity examples. `Verif/Conformance/*` translates the repository's own unit tests (all of them but those with `mock`,
those of an empty initial state and those that only repeat `random`) and lets the kernel evaluate the model on them: a test of the
model against what the authors say the code does, not a proof of a property. The README example is in `Props/Readme`.

Strings are `List Char` (`Str`). Unicode-dependent methods (`str.lower`, `str.upper` of one character,
`str.isupper` of one character, `str.isspace` per character) are a parameter `U : PyUni`; theorems hold for every `U`
unless a hypothesis is stated.

## Trusted base

* Lean's kernel. Every theorem of the manifest depends on at most the axioms `propext`, `Classical.choice`, `Quot.sound` (many on fewer); `AXIOMS.md`, generated by `tools/axioms.py`, lists them theorem by theorem.
  No own axioms, no compiled evaluation (`decide +kernel` is evaluated by the kernel).
* The reading of the Python source by hand (every definition cites file and lines), checked against the unit tests as said above.
* The reading of Python 3.7+ semantics (insertion-ordered dict, `%`-formatting, IEEE binary64 rounding, str methods).
* `rels` 0.3.0 (not in the sandbox): records are singletons compared by identity, `relation(value)` looks a record up by
  value, `index_value`/`index_relation` are the obvious indexes, `is_X` tests identity, `repr(record)` is `CLASS.NAME`.
* `random.choice` may return any element of the list it is given, and nothing else (an arbitrary draw, a parameter of the model); C115 also
  rests on its taking each index with the same chance.

## Not modelled

* `setup.py`, the tests as programs.
* `str(properties)`: `Properties.__str__` returns bytes, which Python 3 answers with `TypeError`; `__unicode__` is modelled (`toText`).
* Object identity except in `Constructors` (integer cache), `Objects` (words in a dictionary, their lazy attributes), `Aliasing` (lists
  of forms shared by words and data), `Threads`, `Rendering` and `World`. Memory, performance.
* Threads except in `Threads`, `AddWords`, `FillThreads`, `FillAdd`, `Filling`, `LexReads`, `Queries` and `ParseThreads`, where the atomic steps are those of CPython with a global lock: one look at, or one assignment to, a
  shared variable, attribute, dictionary entry or list.
* Arguments of the wrong type (a form that is neither a string nor `None`), except keys of serialized data (C13, C14), restrictions that are no sets (C134),
  `externals` of `parse` that are strings or iterators (C147), externals that are no word forms (C136), forms that are a tuple (C137), forms that are `None` (C140), serialized data of any JSON shape (C142, C143, C148, C149, C150, C151, C154)
  numbers that are no `int` (C144) arguments of `Properties` (C156) and words whose properties are `None` (C157).
* The limit on digits (4300) that newer CPython versions put on conversions between `int` and `str` is modelled for C146 only; elsewhere `str(number)` and `int(text)` know no limit.

## Where the code does not do what it seems to promise

Found while proving; each has a theorem with a witness, and the part that does hold is proved beside it.

| id | finding |
|---|---|
| C17 | equal `WordForm` objects can have different hashes (`form_properties` is hashed but not compared) |
| C39 | with composite numbers ending in two, three, four an adjective gets the genitive *singular* (двадцать два нового телефона); the comment above that branch speaks of nouns. C39 proves what the code does |
| C43 | a number in `[word\|number]` overrides the number the word itself fixes (plural-only nouns) |
| C52, C64 | `Template.parse` on a used template appends to the old substitutions; a failed parse leaves some behind, and the template unusable |
| C62 | `m_0003` and `m_0006` import names that no longer exist; `m_0001` gives all slots of an adjective one form, and fills the short forms of a participle with accusative, prepositional and future full forms |
| C63 | for keys of five and more properties, float rounding decides some exact ties for a later key |
| C65 | a blank after a comma in `[word\|вн, мн]` raises |
| C67 | `[w\|two\|two]` differs from `[w\|two]` |
| C68 | a variable built without properties does not replace the case recognised in the text |
| C85 | `WordForm.__eq__` ignores `form_properties`, but a preposition before the word form depends on them |
| C92 | `[variable]` is not the text of the variable's word form if it was built with `form_properties`: templates use the word and `properties` only (a heading in the dative becomes a nominative) |
| C126 | a preposition looks at the text of the variable as given, not at the case form that follows it: `[с\|герой] [герой\|тв]` with лев gives с львом |
| C128 | in `[новый\|ножницы\|ед] [ножницы\|ед]` the adjective becomes singular, the plural-only noun does not; `[новый\|ед\|ножницы]` agrees |
| C132 | a variable announced under a name with a capital letter can never be mentioned (`[Герой]` looks up герой); a variable named like the id of a property hides the property |
| C133 | `add_template` does not copy its restrictions: changing the set later changes when the template is used |
| C134 | a request with a list of restrictions works with `get_random_template` but raises `TypeError` in `get_random_nearest_template`; a template added with a list is accepted and makes every later request for its key raise `AttributeError` |
| C136 | a `Word` given to `substitute` in place of a `WordForm` raises `AttributeError`, and only when a variable mentions it |
| C137 | a word whose forms are a tuple is accepted, but a dictionary that has a word with a list under the same text raises `TypeError`, gaps cannot be filled, and the word is not equal to itself read back from JSON |
| C139 | a word with fixed number that is added before (or while) its gaps are filled from other slots gets texts that the dictionary never learns |
| C140 | A missing form given as `None` is printed as the word "None" by `substitute`, and two words with `None` in different places may make `add_word` raise `TypeError`, unless `autofill_missed_forms` was called. |
| C141 | Two texts parsed with one template: a `substitute` that began in between may put the words of the first text in the second. |
| C142, C143 | `Word.deserialize` accepts a text or an object with the right length as the forms; `Substitution.deserialize` reads a text given for the list of dependencies letter by letter. |
| C144 | `construct_integer(5.0)` raises TypeError, `construct_integer(-5.0)` and `construct_integer(20000.5)` do not; of the fractions only those with a whole part ending in 2 or 3 (not 4) get the dual agreement. |
| C78 | The loop of `create_test_word` that should set required properties never does: `type.properties` is keyed by relations, the loop asks for records of `PROPERTY_TYPE`; so `only_required` has no effect. |
| C148 | `m_0002` raises `KeyError` for every noun with patches whose data were read from JSON: it looks for the key `7`, and the keys of a JSON object are texts |
| C151 | a word loaded with a number among its forms can be added, but then a word of the same part of speech with the same text may raise `TypeError` in `add_word` |
| C152 | `[hero] [побежали\|hero]` with an ordinary noun gives a verb in the plural: the singular of the subject is only a default, and the number recognised in the written verb stays |
| C156 | A record that is no property (`r.PROPERTY_TYPE.CASE`) is accepted by `Properties` and spelled correctly, but its word cannot be saved, and `add_word` raises `KeyError` if two of the word's own forms are spelled alike. |
| C157 | `Word(type, forms, None)` is accepted and spelled like a word with `Properties()`, but cannot be saved (`C157_save`), differs from it for `==` (`C157_equal`), and `WordForm(word)` of it cannot be used (`C157_named`, `C157_preposition`) |
| C158 | «о 11 монетах», «с 100 монетами»: the preposition is chosen for the digits, not for how the number is read (`C158_coins`) |
| C159 | «22 русалки подарила»: numbers above twenty that end in two, three or four put the past of a verb in the singular, because verbs share the rule of adjectives (`C159_mermaids`); likewise «22 русалки идёт» (`C162_mermaids`) |
| C160 | «2 новые русалок» (animate feminine noun in the accusative) and «22 новой русалки»: the adjective of a counted noun (`C160_mermaids`); these are the only slips (`C160_phrase`) |
| C70 | `m_0007` gives the comparative of adjectives the old short plural form |
| C71 | `m_0007` takes every full form of a participle from the reverse voice |
| C74 | a form with capital letters is known to the dictionary but cannot be used in a template |
| C75 | `number_of_syllables` read while the first form is empty goes stale after `autofill_missed_forms` |
| C77 | a dictionary keeps giving the form a word had when it was added, also after the word was changed |
| C94 | `serialize` hands out the word's own list of forms: filling the word later changes the data, words loaded from one object share a list, and migrating data in memory (`m_0004`) breaks the word they came from |
| C96 | two overlapping first calls of `construct_integer` can leave different objects for the same number |
| C97 | a read (or deletion) of a lazy attribute racing with a deletion raises `AttributeError` |
| C98 | two overlapping first calls of `add_template` for a key can lose a template |
| C99 | overlapping registrations under one text can leave the worse word form |
| C109 | while the first template of a key is being added, a request may raise `NoTemplatesWithSpecifiedRestrictions` although the key has no templates yet |
| C108 | one call of `substitute` may use two word forms for one text, if a better one is registered meanwhile |
| C118 | two overlapping calls of `autofill_missed_forms` on one word can give the oblique plural the text of the singular (книга for книги): the second takes what the first just filled in for forms of the word |
| C119 | repeating m_0008 (say after a crash) silently moves the forms of adjectives and participles once more |
| C120 | repeating an interrupted `autofill_missed_forms` can fill other forms than one uninterrupted call; an interrupted first `add_template` can leave a key without templates |
| C100 | after a word was changed, a preposition before a variable built earlier goes on agreeing with the old text (во доме), because `form` and `starts_with_consonant_cluster` are kept |
| C61 | `m_0005` ignores data in memory whose keys are integers (it looks for the string `'5'`) |
| C114 | `get_words` raises `RuntimeError` if another thread registers a new text while it runs |
| C116 | two threads adding words that share a spelling can leave the form that loses in both orders |

## Plan per property

| id | model and proof |
|---|---|
| C01-C07 | induction over the key generators for every schema/restriction table; concrete fallbacks by kernel evaluation of the two finite tables that have excluded combinations |
| C08, C15, C16 | direct, over all form lists |
| C09 | from C02 with the slot's own key |
| C10-C14 | induction over argument lists / dict items; code uniqueness by case analysis over the finite record table |
| C17 | negation by witness, `_partial` for word forms without separate form properties |
| C18, C19 | direct |
| C20-C22 | invariant of the in-place loop |
| C23, C24 | fold invariant; finite table of match sets (8 positions) by kernel evaluation |
| C25-C30 | refinement: dictionary state = first minimum of the list of all candidate forms; corollaries |
| C31-C34 | refinement to the list of additions |
| C35, C37 | arithmetic over all integers |
| C36 | invariant over call histories with object identities |
| C38-C40 | case analysis over record table, for every `Properties` |
| C41 | composition of C35, C38, C02 |
| C42 | direct |
| C43 | negation by witness, `_partial` |
| C44, C45 | correctness of repeated first-occurrence replacement against a one-pass tokenizer |
| C46-C51 | direct, induction over dependency/substitution lists |
| C52 | negation by witness, `_partial` for a fresh template |
| C53 | split/join lemma + uniqueness of ids by kernel evaluation of the id table |
| C54 | state machine over all operation sequences |
| C55-C57 | induction over strings |
| C58-C62 | the tables are finite: kernel evaluation of the index map, lifted to all form lists |
| C63 | counterexample by evaluation; for up to four positions every pair of match sets by kernel evaluation |
| C64 | direct, over all earlier contents |
| C65-C68 | exact description of `get_text` (collected properties, then one agreement step per variable), then case analysis |
| C69 | equality of properties is equality of reads; congruence through every function |
| C70, C71 | kernel evaluation of the index table, lifted to all form lists |
| C72 | pieces of a concatenation; uniqueness of pieces (C45) |
| C73, C74 | the recognised properties determine the slot (C02, C27), composed with C46 and C72 |
| C75, C77 | invariants over all sequences of operations on the heap; refinement to the value model |
| C76 | C27, C28, C30 |
| C78 | join/split lemma, uniqueness of ids and of slots; the loop over properties asks for records among keys that are relations, so it does nothing |
| C79 | correctness of the formatting scanner, then each raise site |
| C80 | C47 for one variable, then the slot theorem C02 |
| C81 | induction over the history of `parse` calls: substitutions accumulate, the text is that of the last success; `%` with too many arguments fails |
| C82 | C32/C33 for the draw, C50 for the chosen template; saving: C15, C51 through JSON, then C85 |
| C83 | C49 and C26 for the check; C27 for lookups (first best of a longer candidate list) |
| C84 | C20, C21 for the forms, then the offered texts of the word slot by slot |
| C85 | a substitution depends on word forms only through type, forms, properties and (prepositions) the spelling; dictionaries: relation kept by every registration |
| C86 | `Spec/Reference.lean` is an independent interpreter (readings `Group → Option Rec`, positions in the documented list of forms, demands of numbers and texts, best entry); every part of the model is proved equal to it: `slotOf_spec` for the caches, `transform_demand` for one step of agreement, induction over dependencies, `C86_dictionary`, then whole texts |
| C87 | through C86: `initialReading` of `[word|n|case]`, one `demand`, equality of readings; nouns also down to the slot of `nounSlots` |
| C88 | through C86: agreement is settled after the second step (finite check over modes, classes, cases, animality), induction over the repetitions |
| C89 | C46 for the parse, C25/C26/C73 for the known text, else the lookup error |
| C90 | C12 and C16 on the two components of the hash |
| C91 | through C86: two readings that agree on everything except the kind of number (and, before the first agreement, the number) stay so in every step; the slot does not look at the kind of number |
| C92 | through C86 with no dependencies; the false half by a concrete word form |
| C93 | C92 and C02 |
| C94, C95 | `Model/Aliasing.lean`: lists of forms have names, words and data refer to them; invariants over all histories; refinement to plain values for careful use; concrete histories for the false parts; `Props/CallerLists.lean`: the list a word was made from |
| C96 | `Model/Threads.lean`: one step per look at or assignment to the shared variable; invariant over all schedules; rank for progress; concrete schedule for two objects |
| C97 | invariant over all schedules of reads and mutations; concrete schedules with deletions |
| C98 | invariant over all schedules (the list of a known key is never replaced); concrete schedule for the lost template |
| C99 | invariant over all schedules; for the best form also transitivity of the ranking; concrete schedule for the worse form |
| C100, C101 | `Model/Rendering.lean`: `substitute` as a program of single reads and writes of lazy attributes; `Sound` (what a program gives if stored attributes are right) for each function of the code, then an invariant over all schedules; for C101 programs that read no lazy attribute |
| C102 | `Model/World.lean`; projections of a history to one object (`Spec/World.lean`), one invariant per kind of object by induction over the history; so C77, C81, C31-C34 hold for each of many objects |
| C103 | C102 with C33, C77, C81; a check survives because known texts stay known (C77) and C50 needs only a good dictionary; `C103_reparsed` shows that a template parsed again spoils what the lexicon serves |
| C104 | C46 is exhaustive, and no property id has a blank |
| C105 | By C86 the text of a variable is the form of its reading; a reading that fits a combination of the table has no stand-in, and the combination is unique (`Props/Expressive.lean`, `Spec/Expressive.lean`) |
| C106 | exact version of C98: invariants over all schedules: every list of templates belongs to a key, and together the lists of a key hold the templates of its finished calls; the current list is not empty or a call is on its way to it (`Props/LexThreads.lean`) |
| C107 | exact version of C99: invariant over all schedules: the entry, and everything about to be written, is at least as good as the settled entry |
| C108 | `Model/Filling.lean`: `substitute` split into one step per variable, interleaved with the steps of `add_word`; invariant: the texts collected are those of the variables so far in dictionaries at increasing positions of the schedule; concrete schedule for a text no single dictionary gives |
| C109 | `Model/LexReads.lean`: a request to a lexicon split into its looks at the dictionary and at the elements of the list, interleaved with the steps of `add_template`; invariant: what is seen is a prefix of a list of the key, at the end all of it; lists only grow, and hold templates of finished calls (C106) |
| C110 | induction over the new table for arbitrary tables; C23, C24 for the nearest old slot; applied to the functions of m_0003 and m_0006 with any table in place of the one that cannot be evaluated |
| C111 | exact version of C70 and C71 for all word types through m_0007, m_0008, m_0009 and loading: composition of the three plans (kernel computation on the frozen tables), `stored` of each stage, C02 for the spelling |
| C112 | C03 for the slots; invariant of the second loop of `_get_raw_cache`: entries stay, a new one repeats the entry of the key the search chose, which by C24 agrees best among all that were there |
| C113 | By C86 the text is that of the reading, which (prepositions aside) depends on the properties and types of the words only (`Spec/Grammar.lean`, `Props/Grammar.lean`); numbers by C55 |
| C114 | `Model/Queries.lean`: a request split into its looks at the dictionary, interleaved with the steps of `add_word`; invariant: what was seen at each position is the entry there at some moment of the call, and texts are only added at the end; the step of the iterator that finds another size raises |
| C115 | the list given to `random.choice` is computed for a lexicon of any history (`C31`, `getNearestTemplates_eq`); draws `0 … n-1` hit each entry once; counting draws with a given template |
| C116 | `Model/AddWords.lean`: whole loops of `add_word` interleaved step by step; invariant for the call that owns a text: finishing it now without interruption would give the text the form that the call alone gives it; counter-schedule for shared spellings |
| C117 | `Py/Str.lean`: `%`-formatting of a tuple of strings as CPython does it, a machine over the characters; `Spec/Format.lean`: the documented grammar as a relation; both directions by the stages of a conversion |
| C118 | `Model/FillThreads.lean`: the looks at and assignments to the shared list of forms one by one; invariant: collected keys belong to slots that are filled now, the slots below the loop are filled; with the assumption that all look first: each slot is the old or the final form. Schedules of two calls that break the unrestricted claim |
| C119 | `Spec/Rerun.lean`: a run over a store, interrupted after any number of words and repeated; from the plans of the migrations (which old index each slot is taken from): the second plan is the identity or points beyond the new list; for m_0008 it is another permutation |
| C120 | `Spec/Interrupted.lean`: a call cut off after any number of the steps of `Model/AddWords.lean` and `Model/Threads.lean`; the dictionary then is the old one with a prefix of the word's forms registered, and registering a prefix once more changes nothing (`Better` is a strict weak order); for `add_template` by the four steps |
| C121 | `Spec/Writing.lean`: two texts variable by variable, names renamed; the parsed substitutions correspond, and so do their lookups in the two casts |
| C122 | `Spec/Writing.lean`: what a variable mentions, one after another; the meaning of a reference (C86) depends on the last mention of each property and the externals in order only |
| C123 | `Spec/PythonTable.lean`: a grammar of nested dictionary displays over the names of `utg/relations.py`; what `pprint` prints belongs to it whatever the order of the entries and the line breaks, and a text has one reading at most |
| C124 | `Spec/SameData.lean`: Python's `==` on saved data; the codes of groups and, within a group, the values of records are different |
| C125 | `Spec/Phrase.lean`: the text of the phrase and the reading of the modifier; parsing by C46, the noun by C41, the modifier by the reference semantics (C86) with the demands of the noun (none) and of the number (C39) |
| C126 | `Spec/Phrase.lean` (`GoesWith`); negation by witness (с львом), `_partial` if the text keeps its first two letters |
| C127 | `[prep\|x] [x\|case]` by the reference semantics (C86), C42 and C93 |
| C128 | `Spec/Phrase.lean` (`common`): both readings by the reference semantics (C86); the order of dependencies matters, by witness |
| C129 | `Props/Capital.lean`: the capital letter is a last dependency (parsing); in the reference semantics (C86) letter case is independent of every transformator and of the layout |
| C130 | `Spec/Plain.lean` (`plain`): the reference semantics (C86) for a word of type text, and C44 for whole templates |
| C131 | `Spec/Failures.lean` (`NoLetter`, `NoCapital`, `Fillable`): outcome of each demand of the reference semantics (C86), C49 for missing words and externals |
| C132 | `Spec/Mention.lean` (`HasCapital`, `RefersTo`): what a substitution can refer to (parsing), C48 for the influence, `parse_written` for names that can be mentioned |
| C133 | `Model/LexSets.lean`: restrictions as objects in a store; induction on histories, reduction to the value model (C31-C33) |
| C134 | the same model with lists and tuples; each loop by induction on the entries of the key |
| C135 | `Spec/Upgrade.lean` (`upgraded`): C111 for the forms, C105 for the text, C09 and C26 for the dictionary |
| C136 | `Model/AnyExternals.lean`: `get_text` with values that are forms, words or other objects; induction on dependencies, reduction to `getText` if forms are mentioned only |
| C137 | `Model/Tuples.lean`: words with the kind of their sequence, `add_word` with the comparison that raises; induction on the forms, reduction to the model with lists |
| C138 | `Spec/Announce.lean` (`Asks`, `Reinterpreted`): the unique decomposition of C45 and C46, then congruence of `parse` in the membership test |
| C139 | `Model/FillAdd.lean`: word objects, dictionary, calls of `autofill_missed_forms` (the steps of C118) and of `add_word` with one step per look at the shared lists; invariants over schedules with the history of the words |
| C140 | `Model/NoneForms.lean`: the functions of words, dictionaries, transformators and `get_text` with optional forms; a relation between outcomes with `None` and with `''` (`Spec/NoneForms.lean`: `Alike`) is carried through every step |
| C141 | `Model/ParseThreads.lean`: a template with calls of `parse` and of its readers as program counters; invariant: the substitutions are the first of the final ones, the text is missing until the end, each reader has read the first of them; a text with too few words raises `TypeError` |
| C142 | `Model/AnyJson.lean`: JSON values as an inductive type and Python's subscript, `len`, iteration and dictionary look-up on them; every branch of `deserialize` is matched with a fault of the document (`Spec/AnyJson.lean`) |
| C143 | the same for templates, substitutions and dependencies |
| C144 | `Model/Numbers.lean`: the chain of tests over rationals; `⌊y/m⌋ = ⌊y⌋/m` gives the remainders of a fraction; the invariant of the cache of C36 carries over to histories with failures |
| C145 | `int(text)` is modelled with its white space, underscores and Unicode digits (`Py/Str.lean`; the tables are those of Python 3.11, Unicode 14); the scanner is matched with a grammar (`Spec/ReadInt.lean`) in both directions |
| C146 | `Model/Digits.lean`: `construct_integer` and `Properties.deserialize` over `str` and `int` that fail beyond a limit; `natDigits n` has at most `k` digits iff `n < 10^k`; the cache is never filled with a number too long, so a failed call changes nothing and the history splits |
| C147 | `Model/Containers.lean`: parsing with a container that changes when it is asked; for collections and strings the answers are those of a list (`Holds`), so parsing is the one of C45, C46; for iterators the answers to a sequence of questions are characterised by subsequences (`FoundInOrder`), and parsing by the variables read in turn |
| C148 | `Model/AnyMigrations.lean`: the migrations over the type of JSON values of C142, as functions that give the document as left behind and the outcome; the loop over the new table equals reading the plan of positions (`plan7`, `plan8`, `plan9` of C58–C60) from the old forms, the length needed is computed from the plan; m_0001, m_0002, m_0004, m_0005 by cases against a relational specification; `Props/MigrationFaults.lean`: for each migration a relation between documents and exceptions (`Spec/MigrationFaults.lean`), equivalent to raising that exception |
| C149 | `Model/AnyWords.lean`: the members of `Word` that look at forms, over forms of any JSON value; vowels and blanks against a relational specification (`Missing`, `HasVowels`, `Breaks`); filling by simulation: the list of anything is related to a list of texts that mark positions, for which C20, C22 are proved |
| C150 | `Model/AnyTemplates.lean`: `substitute` and `get_undictionaried_words` over loaded templates (C143); a loaded template is related to a proper one (`AsTemplate`) or has a first fault (`BadId`) |
| C151 | `Model/AnyDictionary.lean`: `add_word` with keys of any kind and the comparison of lists of anything; invariants of the entries over all histories; for lists of texts a simulation by the dictionary of C25–C31 |
| C152 | `Spec/Subject.lean`: the properties a word in `[subject] [word\|subject]` should have; the form recognised in the written word is a slot (C09, C25), the reading of the substitution (C127) then chooses the slot printed |
| C153 | `Spec/Sentence.lean`: the template; composed of C129 (the capital), C93 (a variable in a case), C37 and C41 (the number and the counted noun) and the reading of a verb; instantiated with the words of the README for every number |
| C154 | `Model/AnyFilling.lean`: `substitute` over words with forms of any shape; which slot is chosen is shown to be independent of the forms by comparing with proper words of the same type and properties; for lists of texts a simulation by the model of C45–C50; `Props/OddLetters.lean`: a list that begins with no letter acts through its properties only |
| C155 | `Spec/Classes.lean`: two externals that differ in one number; the text of a number begins with no letter, so no preposition looks at it, and the other rules look at its properties only; lifted to texts through C45 |
| C156 | `Model/MixedProperties`, `Model/MixedFilling`: `Properties` whose `_data` may have other keys than properties. `knownPart` forgets them; `set` and `update` commute with it, hence the constructor, `get`, forms, `transform` and `get_text` do; `serialize` and `manhattan_distance` raise `KeyError` exactly if there is such a key; `add_word` by induction on the forms. |
| C157 | `Model/NoneProperties`, `Spec/NoneProperties`: `proper` replaces `None` by `Properties()`; the constructor of `Properties` skips `None`, so forms, `add_word`, `transform` and `get_text` commute with it where no method of `None` is called (forms of a dictionary always have properties); where one is, `AttributeError`. |
| C158 | `Spec/NumberPhrase`: the text of a number begins with no letter, so the rules of C42 demand nothing; then like C125 and C127. |
| C159 | `Spec/CountedSubject`: the reading of C86 after the noun (gender) and the number (number, by C35 and the rule of C39), then the slot of C02; texts as in C125. |
| C160 | `Spec/CountedAdjective`: the table of admitted numbers and cases, written from the grammar; C125 gives the form printed, every class × case × gender × animality is compared with the table. |
| C161 | `Spec/PlainNumber` (what Unicode says about digits is a hypothesis, met by the example tables): the reading of C86 does not matter for a word with one form that takes no agreement; no id of a property consists of digits. |
| C162 | `Spec/CountedPresent`: as C159, with the person the verb is written in. |
| C163 | In the reference semantics of C86: two numbers specify the same groups, so the last one hides the values of the others, and what a number demands depends on the reading only. |
| C164 | As C76 for a family of dictionaries: what a dictionary finds is offered, up to its rank, by one of the words it returns (C30); least candidates (C27) of the union are least among the least ones. |
| C165 | The texts reported (C49) are filtered by what the dictionary knows; a dictionary of two lists of words knows what one of them makes known (C26); filling by C50. |
