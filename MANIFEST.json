{
 "claims": [
  {
   "property": "C01",
   "status": "proved",
   "theorems": [
    "Utg.C01_form_total"
   ],
   "note": "Asking a word for a form always succeeds"
  },
  {
   "property": "C02",
   "status": "proved",
   "theorems": [
    "Utg.C02_documented_layout",
    "Utg.C02_form_for_combination",
    "Utg.C02_presets",
    "Utg.C02_form_in_slot",
    "Utg.C02_documented_slots"
   ],
   "note": "A requested combination selects the slot documented for it"
  },
  {
   "property": "C03",
   "status": "proved",
   "theorems": [
    "Utg.C03_pattern_unique",
    "Utg.C03_slots_disjoint",
    "Utg.C03_slots_are_patterns",
    "Utg.C03_slot_iff"
   ],
   "note": "Slots never overlap and only explicitly excluded combinations have none"
  },
  {
   "property": "C04",
   "status": "proved",
   "theorems": [
    "Utg.C04_outside_schema_irrelevant"
   ],
   "note": "Properties outside a word type's schema never influence its form"
  },
  {
   "property": "C05",
   "status": "proved",
   "theorems": [
    "Utg.C05_own_properties_win"
   ],
   "note": "A word's own properties override what is requested"
  },
  {
   "property": "C06",
   "status": "proved",
   "theorems": [
    "Utg.C06_countable_singular",
    "Utg.C06_missing_imperative"
   ],
   "note": "Excluded combinations fall back to a fixed slot"
  },
  {
   "property": "C07",
   "status": "proved",
   "theorems": [
    "Utg.C07_slot_bijection"
   ],
   "note": "Slot numbering is a bijection"
  },
  {
   "property": "C08",
   "status": "proved",
   "theorems": [
    "Utg.C08_constructor"
   ],
   "note": "The constructor accepts exactly the right number of forms"
  },
  {
   "property": "C09",
   "status": "proved",
   "theorems": [
    "Utg.C09_spoken",
    "Utg.C09_permitted",
    "Utg.C09_all_forms",
    "Utg.C09_spells_slot"
   ],
   "note": "all_forms enumerates the forms in slot order"
  },
  {
   "property": "C10",
   "status": "proved",
   "theorems": [
    "Utg.C10_last_specification_wins",
    "Utg.C10_default",
    "Utg.C10_none_ignored"
   ],
   "note": "The last specification of a property wins"
  },
  {
   "property": "C11",
   "status": "proved",
   "theorems": [
    "Utg.C11_clone_reads",
    "Utg.C11_clone_assoc",
    "Utg.C11_clone_idem",
    "Utg.C11_clone_empty",
    "Utg.C11_clone_many"
   ],
   "note": "clone is a right-biased merge"
  },
  {
   "property": "C12",
   "status": "proved",
   "theorems": [
    "Utg.C12_eq_iff",
    "Utg.C12_eq_equivalence",
    "Utg.C12_hash_counts",
    "Utg.C12_hash_of_eq"
   ],
   "note": "Equality of Properties ignores construction order and agrees with hash"
  },
  {
   "property": "C13",
   "status": "proved",
   "theorems": [
    "Utg.C13_roundtrip",
    "Utg.C13_roundtrip_exact"
   ],
   "note": "Properties survive serialization, also through JSON"
  },
  {
   "property": "C14",
   "status": "proved",
   "theorems": [
    "Utg.C14_deserialize_known",
    "Utg.C14_deserialize_error"
   ],
   "note": "Deserialization ignores codes it does not know"
  },
  {
   "property": "C15",
   "status": "proved",
   "theorems": [
    "Utg.C15_roundtrip",
    "Utg.C15_roundtrip_json",
    "Utg.C15_deserialize_outcome"
   ],
   "note": "Words survive serialization"
  },
  {
   "property": "C16",
   "status": "proved",
   "theorems": [
    "Utg.C16_eq_equivalence",
    "Utg.C16_eq_iff",
    "Utg.C16_hash_of_eq"
   ],
   "note": "Word equality agrees with hash"
  },
  {
   "property": "C17",
   "status": "partial",
   "theorems": [
    "Utg.C17_hash_of_eq_partial",
    "Utg.C17_violated"
   ],
   "note": "False of the code as stated (C17_violated: equal WordForms with different hashes when form_properties is given). C17_hash_of_eq_partial proves it for word forms built without form_properties."
  },
  {
   "property": "C18",
   "status": "proved",
   "theorems": [
    "Utg.C18_normal_form",
    "Utg.C18_normal_form_first"
   ],
   "note": "The normal form honours the word's own properties"
  },
  {
   "property": "C19",
   "status": "proved",
   "theorems": [
    "Utg.C19_upper_case",
    "Utg.C19_word_form"
   ],
   "note": "Upper-casing touches only the first letter"
  },
  {
   "property": "C20",
   "status": "proved",
   "theorems": [
    "Utg.C20_keeps_present"
   ],
   "note": "Autofill never touches a form that is present"
  },
  {
   "property": "C21",
   "status": "proved",
   "theorems": [
    "Utg.C21_completes",
    "Utg.C21_idempotent"
   ],
   "note": "Autofill completes a word that has at least one form"
  },
  {
   "property": "C22",
   "status": "proved",
   "theorems": [
    "Utg.C22_nearest_present"
   ],
   "note": "Autofill takes the nearest present slot"
  },
  {
   "property": "C23",
   "status": "proved",
   "theorems": [
    "Utg.C23_argmax",
    "Utg.C23_available_key"
   ],
   "note": "Nearest-key search is an argmax"
  },
  {
   "property": "C24",
   "status": "proved",
   "theorems": [
    "Utg.C24_rounding_keeps_order",
    "Utg.C24_more_matches_win"
   ],
   "note": "Float rounding never reverses the similarity order"
  },
  {
   "property": "C25",
   "status": "proved",
   "theorems": [
    "Utg.C25_lookup_sound"
   ],
   "note": "A lookup returns a form spelled as asked"
  },
  {
   "property": "C26",
   "status": "proved",
   "theorems": [
    "Utg.C26_known_texts",
    "Utg.C26_offered_all",
    "Utg.C26_spellable",
    "Utg.C26_texts_are_forms"
   ],
   "note": "has_word, get_word and the added words agree"
  },
  {
   "property": "C27",
   "status": "proved",
   "theorems": [
    "Utg.C27_first_best",
    "Utg.C27_minimal"
   ],
   "note": "The registered form is the least candidate"
  },
  {
   "property": "C28",
   "status": "proved",
   "theorems": [
    "Utg.C28_order_independence"
   ],
   "note": "Order of addition matters only on complete ties"
  },
  {
   "property": "C29",
   "status": "proved",
   "theorems": [
    "Utg.C29_monotone",
    "Utg.C29_readd",
    "Utg.C29_constructor"
   ],
   "note": "Adding words never loses texts and re-adding is harmless"
  },
  {
   "property": "C30",
   "status": "proved",
   "theorems": [
    "Utg.C30_get_words"
   ],
   "note": "get_words returns exactly the words that own some text"
  },
  {
   "property": "C31",
   "status": "proved",
   "theorems": [
    "Utg.C31_get_templates",
    "Utg.C31_unknown_key",
    "Utg.C31_monotone"
   ],
   "note": "get_templates filters by restrictions"
  },
  {
   "property": "C32",
   "status": "proved",
   "theorems": [
    "Utg.C32_random_template"
   ],
   "note": "get_random_template is sound and complete"
  },
  {
   "property": "C33",
   "status": "proved",
   "theorems": [
    "Utg.C33_nearest_template",
    "Utg.C33_same_errors"
   ],
   "note": "get_random_nearest_template returns a most specific applicable template"
  },
  {
   "property": "C34",
   "status": "proved",
   "theorems": [
    "Utg.C34_add_template",
    "Utg.C34_has_key"
   ],
   "note": "Adding a template affects only its key"
  },
  {
   "property": "C35",
   "status": "proved",
   "theorems": [
    "Utg.C35_agreement_class"
   ],
   "note": "Every integer gets the right agreement class"
  },
  {
   "property": "C36",
   "status": "proved",
   "theorems": [
    "Utg.C36_cache_transparent"
   ],
   "note": "The integer cache is transparent"
  },
  {
   "property": "C37",
   "status": "proved",
   "theorems": [
    "Utg.C37_decimal_text",
    "Utg.C37_injective",
    "Utg.C37_form"
   ],
   "note": "The text of an integer is its decimal notation"
  },
  {
   "property": "C38",
   "status": "proved",
   "theorems": [
    "Utg.C38_noun_agreement",
    "Utg.C38_never_fails"
   ],
   "note": "Agreement with a number never fails and follows the grammar (nouns, pronouns)"
  },
  {
   "property": "C39",
   "status": "proved",
   "theorems": [
    "Utg.C39_adjective_agreement",
    "Utg.C39_never_fails"
   ],
   "note": "Agreement with a number never fails and follows the grammar (adjectives, verbs, participles)"
  },
  {
   "property": "C40",
   "status": "proved",
   "theorems": [
    "Utg.C40_number_frame",
    "Utg.C40_preposition_frame",
    "Utg.C40_other_pairs"
   ],
   "note": "A transformation changes nothing else"
  },
  {
   "property": "C41",
   "status": "proved",
   "theorems": [
    "Utg.C41_counted_noun",
    "Utg.C41_semantic_mode"
   ],
   "note": "A counted noun is spelled in the right slot for every number"
  },
  {
   "property": "C42",
   "status": "proved",
   "theorems": [
    "Utg.C42_preposition",
    "Utg.C42_empty_texts"
   ],
   "note": "A preposition takes the right variant"
  },
  {
   "property": "C43",
   "status": "partial",
   "theorems": [
    "Utg.C43_violated",
    "Utg.C43_frame_partial",
    "Utg.C43_no_agreement_partial"
   ],
   "note": "False of the code as stated (C43_violated: a number overrides the fixed number of a plural-only noun). C43_frame_partial proves it for all properties but noun form, number, case and preposition form; C43_no_agreement_partial proves it for all properties when no agreement applies."
  },
  {
   "property": "C44",
   "status": "proved",
   "theorems": [
    "Utg.C44_literal_text",
    "Utg.C44_first_error",
    "Utg.C44_no_variables"
   ],
   "note": "Literal text is reproduced verbatim"
  },
  {
   "property": "C45",
   "status": "proved",
   "theorems": [
    "Utg.C45_pieces_unique",
    "Utg.C45_parse",
    "Utg.C45_parse_error"
   ],
   "note": "Parsing finds exactly the bracketed variables"
  },
  {
   "property": "C46",
   "status": "proved",
   "theorems": [
    "Utg.C46_parse",
    "Utg.C46_empty_id",
    "Utg.C46_blank_id",
    "Utg.C46_unknown_id",
    "Utg.C46_unique",
    "Utg.C46_exhaustive"
   ],
   "note": "A substitution is parsed as documented"
  },
  {
   "property": "C47",
   "status": "proved",
   "theorems": [
    "Utg.C47_precedence",
    "Utg.C47_determined"
   ],
   "note": "Later specifications override earlier ones in a substitution"
  },
  {
   "property": "C48",
   "status": "proved",
   "theorems": [
    "Utg.C48_external_shadows",
    "Utg.C48_dictionary_entry",
    "Utg.C48_irrelevant_externals",
    "Utg.C48_template"
   ],
   "note": "Externals shadow the dictionary"
  },
  {
   "property": "C49",
   "status": "proved",
   "theorems": [
    "Utg.C49_exact",
    "Utg.C49_errors",
    "Utg.C49_empty_iff"
   ],
   "note": "get_undictionaried_words is exact"
  },
  {
   "property": "C50",
   "status": "proved",
   "theorems": [
    "Utg.C50_substitution",
    "Utg.C50_checked_template"
   ],
   "note": "A checked template substitutes without error"
  },
  {
   "property": "C51",
   "status": "proved",
   "theorems": [
    "Utg.C51_roundtrip",
    "Utg.C51_parsed",
    "Utg.C51_json"
   ],
   "note": "Templates survive serialization"
  },
  {
   "property": "C52",
   "status": "partial",
   "theorems": [
    "Utg.C52_fresh_partial",
    "Utg.C52_violated"
   ],
   "note": "False of the code as stated (C52_violated: substitutions of an earlier parse stay). C52_fresh_partial proves it for a fresh template object; C64 says what remains otherwise. C81 says exactly when a reused object works."
  },
  {
   "property": "C53",
   "status": "proved",
   "theorems": [
    "Utg.C53_print_parse",
    "Utg.C53_print_injective",
    "Utg.C53_readme_ids"
   ],
   "note": "Every Properties object can be written in a template and is read back"
  },
  {
   "property": "C54",
   "status": "proved",
   "theorems": [
    "Utg.C54_first_read",
    "Utg.C54_later_reads",
    "Utg.C54_cases"
   ],
   "note": "Lazy properties are computed once"
  },
  {
   "property": "C55",
   "status": "proved",
   "theorems": [
    "Utg.C55_syllables"
   ],
   "note": "number_of_syllables counts vowels"
  },
  {
   "property": "C56",
   "status": "proved",
   "theorems": [
    "Utg.C56_fluent_vowel"
   ],
   "note": "has_fluent_vowel compares vowel skeletons"
  },
  {
   "property": "C57",
   "status": "proved",
   "theorems": [
    "Utg.C57_consonant_cluster"
   ],
   "note": "starts_with_consonant_cluster is decided by the first two letters"
  },
  {
   "property": "C58",
   "status": "proved",
   "theorems": [
    "Utg.C58_loadable",
    "Utg.C58_pronoun",
    "Utg.C58_pronoun_form"
   ],
   "note": "Words migrated by the last migration can be loaded"
  },
  {
   "property": "C59",
   "status": "proved",
   "theorems": [
    "Utg.C59_reorders",
    "Utg.C59_same_combinations"
   ],
   "note": "m_0008 only reorders forms"
  },
  {
   "property": "C60",
   "status": "proved",
   "theorems": [
    "Utg.C60_compose",
    "Utg.C60_meaning"
   ],
   "note": "The frozen migrations compose"
  },
  {
   "property": "C61",
   "status": "proved",
   "theorems": [
    "Utg.C61_m0002",
    "Utg.C61_m0002_missing_patch",
    "Utg.C61_m0004",
    "Utg.C61_m0004_loadable",
    "Utg.C61_m0005",
    "Utg.C61_m0005_in_memory"
   ],
   "note": "The small data migrations do what they say"
  },
  {
   "property": "C62",
   "status": "partial",
   "theorems": [
    "Utg.C62_import_violated",
    "Utg.C62_adjective_violated",
    "Utg.C62_participle_partial",
    "Utg.C62_short_violated",
    "Utg.C62_others_partial"
   ],
   "note": "False of the code as stated (C62_import_violated: m_0003 and m_0006 cannot be imported; C62_adjective_violated: m_0001 gives every adjective one form in all slots; C62_short_violated: the short forms of a participle are filled with full forms of other cases). C62_participle_partial and C62_others_partial prove what m_0001 keeps; m_0002, m_0004, m_0005 are in C61, m_0007 in C70/C71, m_0008 in C59, m_0009 in C58."
  },
  {
   "property": "C63",
   "status": "partial",
   "theorems": [
    "Utg.C63_ties_first_partial",
    "Utg.C63_violated"
   ],
   "note": "False of the code as stated (C63_violated: rounding decides an exact tie). C63_ties_first_partial proves it for keys of up to four properties; C22 proves the consequence for autofill for every word type."
  },
  {
   "property": "C64",
   "status": "proved",
   "theorems": [
    "Utg.C64_failed_parse",
    "Utg.C64_failed_parse_spoils"
   ],
   "note": "What a failed parse leaves behind"
  },
  {
   "property": "C65",
   "status": "partial",
   "theorems": [
    "Utg.C65_violated",
    "Utg.C65_outer_blanks_partial"
   ],
   "note": "False of the code as stated (C65_violated: a blank after a comma raises). C65_outer_blanks_partial proves it for blanks around the parts of a variable."
  },
  {
   "property": "C66",
   "status": "proved",
   "theorems": [
    "Utg.C66_counted_noun",
    "Utg.C66_counted_adjective",
    "Utg.C66_preposition"
   ],
   "note": "Agreement applies to the collected properties"
  },
  {
   "property": "C67",
   "status": "partial",
   "theorems": [
    "Utg.C67_repeat_partial",
    "Utg.C67_violated"
   ],
   "note": "False of the code as stated (C67_violated: [w|two] and [w|two|two] differ). C67_repeat_partial proves it for numbers not ending in two, three, four, for every part of speech."
  },
  {
   "property": "C68",
   "status": "partial",
   "theorems": [
    "Utg.C68_violated",
    "Utg.C68_specified_partial"
   ],
   "note": "False of the code as documented (C68_violated). C68_specified_partial proves it for variables whose case is specified."
  },
  {
   "property": "C69",
   "status": "proved",
   "theorems": [
    "Utg.C69_equal_templates"
   ],
   "note": "Equal templates substitute identically"
  },
  {
   "property": "C70",
   "status": "partial",
   "theorems": [
    "Utg.C70_partial",
    "Utg.C70_comparative_violated"
   ],
   "note": "False of the code for comparatives (C70_comparative_violated: the comparative becomes the plural short form). C70_partial proves it for every other combination of words that are not participles."
  },
  {
   "property": "C71",
   "status": "partial",
   "theorems": [
    "Utg.C71_voice_violated",
    "Utg.C71_direct_lost",
    "Utg.C71_short_partial"
   ],
   "note": "False of the code (C71_voice_violated, C71_direct_lost). C71_short_partial proves it for short forms."
  },
  {
   "property": "C72",
   "status": "proved",
   "theorems": [
    "Utg.C72_concatenation"
   ],
   "note": "A text is filled part by part"
  },
  {
   "property": "C73",
   "status": "proved",
   "theorems": [
    "Utg.C73_bare_word",
    "Utg.C73_capital",
    "Utg.C73_in_text",
    "Utg.C73_in_text_capital"
   ],
   "note": "A known word in brackets is replaced by itself"
  },
  {
   "property": "C74",
   "status": "partial",
   "theorems": [
    "Utg.C74_ids_lower",
    "Utg.C74_violated",
    "Utg.C74_usable_partial"
   ],
   "note": "False of the code as stated (C74_violated: a form with a capital letter is known but cannot be used). C74_usable_partial proves it for texts that are their own lower case and contain no markup."
  },
  {
   "property": "C75",
   "status": "proved",
   "theorems": [
    "Utg.C75_autofill_keeps",
    "Utg.C75_lazy_values",
    "Utg.C75_needs_first_form"
   ],
   "note": "Lazily computed counts of a word stay right when it is autofilled"
  },
  {
   "property": "C76",
   "status": "proved",
   "theorems": [
    "Utg.C76_rebuild",
    "Utg.C76_save_load"
   ],
   "note": "A dictionary can be saved and rebuilt from its words"
  },
  {
   "property": "C77",
   "status": "proved",
   "theorems": [
    "Utg.C77_lookup_says_text",
    "Utg.C77_known_stays",
    "Utg.C77_value_model",
    "Utg.C77_lookup_value",
    "Utg.C77_no_errors",
    "Utg.C77_good_dictionary",
    "Utg.C77_changed_later"
   ],
   "note": "A dictionary survives any treatment of its words"
  },
  {
   "property": "C78",
   "status": "proved",
   "theorems": [
    "Utg.C78_no_chance",
    "Utg.C78_test_word",
    "Utg.C78_distinct",
    "Utg.C78_lookup"
   ],
   "note": "Test words spell their slots"
  },
  {
   "property": "C79",
   "status": "proved",
   "theorems": [
    "Utg.C79_formatting",
    "Utg.C79_construct",
    "Utg.C79_raise_sites",
    "Utg.C79_abstract"
   ],
   "note": "Every error is the documented exception with a readable message"
  },
  {
   "property": "C80",
   "status": "proved",
   "theorems": [
    "Utg.C80_agreement",
    "Utg.C80_past_verb"
   ],
   "note": "A word agrees with the variable it depends on"
  },
  {
   "property": "C81",
   "status": "proved",
   "theorems": [
    "Utg.C81_outcome",
    "Utg.C81_none_succeeded",
    "Utg.C81_last_success"
   ],
   "note": "What a template object that is parsed again and again substitutes"
  },
  {
   "property": "C82",
   "status": "proved",
   "theorems": [
    "Utg.C82_served",
    "Utg.C82_saved"
   ],
   "note": "Lexicon, dictionary and templates work together, also after saving"
  },
  {
   "property": "C83",
   "status": "proved",
   "theorems": [
    "Utg.C83_stays_checked",
    "Utg.C83_lookup_improves",
    "Utg.C83_same_text"
   ],
   "note": "Adding words never breaks a template"
  },
  {
   "property": "C84",
   "status": "proved",
   "theorems": [
    "Utg.C84_autofilled_known",
    "Utg.C84_addable"
   ],
   "note": "Autofilling words before adding them loses nothing"
  },
  {
   "property": "C85",
   "status": "partial",
   "theorems": [
    "Utg.C85_word_forms",
    "Utg.C85_same_text",
    "Utg.C85_no_preposition_partial",
    "Utg.C85_violated",
    "Utg.C85_dictionary"
   ],
   "note": "False of the code as stated (C85_violated: == ignores form_properties, a preposition does not). C85_same_text proves it for externals that are also spelled the same, C85_no_preposition_partial for templates without prepositions; the parts about words and dictionaries are proved in full."
  },
  {
   "property": "C86",
   "status": "proved",
   "theorems": [
    "Utg.C86_substitution",
    "Utg.C86_word",
    "Utg.C86_slot",
    "Utg.C86_word_form",
    "Utg.C86_dictionary",
    "Utg.C86_text",
    "Utg.C86_every_template"
   ],
   "note": "Rendering computes the reference semantics"
  },
  {
   "property": "C87",
   "status": "proved",
   "theorems": [
    "Utg.C87_counted_noun",
    "Utg.C87_counted_adjective",
    "Utg.C87_noun_slot"
   ],
   "note": "A counted word takes its number from the number, whatever it fixes"
  },
  {
   "property": "C88",
   "status": "proved",
   "theorems": [
    "Utg.C88_noun",
    "Utg.C88_adjective"
   ],
   "note": "Naming a number again: what changes"
  },
  {
   "property": "C89",
   "status": "proved",
   "theorems": [
    "Utg.C89_usable"
   ],
   "note": "Which texts can be used in a template"
  },
  {
   "property": "C90",
   "status": "proved",
   "theorems": [
    "Utg.C90_hash_of_eq",
    "Utg.C90_hash_iff"
   ],
   "note": "When equal word forms have equal hashes"
  },
  {
   "property": "C91",
   "status": "proved",
   "theorems": [
    "Utg.C91_semantic"
   ],
   "note": "The semantic mode tells only one from many"
  },
  {
   "property": "C92",
   "status": "partial",
   "theorems": [
    "Utg.C92_by_properties",
    "Utg.C92_own_text_partial",
    "Utg.C92_violated"
   ],
   "note": "False of the code as stated (C92_violated: a variable built with form_properties is replaced by another text than its own). C92_own_text_partial proves it for variables built without form_properties; C92_by_properties says what happens in general."
  },
  {
   "property": "C93",
   "status": "proved",
   "theorems": [
    "Utg.C93_readme"
   ],
   "note": "A variable with properties is the form for these properties"
  },
  {
   "property": "C94",
   "status": "partial",
   "theorems": [
    "Utg.C94_live_view",
    "Utg.C94_json_snapshot_partial",
    "Utg.C94_violated",
    "Utg.C94_twins_violated",
    "Utg.C94_migrations_keep_words",
    "Utg.C94_migrated_violated",
    "Utg.C94_caller_list",
    "Utg.C94_caller_changes",
    "Utg.C94_caller_append_violated"
   ],
   "note": "False of the code (C94_violated, C94_twins_violated, C94_migrated_violated: serialize and deserialize share the list of forms; C94_live_view says exactly how). C94_json_snapshot_partial proves it for data that go through JSON."
  },
  {
   "property": "C95",
   "status": "proved",
   "theorems": [
    "Utg.C95_values",
    "Utg.C95_full"
   ],
   "note": "Through JSON, words and saved data behave as values"
  },
  {
   "property": "C96",
   "status": "proved",
   "theorems": [
    "Utg.C96_right_value",
    "Utg.C96_progress",
    "Utg.C96_same_object",
    "Utg.C96_identity_violated"
   ],
   "note": "construct_integer can be called from several threads"
  },
  {
   "property": "C97",
   "status": "proved",
   "theorems": [
    "Utg.C97_reads",
    "Utg.C97_same_value",
    "Utg.C97_delete_violated",
    "Utg.C97_deletes_violated"
   ],
   "note": "Lazy attributes can be read from several threads"
  },
  {
   "property": "C98",
   "status": "partial",
   "theorems": [
    "Utg.C98_no_errors",
    "Utg.C98_known_key_partial",
    "Utg.C98_violated"
   ],
   "note": "False of the code for keys added for the first time by overlapping calls (C98_violated: a template is lost). C98_no_errors is proved in full, C98_known_key_partial for keys that are known. C106 says exactly what can be lost."
  },
  {
   "property": "C99",
   "status": "partial",
   "theorems": [
    "Utg.C99_no_errors",
    "Utg.C99_known",
    "Utg.C99_source",
    "Utg.C99_best_partial",
    "Utg.C99_violated"
   ],
   "note": "The last part is false of the code for overlapping registrations under the same text (C99_violated: the worse form can stay). C99_best_partial proves it when they do not overlap; the other parts are proved in full. C107 says what overlapping registrations cannot do."
  },
  {
   "property": "C100",
   "status": "proved",
   "theorems": [
    "Utg.C100_right_text",
    "Utg.C100_finishes",
    "Utg.C100_stale_violated"
   ],
   "note": "Substitutions on shared objects do not disturb each other"
  },
  {
   "property": "C101",
   "status": "proved",
   "theorems": [
    "Utg.C101_present_words"
   ],
   "note": "Substitution without prepositions sees the words as they are"
  },
  {
   "property": "C102",
   "status": "proved",
   "theorems": [
    "Utg.C102_dictionary",
    "Utg.C102_template",
    "Utg.C102_lexicon",
    "Utg.C102_template_stays",
    "Utg.C102_undisturbed"
   ],
   "note": "Objects do not disturb each other"
  },
  {
   "property": "C103",
   "status": "proved",
   "theorems": [
    "Utg.C103_served",
    "Utg.C103_checked_stays",
    "Utg.C103_reparsed"
   ],
   "note": "A lexicon serves its templates as they are now, and checked templates stay usable"
  },
  {
   "property": "C104",
   "status": "proved",
   "theorems": [
    "Utg.C104_inner_blank"
   ],
   "note": "Blanks inside a list of properties are always refused"
  },
  {
   "property": "C105",
   "status": "proved",
   "theorems": [
    "Utg.C105_form",
    "Utg.C105_in_text",
    "Utg.C105_permitted"
   ],
   "note": "Every form of a known word can be asked for"
  },
  {
   "property": "C106",
   "status": "proved",
   "theorems": [
    "Utg.C106_nothing_invented",
    "Utg.C106_not_empty",
    "Utg.C106_settled_key",
    "Utg.C106_first_alone"
   ],
   "note": "What can be lost when templates are added from several threads"
  },
  {
   "property": "C107",
   "status": "proved",
   "theorems": [
    "Utg.C107_never_worse"
   ],
   "note": "Overlapping registrations never make a known text worse"
  },
  {
   "property": "C108",
   "status": "proved",
   "theorems": [
    "Utg.C108_lookups",
    "Utg.C108_finishes",
    "Utg.C108_checked",
    "Utg.C108_undisturbed",
    "Utg.C108_torn"
   ],
   "note": "Filling a template while words are added in other threads"
  },
  {
   "property": "C109",
   "status": "proved",
   "theorems": [
    "Utg.C109_served",
    "Utg.C109_errors",
    "Utg.C109_one_moment",
    "Utg.C109_finishes",
    "Utg.C109_half_added"
   ],
   "note": "Asking a lexicon while templates are added in other threads"
  },
  {
   "property": "C110",
   "status": "proved",
   "theorems": [
    "Utg.C110_any_tables",
    "Utg.C110_m0003",
    "Utg.C110_m0006"
   ],
   "note": "Migrations between any two tables keep what the tables share"
  },
  {
   "property": "C111",
   "status": "proved",
   "theorems": [
    "Utg.C111_chain"
   ],
   "note": "What exactly becomes of a word saved before m_0007"
  },
  {
   "property": "C112",
   "status": "proved",
   "theorems": [
    "Utg.C112_lookup_table",
    "Utg.C112_no_slots"
   ],
   "note": "The lookup tables are right for any schema and any restrictions"
  },
  {
   "property": "C113",
   "status": "proved",
   "theorems": [
    "Utg.C113_same_place",
    "Utg.C113_other_places",
    "Utg.C113_numbers",
    "Utg.C113_preposition_looks"
   ],
   "note": "Which form is taken does not depend on how words are spelled"
  },
  {
   "property": "C114",
   "status": "proved",
   "theorems": [
    "Utg.C114_words",
    "Utg.C114_changed",
    "Utg.C114_violated",
    "Utg.C114_quiet",
    "Utg.C114_check",
    "Utg.C114_check_lasts",
    "Utg.C114_finishes"
   ],
   "note": "Asking a dictionary while words are added in other threads"
  },
  {
   "property": "C115",
   "status": "proved",
   "theorems": [
    "Utg.C115_random_template",
    "Utg.C115_nearest_template",
    "Utg.C115_share"
   ],
   "note": "Random templates are drawn fairly"
  },
  {
   "property": "C116",
   "status": "proved",
   "theorems": [
    "Utg.C116_outcome",
    "Utg.C116_known",
    "Utg.C116_source",
    "Utg.C116_alone",
    "Utg.C116_untouched",
    "Utg.C116_any_order",
    "Utg.C116_finishes",
    "Utg.C116_violated"
   ],
   "note": "Adding whole words in several threads"
  },
  {
   "property": "C117",
   "status": "proved",
   "theorems": [
    "Utg.C117_filled",
    "Utg.C117_errors",
    "Utg.C117_count"
   ],
   "note": "Any text in a saved template"
  },
  {
   "property": "C118",
   "status": "proved",
   "theorems": [
    "Utg.C118_present_kept",
    "Utg.C118_complete",
    "Utg.C118_stays_filled",
    "Utg.C118_finishes",
    "Utg.C118_looked_first",
    "Utg.C118_alone",
    "Utg.C118_torn",
    "Utg.C118_overwritten"
   ],
   "note": "Filling gaps of one word in several threads"
  },
  {
   "property": "C119",
   "status": "proved",
   "theorems": [
    "Utg.C119_m0007_again",
    "Utg.C119_m0009_again",
    "Utg.C119_m0008_again",
    "Utg.C119_crash_m0007",
    "Utg.C119_crash_m0009",
    "Utg.C119_crash_m0008",
    "Utg.C119_crash_all",
    "Utg.C119_m0008_violated",
    "Utg.C119_m0005_again",
    "Utg.C119_m0004_again",
    "Utg.C119_m0002_again",
    "Utg.C119_m0001_again"
   ],
   "note": "Running a migration again after a crash"
  },
  {
   "property": "C120",
   "status": "proved",
   "theorems": [
    "Utg.C120_repeat",
    "Utg.C120_history",
    "Utg.C120_left",
    "Utg.C120_safe",
    "Utg.C120_template",
    "Utg.C120_template_repeat",
    "Utg.C120_template_once",
    "Utg.C120_template_key_only",
    "Utg.C120_autofill",
    "Utg.C120_autofill_differs"
   ],
   "note": "An interrupted addition can be repeated"
  },
  {
   "property": "C121",
   "status": "proved",
   "theorems": [
    "Utg.C121_names"
   ],
   "note": "Names of externals do not matter"
  },
  {
   "property": "C122",
   "status": "proved",
   "theorems": [
    "Utg.C122_mentions",
    "Utg.C122_order",
    "Utg.C122_across_name",
    "Utg.C122_overridden"
   ],
   "note": "Only the last word on each property counts"
  },
  {
   "property": "C123",
   "status": "proved",
   "theorems": [
    "Utg.C123_unique",
    "Utg.C123_expression",
    "Utg.C123_same_table",
    "Utg.C123_unchanged",
    "Utg.C123_last_table"
   ],
   "note": "Printed tables can be pasted into a migration"
  },
  {
   "property": "C124",
   "status": "proved",
   "theorems": [
    "Utg.C124_properties",
    "Utg.C124_words",
    "Utg.C124_templates",
    "Utg.C124_equivalence"
   ],
   "note": "Objects are equal exactly if their saved data are"
  },
  {
   "property": "C125",
   "status": "proved",
   "theorems": [
    "Utg.C125_modifier",
    "Utg.C125_phrase"
   ],
   "note": "A number, an adjective and a noun make a phrase"
  },
  {
   "property": "C126",
   "status": "partial",
   "theorems": [
    "Utg.C126_following_text_partial",
    "Utg.C126_violated"
   ],
   "note": "False of the code as stated (C126_violated: с львом). C126_following_text_partial proves it if the text printed begins with the same two letters as the one given and neither is one of the five exceptions; C127 says which text decides in general."
  },
  {
   "property": "C127",
   "status": "proved",
   "theorems": [
    "Utg.C127_own_text"
   ],
   "note": "Which text decides the form of a preposition"
  },
  {
   "property": "C128",
   "status": "proved",
   "theorems": [
    "Utg.C128_modifier",
    "Utg.C128_order_matters"
   ],
   "note": "A modifier and its noun agree"
  },
  {
   "property": "C129",
   "status": "proved",
   "theorems": [
    "Utg.C129_parse",
    "Utg.C129_capital"
   ],
   "note": "A capital letter changes the first letter only"
  },
  {
   "property": "C130",
   "status": "proved",
   "theorems": [
    "Utg.C130_text",
    "Utg.C130_others",
    "Utg.C130_names"
   ],
   "note": "Texts given by users are inserted letter by letter"
  },
  {
   "property": "C131",
   "status": "proved",
   "theorems": [
    "Utg.C131_index_error",
    "Utg.C131_fillable",
    "Utg.C131_template"
   ],
   "note": "When exactly a template cannot be filled"
  },
  {
   "property": "C132",
   "status": "proved",
   "theorems": [
    "Utg.C132_capital",
    "Utg.C132_written"
   ],
   "note": "Which variables can be mentioned"
  },
  {
   "property": "C133",
   "status": "proved",
   "theorems": [
    "Utg.C133_present",
    "Utg.C133_contents",
    "Utg.C133_frozen"
   ],
   "note": "A lexicon sees restrictions as they are now"
  },
  {
   "property": "C134",
   "status": "proved",
   "theorems": [
    "Utg.C134_sequence",
    "Utg.C134_not_a_set"
   ],
   "note": "What happens if restrictions are no sets"
  },
  {
   "property": "C135",
   "status": "proved",
   "theorems": [
    "Utg.C135_word",
    "Utg.C135_same",
    "Utg.C135_all",
    "Utg.C135_known",
    "Utg.C135_text"
   ],
   "note": "Upgrading a saved dictionary keeps its texts"
  },
  {
   "property": "C136",
   "status": "proved",
   "theorems": [
    "Utg.C136_forms",
    "Utg.C136_raises",
    "Utg.C136_attribute_error",
    "Utg.C136_template"
   ],
   "note": "Something else given for a variable is noticed exactly where it is mentioned"
  },
  {
   "property": "C137",
   "status": "proved",
   "theorems": [
    "Utg.C137_same_kind",
    "Utg.C137_clash",
    "Utg.C137_no_clash",
    "Utg.C137_autofill",
    "Utg.C137_reload"
   ],
   "note": "Words whose forms are a tuple"
  },
  {
   "property": "C138",
   "status": "proved",
   "theorems": [
    "Utg.C138_only_parts_matter",
    "Utg.C138_order",
    "Utg.C138_announce_more",
    "Utg.C138_unmentioned"
   ],
   "note": "Announcing more variables"
  },
  {
   "property": "C139",
   "status": "proved",
   "theorems": [
    "Utg.C139_words",
    "Utg.C139_source",
    "Utg.C139_exceptions",
    "Utg.C139_known_while",
    "Utg.C139_known",
    "Utg.C139_current",
    "Utg.C139_same_texts",
    "Utg.C139_finishes",
    "Utg.C139_alone",
    "Utg.C139_fixed_lost"
   ],
   "note": "Adding a word to a dictionary while its gaps are being filled"
  },
  {
   "property": "C140",
   "status": "proved",
   "theorems": [
    "Utg.C140_syllables",
    "Utg.C140_autofill",
    "Utg.C140_text",
    "Utg.C140_add",
    "Utg.C140_clash",
    "Utg.C140_registered",
    "Utg.C140_dictionary",
    "Utg.C140_no_none",
    "Utg.C140_substitute",
    "Utg.C140_unparsed",
    "Utg.C140_reload",
    "Utg.C140_form",
    "Utg.C140_equal"
   ],
   "note": "Missing forms given as None"
  },
  {
   "property": "C141",
   "status": "proved",
   "theorems": [
    "Utg.C141_while_parsing",
    "Utg.C141_parse_undisturbed",
    "Utg.C141_after_parsing",
    "Utg.C141_calls_end",
    "Utg.C141_parse_ends",
    "Utg.C141_two_texts_mixed"
   ],
   "note": "Using a template while it is parsed in another thread"
  },
  {
   "property": "C142",
   "status": "proved",
   "theorems": [
    "Utg.C142_loads",
    "Utg.C142_contents",
    "Utg.C142_raises",
    "Utg.C142_other_fields",
    "Utg.C142_resave",
    "Utg.C142_save_load",
    "Utg.C142_proper",
    "Utg.C142_form",
    "Utg.C142_odd_forms"
   ],
   "note": "A word from any JSON document"
  },
  {
   "property": "C143",
   "status": "proved",
   "theorems": [
    "Utg.C143_contents",
    "Utg.C143_loads",
    "Utg.C143_raises",
    "Utg.C143_save_load",
    "Utg.C143_resave",
    "Utg.C143_other_fields",
    "Utg.C143_list",
    "Utg.C143_text_as_list"
   ],
   "note": "A template from any JSON document"
  },
  {
   "property": "C144",
   "status": "proved",
   "theorems": [
    "Utg.C144_answers",
    "Utg.C144_decided",
    "Utg.C144_identity"
   ],
   "note": "Numbers that are no integers"
  },
  {
   "property": "C145",
   "status": "proved",
   "theorems": [
    "Utg.C145_reads",
    "Utg.C145_unread",
    "Utg.C145_unique",
    "Utg.C145_loadable",
    "Utg.C145_key"
   ],
   "note": "Keys in any writing of a number"
  },
  {
   "property": "C146",
   "status": "proved",
   "theorems": [
    "Utg.C146_construct",
    "Utg.C146_keys",
    "Utg.C146_keys_error",
    "Utg.C146_saved"
   ],
   "note": "Numbers with very many digits"
  },
  {
   "property": "C147",
   "status": "proved",
   "theorems": [
    "Utg.C147_parse",
    "Utg.C147_check",
    "Utg.C147_holds",
    "Utg.C147_iterator",
    "Utg.C147_iterator_check"
   ],
   "note": "What may be given as externals to parse"
  },
  {
   "property": "C148",
   "status": "proved",
   "theorems": [
    "Utg.C148_m0007",
    "Utg.C148_m0008",
    "Utg.C148_m0009",
    "Utg.C148_raises",
    "Utg.C148_untouched",
    "Utg.C148_m0004",
    "Utg.C148_m0004_raises",
    "Utg.C148_m0005",
    "Utg.C148_m0002",
    "Utg.C148_m0002_patches",
    "Utg.C148_m0001",
    "Utg.C148_chain",
    "Utg.C148_faults",
    "Utg.C148_m0001_faults",
    "Utg.C148_m0004_faults",
    "Utg.C148_m0005_faults",
    "Utg.C148_m0002_faults"
   ],
   "note": "Migrations of any JSON document"
  },
  {
   "property": "C149",
   "status": "proved",
   "theorems": [
    "Utg.C149_object",
    "Utg.C149_fluent",
    "Utg.C149_text",
    "Utg.C149_syllables",
    "Utg.C149_autofill",
    "Utg.C149_spelling",
    "Utg.C149_proper"
   ],
   "note": "Using a word loaded from any JSON document"
  },
  {
   "property": "C150",
   "status": "proved",
   "theorems": [
    "Utg.C150_proper",
    "Utg.C150_only_proper",
    "Utg.C150_raises",
    "Utg.C150_undictionaried"
   ],
   "note": "Using a template loaded from any JSON document"
  },
  {
   "property": "C151",
   "status": "proved",
   "theorems": [
    "Utg.C151_found",
    "Utg.C151_stays",
    "Utg.C151_known",
    "Utg.C151_raises",
    "Utg.C151_must_raise",
    "Utg.C151_proper",
    "Utg.C151_clash",
    "Utg.C151_half"
   ],
   "note": "A dictionary of words loaded from any JSON documents"
  },
  {
   "property": "C152",
   "status": "proved",
   "theorems": [
    "Utg.C152_agreement",
    "Utg.C152_verb"
   ],
   "note": "A subject and its verb: what is recognised in a written word is kept"
  },
  {
   "property": "C153",
   "status": "proved",
   "theorems": [
    "Utg.C153_readme_sentence",
    "Utg.C153_readme_words"
   ],
   "note": "The sentence of the README, for all words and numbers"
  },
  {
   "property": "C154",
   "status": "proved",
   "theorems": [
    "Utg.C154_position",
    "Utg.C154_proper",
    "Utg.C154_filled",
    "Utg.C154_preposition",
    "Utg.C154_own_letter",
    "Utg.C154_number",
    "Utg.C154_no_letter"
   ],
   "note": "Filling a template with words loaded from any JSON documents"
  },
  {
   "property": "C155",
   "status": "proved",
   "theorems": [
    "Utg.C155_other_places",
    "Utg.C155_own_place",
    "Utg.C155_text",
    "Utg.C155_alike"
   ],
   "note": "Only the class of a number matters"
  },
  {
   "property": "C156",
   "status": "proved",
   "theorems": [
    "Utg.C156_variable",
    "Utg.C156_template",
    "Utg.C156_accepts",
    "Utg.C156_known",
    "Utg.C156_carried",
    "Utg.C156_refused",
    "Utg.C156_equal",
    "Utg.C156_form",
    "Utg.C156_word_form",
    "Utg.C156_save",
    "Utg.C156_register",
    "Utg.C156_add",
    "Utg.C156_empty",
    "Utg.C156_words"
   ],
   "note": "What may be given to Properties"
  },
  {
   "property": "C157",
   "status": "proved",
   "theorems": [
    "Utg.C157_constructor",
    "Utg.C157_form",
    "Utg.C157_save",
    "Utg.C157_equal",
    "Utg.C157_equal_other",
    "Utg.C157_word_form",
    "Utg.C157_add",
    "Utg.C157_words",
    "Utg.C157_variable",
    "Utg.C157_template",
    "Utg.C157_named",
    "Utg.C157_preposition"
   ],
   "note": "A word whose properties are None"
  },
  {
   "property": "C158",
   "status": "proved",
   "theorems": [
    "Utg.C158_goes_with",
    "Utg.C158_phrase",
    "Utg.C158_coins"
   ],
   "note": "A preposition in front of a number"
  },
  {
   "property": "C159",
   "status": "proved",
   "theorems": [
    "Utg.C159_verb",
    "Utg.C159_sentence",
    "Utg.C159_mermaids"
   ],
   "note": "A counted subject and its verb"
  },
  {
   "property": "C160",
   "status": "proved",
   "theorems": [
    "Utg.C160_phrase",
    "Utg.C160_mermaids"
   ],
   "note": "The adjective of a counted noun"
  },
  {
   "property": "C161",
   "status": "proved",
   "theorems": [
    "Utg.C161_digits",
    "Utg.C161_missing",
    "Utg.C161_constructed",
    "Utg.C161_known",
    "Utg.C161_constant"
   ],
   "note": "A number is printed in the same digits"
  },
  {
   "property": "C162",
   "status": "proved",
   "theorems": [
    "Utg.C162_verb",
    "Utg.C162_sentence",
    "Utg.C162_mermaids"
   ],
   "note": "A counted subject and its verb in the present or the future"
  },
  {
   "property": "C163",
   "status": "proved",
   "theorems": [
    "Utg.C163_last_number",
    "Utg.C163_coins"
   ],
   "note": "Of several numbers only the last one counts"
  },
  {
   "property": "C164",
   "status": "proved",
   "theorems": [
    "Utg.C164_merge",
    "Utg.C164_all_words"
   ],
   "note": "Dictionaries can be merged"
  },
  {
   "property": "C165",
   "status": "proved",
   "theorems": [
    "Utg.C165_remaining",
    "Utg.C165_supplied",
    "Utg.C165_texts",
    "Utg.C165_prints"
   ],
   "note": "Words that a template misses can be supplied"
  }
 ]
}