# The axioms each theorem depends on

Generated by `tools/axioms.py` from `MANIFEST.json` with Lean's `collectAxioms`.

## no axioms (4 theorems)

* C61_m0002_missing_patch
* C61_m0004
* C79_abstract
* C157_save

## propext (30 theorems)

* C02_presets
* C26_offered_all
* C40_other_pairs
* C48_external_shadows
* C48_dictionary_entry
* C48_irrelevant_externals
* C52_fresh_partial
* C62_import_violated
* C62_others_partial
* C63_violated
* C65_violated
* C74_ids_lower
* C97_delete_violated
* C97_deletes_violated
* C100_stale_violated
* C113_preposition_looks
* C114_violated
* C119_m0004_again
* C119_m0002_again
* C122_across_name
* C122_overridden
* C123_last_table
* C135_same
* C136_forms
* C140_unparsed
* C141_two_texts_mixed
* C143_text_as_list
* C156_accepts
* C157_form
* C157_equal_other

## propext, Quot.sound (147 theorems)

* C02_documented_layout
* C02_documented_slots
* C04_outside_schema_irrelevant
* C05_own_properties_win
* C10_last_specification_wins
* C10_default
* C10_none_ignored
* C11_clone_reads
* C13_roundtrip_exact
* C14_deserialize_known
* C17_violated
* C18_normal_form
* C20_keeps_present
* C23_argmax
* C38_noun_agreement
* C38_never_fails
* C39_adjective_agreement
* C39_never_fails
* C40_number_frame
* C40_preposition_frame
* C42_empty_texts
* C43_frame_partial
* C43_no_agreement_partial
* C46_parse
* C46_empty_id
* C46_blank_id
* C46_unknown_id
* C46_unique
* C46_exhaustive
* C47_precedence
* C47_determined
* C48_template
* C49_exact
* C51_roundtrip
* C53_readme_ids
* C54_first_read
* C54_later_reads
* C54_cases
* C56_fluent_vowel
* C57_consonant_cluster
* C58_loadable
* C58_pronoun
* C61_m0002
* C61_m0005
* C61_m0005_in_memory
* C62_adjective_violated
* C62_participle_partial
* C62_short_violated
* C65_outer_blanks_partial
* C66_counted_noun
* C66_counted_adjective
* C67_repeat_partial
* C68_specified_partial
* C70_partial
* C70_comparative_violated
* C71_voice_violated
* C71_direct_lost
* C71_short_partial
* C75_needs_first_form
* C77_changed_later
* C78_no_chance
* C78_test_word
* C78_distinct
* C79_formatting
* C79_construct
* C79_raise_sites
* C85_violated
* C94_violated
* C94_twins_violated
* C94_migrated_violated
* C94_caller_changes
* C94_caller_append_violated
* C97_reads
* C97_same_value
* C98_violated
* C99_violated
* C100_right_text
* C100_finishes
* C101_present_words
* C104_inner_blank
* C112_no_slots
* C116_finishes
* C117_count
* C118_present_kept
* C118_complete
* C118_stays_filled
* C118_finishes
* C118_looked_first
* C118_torn
* C118_overwritten
* C119_m0005_again
* C120_template_key_only
* C120_autofill_differs
* C122_order
* C129_parse
* C137_same_kind
* C137_no_clash
* C137_autofill
* C139_words
* C139_known_while
* C139_finishes
* C139_fixed_lost
* C140_syllables
* C140_text
* C140_add
* C140_registered
* C140_dictionary
* C140_no_none
* C142_other_fields
* C142_odd_forms
* C143_raises
* C143_other_fields
* C145_reads
* C145_unread
* C145_unique
* C145_key
* C146_keys_error
* C147_parse
* C147_check
* C147_holds
* C147_iterator_check
* C148_untouched
* C148_m0002_patches
* C149_syllables
* C149_spelling
* C150_proper
* C150_raises
* C150_undictionaried
* C151_found
* C151_stays
* C151_proper
* C151_clash
* C151_half
* C154_preposition
* C154_own_letter
* C156_variable
* C156_template
* C156_known
* C156_carried
* C156_refused
* C156_form
* C156_word_form
* C156_save
* C157_variable
* C157_named
* C158_goes_with
* C161_constant

## propext, Classical.choice, Quot.sound (390 theorems)

* C01_form_total
* C02_form_for_combination
* C02_form_in_slot
* C03_pattern_unique
* C03_slots_disjoint
* C03_slots_are_patterns
* C03_slot_iff
* C06_countable_singular
* C06_missing_imperative
* C07_slot_bijection
* C08_constructor
* C09_spoken
* C09_permitted
* C09_all_forms
* C09_spells_slot
* C11_clone_assoc
* C11_clone_idem
* C11_clone_empty
* C11_clone_many
* C12_eq_iff
* C12_eq_equivalence
* C12_hash_counts
* C12_hash_of_eq
* C13_roundtrip
* C14_deserialize_error
* C15_roundtrip
* C15_roundtrip_json
* C15_deserialize_outcome
* C16_eq_equivalence
* C16_eq_iff
* C16_hash_of_eq
* C17_hash_of_eq_partial
* C18_normal_form_first
* C19_upper_case
* C19_word_form
* C21_completes
* C21_idempotent
* C22_nearest_present
* C23_available_key
* C24_rounding_keeps_order
* C24_more_matches_win
* C25_lookup_sound
* C26_known_texts
* C26_spellable
* C26_texts_are_forms
* C27_first_best
* C27_minimal
* C28_order_independence
* C29_monotone
* C29_readd
* C29_constructor
* C30_get_words
* C31_get_templates
* C31_unknown_key
* C31_monotone
* C32_random_template
* C33_nearest_template
* C33_same_errors
* C34_add_template
* C34_has_key
* C35_agreement_class
* C36_cache_transparent
* C37_decimal_text
* C37_injective
* C37_form
* C41_counted_noun
* C41_semantic_mode
* C42_preposition
* C43_violated
* C44_literal_text
* C44_first_error
* C44_no_variables
* C45_pieces_unique
* C45_parse
* C45_parse_error
* C49_errors
* C49_empty_iff
* C50_substitution
* C50_checked_template
* C51_parsed
* C51_json
* C52_violated
* C53_print_parse
* C53_print_injective
* C55_syllables
* C58_pronoun_form
* C59_reorders
* C59_same_combinations
* C60_compose
* C60_meaning
* C61_m0004_loadable
* C63_ties_first_partial
* C64_failed_parse
* C64_failed_parse_spoils
* C66_preposition
* C67_violated
* C68_violated
* C69_equal_templates
* C72_concatenation
* C73_bare_word
* C73_capital
* C73_in_text
* C73_in_text_capital
* C74_violated
* C74_usable_partial
* C75_autofill_keeps
* C75_lazy_values
* C76_rebuild
* C76_save_load
* C77_lookup_says_text
* C77_known_stays
* C77_value_model
* C77_lookup_value
* C77_no_errors
* C77_good_dictionary
* C78_lookup
* C80_agreement
* C80_past_verb
* C81_outcome
* C81_none_succeeded
* C81_last_success
* C82_served
* C82_saved
* C83_stays_checked
* C83_lookup_improves
* C83_same_text
* C84_autofilled_known
* C84_addable
* C85_word_forms
* C85_same_text
* C85_no_preposition_partial
* C85_dictionary
* C86_substitution
* C86_word
* C86_slot
* C86_word_form
* C86_dictionary
* C86_text
* C86_every_template
* C87_counted_noun
* C87_counted_adjective
* C87_noun_slot
* C88_noun
* C88_adjective
* C89_usable
* C90_hash_of_eq
* C90_hash_iff
* C91_semantic
* C92_by_properties
* C92_own_text_partial
* C92_violated
* C93_readme
* C94_live_view
* C94_json_snapshot_partial
* C94_migrations_keep_words
* C94_caller_list
* C95_values
* C95_full
* C96_right_value
* C96_progress
* C96_same_object
* C96_identity_violated
* C98_no_errors
* C98_known_key_partial
* C99_no_errors
* C99_known
* C99_source
* C99_best_partial
* C102_dictionary
* C102_template
* C102_lexicon
* C102_template_stays
* C102_undisturbed
* C103_served
* C103_checked_stays
* C103_reparsed
* C105_form
* C105_in_text
* C105_permitted
* C106_nothing_invented
* C106_not_empty
* C106_settled_key
* C106_first_alone
* C107_never_worse
* C108_lookups
* C108_finishes
* C108_checked
* C108_undisturbed
* C108_torn
* C109_served
* C109_errors
* C109_one_moment
* C109_finishes
* C109_half_added
* C110_any_tables
* C110_m0003
* C110_m0006
* C111_chain
* C112_lookup_table
* C113_same_place
* C113_other_places
* C113_numbers
* C114_words
* C114_changed
* C114_quiet
* C114_check
* C114_check_lasts
* C114_finishes
* C115_random_template
* C115_nearest_template
* C115_share
* C116_outcome
* C116_known
* C116_source
* C116_alone
* C116_untouched
* C116_any_order
* C116_violated
* C117_filled
* C117_errors
* C118_alone
* C119_m0007_again
* C119_m0009_again
* C119_m0008_again
* C119_crash_m0007
* C119_crash_m0009
* C119_crash_m0008
* C119_crash_all
* C119_m0008_violated
* C119_m0001_again
* C120_repeat
* C120_history
* C120_left
* C120_safe
* C120_template
* C120_template_repeat
* C120_template_once
* C120_autofill
* C121_names
* C122_mentions
* C123_unique
* C123_expression
* C123_same_table
* C123_unchanged
* C124_properties
* C124_words
* C124_templates
* C124_equivalence
* C125_modifier
* C125_phrase
* C126_following_text_partial
* C126_violated
* C127_own_text
* C128_modifier
* C128_order_matters
* C129_capital
* C130_text
* C130_others
* C130_names
* C131_index_error
* C131_fillable
* C131_template
* C132_capital
* C132_written
* C133_present
* C133_contents
* C133_frozen
* C134_sequence
* C134_not_a_set
* C135_word
* C135_all
* C135_known
* C135_text
* C136_raises
* C136_attribute_error
* C136_template
* C137_clash
* C137_reload
* C138_only_parts_matter
* C138_order
* C138_announce_more
* C138_unmentioned
* C139_source
* C139_exceptions
* C139_known
* C139_current
* C139_same_texts
* C139_alone
* C140_autofill
* C140_clash
* C140_substitute
* C140_reload
* C140_form
* C140_equal
* C141_while_parsing
* C141_parse_undisturbed
* C141_after_parsing
* C141_calls_end
* C141_parse_ends
* C142_loads
* C142_contents
* C142_raises
* C142_resave
* C142_save_load
* C142_proper
* C142_form
* C143_contents
* C143_loads
* C143_save_load
* C143_resave
* C143_list
* C144_answers
* C144_decided
* C144_identity
* C145_loadable
* C146_construct
* C146_keys
* C146_saved
* C147_iterator
* C148_m0007
* C148_m0008
* C148_m0009
* C148_raises
* C148_m0004
* C148_m0004_raises
* C148_m0005
* C148_m0002
* C148_m0001
* C148_chain
* C148_faults
* C148_m0001_faults
* C148_m0004_faults
* C148_m0005_faults
* C148_m0002_faults
* C149_object
* C149_fluent
* C149_text
* C149_autofill
* C149_proper
* C150_only_proper
* C151_known
* C151_raises
* C151_must_raise
* C152_agreement
* C152_verb
* C153_readme_sentence
* C153_readme_words
* C154_position
* C154_proper
* C154_filled
* C154_number
* C154_no_letter
* C155_other_places
* C155_own_place
* C155_text
* C155_alike
* C156_equal
* C156_register
* C156_add
* C156_empty
* C156_words
* C157_constructor
* C157_equal
* C157_word_form
* C157_add
* C157_words
* C157_template
* C157_preposition
* C158_phrase
* C158_coins
* C159_verb
* C159_sentence
* C159_mermaids
* C160_phrase
* C160_mermaids
* C161_digits
* C161_missing
* C161_constructed
* C161_known
* C162_verb
* C162_sentence
* C162_mermaids
* C163_last_number
* C163_coins
* C164_merge
* C164_all_words
* C165_remaining
* C165_supplied
* C165_texts
* C165_prints
