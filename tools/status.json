{
 "C17": {
  "status": "partial",
  "note": "False of the code as stated (C17_violated: equal WordForms with different hashes when form_properties is given). C17_hash_of_eq_partial proves it for word forms built without form_properties."
 },
 "C63": {
  "status": "partial",
  "note": "False of the code as stated (C63_violated: rounding decides an exact tie). C63_ties_first_partial proves it for keys of up to four properties; C22 proves the consequence for autofill for every word type."
 },
 "C52": {
  "status": "partial",
  "note": "False of the code as stated (C52_violated: substitutions of an earlier parse stay). C52_fresh_partial proves it for a fresh template object; C64 says what remains otherwise. C81 says exactly when a reused object works."
 },
 "C65": {
  "status": "partial",
  "note": "False of the code as stated (C65_violated: a blank after a comma raises). C65_outer_blanks_partial proves it for blanks around the parts of a variable."
 },
 "C43": {
  "status": "partial",
  "note": "False of the code as stated (C43_violated: a number overrides the fixed number of a plural-only noun). C43_frame_partial proves it for all properties but noun form, number, case and preposition form; C43_no_agreement_partial proves it for all properties when no agreement applies."
 },
 "C67": {
  "status": "partial",
  "note": "False of the code as stated (C67_violated: [w|two] and [w|two|two] differ). C67_repeat_partial proves it for numbers not ending in two, three, four, for every part of speech."
 },
 "C68": {
  "status": "partial",
  "note": "False of the code as documented (C68_violated). C68_specified_partial proves it for variables whose case is specified."
 },
 "C62": {
  "status": "partial",
  "note": "False of the code as stated (C62_import_violated: m_0003 and m_0006 cannot be imported; C62_adjective_violated: m_0001 gives every adjective one form in all slots; C62_short_violated: the short forms of a participle are filled with full forms of other cases). C62_participle_partial and C62_others_partial prove what m_0001 keeps; m_0002, m_0004, m_0005 are in C61, m_0007 in C70/C71, m_0008 in C59, m_0009 in C58."
 },
 "C70": {
  "status": "partial",
  "note": "False of the code for comparatives (C70_comparative_violated: the comparative becomes the plural short form). C70_partial proves it for every other combination of words that are not participles."
 },
 "C71": {
  "status": "partial",
  "note": "False of the code (C71_voice_violated, C71_direct_lost). C71_short_partial proves it for short forms."
 },
 "C74": {
  "status": "partial",
  "note": "False of the code as stated (C74_violated: a form with a capital letter is known but cannot be used). C74_usable_partial proves it for texts that are their own lower case and contain no markup."
 },
 "C85": {
  "status": "partial",
  "note": "False of the code as stated (C85_violated: == ignores form_properties, a preposition does not). C85_same_text proves it for externals that are also spelled the same, C85_no_preposition_partial for templates without prepositions; the parts about words and dictionaries are proved in full."
 },
 "C92": {
  "status": "partial",
  "note": "False of the code as stated (C92_violated: a variable built with form_properties is replaced by another text than its own). C92_own_text_partial proves it for variables built without form_properties; C92_by_properties says what happens in general."
 },
 "C94": {
  "status": "partial",
  "note": "False of the code (C94_violated, C94_twins_violated, C94_migrated_violated: serialize and deserialize share the list of forms; C94_live_view says exactly how). C94_json_snapshot_partial proves it for data that go through JSON."
 },
 "C98": {
  "status": "partial",
  "note": "False of the code for keys added for the first time by overlapping calls (C98_violated: a template is lost). C98_no_errors is proved in full, C98_known_key_partial for keys that are known. C106 says exactly what can be lost."
 },
 "C99": {
  "status": "partial",
  "note": "The last part is false of the code for overlapping registrations under the same text (C99_violated: the worse form can stay). C99_best_partial proves it when they do not overlap; the other parts are proved in full. C107 says what overlapping registrations cannot do."
 },
 "C126": {
  "status": "partial",
  "note": "False of the code as stated (C126_violated: с львом). C126_following_text_partial proves it if the text printed begins with the same two letters as the one given and neither is one of the five exceptions; C127 says which text decides in general."
 }
}