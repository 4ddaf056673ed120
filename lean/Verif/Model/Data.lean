import Verif.Model.Restrictions
/-!
# `utg/data.py`
-/

namespace Utg
open Py

/-- `INVERTED_WORDS_CACHES[word_type]` (utg/data.py:12-13, utg/logic.py:73-85): the form keys in slot order. -/
def invertedCache (t : WordType) : List Key := (getCache t.schema (RESTRICTIONS t) (RESTRICTED_KEY_PARTS t)).2

/-- `WORDS_CACHES[word_type]` (utg/data.py:12-13, utg/logic.py:73-85): form key ↦ slot. -/
def wordsCache (t : WordType) : Dict Key Nat := (getCache t.schema (RESTRICTIONS t) (RESTRICTED_KEY_PARTS t)).1

/-- `RAW_WORDS_CACHES[word_type]` (utg/data.py:15, utg/logic.py:156-164). An error here is an error at import time. -/
def rawWordsCache (t : WordType) : Except PyErr (Dict Key Nat) := getRawCache (invertedCache t) t.schema

/-- `CONSONANTS` (utg/data.py:18). -/
def CONSONANTS : Str := str! "бвгджзйклмнпрстфхцчшщъьБВГДЖЗЙКЛМНПРСТФХЦЧШЩЪЬ"

/-- `VOWELS` (utg/data.py:19). -/
def VOWELS : Str := str! "аеёиоуыэюяАЕЁИОУЫЭЮЯ"

/-- `J_VOWELS` (utg/data.py:20). -/
def J_VOWELS : Str := str! "еёюяЕЁЮЯ"

/-- `NOT_J_VOWELS` (utg/data.py:21). -/
def NOT_J_VOWELS : Str := VOWELS.filter fun c => !J_VOWELS.contains c

end Utg
