import Verif.Spec.Migrations
/-! # Running migrations over a store of words, and again after a crash -/

namespace Utg.Spec
open Py

/-- A migration, run over saved words one after another. A word for which it raises keeps its data: the frozen migrations assign
`word_data['forms']` in their last line only (utg/migrations/m_0007_reduce_words_forms.py:12-21, and the same lines of m_0008 and
m_0009). -/
def runOver (migrate : WordData → Except PyErr WordData) (store : List WordData) : List WordData :=
  store.map fun d => match migrate d with
    | .ok d' => d'
    | .error _ => d

/-- All three frozen migrations for one word, before it is saved. -/
def lastThree (m7 m8 m9 : WordData → Except PyErr WordData) (d : WordData) : Except PyErr WordData := do
  m9 (← m8 (← m7 d))

/-- The run was interrupted after `k` words, and is repeated from the beginning. -/
def rerunAfterCrash (migrate : WordData → Except PyErr WordData) (k : Nat) (store : List WordData) : List WordData :=
  runOver migrate (runOver migrate (store.take k) ++ store.drop k)

/-- The parts of speech that m_0007 leaves with fewer slots. -/
def Reduced (t : WordType) : Prop := t = .ADJECTIVE ∨ t = .VERB ∨ t = .PARTICIPLE

/-- All words of the store are in this layout. -/
def StoreIn (layout : WordType → Layout) (store : List WordData) : Prop := ∀ d ∈ store, ∃ t, InLayout layout t d

end Utg.Spec
