import Verif.Model.Threads
/-!
# Asking a lexicon for templates while templates are added in other threads

A request looks at the dictionary of the lexicon twice (`key not in self._data`, `self._data.get(key, ())`) and then goes through the
list of templates, which other threads may extend meanwhile: an iterator over a Python list looks at the length of the list at every
step. Adding templates is modelled in `Verif.Model.Threads`.
-/

namespace Utg
open Py

variable {K T R : Type} [DecidableEq K] [DecidableEq R]

/-- A call of `get_random_template(key, restrictions)` or `get_random_nearest_template(key, restrictions)`; `draw` is what
`random.choice` will draw. -/
structure Request (K R : Type) where
  nearest : Bool
  key : K
  restrictions : Finset R
  draw : Nat

/-- What a request gives if the lexicon does not change. -/
def Request.answer (q : Request K R) (l : Lexicon K T R) : Except PyErr T :=
  if q.nearest then l.getRandomNearestTemplate q.key q.restrictions q.draw else l.getRandomTemplate q.key q.restrictions q.draw

/-- Where a request is. -/
inductive AskPC (T R : Type) where
  /-- before line 30 or 59 -/
  | check
  /-- before `self._data.get(key, ())` on line 24 or 45 -/
  | load
  /-- in the loop of line 23-25 or 45-54 over the list with this name (`none` is the empty tuple), with these pairs already seen -/
  | scan (list : Option Nat) (seen : List (T × Finset R))
  /-- finished -/
  | done (result : Except PyErr T)

/-- One step of a request (utg/lexicon.py:22-38, 40-67). What the body of the loop does with a pair, and everything after the loop,
depends on the pairs seen only; so it is put at the end of the loop, and is what `Verif.Model.Lexicon` does with these pairs. -/
def Request.step (l : SharedLexicon K T R) (q : Request K R) : AskPC T R → AskPC T R
  | .check => if Dict.contains l.data q.key then .load else .done (.error .UnknownLexiconKeyError)
  | .load => .scan (Dict.get? l.data q.key) []
  | .scan none seen => .done (q.answer [(q.key, seen)])
  | .scan (some i) seen => match (l.lists[i]?.getD [])[seen.length]? with
    | some pair => .scan (some i) (seen ++ [pair])
    | none => .done (q.answer [(q.key, seen)])
  | .done r => .done r

/-- A lexicon, the templates being added and the requests. -/
structure Asking (K T R : Type) where
  lex : LexThreads K T R
  asks : List (Request K R × AskPC T R)

/-- What can happen. -/
inductive AskEvent (K T R : Type) where
  /-- a template is added: begin or step -/
  | lex (e : LexEvent K T R)
  /-- a request begins -/
  | ask (q : Request K R)
  /-- request number `i` makes a step -/
  | turn (i : Nat)

/-- The effect of an event. -/
def Asking.step (s : Asking K T R) : AskEvent K T R → Asking K T R
  | .lex e => { s with lex := s.lex.step e }
  | .ask q => { s with asks := s.asks ++ [(q, .check)] }
  | .turn i => { s with asks := s.asks.modify i fun x => (x.1, x.1.step s.lex.lexicon x.2) }

/-- A new lexicon after a schedule. -/
def Asking.after (events : List (AskEvent K T R)) : Asking K T R := events.foldl Asking.step ⟨LexThreads.after [], []⟩

end Utg
