import Verif.Model.Constructors
import Verif.Model.Dictionary
import Verif.Model.Lazy
import Verif.Model.Lexicon
/-!
# The shared state of the library under threads

The module-level integer cache, lazy attributes, a lexicon and a dictionary can be used by several threads. This module splits the
methods that look at shared state and then change it into steps; between any two steps other threads may run. A step is what CPython
does without switching threads in the middle: one look at, or one assignment to, a shared variable, attribute, dictionary entry or
list. Work on local data (building the tuple, computing an attribute, comparing two word forms) is one step.
-/

namespace Utg
open Py

/-! ## `construct_integer` (utg/constructors.py:47-55) -/

/-- Where a call of `construct_integer(number)` is. An object is named by the tuple it was built for, and its index there; a number
outside the range of the cache gets a tuple of its own. -/
inductive IntPC where
  /-- before line 50 -/
  | called (n : Int)
  /-- before line 51 -/
  | check (n : Int)
  /-- before the right-hand side of line 52 -/
  | build (n : Int)
  /-- before the assignment of line 52 -/
  | assign (n : Int) (id : Nat) (tuple : List WordForm)
  /-- before line 53 -/
  | load (n : Int)
  /-- finished: the name of the object and its value -/
  | returned (n : Int) (result : Except PyErr ((Nat × Nat) × WordForm))

/-- All calls, in order of their beginning, the global variable `_INTEGER_CACHE` and the next free name of a tuple. -/
structure IntThreads where
  next : Nat
  cache : Option (Nat × List WordForm)
  threads : List IntPC

/-- The generator on line 52. -/
def buildTuple (right : Nat) : Except PyErr (List WordForm) := (List.range (right + 1)).mapM fun (i : Nat) => constructIntegerFresh (i : Int)

/-- One step of a call (utg/constructors.py:47-55): the new state of the call, and the global state. `right` is
`_INTEGER_CACHE_RIGHT`. -/
def IntPC.step (right : Nat) (next : Nat) (cache : Option (Nat × List WordForm)) : IntPC → IntPC × Nat × Option (Nat × List WordForm)
  | .called n =>
    if 0 ≤ n ∧ n ≤ right then (.check n, next, cache)
    else (.returned n ((constructIntegerFresh n).map fun f => ((next, 0), f)), next + 1, cache)
  | .check n => if cache.isNone then (.build n, next, cache) else (.load n, next, cache)
  | .build n => match buildTuple right with
    | .error e => (.returned n (.error e), next, cache)
    | .ok t => (.assign n next t, next + 1, cache)
  | .assign n id t => (.load n, next, some (id, t))
  | .load n => match cache with
    | none => (.returned n (.error .TypeError), next, cache)
    | some (id, t) => match t[n.toNat]? with
      | none => (.returned n (.error .IndexError), next, cache)
      | some f => (.returned n (.ok ((id, n.toNat), f)), next, cache)
  | .returned n r => (.returned n r, next, cache)

/-- What can happen: a call begins, or a call makes a step. -/
inductive IntEvent where
  | call (n : Int)
  | run (i : Nat)

/-- The effect of an event. -/
def IntThreads.step (right : Nat) (s : IntThreads) : IntEvent → IntThreads
  | .call n => { s with threads := s.threads ++ [.called n] }
  | .run i => match s.threads[i]? with
    | none => s
    | some pc =>
      let (pc, next, cache) := pc.step right s.next s.cache
      ⟨next, cache, s.threads.set i pc⟩

/-- The state after a schedule. -/
def IntThreads.after (right : Nat) (events : List IntEvent) : IntThreads := events.foldl (IntThreads.step right) ⟨0, none, []⟩

/-! ## Lazy attributes (utg/utils.py:5-19) -/

/-- Where a read or a deletion of a lazy attribute is. -/
inductive LazyPC (V : Type) where
  /-- before line 11 -/
  | check
  /-- before the call of `func` on line 12 -/
  | compute
  /-- before `setattr` on line 12 -/
  | set (v : V)
  /-- before line 13 -/
  | get
  /-- the read is finished -/
  | read (result : Except PyErr V)
  /-- before line 16 -/
  | dcheck
  /-- before line 17 -/
  | ddel
  /-- the deletion is finished -/
  | deleted (error : Option PyErr)

/-- An object and all reads and deletions of one of its lazy attributes. -/
structure LazyThreads (S V : Type) where
  obj : LazyObj S V
  threads : List (LazyPC V)

/-- One step of a read (utg/utils.py:10-13) or a deletion (utg/utils.py:15-17). -/
def LazyPC.step {S V : Type} (func : S → V) (o : LazyObj S V) : LazyPC V → LazyPC V × LazyObj S V
  | .check => if o.hidden.isNone then (.compute, o) else (.get, o)
  | .compute => (.set (func o.state), o)
  | .set v => (.get, { o with hidden := some v })
  | .get => match o.hidden with
    | none => (.read (.error .AttributeError), o)
    | some v => (.read (.ok v), o)
  | .read r => (.read r, o)
  | .dcheck => if o.hidden.isSome then (.ddel, o) else (.deleted none, o)
  | .ddel => if o.hidden.isSome then (.deleted none, { o with hidden := none }) else (.deleted (some .AttributeError), o)
  | .deleted e => (.deleted e, o)

/-- What can happen to the object. -/
inductive LazyEvent (S : Type) where
  | read
  | delete
  | mutate (s : S)
  | run (i : Nat)

/-- The effect of an event. -/
def LazyThreads.step {S V : Type} (func : S → V) (t : LazyThreads S V) : LazyEvent S → LazyThreads S V
  | .read => { t with threads := t.threads ++ [.check] }
  | .delete => { t with threads := t.threads ++ [.dcheck] }
  | .mutate s => { t with obj := t.obj.mutate s }
  | .run i => match t.threads[i]? with
    | none => t
    | some pc => ⟨(pc.step func t.obj).2, t.threads.set i (pc.step func t.obj).1⟩

/-- A new object after a schedule. -/
def LazyThreads.after {S V : Type} (func : S → V) (s : S) (events : List (LazyEvent S)) : LazyThreads S V :=
  events.foldl (LazyThreads.step func) ⟨⟨s, none⟩, []⟩

/-! ## `Lexicon.add_template` (utg/lexicon.py:13-17) -/

variable {K T R : Type} [DecidableEq K]

/-- Where a call of `add_template` is. -/
inductive AddPC where
  /-- before line 14 -/
  | check
  /-- before line 15 -/
  | create
  /-- before `self._data[key]` on line 17 -/
  | load
  /-- before `append` on line 17, to the list with this name -/
  | append (list : Nat)
  /-- finished -/
  | done
  /-- finished with an exception -/
  | failed (e : PyErr)
  deriving DecidableEq

/-- The lists of templates, by name, and the dictionary of the lexicon, which refers to them. -/
structure SharedLexicon (K T R : Type) where
  lists : List (List (T × Finset R))
  data : Dict K Nat

/-- A call of `add_template`. -/
structure AddCall (K T R : Type) where
  key : K
  template : T
  restrictions : Finset R

/-- One step of a call of `add_template` (utg/lexicon.py:13-17). -/
def AddCall.step (l : SharedLexicon K T R) (c : AddCall K T R) : AddPC → AddPC × SharedLexicon K T R
  | .check => if Dict.contains l.data c.key then (.load, l) else (.create, l)
  | .create => (.load, ⟨l.lists ++ [[]], Dict.set l.data c.key l.lists.length⟩)
  | .load => match Dict.get? l.data c.key with
    | none => (.failed .KeyError, l)
    | some i => (.append i, l)
  | .append i => (.done, { l with lists := l.lists.modify i fun ts => ts ++ [(c.template, c.restrictions)] })
  | .done => (.done, l)
  | .failed e => (.failed e, l)

/-- A lexicon and all calls of `add_template`. -/
structure LexThreads (K T R : Type) where
  lexicon : SharedLexicon K T R
  threads : List (AddCall K T R × AddPC)

/-- What can happen: a call begins, or a call makes a step. -/
inductive LexEvent (K T R : Type) where
  | call (c : AddCall K T R)
  | run (i : Nat)

/-- The effect of an event. -/
def LexThreads.step (s : LexThreads K T R) : LexEvent K T R → LexThreads K T R
  | .call c => { s with threads := s.threads ++ [(c, .check)] }
  | .run i => match s.threads[i]? with
    | none => s
    | some (c, pc) => ⟨(c.step s.lexicon pc).2, s.threads.set i (c, (c.step s.lexicon pc).1)⟩

/-- A lexicon after a schedule, from an empty one. -/
def LexThreads.after (events : List (LexEvent K T R)) : LexThreads K T R := events.foldl LexThreads.step ⟨⟨[], []⟩, []⟩

/-- What `get_templates` looks at (utg/lexicon.py:23-25). -/
def SharedLexicon.entries (l : SharedLexicon K T R) (key : K) : List (T × Finset R) :=
  match Dict.get? l.data key with
  | none => []
  | some i => l.lists[i]?.getD []

/-! ## `Dictionary.add_word` (utg/dictionary.py:16-49) -/

/-- Where the loop of `add_word` is with one word form. -/
inductive RegPC where
  /-- before line 19 -/
  | check
  /-- before line 20, 26, 33 or 40: the entry will be assigned -/
  | put
  /-- before line 23: the entry will be read and compared -/
  | compare
  /-- finished with this word form -/
  | done
  /-- finished with an exception -/
  | failed (e : PyErr)
  deriving DecidableEq

/-- One step of registering a word form that is spelled `text` (utg/dictionary.py:19-49). -/
def regStep (d : Dictionary) (text : Str) (f : WordForm) : RegPC → RegPC × Dictionary
  | .check => if Dict.contains d text then (.compare, d) else (.put, d)
  | .put => (.done, Dict.set d text f)
  | .compare => match Dict.get? d text with
    | none => (.failed .KeyError, d)
    | some registered => if replaces f registered then (.put, d) else (.done, d)
  | .done => (.done, d)
  | .failed e => (.failed e, d)

/-- A dictionary and all word forms being registered. -/
structure DictThreads where
  dictionary : Dictionary
  threads : List ((Str × WordForm) × RegPC)

/-- What can happen: a thread begins with a word form, or makes a step. -/
inductive DictEvent where
  | register (text : Str) (f : WordForm)
  | run (i : Nat)

/-- The effect of an event. -/
def DictThreads.step (s : DictThreads) : DictEvent → DictThreads
  | .register text f => { s with threads := s.threads ++ [((text, f), .check)] }
  | .run i => match s.threads[i]? with
    | none => s
    | some (c, pc) => ⟨(regStep s.dictionary c.1 c.2 pc).2, s.threads.set i (c, (regStep s.dictionary c.1 c.2 pc).1)⟩

end Utg
