import Verif.Model.Threads
/-! # What threads should see -/

namespace Utg.Spec
open Py

/-- The numbers asked for, in the order of the calls. -/
def numbers : List IntEvent → List Int
  | [] => []
  | .call n :: es => n :: numbers es
  | .run _ :: es => numbers es

/-- How many steps call `i` is given. -/
def stepsOf (i : Nat) : List IntEvent → Nat
  | [] => 0
  | .run j :: es => (if j = i then 1 else 0) + stepsOf i es
  | .call _ :: es => stepsOf i es

/-- The cache is there and nobody is about to replace it. -/
def Settled (s : IntThreads) (tuple : Nat) : Prop :=
  (∃ t, s.cache = some (tuple, t)) ∧ ∀ pc ∈ s.threads, match pc with
    | .build _ | .assign _ _ _ => False
    | _ => True

/-- The states an object had. -/
def statesOf {S : Type} (s : S) : List (LazyEvent S) → List S
  | [] => [s]
  | .mutate s' :: es => s :: statesOf s' es
  | _ :: es => statesOf s es

/-- The word forms whose registration under `text` is finished. -/
def finished (s : DictThreads) (text : Str) : List WordForm :=
  s.threads.filterMap fun c => if c.1.1 = text ∧ c.2 = .done then some c.1.2 else none

/-- The templates of the finished calls for a key. -/
def finishedFor {K T R : Type} [DecidableEq K] (key : K) (calls : List (AddCall K T R × AddPC)) : List (T × Finset R) :=
  calls.filterMap fun c => if c.1.key = key ∧ c.2 = .done then some (c.1.template, c.1.restrictions) else none

/-- A dictionary after a schedule. -/
def dictionaryAfter (d : Dictionary) (events : List DictEvent) : DictThreads := events.foldl DictThreads.step ⟨d, []⟩

/-- Registrations under `text` do not overlap: at no time are two of them begun (their first look at the dictionary is made) and not
finished. -/
def OneAtATime (d : Dictionary) (text : Str) (events : List DictEvent) : Prop :=
  ∀ before later, events = before ++ later → ∀ (i j : Nat) (f g : WordForm) (p q : RegPC),
    (dictionaryAfter d before).threads[i]? = some ((text, f), p) → (dictionaryAfter d before).threads[j]? = some ((text, g), q) →
    p ∈ [RegPC.put, .compare] → q ∈ [RegPC.put, .compare] → i = j

end Utg.Spec
