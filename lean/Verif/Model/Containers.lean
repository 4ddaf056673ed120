import Verif.Model.Templates
/-!
# `externals` that are no lists

`Template.parse` and `get_undictionaried_words` only ask `name in externals`. What that means depends on what `externals` is.
-/

namespace Utg
open Py

/-- What may be given as `externals`: a collection (list, tuple, set, dictionary, ...), a string, or an iterator (also a generator). -/
inductive Container where
  | collection (members : List Str)
  | text (s : Str)
  | iterator (rest : List Str)
  deriving DecidableEq

/-- Whether `x` is found in `s`. -/
def foundIn (x : Str) : Str → Bool
  | [] => x.isPrefixOf []
  | c :: cs => x.isPrefixOf (c :: cs) || foundIn x cs

/-- `x in externals`, and what is left of `externals`: a string is searched for a part, an iterator is read up to the first `x`. -/
def Container.ask : Container → Str → Bool × Container
  | .collection members, x => (decide (x ∈ members), .collection members)
  | .text s, x => (foundIn x s, .text s)
  | .iterator rest, x =>
    match rest.dropWhile fun y => decide (y ≠ x) with
    | [] => (false, .iterator [])
    | _ :: rest => (true, .iterator rest)

/-- The loop over the parts of a variable (utg/templates.py:45-50): what is left of `externals`, and the dependencies. -/
def parsePartsIn (U : PyUni) : Container → List Str → Container × Except PyErr (List Dep)
  | externals, [] => (externals, .ok [])
  | externals, slug :: slugs =>
    let slug := strip U (U.lower slug)
    match externals.ask slug with
    | (true, externals) =>
      match parsePartsIn U externals slugs with
      | (externals, .ok deps) => (externals, .ok (.ext slug :: deps))
      | (externals, .error e) => (externals, .error e)
    | (false, externals) =>
      match parseProperties slug with
      | .error e => (externals, .error e)
      | .ok p =>
        match parsePartsIn U externals slugs with
        | (externals, .ok deps) => (externals, .ok (.props p :: deps))
        | (externals, .error e) => (externals, .error e)

/-- `Substitution.parse(variable, externals)` (utg/templates.py:34-57). -/
def Substitution.parseIn (U : PyUni) (variable_ : Str) (externals : Container) : Container × Except PyErr Substitution :=
  match split '|' (slice1m1 variable_) with
  | [] => (externals, .error .IndexError)    -- `slugs[0]`; unreachable, `split` is never empty
  | head :: slugs =>
    if head = [] then (externals, .error (.WrongDependencyFormatError variable_))
    else match parsePartsIn U externals slugs with
      | (externals, .error e) => (externals, .error e)
      | (externals, .ok deps) =>
        (externals, do
          let id := strip U head
          let c ← Py.first id                -- line 52: `s.id[0]`
          let deps := if U.isUpper c then deps ++ [.props (.new [.record .WORD_CASE_UPPER])] else deps
          .ok ⟨U.lower id, deps⟩)

/-- The loop of `Template.parse` (utg/templates.py:163-165). -/
def parseLoopIn (U : PyUni) : Container → List Str → List Substitution → Str → Container × List Substitution × Except PyErr Str
  | externals, [], subs, text => (externals, subs, .ok text)
  | externals, v :: vs, subs, text =>
    match Substitution.parseIn U v externals with
    | (externals, .error e) => (externals, subs, .error e)
    | (externals, .ok s) => parseLoopIn U externals vs (subs ++ [s]) (replaceFirst v (str! "%s") text)

/-- `t.parse(text, externals)` (utg/templates.py:157-167): what is left of `externals`, the object afterwards and the exception raised, if
any. -/
def Template.parseIn (U : PyUni) (t : Template) (text : Str) (externals : Container) : Container × Template × Option PyErr :=
  let text := replaceChar '%' (str! "%%") text
  match parseLoopIn U externals (findall text) t.substitutions text with
  | (externals, subs, .ok text) => (externals, ⟨subs, some text⟩, none)
  | (externals, subs, .error e) => (externals, ⟨subs, t.template⟩, some e)

/-- The loop of `get_undictionaried_words` (utg/templates.py:145-153). -/
def undictionariedIn (dictionary : Dictionary) : Container → List Substitution → Container × List Str
  | externals, [] => (externals, [])
  | externals, s :: ss =>
    match externals.ask s.id with
    | (true, externals) => undictionariedIn dictionary externals ss
    | (false, externals) =>
      if dictionary.hasWord s.id then undictionariedIn dictionary externals ss
      else
        let (externals, words) := undictionariedIn dictionary externals ss
        (externals, s.id :: words)

/-- `t.get_undictionaried_words(externals, dictionary)` (utg/templates.py:142-155): what is left of `externals`, and the result. -/
def Template.getUndictionariedWordsIn (t : Template) (externals : Container) (dictionary : Dictionary) : Container × List Str :=
  undictionariedIn dictionary externals t.substitutions

end Utg
