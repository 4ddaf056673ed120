import Verif.Model.Lazy
/-!
# Specification vocabulary for lazy properties

Nothing here is used by the model.
-/

namespace Utg.Spec

/-- Something that happens to an object with a lazy attribute. -/
inductive LazyOp (S : Type) where
  | read
  | delete
  | mutate (s : S)

/-- The effect of one operation on the object. -/
def LazyOp.apply {S V : Type} (func : S → V) (o : LazyObj S V) : LazyOp S → LazyObj S V
  | .read => (o.read func).2
  | .delete => o.delete
  | .mutate s => o.mutate s

/-- The object after a sequence of operations on a new object with state `s`. -/
def lazyAfter {S V : Type} (func : S → V) (s : S) (ops : List (LazyOp S)) : LazyObj S V :=
  ops.foldl (LazyOp.apply func) ⟨s, none⟩

/-- The value a read gives after a sequence of operations. -/
def readAfter {S V : Type} (func : S → V) (s : S) (ops : List (LazyOp S)) : V := ((lazyAfter func s ops).read func).1

/-- The ordinary state of the object after a sequence of operations: that of the last mutation. -/
def stateAfter {S : Type} (s : S) : List (LazyOp S) → S
  | [] => s
  | .mutate s' :: ops => stateAfter s' ops
  | _ :: ops => stateAfter s ops

/-- The attribute was not read since creation or the last delete. -/
def Unread {S : Type} (ops : List (LazyOp S)) : Prop :=
  ∃ pre post, ops = pre ++ post ∧ (pre = [] ∨ ∃ p, pre = p ++ [.delete]) ∧ ∀ op ∈ post, ∃ s, op = .mutate s

end Utg.Spec
