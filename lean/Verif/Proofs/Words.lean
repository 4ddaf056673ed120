import Verif.Spec.Words
import Verif.Proofs.RawCache
import Verif.Proofs.Serialize
/-! # Lemmas about words -/

namespace Utg
open Py Spec

theorem accepted_iff {w : Word} : Accepted w ↔ WFProps w.properties ∧ w.forms.length = (invertedCache w.type).length := by
  constructor
  · rintro ⟨t, fs, ps, hps, h⟩
    unfold Word.new at h
    split at h
    · simp at h
    · rename_i hne
      injection h with h; subst h
      exact ⟨hps, by rw [← wordsCache_length]; exact Decidable.not_not.mp hne⟩
  · rintro ⟨h1, h2⟩
    refine ⟨w.type, w.forms, w.properties, h1, ?_⟩
    unfold Word.new
    rw [if_neg]
    rw [wordsCache_length]; simpa using h2

theorem new2_get {p q : Properties} (hp : WFProps p) (hq : WFProps q) (g : Group) :
    (Properties.new [.props p, .props q]).get g = if q.isSpecified g then q.get g else p.get g := by
  unfold Properties.get
  rw [new2_get? hp hq]
  simp only [Properties.isSpecified, Dict.contains]
  rcases Option.eq_none_or_eq_some (q.data.get? g) with h | ⟨v, h⟩ <;> simp [h]

theorem get_eq_ite_default (p : Properties) (g : Group) :
    p.get g = if p.isSpecified g then p.get g else documentedDefault g := by
  simp only [Properties.isSpecified, Dict.contains, Properties.get, ← defaultProperty_eq]
  rcases Option.eq_none_or_eq_some (p.data.get? g) with h | ⟨v, h⟩ <;> simp [h]

theorem effective_eq {w : Word} {p : Properties} (hw : WFProps w.properties) (hp : WFProps p) (g : Group) :
    (Properties.new [.props p, .props w.properties]).get g = effective w p g := by
  rw [new2_get hp hw, effective, ← get_eq_ite_default]

theorem setKey_foldlM (ks : List Key) : ∀ (m : Nat) (acc : List (Option Key)), acc.length = m →
    (ks.zipIdx m).foldlM setKey (acc ++ List.replicate ks.length none) = .ok (acc ++ ks.map some) := by
  induction ks with
  | nil => intro m acc h; simp; rfl
  | cons k ks ih =>
    intro m acc h
    rw [List.zipIdx_cons, List.foldlM_cons]
    have : setKey (acc ++ List.replicate (k :: ks).length none) (k, m) = .ok ((acc ++ [some k]) ++ List.replicate ks.length none) := by
      unfold setKey
      rw [if_pos (by simp [h])]
      subst h
      simp [List.replicate_succ]
    rw [this]
    have := ih (m + 1) (acc ++ [some k]) (by simp [h])
    simp only [bind, Except.bind] at *
    rw [this]; simp

theorem getKeys_eq (t : WordType) : Word.getKeys t = .ok ((invertedCache t).map some) := by
  unfold Word.getKeys
  rw [wordsCache_length, wordsCache_eq]
  have := setKey_foldlM (invertedCache t) 0 [] rfl
  simpa using this

end Utg
