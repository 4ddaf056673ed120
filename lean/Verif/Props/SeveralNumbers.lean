import Verif.Props.Classes
import Verif.Props.NumberPhrase
import Verif.Props.Exact
import Verif.Props.Readme
import Verif.Props.Sentence
/-! # C163: several numbers named in one variable -/

namespace Utg
open Py Spec

/-- What a number demands does not depend on the number. -/
theorem demand_number (U : PyUni) (w : Word) (ρ : Reading) (n m : Int) : demand U w ρ (integerForm n) = demand U w ρ (integerForm m) := by
  by_cases h : w.type = .PREPOSITION
  · have key : ∀ k : Int, demand U w ρ (integerForm k) = if formIn w w.properties.get = [] then .error .IndexError else .ok [] := by
      intro k
      obtain ⟨c, s, hs, h1, h2⟩ := pyStr_first k
      have hsp : spoken U (integerForm k).word (integerForm k).formProperties.get = .ok (c :: s) := by
        rw [← C86_word_form U _ (integerForm_good k), integerForm_form, hs]
      have hcon : ¬ isConsonant c := by
        intro hc
        rw [List.contains_iff_mem.mpr (mem_CONSONANTS.mpr hc)] at h1
        cases h1
      have hvow : ¬ isPlainVowel c := by
        intro hc
        rw [mem_NOT_J_VOWELS.mpr hc] at h2
        cases h2
      have hcl : ¬ StartsWithCluster (c :: s) := by
        rintro ⟨d, ds, hd, hc, -⟩
        injection hd with hd _
        subst hd
        exact hcon hc
      have hex : (c :: s) ∉ [str! "всех", str! "мне", str! "всём", str! "что", str! "всей"] := by
        intro hm
        have hfirst : ∀ t ∈ [str! "всех", str! "мне", str! "всём", str! "что", str! "всей"], ∀ x y, t = x :: y → CONSONANTS.contains x = true := by
          intro t ht x y e
          subst e
          simp only [List.mem_cons, List.not_mem_nil, or_false] at ht
          rcases ht with h | h | h | h | h <;> (injection h with h _; subst h; decide +kernel)
        have := hfirst _ hm c s rfl
        rw [h1] at this; cases this
      unfold demand
      rw [h]
      dsimp only
      rw [hsp]
      by_cases he : formIn w w.properties.get = []
      · rw [if_pos he, if_pos he]
      · rw [if_neg he, if_neg he]
        simp [bind, Except.bind, prepositionDemand, hcl, hex, hvow]
    rw [key, key]
  · unfold demand
    rw [show (integerForm n).word.type = .INTEGER from rfl, show (integerForm m).word.type = .INTEGER from rfl]
    cases ht : w.type <;> first | rfl | exact absurd ht h

/-- Word forms that demand the same: the same one, or two numbers. -/
def DemandSame (f f' : WordForm) : Prop := f = f' ∨ ∃ n m, f = integerForm n ∧ f' = integerForm m

theorem agreeAll_demandSame {U : PyUni} {w : Word} {fs fs' : List WordForm} (h : List.Forall₂ DemandSame fs fs') : ∀ ρ, agreeAll U w ρ fs = agreeAll U w ρ fs' := by
  induction h with
  | nil => intro ρ; rfl
  | @cons f f' fs fs' h _ ih =>
    intro ρ
    have : demand U w ρ f = demand U w ρ f' := by
      rcases h with rfl | ⟨n, m, rfl, rfl⟩
      · rfl
      · exact demand_number U w ρ n m
    simp only [agreeAll, this]
    cases demand U w ρ f' with
    | error e => rfl
    | ok rs => exact ih _

theorem masters_numbers {ext : Externals} {a b : Str} {n m : Int} (ha : ext.get? a = some (integerForm n)) (hb : ext.get? b = some (integerForm m))
    (pre rest : List Dep) :
    (∃ e, masters ext (pre ++ .ext a :: rest) = .error e ∧ masters ext (pre ++ .ext b :: rest) = .error e) ∨
    ∃ fs fs', masters ext (pre ++ .ext a :: rest) = .ok fs ∧ masters ext (pre ++ .ext b :: rest) = .ok fs' ∧ List.Forall₂ DemandSame fs fs' := by
  have refl : ∀ fs : List WordForm, List.Forall₂ DemandSame fs fs := by
    intro fs
    induction fs with
    | nil => exact .nil
    | cons f fs ih => exact .cons (.inl rfl) ih
  induction pre with
  | nil =>
    simp only [List.nil_append, masters, ha, hb]
    cases h : masters ext rest with
    | error e => exact .inl ⟨e, rfl, rfl⟩
    | ok fs => exact .inr ⟨_, _, rfl, rfl, .cons (.inr ⟨n, m, rfl, rfl⟩) (refl fs)⟩
  | cons x pre ih =>
    cases x with
    | props p => exact ih
    | ext y =>
      simp only [List.cons_append, masters]
      cases hy : ext.get? y with
      | none => exact .inl ⟨_, rfl, rfl⟩
      | some f =>
        rcases ih with ⟨e, e1, e2⟩ | ⟨fs, fs', e1, e2, e3⟩
        · exact .inl ⟨e, by rw [e1]; rfl, by rw [e2]; rfl⟩
        · exact .inr ⟨f :: fs, f :: fs', by rw [e1]; rfl, by rw [e2]; rfl, .cons (.inl rfl) e3⟩

theorem lastSay_numbers {ext : Externals} {a b : Str} {n m : Int} (ha : ext.get? a = some (integerForm n)) (hb : ext.get? b = some (integerForm m))
    (pre mid post : List Dep) (g : Group) :
    lastSay ext g (pre ++ .ext a :: (mid ++ .ext b :: post)) = lastSay ext g (pre ++ .ext b :: (mid ++ .ext b :: post)) := by
  have hspec : ∀ k : Int, ∀ g, (integerForm k).properties.isSpecified g = true ↔ g = .INTEGER_FORM ∨ g = .NUMBER := by
    intro k g
    obtain ⟨f, hf, hf1, hf2, hf3, hf4⟩ := C35_agreement_class k
    rw [constructIntegerFresh_eq] at hf
    injection hf with hf; subst hf
    exact hf4 g
  have hsome : ∀ deps : List Dep, ∀ r, lastSay ext g deps = some r → ∀ x y : Dep, lastSay ext g (x :: deps) = lastSay ext g (y :: deps) := by
    intro deps r h x y
    simp only [lastSay, h]
  induction pre with
  | cons x pre ih => simp only [List.cons_append, lastSay, ih]
  | nil =>
    simp only [List.nil_append]
    by_cases hg : g = .INTEGER_FORM ∨ g = .NUMBER
    · have hlast : ∃ r, lastSay ext g (.ext b :: post) = some r := by
        simp only [lastSay]
        cases lastSay ext g post with
        | some r => exact ⟨r, rfl⟩
        | none =>
          simp only [depSays, hb, if_pos ((hspec m g).mpr hg)]
          have : (integerForm m).properties.get g ≠ none := by
            obtain ⟨r, -, hr⟩ := get_mem_records (integerForm_good m).2.1 (show g ≠ .WORD_TYPE by rcases hg with rfl | rfl <;> decide)
            rw [hr]; simp
          exact Option.ne_none_iff_exists'.mp this
      have hmid : ∃ r, lastSay ext g (mid ++ .ext b :: post) = some r := by
        clear hsome
        induction mid with
        | nil => exact hlast
        | cons x mid ih =>
          obtain ⟨r, hr⟩ := ih
          exact ⟨r, by simp only [List.cons_append, lastSay, hr]⟩
      obtain ⟨r, hr⟩ := hmid
      exact hsome _ r hr _ _
    · have h1 : depSays ext (.ext a) g = none := by
        simp only [depSays, ha]
        rw [if_neg (by rw [hspec]; exact hg)]
      have h2 : depSays ext (.ext b) g = none := by
        simp only [depSays, hb]
        rw [if_neg (by rw [hspec]; exact hg)]
      simp only [lastSay, h1, h2]

/-- C163: of several numbers named in one variable only the last one counts; the others do what the last would do in their place. -/
theorem C163_last_number (U : PyUni) (ext : Externals) (d : Dictionary) (id a b : Str) (pre mid post : List Dep) (n m : Int) (f g : WordForm)
    (he : GoodExternals ext) (hd : GoodDictionary d) (hs : GoodSubstitution ⟨id, pre ++ .ext a :: (mid ++ .ext b :: post)⟩)
    (hf : constructIntegerFresh n = .ok f) (hg : constructIntegerFresh m = .ok g) (ha : ext.get? a = some f) (hb : ext.get? b = some g) :
    Substitution.getText U ⟨id, pre ++ .ext a :: (mid ++ .ext b :: post)⟩ ext d =
      Substitution.getText U ⟨id, pre ++ .ext b :: (mid ++ .ext b :: post)⟩ ext d := by
  rw [constructIntegerFresh_eq] at hf hg
  injection hf with hf; injection hg with hg
  subst hf hg
  have hs' : GoodSubstitution ⟨id, pre ++ .ext b :: (mid ++ .ext b :: post)⟩ := by
    intro p hp
    apply hs p
    simp only [List.mem_append, List.mem_cons, reduceCtorEq, false_or] at hp ⊢
    exact hp
  by_cases hr : ∃ base, Resolves ext d id base
  · obtain ⟨base, hr⟩ := hr
    rw [getText_reading he hd hs (s := ⟨id, _⟩) hr, getText_reading he hd hs' (s := ⟨id, _⟩) hr]
    have hi : initialReading ext base (pre ++ .ext a :: (mid ++ .ext b :: post)) = initialReading ext base (pre ++ .ext b :: (mid ++ .ext b :: post)) := by
      funext x
      simp only [initialReading, lastSay_numbers ha hb]
    rw [hi]
    rcases masters_numbers ha hb pre (mid ++ .ext b :: post) with ⟨e, e1, e2⟩ | ⟨fs, fs', e1, e2, e3⟩
    · rw [e1, e2]
    · rw [e1, e2]
      simp only [Except.bind, agreeAll_demandSame e3]
  · unfold Substitution.getText Substitution.baseForm
    cases hx : ext.get? id with
    | some f => exact absurd ⟨f, .inl hx⟩ hr
    | none =>
      cases hy : d.getWord id with
      | ok f => exact absurd ⟨f, .inr ⟨hx, hy⟩⟩ hr
      | error e => rfl

/-- C163: with the words of the README: whatever `n` is, `[монета|n|b]` with b = 2 gives «монет» — as `[монета|b|b]` does (C67), and unlike `[монета|b]`. -/
theorem C163_coins (n : Int) :
    Substitution.getText exPy ⟨str! "монета", [.ext (str! "n"), .ext (str! "b")]⟩ [(str! "n", integerForm n), (str! "b", integerForm 2)]
        (history exPy [rmCoin]) = .ok (str! "монет") ∧
    Substitution.getText exPy ⟨str! "монета", [.ext (str! "b")]⟩ [(str! "n", integerForm n), (str! "b", integerForm 2)]
        (history exPy [rmCoin]) = .ok (str! "монеты") := by
  have hgood : GoodExternals [(str! "n", integerForm n), (str! "b", integerForm 2)] := by
    intro x f hf
    simp only [Dict.get?] at hf
    split at hf
    · injection hf with hf; subst hf; exact integerForm_good n
    · split at hf
      · injection hf with hf; subst hf; exact integerForm_good 2
      · cases hf
  have hacc : ∀ w ∈ [rmCoin], Accepted w := by intro w hw; rw [List.mem_singleton.mp hw]; exact rmCoin_accepted
  have h := C163_last_number exPy [(str! "n", integerForm n), (str! "b", integerForm 2)] (history exPy [rmCoin]) (str! "монета") (str! "n") (str! "b")
    [] [] [] n 2 _ _ hgood (goodDictionary_history exPy _ hacc) (by intro p hp; simp at hp) (constructIntegerFresh_eq n) (constructIntegerFresh_eq 2) rfl rfl
  have hget : ∀ k : List Dep, (∀ x ∈ k, x = Dep.ext (str! "b")) → Substitution.getText exPy ⟨str! "монета", k⟩ [(str! "n", integerForm n), (str! "b", integerForm 2)]
      (history exPy [rmCoin]) = Substitution.getText exPy ⟨str! "монета", k⟩ [(str! "b", integerForm 2)] (history exPy [rmCoin]) := by
    intro k hk
    have hl : listProperties [(str! "n", integerForm n), (str! "b", integerForm 2)] k = listProperties [(str! "b", integerForm 2)] k := by
      induction k with
      | nil => rfl
      | cons x k ih =>
        rw [hk x (by simp)]
        have := ih fun y hy => hk y (by simp [hy])
        simp only [listProperties, this]
        rfl
    unfold Substitution.getText
    rw [hl]
    rfl
  constructor
  · refine h.trans ?_
    show Substitution.getText exPy ⟨str! "монета", [.ext (str! "b"), .ext (str! "b")]⟩ _ _ = _
    rw [hget _ (by simp)]
    decide +kernel
  · rw [hget _ (by simp)]
    decide +kernel

end Utg
