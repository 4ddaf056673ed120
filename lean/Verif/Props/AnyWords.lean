import Verif.Spec.AnyWords
import Verif.Props.AnyJson
import Verif.Props.Autofill
import Verif.Props.Transformators
/-!
# C149: words loaded from any JSON document, in use
-/

namespace Utg
open Py Spec

theorem truth_iff (x : Json) : x.given = false ↔ Missing x := by
  constructor
  · intro h
    cases x with
    | null => exact .null
    | bool b => cases b with
      | false => exact .no
      | true => cases h
    | int n => simp [Json.given] at h; subst h; exact .zero
    | float w n => simp [Json.given] at h; subst h; exact .zeroFloat w
    | str s => simp [Json.given] at h; subst h; exact .text
    | arr l => simp [Json.given] at h; subst h; exact .list
    | obj l => simp [Json.given] at h; subst h; exact .object
  · intro h; cases h <;> rfl

theorem truth_iff' (x : Json) : x.given = true ↔ ¬ Missing x := by
  rw [← truth_iff]; cases x.given <;> simp

/-! ## objects -/

/-- C149: if the forms were an object, nothing that looks at them works. -/
theorem C149_object (U : PyUni) (t : WordType) (ps p : Properties) (hps : WFProps ps) (hp : WFProps p) (items : List (Str × Json))
    (hn : items.length = slotCount t) :
    let w : LoadedWord := ⟨t, .obj items, ps⟩
    (∃ k, w.numberOfSyllables = .error (.KeyError k)) ∧ (∃ k, w.hasFluentVowel = .error (.KeyError k)) ∧
    (∃ k, w.autofillMissedForms = .error (.KeyError k)) ∧ ∃ k, w.spell U p = .error (.KeyError k) := by
  have hpos : 0 < slotCount t := by cases t <;> decide
  refine ⟨⟨_, rfl⟩, ⟨_, rfl⟩, ⟨pyStr 0, ?_⟩, ?_⟩
  · unfold LoadedWord.autofillMissedForms availableKeysAny
    obtain ⟨n, hm⟩ : ∃ n, items.length = n + 1 := ⟨items.length - 1, by omega⟩
    simp only [Json.size, hm, bind, Except.bind, List.range_succ_eq_map, List.mapM_cons, availableKeyAny, Json.nth]
    rfl
  · obtain ⟨i, -, -, -, -, h⟩ := C142_form t ps p hps hp
    obtain ⟨k, hk⟩ := h items
    refine ⟨k, ?_⟩
    unfold LoadedWord.spell
    rw [hk]; rfl

/-! ## vowels -/

theorem joinVowels_ok {l : List Json} (h : ∀ x ∈ l, ¬ IsCompound x) : joinVowels l = .ok (l.filterMap vowel) := by
  induction l with
  | nil => rfl
  | cons x l ih =>
    have hx := h x (by simp)
    have ih := ih fun y hy => h y (by simp [hy])
    unfold joinVowels
    split
    · rename_i h; cases h
    · rename_i c rest heq
      injection heq with h1 h2
      subst h1 h2
      rw [ih]
      by_cases hc : c ∈ VOWELS <;> simp [bind, Except.bind, vowel, hc]
    · rename_i heq; injection heq with h1 h2; subst h1; exact absurd (.arr _) hx
    · rename_i heq; injection heq with h1 h2; subst h1; exact absurd (.obj _) hx
    · rename_i y rest hn1 hn2 hn3 heq
      injection heq with h1 h2
      subst h1 h2
      rw [ih]
      have : vowel x = none := by
        unfold vowel
        split
        · exact absurd rfl (hn1 _)
        · rfl
      simp [this]

theorem joinVowels_error {l : List Json} {e : LoadErr} (h : joinVowels l = .error e) : e = .TypeError ∧ ∃ x ∈ l, IsCompound x := by
  induction l with
  | nil => cases h
  | cons x l ih =>
    unfold joinVowels at h
    split at h
    · rename_i h'; cases h'
    · rename_i c rest heq
      injection heq with h1 h2
      subst h1 h2
      cases hj : joinVowels l with
      | ok r => rw [hj] at h; cases h
      | error e' =>
        rw [hj] at h
        injection h with h
        subst h
        obtain ⟨h1, y, hy, hc⟩ := ih hj
        exact ⟨h1, y, by simp [hy], hc⟩
    · rename_i heq; injection heq with h1 h2; subst h1; injection h with h; exact ⟨h.symm, _, List.mem_cons_self, .arr _⟩
    · rename_i heq; injection heq with h1 h2; subst h1; injection h with h; exact ⟨h.symm, _, List.mem_cons_self, .obj _⟩
    · rename_i heq
      injection heq with h1 h2
      subst h1 h2
      obtain ⟨h1, y, hy, hc⟩ := ih h
      exact ⟨h1, y, by simp [hy], hc⟩

theorem vowels_ok {x : Json} {s : Str} : x.vowels = .ok s ↔ HasVowels x s := by
  constructor
  · intro h
    unfold Json.vowels at h
    cases hi : x.iterate with
    | error e => rw [hi] at h; cases h
    | ok parts =>
      rw [hi] at h
      have hp := (iterate_ok).mp hi
      by_cases hc : ∃ y ∈ parts, IsCompound y
      · exfalso
        have : joinVowels parts = .ok s := h
        clear h hp hi
        induction parts generalizing s with
        | nil => simp at hc
        | cons y l ih =>
          unfold joinVowels at this
          split at this
          · rename_i h'; cases h'
          · rename_i c rest heq
            injection heq with h1 h2
            subst h1 h2
            obtain ⟨z, hz, hcz⟩ := hc
            rcases List.mem_cons.mp hz with rfl | hz
            · cases hcz
            · cases hj : joinVowels l with
              | error e => rw [hj] at this; cases this
              | ok r => exact ih ⟨z, hz, hcz⟩ hj
          · cases this
          · cases this
          · rename_i hn1 hn2 hn3 heq
            injection heq with h1 h2
            subst h1 h2
            obtain ⟨z, hz, hcz⟩ := hc
            rcases List.mem_cons.mp hz with rfl | hz
            · cases hcz
              · exact hn2 _ rfl
              · exact hn3 _ rfl
            · exact ih ⟨z, hz, hcz⟩ this
      · have hc' : ∀ y ∈ parts, ¬ IsCompound y := fun y hy hcy => hc ⟨y, hy, hcy⟩
        have : joinVowels parts = .ok s := h
        rw [joinVowels_ok hc'] at this
        injection this with this
        exact ⟨parts, hp, hc', this.symm⟩
  · rintro ⟨parts, hp, hc, rfl⟩
    unfold Json.vowels
    rw [iterate_ok.mpr hp]
    exact joinVowels_ok hc

theorem vowels_error {x : Json} (h : ¬ Voiced x) : x.vowels = .error .TypeError := by
  cases hv : x.vowels with
  | ok s => exact absurd ⟨s, vowels_ok.mp hv⟩ h
  | error e =>
    unfold Json.vowels at hv
    cases hi : x.iterate with
    | error e' =>
      rw [hi] at hv
      injection hv with hv
      rw [← hv, (iterate_error hi).1]
    | ok parts =>
      rw [hi] at hv
      exact congrArg _ (joinVowels_error hv).1

theorem hasVowels_unique {x : Json} {s s' : Str} (h : HasVowels x s) (h' : HasVowels x s') : s = s' := by
  rw [← vowels_ok] at h h'
  rw [h] at h'; injection h'

theorem fluentLoop_true {base : Str} {l : List Json} : fluentLoop base l = .ok true ↔
    ∃ pre x post, l = pre ++ x :: post ∧ Breaks base x ∧ ∀ y ∈ pre, Missing y ∨ Voiced y := by
  induction l with
  | nil => simp [fluentLoop]
  | cons x l ih =>
    unfold fluentLoop
    by_cases ht : x.given = true
    · rw [if_pos ht]
      have hb := (truth_iff' x).mp ht
      cases hv : x.vowels with
      | error e =>
        have hnv : ¬ Voiced x := fun ⟨s, hs⟩ => by rw [vowels_ok.mpr hs] at hv; cases hv
        simp only [bind, Except.bind]
        constructor
        · intro h; cases h
        · rintro ⟨pre, y, post, he, hy, hpre⟩
          cases pre with
          | nil =>
            simp only [List.nil_append, List.cons.injEq] at he
            obtain ⟨rfl, -⟩ := he
            obtain ⟨-, s, hs, -⟩ := hy
            exact absurd ⟨s, hs⟩ hnv
          | cons z pre =>
            simp only [List.cons_append, List.cons.injEq] at he
            obtain ⟨rfl, -⟩ := he
            rcases hpre x (by simp) with h | h
            · exact absurd h hb
            · exact absurd h hnv
      | ok v =>
        simp only [bind, Except.bind]
        by_cases hp : base.isPrefixOf v = true
        · rw [if_pos hp, ih]
          have hp' : base <+: v := List.isPrefixOf_iff_prefix.mp hp
          constructor
          · rintro ⟨pre, y, post, rfl, hy, hpre⟩
            refine ⟨x :: pre, y, post, rfl, hy, ?_⟩
            intro z hz
            rcases List.mem_cons.mp hz with rfl | hz
            · exact .inr ⟨v, vowels_ok.mp hv⟩
            · exact hpre z hz
          · rintro ⟨pre, y, post, he, hy, hpre⟩
            cases pre with
            | nil =>
              simp only [List.nil_append, List.cons.injEq] at he
              obtain ⟨rfl, -⟩ := he
              obtain ⟨-, s, hs, hns⟩ := hy
              rw [hasVowels_unique hs (vowels_ok.mp hv)] at hns
              exact absurd hp' hns
            | cons z pre =>
              simp only [List.cons_append, List.cons.injEq] at he
              obtain ⟨-, rfl⟩ := he
              exact ⟨pre, y, post, rfl, hy, fun z hz => hpre z (by simp [hz])⟩
        · rw [if_neg hp]
          refine ⟨fun _ => ⟨[], x, l, rfl, ⟨hb, v, vowels_ok.mp hv, ?_⟩, by simp⟩, fun _ => rfl⟩
          rw [← List.isPrefixOf_iff_prefix]; exact hp
    · rw [if_neg ht, ih]
      have hb := (truth_iff x).mp (by simpa using ht)
      constructor
      · rintro ⟨pre, y, post, rfl, hy, hpre⟩
        refine ⟨x :: pre, y, post, rfl, hy, ?_⟩
        intro z hz
        rcases List.mem_cons.mp hz with rfl | hz
        · exact .inl hb
        · exact hpre z hz
      · rintro ⟨pre, y, post, he, hy, hpre⟩
        cases pre with
        | nil =>
          simp only [List.nil_append, List.cons.injEq] at he
          obtain ⟨rfl, -⟩ := he
          exact absurd hb hy.1
        | cons z pre =>
          simp only [List.cons_append, List.cons.injEq] at he
          obtain ⟨-, rfl⟩ := he
          exact ⟨pre, y, post, rfl, hy, fun z hz => hpre z (by simp [hz])⟩

theorem fluentLoop_false {base : Str} {l : List Json} : fluentLoop base l = .ok false ↔
    ∀ x ∈ l, Missing x ∨ ∃ s, HasVowels x s ∧ base <+: s := by
  induction l with
  | nil => simp [fluentLoop]
  | cons x l ih =>
    unfold fluentLoop
    simp only [List.forall_mem_cons]
    by_cases ht : x.given = true
    · rw [if_pos ht]
      have hb := (truth_iff' x).mp ht
      cases hv : x.vowels with
      | error e =>
        simp only [bind, Except.bind]
        constructor
        · intro h; cases h
        · rintro ⟨h | ⟨s, hs, -⟩, -⟩
          · exact absurd h hb
          · rw [vowels_ok.mpr hs] at hv; cases hv
      | ok v =>
        simp only [bind, Except.bind]
        by_cases hp : base.isPrefixOf v = true
        · rw [if_pos hp, ih]
          exact ⟨fun h => ⟨.inr ⟨v, vowels_ok.mp hv, List.isPrefixOf_iff_prefix.mp hp⟩, h⟩, fun h => h.2⟩
        · rw [if_neg hp]
          constructor
          · intro h; cases h
          · rintro ⟨h | ⟨s, hs, hps⟩, -⟩
            · exact absurd h hb
            · rw [hasVowels_unique hs (vowels_ok.mp hv)] at hps
              exact absurd (List.isPrefixOf_iff_prefix.mpr hps) hp
    · rw [if_neg ht, ih]
      exact ⟨fun h => ⟨.inl ((truth_iff x).mp (by simpa using ht)), h⟩, fun h => h.2⟩

theorem fluentLoop_error {base : Str} {l : List Json} {e : LoadErr} (h : fluentLoop base l = .error e) :
    e = .TypeError ∧ ∃ x ∈ l, ¬ Missing x ∧ ¬ Voiced x := by
  induction l with
  | nil => cases h
  | cons x l ih =>
    unfold fluentLoop at h
    by_cases ht : x.given = true
    · rw [if_pos ht] at h
      have hb := (truth_iff' x).mp ht
      by_cases hv : Voiced x
      · obtain ⟨v, hv⟩ := hv
        rw [vowels_ok.mpr hv] at h
        simp only [bind, Except.bind] at h
        by_cases hp : base.isPrefixOf v = true
        · rw [if_pos hp] at h
          obtain ⟨h1, y, hy, hb⟩ := ih h
          exact ⟨h1, y, by simp [hy], hb⟩
        · rw [if_neg hp] at h; cases h
      · rw [vowels_error hv] at h
        injection h with h
        exact ⟨h.symm, x, by simp, hb, hv⟩
    · rw [if_neg ht] at h
      obtain ⟨h1, y, hy, hb⟩ := ih h
      exact ⟨h1, y, by simp [hy], hb⟩

/-- C149: whether a word with a list of forms has a fluent vowel. It has one if some given form breaks the vowels of the first one, and all
given forms before that have vowels at all; it has none if the vowels of all given forms begin with those of the first one; otherwise `TypeError`
is raised: the first form, or a given form that is looked at, is no text and no list or object of plain values. -/
theorem C149_fluent (t : WordType) (ps : Properties) (first : Json) (rest : List Json) :
    let w : LoadedWord := ⟨t, .arr (first :: rest), ps⟩
    (w.hasFluentVowel = .ok true ↔ ∃ base, HasVowels first base ∧
      ∃ pre x post, rest = pre ++ x :: post ∧ Breaks base x ∧ ∀ y ∈ pre, Missing y ∨ Voiced y) ∧
    (w.hasFluentVowel = .ok false ↔ ∃ base, HasVowels first base ∧ ∀ x ∈ rest, Missing x ∨ ∃ s, HasVowels x s ∧ base <+: s) ∧
    (∀ e, w.hasFluentVowel = .error e → e = .TypeError ∧ (¬ Voiced first ∨ ∃ x ∈ rest, ¬ Missing x ∧ ¬ Voiced x)) := by
  intro w
  have hw : w.hasFluentVowel = (do let base ← first.vowels; fluentLoop base rest) := rfl
  rw [hw]
  by_cases hv : Voiced first
  · obtain ⟨base, hb⟩ := hv
    rw [vowels_ok.mpr hb]
    simp only [bind, Except.bind]
    refine ⟨?_, ?_, fun e h => ?_⟩
    · rw [fluentLoop_true]
      constructor
      · exact fun h => ⟨base, hb, h⟩
      · rintro ⟨b, hb', h⟩; rw [hasVowels_unique hb hb']; exact h
    · rw [fluentLoop_false]
      constructor
      · exact fun h => ⟨base, hb, h⟩
      · rintro ⟨b, hb', h⟩; rw [hasVowels_unique hb hb']; exact h
    · obtain ⟨h1, h2⟩ := fluentLoop_error h
      exact ⟨h1, .inr h2⟩
  · rw [vowels_error hv]
    simp only [bind, Except.bind]
    refine ⟨⟨fun h => (by cases h), fun ⟨b, hb, _⟩ => absurd ⟨b, hb⟩ hv⟩, ⟨fun h => (by cases h), fun ⟨b, hb, _⟩ => absurd ⟨b, hb⟩ hv⟩,
      fun e h => ?_⟩
    injection h with h
    exact ⟨h.symm, .inl hv⟩

/-! ## texts -/

theorem vowels_char (c : Char) : (Json.str [c]).vowels = .ok (if c ∈ VOWELS then [c] else []) := by
  rw [vowels_ok]
  refine ⟨[.str [c]], .str [c], ?_, ?_⟩
  · intro x hx; rw [List.mem_singleton.mp hx]; exact fun h => by cases h
  · by_cases h : c ∈ VOWELS <;> simp [vowel, h]

theorem sum_count_vowels (s : Str) : (VOWELS.map fun char => s.count char).sum = (s.filter fun c => c ∈ VOWELS).length := by
  have hn : VOWELS.Nodup := by decide
  generalize VOWELS = V at hn ⊢
  induction V with
  | nil => simp
  | cons v V ih =>
    obtain ⟨hv, hn⟩ := List.nodup_cons.mp hn
    rw [List.map_cons, List.sum_cons, ih hn]
    clear ih
    induction s with
    | nil => simp
    | cons c s ih =>
      by_cases hcv : c = v
      · subst hcv
        simp [hv] at ih ⊢
        omega
      · by_cases hcV : c ∈ V <;> simp [hcv, hcV] at ih ⊢ <;> omega

/-- C149: if the forms were one text, of as many characters as there should be forms, each character is a form: the word has one syllable; it
has a fluent vowel if it begins with a vowel and has another character; `autofill_missed_forms` leaves it as it is. -/
theorem C149_text (t : WordType) (ps : Properties) (c : Char) (s : Str) (hn : (c :: s).length = slotCount t) :
    let w : LoadedWord := ⟨t, .str (c :: s), ps⟩
    w.numberOfSyllables = .ok 1 ∧ w.hasFluentVowel = .ok (decide (c ∈ VOWELS ∧ ∃ d ∈ s, d ≠ c)) ∧ w.autofillMissedForms = .ok w := by
  refine ⟨?_, ?_, ?_⟩
  · unfold LoadedWord.numberOfSyllables
    have : VOWELS.mapM (fun char => (Json.str [c]).countChar char) = .ok (VOWELS.map fun char => [c].count char) := by
      generalize VOWELS = V
      induction V with
      | nil => rfl
      | cons v V ih => rw [List.mapM_cons, ih]; rfl
    simp only [Json.nth, List.getElem?_cons_zero, bind, Except.bind, this, sum_count_vowels]
    by_cases h : c ∈ VOWELS <;> simp [h]
  · have hb := vowels_char c
    unfold LoadedWord.hasFluentVowel
    simp only [Json.nth, List.getElem?_cons_zero, bind, Except.bind, hb, Json.others, List.drop_one, List.tail_cons]
    have hvc : ∀ d : Char, HasVowels (.str [d]) (if d ∈ VOWELS then [d] else []) := fun d => vowels_ok.mp (vowels_char d)
    have hnb : ∀ d : Char, ¬ Missing (.str [d]) := fun d h => by cases h
    by_cases h : c ∈ VOWELS ∧ ∃ d ∈ s, d ≠ c
    · obtain ⟨hc, d, hd, hdc⟩ := h
      rw [decide_eq_true (⟨hc, d, hd, hdc⟩ : c ∈ VOWELS ∧ ∃ d ∈ s, d ≠ c), fluentLoop_true]
      obtain ⟨pre, post, rfl⟩ := List.append_of_mem hd
      refine ⟨pre.map fun c => .str [c], .str [d], post.map fun c => .str [c], by simp, ⟨hnb d, _, hvc d, ?_⟩, ?_⟩
      · rw [if_pos hc]
        intro hp
        obtain ⟨rest, hr⟩ := hp
        by_cases hd' : d ∈ VOWELS
        · rw [if_pos hd'] at hr; injection hr with h1 _; exact hdc h1.symm
        · rw [if_neg hd'] at hr; cases hr
      · intro y hy
        obtain ⟨e, -, rfl⟩ := List.mem_map.mp hy
        exact .inr ⟨_, hvc e⟩
    · rw [decide_eq_false h, fluentLoop_false]
      intro x hx
      obtain ⟨d, hd, rfl⟩ := List.mem_map.mp hx
      refine .inr ⟨_, hvc d, ?_⟩
      by_cases hc : c ∈ VOWELS
      · have : d = c := by
          by_contra hdc
          exact h ⟨hc, d, hd, hdc⟩
        subst this
        exact List.prefix_rfl
      · rw [if_neg hc]; exact List.nil_prefix
  · generalize hs : c :: s = text at hn ⊢
    have hlen : text.length = (invertedCache t).length := by rw [hn, ← cache_slots, wordsCache_length]
    have hnth : ∀ i < text.length, ∃ d, (Json.str text).nth i = .ok (.str [d]) := by
      intro i hi
      refine ⟨text[i], ?_⟩
      simp [Json.nth, hi]
    have hav : ∃ av, availableKeysAny t (.str text) = .ok av := by
      unfold availableKeysAny
      simp only [Json.size, bind, Except.bind]
      obtain ⟨bs, hbs⟩ := mapM_of_all (l := List.range text.length) (f := availableKeyAny t (.str text)) (by
        intro i hi
        have hi := List.mem_range.mp hi
        obtain ⟨d, hd⟩ := hnth i hi
        have hk : i < (invertedCache t).length := by omega
        exact ⟨some (invertedCache t)[i], by simp [availableKeyAny, bind, Except.bind, hd, Json.given, hk]⟩)
      exact ⟨bs.filterMap id, by rw [hbs]⟩
    obtain ⟨av, hav⟩ := hav
    unfold LoadedWord.autofillMissedForms
    simp only [hav, Json.size, bind, Except.bind]
    have hfold : ∀ l : List Nat, (∀ i ∈ l, i < text.length) → l.foldlM (autofillStepAny t av) (.str text) = .ok (.str text) := by
      intro l
      induction l with
      | nil => intro _; rfl
      | cons i l ih =>
        intro hl
        obtain ⟨d, hd⟩ := hnth i (hl i (by simp))
        have : autofillStepAny t av (.str text) i = .ok (.str text) := by
          unfold autofillStepAny
          rw [hd]; rfl
        rw [List.foldlM_cons, this]
        exact ih fun j hj => hl j (by simp [hj])
    rw [hfold _ fun i hi => List.mem_range.mp hi]

/-! ## lists -/

/-- The letter that `x` is, if it is a text of one letter. -/
def letterOf : Json → Option Char
  | .str [c] => some c
  | _ => none

theorem letter_cases (x : Json) : (∃ c, x = .str [c]) ∨ (letterOf x = none ∧ vowel x = none) := by
  cases x with
  | str s => match s with
    | [] => exact .inr ⟨rfl, rfl⟩
    | [c] => exact .inl ⟨c, rfl⟩
    | _ :: _ :: _ => exact .inr ⟨rfl, rfl⟩
  | _ => exact .inr ⟨rfl, rfl⟩

theorem countP_isChar (v : Char) (items : List Json) : items.countP (Json.isChar v) = (items.filterMap letterOf).count v := by
  induction items with
  | nil => rfl
  | cons x items ih =>
    rw [List.countP_cons, ih]
    cases x with
    | str s => match s with
      | [] => rw [List.filterMap_cons_none rfl]; simp [Json.isChar]
      | [c] => by_cases h : c = v <;> simp [letterOf, Json.isChar, h]
      | _ :: _ :: _ => rw [List.filterMap_cons_none rfl]; simp [Json.isChar]
    | _ => rw [List.filterMap_cons_none rfl]; simp [Json.isChar]

/-- C149: the number of syllables of a word with a list of forms: that of the first form, if it is a text; if it is a list, the number of
vowels among its items, but at least 1; otherwise `AttributeError` is raised. -/
theorem C149_syllables (t : WordType) (ps : Properties) (first : Json) (rest : List Json) :
    let w : LoadedWord := ⟨t, .arr (first :: rest), ps⟩
    (∀ s, first = .str s → w.numberOfSyllables = .ok (max 1 (s.filter fun c => c ∈ VOWELS).length)) ∧
    (∀ items, first = .arr items → w.numberOfSyllables = .ok (max 1 (items.filterMap vowel).length)) ∧
    ((∀ s, first ≠ .str s) → (∀ items, first ≠ .arr items) → w.numberOfSyllables = .error .AttributeError) := by
  intro w
  have hw : w.numberOfSyllables = (do let counts ← VOWELS.mapM fun char => first.countChar char; .ok (max 1 counts.sum)) := rfl
  rw [hw]
  refine ⟨?_, ?_, ?_⟩
  · rintro s rfl
    have : VOWELS.mapM (fun char => (Json.str s).countChar char) = .ok (VOWELS.map fun char => s.count char) := by
      generalize VOWELS = V
      induction V with
      | nil => rfl
      | cons v V ih => rw [List.mapM_cons, ih]; rfl
    rw [this]
    simp only [bind, Except.bind, sum_count_vowels]
  · rintro items rfl
    have : VOWELS.mapM (fun char => (Json.arr items).countChar char) = .ok (VOWELS.map fun char => items.countP (Json.isChar char)) := by
      generalize VOWELS = V
      induction V with
      | nil => rfl
      | cons v V ih => rw [List.mapM_cons, ih]; rfl
    rw [this]
    simp only [bind, Except.bind]
    have hcount : ∀ v : Char, items.countP (Json.isChar v) = (items.filterMap letterOf).count v := fun v => countP_isChar v items
    simp only [hcount, sum_count_vowels]
    congr 2
    induction items with
    | nil => rfl
    | cons x items ih =>
      have ih' := ih rfl rfl (fun v => countP_isChar v items)
      rcases letter_cases x with ⟨c, rfl⟩ | ⟨h1, h2⟩
      · by_cases hc : c ∈ VOWELS <;> simp [letterOf, vowel, hc] at ih' ⊢ <;> exact ih'
      · simp [h1, h2] at ih' ⊢; exact ih'
  · intro h1 h2
    cases first with
    | str s => exact absurd rfl (h1 s)
    | arr l => exact absurd rfl (h2 l)
    | null => rfl
    | bool b => rfl
    | int n => rfl
    | float a b => rfl
    | obj l => rfl

/-! ## filling -/

theorem forall₂_set {α β : Type} {R : α → β → Prop} {xs : List α} {ys : List β} (h : List.Forall₂ R xs ys) (i : Nat) {x : α} {y : β}
    (hr : R x y) : List.Forall₂ R (xs.set i x) (ys.set i y) := by
  induction h generalizing i with
  | nil => exact .nil
  | cons h1 h2 ih => cases i with
    | zero => exact .cons hr h2
    | succ i => exact .cons h1 (ih i)

/-- A list of anything beside a list of texts: where the one has something given, the other has a text, and `R` relates them. -/
theorem available_sim {R : Json → Str → Prop} (hR : ∀ x s, R x s → (x.given = true ↔ s ≠ [])) {t : WordType} {xs : List Json} {ss : List Str}
    (h : List.Forall₂ R xs ss) {av : List Key} (ha : availableKeys t ss = .ok av) : availableKeysAny t (.arr xs) = .ok av := by
  unfold availableKeys at ha
  simp only [bind, Except.bind] at ha
  split at ha
  · cases ha
  rename_i ks hks
  injection ha with ha
  subst ha
  have h2 := forall₂_of_mapM_any hks
  unfold availableKeysAny
  simp only [Json.size, bind, Except.bind, h.length_eq]
  have : (List.range ss.length).mapM (availableKeyAny t (.arr xs)) = .ok ks := by
    have hmem : ∀ i ∈ List.range ss.length, i < ss.length := fun i hi => List.mem_range.mp hi
    clear hks
    generalize List.range ss.length = range at h2 hmem ⊢
    induction h2 with
    | nil => rfl
    | @cons i k is ks hik _ ih =>
      rw [List.mapM_cons, ih fun j hj => hmem j (by simp [hj])]
      have hi : i < ss.length := hmem i (by simp)
      have hi' : i < xs.length := by rw [h.length_eq]; exact hi
      have hr := h.get hi' hi
      have hk : availableKeyAny t (.arr xs) i = .ok k := by
        simp only [List.getElem?_eq_getElem hi] at hik
        simp only [availableKeyAny, Json.nth, List.getElem?_eq_getElem hi', bind, Except.bind]
        have hr := hR _ _ hr
        simp only [List.get_eq_getElem] at hr
        cases hs : ss[i] with
        | nil =>
          rw [hs] at hik hr
          have : xs[i].given = false := by simpa using hr
          rw [this]
          injection hik with hik
          subst hik
          rfl
        | cons c cs =>
          rw [hs] at hik hr
          have : xs[i].given = true := hr.mpr (by simp)
          rw [this, if_pos rfl]
          simp only at hik
          cases hc : (invertedCache t)[i]? with
          | none => rw [hc] at hik; cases hik
          | some key => rw [hc] at hik; injection hik with hik; subst hik; rfl
      rw [hk]; rfl
  rw [this]

theorem step_sim {R : Json → Str → Prop} (hR : ∀ x s, R x s → (x.given = true ↔ s ≠ [])) {t : WordType} {av : List Key} {xs : List Json}
    {ss ss' : List Str} (h : List.Forall₂ R xs ss) {i : Nat} (hs : autofillStep t av ss i = .ok ss') :
    ∃ xs', autofillStepAny t av (.arr xs) i = .ok (.arr xs') ∧ List.Forall₂ R xs' ss' := by
  unfold autofillStep at hs
  cases hi : ss[i]? with
  | none => rw [hi] at hs; cases hs
  | some s =>
    rw [hi] at hs
    simp only at hs
    obtain ⟨hlt, hse⟩ := List.getElem?_eq_some_iff.mp hi
    have hlt' : i < xs.length := by rw [h.length_eq]; exact hlt
    have hr := h.get hlt' hlt
    simp only [List.get_eq_getElem, hse] at hr
    have hr' := hR _ _ hr
    unfold autofillStepAny
    simp only [Json.nth, List.getElem?_eq_getElem hlt', bind, Except.bind]
    by_cases hne : s ≠ []
    · rw [if_pos hne] at hs
      injection hs with hs
      subst hs
      rw [if_pos (hr'.mpr hne)]
      exact ⟨xs, rfl, h⟩
    · rw [if_neg hne] at hs
      rw [if_neg fun ht => hne (hr'.mp ht)]
      cases hk : (invertedCache t)[i]? with
      | none => rw [hk] at hs; cases hs
      | some key =>
        rw [hk] at hs
        simp only at hs ⊢
        cases hn : getNearestKey key av with
        | none =>
          rw [hn] at hs
          injection hs with hs
          subst hs
          exact ⟨xs, rfl, h⟩
        | some nearest =>
          rw [hn] at hs
          simp only at hs ⊢
          cases hj : (wordsCache t).get? nearest with
          | none => rw [hj] at hs; cases hs
          | some j =>
            rw [hj] at hs
            simp only at hs ⊢
            cases hf : ss[j]? with
            | none => rw [hf] at hs; cases hs
            | some f =>
              rw [hf] at hs
              injection hs with hs
              subst hs
              obtain ⟨hjlt, hje⟩ := List.getElem?_eq_some_iff.mp hf
              have hjlt' : j < xs.length := by rw [h.length_eq]; exact hjlt
              have hrj := h.get hjlt' hjlt
              simp only [List.get_eq_getElem, hje] at hrj
              refine ⟨xs.set i xs[j], ?_, forall₂_set h i hrj⟩
              simp only [List.getElem?_eq_getElem hjlt', Json.setNth, if_pos hlt']

theorem fold_sim {R : Json → Str → Prop} (hR : ∀ x s, R x s → (x.given = true ↔ s ≠ [])) {t : WordType} {av : List Key} (is : List Nat)
    {xs : List Json} {ss ss' : List Str} (h : List.Forall₂ R xs ss) (hs : is.foldlM (autofillStep t av) ss = .ok ss') :
    ∃ xs', is.foldlM (autofillStepAny t av) (.arr xs) = .ok (.arr xs') ∧ List.Forall₂ R xs' ss' := by
  induction is generalizing xs ss with
  | nil => injection hs with hs; subst hs; exact ⟨xs, rfl, h⟩
  | cons i is ih =>
    rw [List.foldlM_cons] at hs
    cases h1 : autofillStep t av ss i with
    | error e => rw [h1] at hs; cases hs
    | ok ss1 =>
      rw [h1] at hs
      obtain ⟨xs1, hx1, hr1⟩ := step_sim hR h h1
      obtain ⟨xs', hx', hr'⟩ := ih hr1 hs
      refine ⟨xs', ?_, hr'⟩
      rw [List.foldlM_cons, hx1]
      exact hx'

theorem autofill_sim {R : Json → Str → Prop} (hR : ∀ x s, R x s → (x.given = true ↔ s ≠ [])) {t : WordType} {ps : Properties} {xs : List Json}
    {ss : List Str} (h : List.Forall₂ R xs ss) {v : Word} (hv : (⟨t, ss, ps⟩ : Word).autofillMissedForms = .ok v) :
    ∃ xs', (⟨t, .arr xs, ps⟩ : LoadedWord).autofillMissedForms = .ok ⟨t, .arr xs', ps⟩ ∧ List.Forall₂ R xs' v.forms := by
  unfold Word.autofillMissedForms at hv
  simp only [bind, Except.bind] at hv
  cases ha : availableKeys t ss with
  | error e => rw [ha] at hv; cases hv
  | ok av =>
    rw [ha] at hv
    simp only at hv
    cases hf : (List.range ss.length).foldlM (autofillStep t av) ss with
    | error e => rw [hf] at hv; cases hv
    | ok ss' =>
      rw [hf] at hv
      injection hv with hv
      subst hv
      obtain ⟨xs', hx, hr⟩ := fold_sim hR _ h hf
      refine ⟨xs', ?_, hr⟩
      unfold LoadedWord.autofillMissedForms
      simp only [available_sim hR h ha, Json.size, bind, Except.bind, h.length_eq, hx]

/-- Position `i` as a text. -/
def mark (x : Json) (i : Nat) : Str := if x.given then List.replicate (i + 1) 'x' else []

def Marks (items : List Json) (x : Json) (s : Str) : Prop := (x.given = true ↔ s ≠ []) ∧ (s ≠ [] → items[s.length - 1]? = some x)

theorem marks_forall₂ (items : List Json) : List.Forall₂ (Marks items) items (items.mapIdx fun i x => mark x i) := by
  rw [List.forall₂_iff_get]
  refine ⟨by simp, fun i h1 h2 => ?_⟩
  simp only [List.get_eq_getElem, List.getElem_mapIdx, mark]
  by_cases h : items[i].given = true
  · simp [Marks, h, h1]
  · simp [Marks, h]

theorem fold_blank {t : WordType} {items : List Json} (h : ∀ x ∈ items, Missing x) (hlen : items.length = (invertedCache t).length) (is : List Nat)
    (his : ∀ i ∈ is, i < items.length) : is.foldlM (autofillStepAny t []) (.arr items) = .ok (.arr items) := by
  induction is with
  | nil => rfl
  | cons i is ih =>
    have hi := his i (by simp)
    have hb : items[i].given = false := (truth_iff _).mpr (h _ (List.getElem_mem hi))
    have hk : i < (invertedCache t).length := by omega
    have : autofillStepAny t [] (.arr items) i = .ok (.arr items) := by
      unfold autofillStepAny
      simp only [Json.nth, List.getElem?_eq_getElem hi, bind, Except.bind, hb, List.getElem?_eq_getElem hk]
      rfl
    rw [List.foldlM_cons, this]
    exact ih fun j hj => his j (by simp [hj])

/-- C149: `autofill_missed_forms` of a loaded word with a list of forms never raises. It keeps what is given, whatever it is. If nothing is
given, nothing changes; otherwise each blank is replaced by the form that is given at the nearest position: the one that shares most
properties, then the one that shares the later ones, then the first. -/
theorem C149_autofill (j : Json) (w : LoadedWord) (h : loadWord j = .ok w) (items : List Json) (hf : w.forms = .arr items) :
    ∃ out, w.autofillMissedForms = .ok { w with forms := .arr out } ∧ out.length = items.length ∧
      (∀ (i : Nat) x, items[i]? = some x → ¬ Missing x → out[i]? = some x) ∧
      ((∀ x ∈ items, Missing x) → out = items) ∧
      (∀ ks, Word.getKeys w.type = .ok ks → ∀ (i : Nat) x k, items[i]? = some x → Missing x → ks[i]? = some (some k) → (∃ y ∈ items, ¬ Missing y) →
        ∃ (j : Nat) (kj : Key) (y : Json), ks[j]? = some (some kj) ∧ items[j]? = some y ∧ ¬ Missing y ∧ out[i]? = some y ∧
          ∀ (j' : Nat) (kj' : Key) (y' : Json), ks[j']? = some (some kj') → items[j']? = some y' → ¬ Missing y' →
            (matchedPositions k kj').length < (matchedPositions k kj).length ∨
            (matchedPositions k kj').length = (matchedPositions k kj).length ∧
              ((matchedPositions k kj').sum < (matchedPositions k kj).sum ∨
               (matchedPositions k kj').sum = (matchedPositions k kj).sum ∧ j ≤ j')) := by
  obtain ⟨t, forms, ps⟩ := w
  simp only at hf
  subst hf
  obtain ⟨x, parts, pitems, -, -, -, h4, h5, -, -, hwf⟩ := C142_contents j _ h
  cases h4
  simp only at h5 hwf
  set marks := items.mapIdx fun i x => mark x i with hmarks
  have hR : ∀ x s, Marks items x s → (x.given = true ↔ s ≠ []) := fun x s h => h.1
  have hinv : items.length = (invertedCache t).length := by rw [h5, ← cache_slots, wordsCache_length]
  have hacc : Accepted (⟨t, marks, ps⟩ : Word) := accepted_iff.mpr ⟨hwf, by simpa [hmarks] using hinv⟩
  have hsim := marks_forall₂ items
  rw [← hmarks] at hsim
  obtain ⟨v, hv, hvt, hvp, hvl, hkeep⟩ := C20_keeps_present (⟨t, marks, ps⟩ : Word) hacc
  obtain ⟨out, hout, hr⟩ := autofill_sim hR hsim hv
  have hlen : out.length = items.length := by rw [hr.length_eq, hvl]; simp [hmarks]
  have hmark : ∀ (i : Nat) x, items[i]? = some x → marks[i]? = some (mark x i) := by
    intro i x hi
    simp [hmarks, hi]
  have hmark' : ∀ (i : Nat) s, marks[i]? = some s → ∃ x, items[i]? = some x ∧ s = mark x i := by
    intro i s hi
    simp only [hmarks, List.getElem?_mapIdx, Option.map_eq_some_iff] at hi
    obtain ⟨x, hx, rfl⟩ := hi
    exact ⟨x, hx, rfl⟩
  have hne : ∀ (i : Nat) x, mark x i ≠ [] ↔ ¬ Missing x := by
    intro i x
    unfold mark
    by_cases hx : x.given = true
    · simp [hx, (truth_iff' x).mp hx]
    · have := (truth_iff x).mp (by simpa using hx)
      simp [hx, this]
  have hback : ∀ (i : Nat) (j : Nat) y, items[j]? = some y → ¬ Missing y → v.forms[i]? = some (mark y j) → out[i]? = some y := by
    intro i j y hj hy hi
    obtain ⟨hlt, hie⟩ := List.getElem?_eq_some_iff.mp hi
    have hlt' : i < out.length := by rw [hr.length_eq]; exact hlt
    have hri := hr.get hlt' hlt
    simp only [List.get_eq_getElem, hie] at hri
    have := hri.2 ((hne j y).mpr hy)
    unfold mark at this
    rw [if_pos ((truth_iff' y).mpr hy), List.length_replicate, Nat.add_sub_cancel, hj] at this
    injection this with this
    rw [List.getElem?_eq_getElem hlt', this]
  refine ⟨out, hout, hlen, ?_, ?_, ?_⟩
  · intro i x hi hx
    exact hback i i x hi hx (hkeep i (mark x i) (hmark i x hi) ((hne i x).mpr hx))
  · intro hall
    have hav : availableKeysAny t (.arr items) = .ok [] := by
      unfold availableKeysAny
      have : ∀ l : List Nat, (∀ i ∈ l, i < items.length) → l.mapM (availableKeyAny t (.arr items)) = .ok (l.map fun _ => none) := by
        intro l
        induction l with
        | nil => intro _; rfl
        | cons i l ih =>
          intro hl
          have hi := hl i (by simp)
          have hb : items[i].given = false := (truth_iff _).mpr (hall _ (List.getElem_mem hi))
          rw [List.mapM_cons, ih fun j hj => hl j (by simp [hj])]
          simp only [availableKeyAny, Json.nth, List.getElem?_eq_getElem hi, bind, Except.bind, hb]
          rfl
      simp only [Json.size, bind, Except.bind, this _ fun i hi => List.mem_range.mp hi]
      simp
    unfold LoadedWord.autofillMissedForms at hout
    simp only [hav, Json.size, bind, Except.bind, fold_blank hall hinv _ fun i hi => List.mem_range.mp hi] at hout
    injection hout with hout
    injection hout with _ hout
    injection hout with hout
    exact hout.symm
  · intro ks hks i x k hi hx hk ⟨y, hy, hyb⟩
    obtain ⟨n, hn⟩ := List.mem_iff_getElem?.mp hy
    obtain ⟨j, kj, f, h1, h2, h3, h4, h5⟩ := C22_nearest_present (⟨t, marks, ps⟩ : Word) v hacc hv ks hks i k
      (by
        rw [hmark i x hi]
        have := (hne i x).not.mpr (not_not.mpr hx)
        rw [not_not.mp this]) hk
      ⟨mark y n, List.mem_iff_getElem?.mpr ⟨n, hmark n y hn⟩, (hne n y).mpr hyb⟩
    obtain ⟨z, hz, rfl⟩ := hmark' j f h2
    have hzb := (hne j z).mp h3
    refine ⟨j, kj, z, h1, hz, hzb, hback i j z hz hzb h4, ?_⟩
    intro j' kj' y' h1' h2' h3'
    exact h5 j' kj' (mark y' j') h1' (hmark j' y' h2') ((hne j' y').mpr h3')

/-! ## spelling -/

/-- C149: a form of a loaded word, whatever it is, is given as it is, unless a capital letter is called for: then it must be a text that is
not empty, and its first letter is made a capital one; for anything else an exception is raised. -/
theorem C149_spelling (U : PyUni) (w : LoadedWord) (p : Properties) (hw : WFProps w.properties) (hp : WFProps p) (x : Json)
    (h : w.form p = .ok x) :
    let capital := effective ⟨w.type, [], w.properties⟩ p .WORD_CASE = some .WORD_CASE_UPPER
    (¬ capital → w.spell U p = .ok x) ∧
    (capital → (∀ c cs, x = .str (c :: cs) → w.spell U p = .ok (.str (U.upperC c ++ cs))) ∧
      ((∀ c cs, x ≠ .str (c :: cs)) → ∃ e, w.spell U p = .error e)) := by
  have he := effective_eq (w := ⟨w.type, [], w.properties⟩) hw hp .WORD_CASE
  obtain ⟨r, hr⟩ : ∃ r, (Properties.new [.props p, .props w.properties]).get .WORD_CASE = some r := by
    unfold Properties.get
    cases (Properties.new [.props p, .props w.properties]).data.get? Group.WORD_CASE with
    | some r => exact ⟨r, rfl⟩
    | none => exact ⟨_, rfl⟩
  intro capital
  have hcap : capital ↔ r = .WORD_CASE_UPPER := by
    show effective _ _ _ = _ ↔ _
    rw [← he, hr]
    exact ⟨fun h => by injection h, fun h => by rw [h]⟩
  have hs : w.spell U p = if r = .WORD_CASE_UPPER then x.upperFirst U else .ok x := by
    unfold LoadedWord.spell
    rw [h]
    simp only [bind, Except.bind, getRec_eq hr]
  refine ⟨fun hn => ?_, fun hc => ⟨?_, ?_⟩⟩
  · rw [hs, if_neg (hcap.not.mp hn)]
  · rintro c cs rfl
    rw [hs, if_pos (hcap.mp hc)]; rfl
  · intro hx
    rw [hs, if_pos (hcap.mp hc)]
    cases x with
    | str s => cases s with
      | nil => exact ⟨_, rfl⟩
      | cons c cs => exact absurd rfl (hx c cs)
    | arr l => cases l with
      | nil => exact ⟨_, rfl⟩
      | cons y l => cases y <;> exact ⟨_, rfl⟩
    | _ => exact ⟨_, rfl⟩

/-! ## words with texts for forms -/

/-- C149: for a loaded word whose forms are a list of texts, all these are what they are for the word with these forms. -/
theorem C149_proper (U : PyUni) (j : Json) (w : LoadedWord) (forms : List Str) (p : Properties) (hp : WFProps p) (h : loadWord j = .ok w)
    (hf : w.forms = .arr (forms.map .str)) :
    let v : Word := ⟨w.type, forms, w.properties⟩
    (∃ n, v.numberOfSyllables = .ok n ∧ w.numberOfSyllables = .ok n) ∧
    (∃ b, v.hasFluentVowel = .ok b ∧ w.hasFluentVowel = .ok b) ∧
    (∃ v' : Word, v.autofillMissedForms = .ok v' ∧ w.autofillMissedForms = .ok { w with forms := .arr (v'.forms.map .str) }) ∧
    (∀ s, (WordForm.new v (some p)).form U = .ok s → w.spell U p = .ok (.str s)) ∧
    (∀ e, (WordForm.new v (some p)).form U = .error e → w.spell U p = .error (.other e)) := by
  have hacc := C142_proper j w forms h hf
  obtain ⟨hwf, hlen⟩ := accepted_iff.mp hacc
  obtain ⟨t, fs, ps⟩ := w
  simp only at hf hwf hlen hacc
  subst hf
  have hpos : 0 < forms.length := by rw [hlen, ← wordsCache_length, cache_slots]; cases t <;> decide
  obtain ⟨f, rest, rfl⟩ : ∃ f rest, forms = f :: rest := by
    cases forms with
    | nil => cases hpos
    | cons f rest => exact ⟨f, rest, rfl⟩
  intro v
  have hvow : ∀ s : Str, HasVowels (.str s) (vowelsOf s) := by
    intro s
    refine ⟨_, .str s, ?_, ?_⟩
    · intro x hx
      obtain ⟨c, -, rfl⟩ := List.mem_map.mp hx
      exact fun h => by cases h
    · unfold vowelsOf
      rw [List.filterMap_map]
      induction s with
      | nil => rfl
      | cons c s ih => by_cases hc : c ∈ VOWELS <;> simp [vowel, hc] at ih ⊢ <;> exact ih
  refine ⟨⟨_, rfl, ?_⟩, ?_, ?_, ?_⟩
  · refine ((C149_syllables t ps (.str f) (rest.map .str)).1 f rfl).trans ?_
    rw [sum_count_vowels]
  · obtain ⟨h1, h2, -⟩ := C149_fluent t ps (.str f) (rest.map .str)
    refine ⟨_, rfl, ?_⟩
    cases hb : rest.any fun other => decide (other ≠ []) && !(vowelsOf f).isPrefixOf (vowelsOf other) with
    | true =>
      refine h1.mpr ⟨_, hvow f, ?_⟩
      obtain ⟨o, ho, hob⟩ := List.any_eq_true.mp hb
      simp only [Bool.and_eq_true, decide_eq_true_eq, Bool.not_eq_true', ← Bool.not_eq_true, List.isPrefixOf_iff_prefix] at hob
      obtain ⟨pre, post, rfl⟩ := List.append_of_mem ho
      refine ⟨pre.map .str, .str o, post.map .str, by simp, ⟨fun hbl => ?_, _, hvow o, hob.2⟩, ?_⟩
      · cases hbl; exact hob.1 rfl
      · intro y hy
        obtain ⟨s, -, rfl⟩ := List.mem_map.mp hy
        exact .inr ⟨_, hvow s⟩
    | false =>
      refine h2.mpr ⟨_, hvow f, ?_⟩
      intro x hx
      obtain ⟨s, hs, rfl⟩ := List.mem_map.mp hx
      have := List.any_eq_false.mp hb s hs
      by_cases hse : s = []
      · subst hse; exact .inl .text
      · right
        refine ⟨_, hvow s, ?_⟩
        simpa [hse] using this
  · obtain ⟨v', hv', -, -, -, -⟩ := C20_keeps_present v hacc
    refine ⟨v', hv', ?_⟩
    obtain ⟨xs', hx, hr⟩ := autofill_sim (R := fun x s => x = .str s) (by rintro x s rfl; simp [Json.given])
      (List.forall₂_map_left_iff.mpr (List.forall₂_same.mpr fun _ _ => rfl)) hv'
    have : xs' = v'.forms.map .str := by
      clear hx hv'
      generalize v'.forms = l at hr
      induction hr with
      | nil => rfl
      | cons h _ ih => rw [h, ih]; rfl
    rw [← this]
    exact hx
  · have hform : ∃ i : Nat, ∃ s : Str, (⟨t, .arr ((f :: rest).map .str), ps⟩ : LoadedWord).form p = .ok (.str s) ∧
        v.formRaw (.new [.props p, .props ps]) = .ok s := by
      obtain ⟨i, -, h1, h2, -, -⟩ := C142_form t ps p hwf hp
      have hsl : (f :: rest).length = slotCount t := by rw [hlen, ← wordsCache_length, cache_slots]
      obtain ⟨s, hs, hfs⟩ := h1 (f :: rest) hsl
      obtain ⟨x, hx, hfx⟩ := h2 ((f :: rest).map .str) (by simpa using hsl)
      rw [List.getElem?_map, hs] at hx
      injection hx with hx
      subst hx
      exact ⟨i, s, hfx, hfs⟩
    obtain ⟨-, s, hl, hv⟩ := hform
    obtain ⟨wc, hg⟩ : ∃ wc, (Properties.new [.props p, .props ps]).getRec .WORD_CASE = .ok wc := by
      unfold Properties.getRec Properties.get
      cases (Properties.new [.props p, .props ps]).data.get? Group.WORD_CASE with
      | some r => exact ⟨r, rfl⟩
      | none => exact ⟨_, rfl⟩
    have e1 : (WordForm.new v (some p)).form U = if wc = .WORD_CASE_UPPER then upperFirst U s else .ok s := by
      show (do
        let form ← v.formRaw (.new [.props p, .props ps])
        let wc ← (Properties.new [.props p, .props ps]).getRec .WORD_CASE
        if wc = Rec.WORD_CASE_UPPER then upperFirst U form else .ok form) = _
      rw [hv, hg]; rfl
    have e2 : (⟨t, .arr ((f :: rest).map .str), ps⟩ : LoadedWord).spell U p =
        if wc = .WORD_CASE_UPPER then Json.upperFirst U (.str s) else .ok (.str s) := by
      unfold LoadedWord.spell
      rw [hl]
      simp only [bind, Except.bind, hg]
    rw [e1, e2]
    by_cases hwc : wc = .WORD_CASE_UPPER
    · rw [if_pos hwc, if_pos hwc]
      cases s with
      | nil => exact ⟨fun r h => (by cases h), fun e h => (by injection h with h; subst h; rfl)⟩
      | cons c cs => exact ⟨fun r h => (by injection h with h; subst h; rfl), fun e h => (by cases h)⟩
    · rw [if_neg hwc, if_neg hwc]
      exact ⟨fun r h => (by injection h with h; subst h; rfl), fun e h => (by cases h)⟩

/-! ## Examples -/

/-- A preposition with `null` and a number among its forms, and a text and an object in place of the list. -/
def exOddForms (forms : Json) : Json :=
  .obj [(str! "type", .int 10), (str! "forms", forms), (str! "properties", .obj [])]

example : loadWord (exOddForms (.arr [.str (str! "во"), .null, .int 5])) = .ok ⟨.PREPOSITION, .arr [.str (str! "во"), .null, .int 5], .new []⟩ := rfl

/-- `null` is filled, a number stays; a number has no vowels. -/
example : let w : LoadedWord := ⟨.PREPOSITION, .arr [.str (str! "во"), .null, .int 5], .new []⟩
    w.autofillMissedForms = .ok ⟨.PREPOSITION, .arr [.str (str! "во"), .str (str! "во"), .int 5], .new []⟩ ∧
    w.numberOfSyllables = .ok 1 ∧ w.hasFluentVowel = .error .TypeError := ⟨rfl, rfl, rfl⟩

/-- A list of letters is read like a text, but cannot begin with a capital letter. -/
example (U : PyUni) : let w : LoadedWord := ⟨.PREPOSITION, .arr [.arr [.str (str! "о"), .str (str! "б"), .str (str! "о")], .str (str! "об"), .null], .new []⟩
    w.numberOfSyllables = .ok 2 ∧ w.hasFluentVowel = .ok true ∧
    w.spell U (.new [.record .WORD_CASE_UPPER]) = .error .TypeError := ⟨rfl, rfl, rfl⟩

/-- A text is taken letter by letter. -/
example : loadWord (exOddForms (.str (str! "обо"))) = .ok ⟨.PREPOSITION, .str (str! "обо"), .new []⟩ ∧
    (⟨.PREPOSITION, .str (str! "обо"), .new []⟩ : LoadedWord).hasFluentVowel = .ok true := ⟨rfl, rfl⟩

example : loadWord (exOddForms (.obj [(str! "a", .null), (str! "b", .null), (str! "c", .null)])) =
    .ok ⟨.PREPOSITION, .obj [(str! "a", .null), (str! "b", .null), (str! "c", .null)], .new []⟩ := rfl

end Utg
