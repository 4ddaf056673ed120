import Verif.Spec.AnyDictionary
import Verif.Proofs.Comparing
import Verif.Props.AnyWords
import Verif.Proofs.Dictionary
/-!
# C151: dictionaries of words loaded from any JSON documents
-/

namespace Utg
open Py Spec

theorem hkey_text {x : Json} {s : Str} (h : x.hkey = .ok (.text s)) : x = .str s := by
  cases x with
  | str t => injection h with h; injection h with h; subst h; rfl
  | null => cases h
  | bool b => injection h with h; cases h
  | int n => cases h
  | float w n => cases n <;> cases h
  | arr l => cases h
  | obj l => cases h

theorem register_cases {numLess : Json → Json → Bool} {d d' : LoadedDictionary} {key : HKey} {f : LoadedForm}
    (h : d.register numLess key f = .ok d') : d' = Dict.set d key f ∨ d' = d ∧ Dict.get? d key ≠ none := by
  unfold LoadedDictionary.register at h
  cases hg : Dict.get? d key with
  | none => rw [hg] at h; injection h with h; exact .inl h.symm
  | some r =>
    rw [hg] at h
    simp only [bind, Except.bind] at h
    cases hr : replacesAny numLess f r with
    | error e => rw [hr] at h; cases h
    | ok b =>
      rw [hr] at h
      cases b with
      | true => injection h with h; exact .inl h.symm
      | false => injection h with h; exact .inr ⟨h.symm, by simp⟩

theorem nthProperties_ok {w : LoadedWord} {i : Nat} {p : Properties} (h : w.nthProperties i = .ok p) :
    ∃ ks key, Word.getKeys w.type = .ok ks ∧ ks[i]? = some (some key) ∧ p = propertiesOfKey key := by
  unfold LoadedWord.nthProperties at h
  cases hk : (invertedCache w.type)[i]? with
  | none => rw [hk] at h; cases h
  | some key =>
    rw [hk] at h
    injection h with h
    exact ⟨_, key, getKeys_eq _, by rw [List.getElem?_map, hk]; rfl, h.symm⟩

theorem addForm_ok {numLess : Json → Json → Bool} {U : PyUni} {w : LoadedWord} {d d' : LoadedDictionary} {i : Nat}
    (h : d.addForm numLess U w i = .ok d') : ∃ p x key, SpelledAt U w i x ∧ x.hkey = .ok key ∧
      d.register numLess key ⟨w, p⟩ = .ok d' := by
  unfold LoadedDictionary.addForm at h
  simp only [bind, Except.bind] at h
  cases hp : w.nthProperties i with
  | error e => rw [hp] at h; cases h
  | ok p =>
    rw [hp] at h
    simp only at h
    cases hs : w.spell U p with
    | error e => rw [hs] at h; cases h
    | ok x =>
      rw [hs] at h
      simp only at h
      cases hk : x.hkey with
      | error e => rw [hk] at h; cases h
      | ok key =>
        rw [hk] at h
        obtain ⟨ks, k, h1, h2, rfl⟩ := nthProperties_ok hp
        exact ⟨_, x, key, ⟨ks, k, h1, h2, hs⟩, hk, h⟩

/-- What holds for every entry. -/
def EntriesSpelled (U : PyUni) (ws : List LoadedWord) (d : LoadedDictionary) : Prop :=
  ∀ key f, Dict.get? d key = some f → f.word ∈ ws ∧ ∃ i x, SpelledAt U f.word i x ∧ x.hkey = .ok key

theorem addForms_spelled {numLess : Json → Json → Bool} {U : PyUni} {ws : List LoadedWord} {w : LoadedWord} (hw : w ∈ ws) (is : List Nat)
    {d : LoadedDictionary} (hd : EntriesSpelled U ws d) : EntriesSpelled U ws (d.addForms numLess U w is).1 := by
  induction is generalizing d with
  | nil => exact hd
  | cons i is ih =>
    unfold LoadedDictionary.addForms
    cases ha : d.addForm numLess U w i with
    | error e => exact hd
    | ok d' =>
      refine ih ?_
      obtain ⟨p, x, key, h1, h2, h3⟩ := addForm_ok ha
      rcases register_cases h3 with rfl | ⟨rfl, -⟩
      · intro k f hf
        rw [Dict.get?_set] at hf
        by_cases hk : key = k
        · subst hk
          rw [if_pos rfl] at hf
          injection hf with hf
          subst hf
          exact ⟨hw, i, x, h1, h2⟩
        · rw [if_neg hk] at hf
          exact hd k f hf
      · exact hd

theorem history_spelled (numLess : Json → Json → Bool) (U : PyUni) (ws : List LoadedWord) : EntriesSpelled U ws (loadedHistory numLess U ws) := by
  have : ∀ (vs : List LoadedWord) (d : LoadedDictionary), (∀ v ∈ vs, v ∈ ws) → EntriesSpelled U ws d →
      EntriesSpelled U ws (vs.foldl (fun d w => (d.addWord numLess U w).1) d) := by
    intro vs
    induction vs with
    | nil => intro d _ hd; exact hd
    | cons v vs ih =>
      intro d hv hd
      refine ih _ (fun u hu => hv u (by simp [hu])) ?_
      show EntriesSpelled U ws (d.addWord numLess U v).1
      unfold LoadedDictionary.addWord
      cases v.forms.size with
      | error e => exact hd
      | ok n => exact addForms_spelled (hv v (by simp)) _ hd
  exact this ws [] (fun _ h => h) (fun k f h => by cases h)

/-- C151: whatever was added, and whatever was raised, a word that is found under a text was added, and has a form that is this text. -/
theorem C151_found (numLess : Json → Json → Bool) (U : PyUni) (ws : List LoadedWord) (text : Str) (f : LoadedForm)
    (h : (loadedHistory numLess U ws).getWord text = .ok f) : f.word ∈ ws ∧ ∃ i, SpelledAt U f.word i (.str text) := by
  unfold LoadedDictionary.getWord at h
  cases hg : Dict.get? (loadedHistory numLess U ws) (HKey.text text) with
  | none => rw [hg] at h; cases h
  | some g =>
    rw [hg] at h
    injection h with h
    subst h
    obtain ⟨h1, i, x, h2, h3⟩ := history_spelled numLess U ws _ _ hg
    rw [hkey_text h3] at h2
    exact ⟨h1, i, h2⟩

theorem get?_register {numLess : Json → Json → Bool} {d d' : LoadedDictionary} {key : HKey} {f : LoadedForm}
    (h : d.register numLess key f = .ok d') : (∀ k, Dict.get? d k ≠ none → Dict.get? d' k ≠ none) ∧ Dict.get? d' key ≠ none := by
  rcases register_cases h with rfl | ⟨rfl, h⟩
  · refine ⟨fun k hk => ?_, ?_⟩
    · rw [Dict.get?_set]
      by_cases he : key = k
      · simp [he]
      · rw [if_neg he]; exact hk
    · simp [Dict.get?_set]
  · exact ⟨fun k hk => hk, h⟩

theorem get?_addForms {numLess : Json → Json → Bool} {U : PyUni} {w : LoadedWord} (is : List Nat) {d : LoadedDictionary} {k : HKey}
    (h : Dict.get? d k ≠ none) : Dict.get? (d.addForms numLess U w is).1 k ≠ none := by
  induction is generalizing d with
  | nil => exact h
  | cons i is ih =>
    unfold LoadedDictionary.addForms
    cases ha : d.addForm numLess U w i with
    | error e => exact h
    | ok d' =>
      obtain ⟨p, x, key, -, -, h3⟩ := addForm_ok ha
      exact ih ((get?_register h3).1 k h)

theorem hasLoaded_iff (d : LoadedDictionary) (text : Str) : d.hasWord text = true ↔ Dict.get? d (HKey.text text) ≠ none := by
  unfold LoadedDictionary.hasWord Dict.contains
  cases Dict.get? d (HKey.text text) <;> simp

/-- C151: a text that is known stays known, whatever is added. -/
theorem C151_stays (numLess : Json → Json → Bool) (U : PyUni) (d : LoadedDictionary) (w : LoadedWord) (text : Str) (h : d.hasWord text = true) :
    (d.addWord numLess U w).1.hasWord text = true := by
  rw [hasLoaded_iff] at h ⊢
  unfold LoadedDictionary.addWord
  cases w.forms.size with
  | error e => exact h
  | ok n => exact get?_addForms _ h

theorem addForms_known {numLess : Json → Json → Bool} {U : PyUni} {w : LoadedWord} (is : List Nat) {d : LoadedDictionary}
    (h : (d.addForms numLess U w is).2 = none) : ∀ i ∈ is, ∃ x key, SpelledAt U w i x ∧ x.hkey = .ok key ∧
      Dict.get? (d.addForms numLess U w is).1 key ≠ none := by
  induction is generalizing d with
  | nil => simp
  | cons i is ih =>
    unfold LoadedDictionary.addForms at h ⊢
    cases ha : d.addForm numLess U w i with
    | error e => rw [ha] at h; cases h
    | ok d' =>
      rw [ha] at h
      simp only at h ⊢
      intro j hj
      rcases List.mem_cons.mp hj with rfl | hj
      · obtain ⟨p, x, key, h1, h2, h3⟩ := addForm_ok ha
        exact ⟨x, key, h1, h2, get?_addForms _ (get?_register h3).2⟩
      · exact ih h j hj

theorem addLoaded_eq {numLess : Json → Json → Bool} {U : PyUni} {j : Json} {d : LoadedDictionary} {w : LoadedWord} (hl : loadWord j = .ok w) :
    d.addWord numLess U w = d.addForms numLess U w (List.range (slotCount w.type)) := by
  obtain ⟨-, parts, -, -, -, -, h4, h5, -⟩ := C142_contents j w hl
  have hs : w.forms.size = .ok (slotCount w.type) := by
    rw [← h5]
    generalize w.forms = forms at h4
    cases h4 with
    | arr l => rw [Json.size]
    | str s => rw [Json.size, List.length_map]
    | obj l => rw [Json.size, List.length_map]
  unfold LoadedDictionary.addWord
  rw [hs]

/-- C151: if `add_word` returns, all forms of the word can be spelled, none of them is a list or an object, and those that are texts are known. -/
theorem C151_known (numLess : Json → Json → Bool) (U : PyUni) (j : Json) (d : LoadedDictionary) (w : LoadedWord) (hl : loadWord j = .ok w)
    (h : (d.addWord numLess U w).2 = none) (i : Nat) (hi : i < slotCount w.type) :
    ∃ x, SpelledAt U w i x ∧ ¬ IsCompound x ∧ ∀ text, x = .str text → (d.addWord numLess U w).1.hasWord text = true := by
  rw [addLoaded_eq hl] at h ⊢
  obtain ⟨x, key, h1, h2, h3⟩ := addForms_known _ h i (List.mem_range.mpr hi)
  refine ⟨x, h1, fun hc => ?_, ?_⟩
  · cases hc <;> cases h2
  · rintro text rfl
    injection h2 with h2
    subst h2
    exact (hasLoaded_iff _ _).mpr h3

/-! ## exceptions -/

mutual
theorem less_error {numLess : Json → Json → Bool} {e : LoadErr} : ∀ (x y : Json), x.less numLess y = .error e → e = .TypeError
  | .arr xs, y, h => by
    unfold Json.less at h
    split at h
    · exact lessList_error xs _ h
    · injection h with h; exact h.symm
  | .str a, y, h => by
    unfold Json.less at h
    split at h
    · cases h
    · injection h with h; exact h.symm
  | .null, y, h => by unfold Json.less at h; split at h <;> first | cases h; done | (injection h with h; exact h.symm)
  | .bool _, y, h => by unfold Json.less at h; split at h <;> first | cases h; done | (injection h with h; exact h.symm)
  | .int _, y, h => by unfold Json.less at h; split at h <;> first | cases h; done | (injection h with h; exact h.symm)
  | .float _ _, y, h => by unfold Json.less at h; split at h <;> first | cases h; done | (injection h with h; exact h.symm)
  | .obj _, y, h => by unfold Json.less at h; split at h <;> first | cases h; done | (injection h with h; exact h.symm)
theorem lessList_error {numLess : Json → Json → Bool} {e : LoadErr} : ∀ (xs ys : List Json), lessList numLess xs ys = .error e → e = .TypeError
  | [], ys, h => by unfold lessList at h; cases h
  | x :: xs, [], h => by unfold lessList at h; cases h
  | x :: xs, y :: ys, h => by
    unfold lessList at h
    simp only at h
    split at h
    · exact lessList_error xs ys h
    · exact less_error x y h
end

theorem replacesAny_error {numLess : Json → Json → Bool} {f r : LoadedForm} {e : LoadErr} (h : replacesAny numLess f r = .error e) :
    e = .TypeError ∧ f.word.type.value = r.word.type.value ∧
      (f.word.forms.less numLess r.word.forms = .error .TypeError ∨ r.word.forms.less numLess f.word.forms = .error .TypeError) := by
  unfold replacesAny at h
  by_cases h1 : f.word.type.value < r.word.type.value
  · rw [if_pos h1] at h; cases h
  rw [if_neg h1] at h
  by_cases h2 : f.word.type.value > r.word.type.value
  · rw [if_pos h2] at h; cases h
  rw [if_neg h2] at h
  have hv : f.word.type.value = r.word.type.value := by omega
  simp only [bind, Except.bind] at h
  cases hl : f.word.forms.less numLess r.word.forms with
  | error e' =>
    rw [hl] at h
    injection h with h
    subst h
    have := less_error _ _ hl
    subst this
    exact ⟨rfl, hv, .inl rfl⟩
  | ok b =>
    rw [hl] at h
    cases b with
    | true => cases h
    | false =>
      simp only [Bool.false_eq_true, if_false] at h
      cases hl2 : r.word.forms.less numLess f.word.forms with
      | error e' =>
        rw [hl2] at h
        injection h with h
        subst h
        have := less_error _ _ hl2
        subst this
        exact ⟨rfl, hv, .inr rfl⟩
      | ok b2 => rw [hl2] at h; cases b2 <;> cases h

mutual
theorem eqv_refl : ∀ x : Json, Distinct x → x.eqv x = true
  | .arr xs, h => by unfold Json.eqv; exact eqvList_refl xs (by unfold Distinct at h; exact h)
  | .obj xs, h => by
    unfold Distinct at h
    unfold Json.eqv
    simp only [decide_true, Bool.true_and]
    exact eqvItems_refl xs xs h.2 fun kv hkv => Dict.get?_of_mem h.1 hkv
  | .null, _ => by simp [Json.eqv, Json.hkey]
  | .bool b, _ => by simp [Json.eqv, Json.hkey]
  | .int n, _ => by simp [Json.eqv, Json.hkey]
  | .float w n, _ => by cases n <;> simp [Json.eqv, Json.hkey]
  | .str s, _ => by simp [Json.eqv, Json.hkey]
theorem eqvList_refl : ∀ xs : List Json, DistinctList xs → eqvList xs xs = true
  | [], _ => by simp [eqvList]
  | x :: xs, h => by
    unfold DistinctList at h
    unfold eqvList
    simp only [eqv_refl x h.1, eqvList_refl xs h.2, Bool.and_self]
theorem eqvItems_refl : ∀ xs ys : List (Str × Json), DistinctItems xs → (∀ kv ∈ xs, Dict.get? ys kv.1 = some kv.2) → eqvItems xs ys = true
  | [], _, _, _ => by simp [eqvItems]
  | (k, x) :: xs, ys, h, hg => by
    unfold DistinctItems at h
    unfold eqvItems
    have hk := hg (k, x) (by simp)
    simp only at hk
    rw [hk]
    simp only [eqv_refl x h.1, eqvItems_refl xs ys h.2 (fun kv hkv => hg kv (by simp [hkv])), Bool.and_self]
end

theorem lessList_self {numLess : Json → Json → Bool} (xs : List Json) (h : DistinctList xs) : lessList numLess xs xs = .ok false := by
  induction xs with
  | nil => rfl
  | cons x xs ih =>
    unfold DistinctList at h
    unfold lessList
    simp only [eqv_refl x h.1, if_true]
    exact ih h.2

theorem strLt_self (s : Str) : strLt s s = false := by
  induction s with
  | nil => rfl
  | cons c s ih => simp [strLt, ih]

theorem less_self {numLess : Json → Json → Bool} (x : Json) (h : Distinct x) (hf : (∃ l, x = .arr l) ∨ ∃ s, x = .str s) :
    x.less numLess x = .ok false := by
  rcases hf with ⟨l, rfl⟩ | ⟨s, rfl⟩
  · unfold Json.less
    exact lessList_self l (by unfold Distinct at h; exact h)
  · unfold Json.less
    simp only [strLt_self]

theorem spell_forms {U : PyUni} {w : LoadedWord} {p : Properties} {x : Json} (h : w.spell U p = .ok x) :
    (∃ l, w.forms = .arr l) ∨ ∃ s, w.forms = .str s := by
  unfold LoadedWord.spell at h
  simp only [bind, Except.bind] at h
  cases hf : w.form p with
  | error e => rw [hf] at h; cases h
  | ok y =>
    clear h
    unfold LoadedWord.form at hf
    split at hf
    · cases hf
    · split at hf
      · cases hf
      · cases hw : w.forms with
        | arr l => exact .inl ⟨l, rfl⟩
        | str s => exact .inr ⟨s, rfl⟩
        | _ => rw [hw] at hf; cases hf

/-- Entries are those of `d`, or of the word that is being added. -/
def EntriesOf (d : LoadedDictionary) (w : LoadedWord) (d' : LoadedDictionary) : Prop :=
  ∀ key r, Dict.get? d' key = some r → Dict.get? d key = some r ∨ r.word = w

theorem addForms_raises {numLess : Json → Json → Bool} {U : PyUni} {d : LoadedDictionary} {w : LoadedWord} (hd : Distinct w.forms) (is : List Nat)
    (his : ∀ i ∈ is, i < slotCount w.type) {d' : LoadedDictionary} {e : LoadErr} (hi : EntriesOf d w d')
    (h : (d'.addForms numLess U w is).2 = some e) : ∃ i ∈ is, UnspelledAt U w i e ∨ e = .TypeError ∧ ∃ x, SpelledAt U w i x ∧
      (IsCompound x ∨ ∃ key r, x.hkey = .ok key ∧ Dict.get? d key = some r ∧ r.word.type = w.type ∧
        (w.forms.less numLess r.word.forms = .error .TypeError ∨ r.word.forms.less numLess w.forms = .error .TypeError)) := by
  induction is generalizing d' with
  | nil => cases h
  | cons i is ih =>
    unfold LoadedDictionary.addForms at h
    cases ha : d'.addForm numLess U w i with
    | ok d'' =>
      rw [ha] at h
      obtain ⟨p, x, key, h1, h2, h3⟩ := addForm_ok ha
      have hi' : EntriesOf d w d'' := by
        rcases register_cases h3 with rfl | ⟨rfl, -⟩
        · intro k r hr
          rw [Dict.get?_set] at hr
          by_cases hk : key = k
          · rw [if_pos hk] at hr
            injection hr with hr
            subst hr
            exact .inr rfl
          · rw [if_neg hk] at hr
            exact hi k r hr
        · exact hi
      obtain ⟨j, hj, h⟩ := ih (fun j hj => his j (by simp [hj])) hi' h
      exact ⟨j, by simp [hj], h⟩
    | error e' =>
      rw [ha] at h
      injection h with h
      subst h
      refine ⟨i, by simp, ?_⟩
      unfold LoadedDictionary.addForm at ha
      simp only [bind, Except.bind] at ha
      cases hp : w.nthProperties i with
      | error e2 =>
        exfalso
        unfold LoadedWord.nthProperties at hp
        have hlt : i < (invertedCache w.type).length := by rw [← wordsCache_length, cache_slots]; exact his i (by simp)
        rw [List.getElem?_eq_getElem hlt] at hp
        cases hp
      | ok p =>
        rw [hp] at ha
        simp only at ha
        obtain ⟨ks, k, h1, h2, rfl⟩ := nthProperties_ok hp
        cases hs : w.spell U (propertiesOfKey k) with
        | error e2 =>
          rw [hs] at ha
          injection ha with ha
          subst ha
          exact .inl ⟨ks, k, h1, h2, hs⟩
        | ok x =>
          rw [hs] at ha
          simp only at ha
          cases hk : x.hkey with
          | error e2 =>
            rw [hk] at ha
            injection ha with ha
            subst ha
            refine .inr ⟨?_, x, ⟨ks, k, h1, h2, hs⟩, .inl ?_⟩
            · cases x with
              | arr l => injection hk with hk; exact hk.symm
              | obj l => injection hk with hk; exact hk.symm
              | float w n => cases n <;> cases hk
              | _ => cases hk
            · cases x with
              | arr l => exact .arr l
              | obj l => exact .obj l
              | float w n => cases n <;> cases hk
              | _ => cases hk
          | ok key =>
            rw [hk] at ha
            simp only at ha
            unfold LoadedDictionary.register at ha
            cases hg : Dict.get? d' key with
            | none => rw [hg] at ha; cases ha
            | some r =>
              rw [hg] at ha
              simp only [bind, Except.bind] at ha
              cases hr : replacesAny numLess ⟨w, .new [.props (propertiesOfKey k), .props w.properties]⟩ r with
              | ok b => rw [hr] at ha; cases b <;> cases ha
              | error e2 =>
                rw [hr] at ha
                injection ha with ha
                subst ha
                obtain ⟨he, ht, hc⟩ := replacesAny_error hr
                rcases hi key r hg with hg' | rfl
                · exact .inr ⟨he, x, ⟨ks, k, h1, h2, hs⟩, .inr ⟨key, r, hk, hg', (type_value_inj ht).symm, hc⟩⟩
                · exfalso
                  unfold replacesAny at hr
                  simp only [Nat.lt_irrefl, if_false, gt_iff_lt, less_self _ hd (spell_forms hs), bind, Except.bind] at hr
                  cases hr

/-- C151: what makes `add_word` raise: a form that cannot be spelled, a form that is a list or an object (`TypeError`), or a word of the same
part of speech that was there before under the same key, if the forms of the two cannot be compared (`TypeError`). -/
theorem C151_raises (numLess : Json → Json → Bool) (U : PyUni) (j : Json) (d : LoadedDictionary) (w : LoadedWord) (hl : loadWord j = .ok w)
    (hd : Distinct w.forms) (hr : ∀ key r, Dict.get? d key = some r → Distinct r.word.forms) (e : LoadErr)
    (h : (d.addWord numLess U w).2 = some e) :
    ∃ i, i < slotCount w.type ∧ (UnspelledAt U w i e ∨ e = .TypeError ∧ ∃ x, SpelledAt U w i x ∧
      (IsCompound x ∨ ∃ key r, x.hkey = .ok key ∧ Dict.get? d key = some r ∧ r.word.type = w.type ∧
        CannotCompare w.forms r.word.forms)) := by
  rw [addLoaded_eq hl] at h
  obtain ⟨i, hi, h⟩ := addForms_raises hd _ (fun i hi => List.mem_range.mp hi) (d := d) (fun _ _ h => .inl h) h
  refine ⟨i, List.mem_range.mp hi, h.imp id fun ⟨he, x, hx, h⟩ => ⟨he, x, hx, h.imp id ?_⟩⟩
  rintro ⟨key, r, h1, h2, h3, h4⟩
  refine ⟨key, r, h1, h2, h3, ?_⟩
  rw [less_raises, less_raises] at h4
  exact h4.elim id fun h => cannotCompare_symm h (hr key r h2) hd

theorem spelledAt_unique {U : PyUni} {w : LoadedWord} {i : Nat} {x y : Json} (h : SpelledAt U w i x) (h' : SpelledAt U w i y) : x = y := by
  obtain ⟨ks, k, h1, h2, h3⟩ := h
  obtain ⟨ks', k', h1', h2', h3'⟩ := h'
  rw [h1] at h1'
  injection h1' with h1'
  subst h1'
  rw [h2] at h2'
  injection h2' with h2'
  injection h2' with h2'
  subst h2'
  rw [h3] at h3'
  injection h3'

/-- If all the forms are registered, the word can be compared with those that were there under the same keys. -/
theorem addForms_compared {numLess : Json → Json → Bool} {U : PyUni} {w : LoadedWord} (is : List Nat) {d : LoadedDictionary}
    (h : (d.addForms numLess U w is).2 = none) (i : Nat) (hi : i ∈ is) (x : Json) (key : HKey) (r : LoadedForm) (hx : SpelledAt U w i x)
    (hk : x.hkey = .ok key) (hr : Dict.get? d key = some r) (ht : r.word.type = w.type) : ¬ CannotCompare w.forms r.word.forms := by
  induction is generalizing d with
  | nil => simp at hi
  | cons j is ih =>
    unfold LoadedDictionary.addForms at h
    cases ha : d.addForm numLess U w j with
    | error e => rw [ha] at h; cases h
    | ok d' =>
      rw [ha] at h
      simp only at h
      obtain ⟨p, x', key', h1, h2, h3⟩ := addForm_ok ha
      by_cases he : key' = key
      · subst he
        intro hinc
        unfold LoadedDictionary.register at h3
        rw [hr] at h3
        simp only [bind, Except.bind] at h3
        rw [← less_raises numLess] at hinc
        unfold replacesAny at h3
        simp only [ht, Nat.lt_irrefl, gt_iff_lt, if_false, bind, Except.bind, hinc] at h3
        cases h3
      · have hr' : Dict.get? d' key = some r := by
          rcases register_cases h3 with rfl | ⟨rfl, -⟩
          · rw [Dict.get?_set, if_neg he]; exact hr
          · exact hr
        rcases List.mem_cons.mp hi with rfl | hi
        · have := spelledAt_unique h1 hx
          subst this
          rw [h2] at hk
          injection hk with hk
          exact absurd hk he
        · exact ih h hi hr'

/-- C151: and these always make it raise something. -/
theorem C151_must_raise (numLess : Json → Json → Bool) (U : PyUni) (j : Json) (d : LoadedDictionary) (w : LoadedWord) (hl : loadWord j = .ok w)
    (i : Nat) (hi : i < slotCount w.type) (h : (∃ e, UnspelledAt U w i e) ∨ ∃ x, SpelledAt U w i x ∧
      (IsCompound x ∨ ∃ key r, x.hkey = .ok key ∧ Dict.get? d key = some r ∧ r.word.type = w.type ∧
        CannotCompare w.forms r.word.forms)) : ∃ e, (d.addWord numLess U w).2 = some e := by
  cases ha : (d.addWord numLess U w).2 with
  | some e => exact ⟨e, rfl⟩
  | none =>
    exfalso
    obtain ⟨x, hx, hc, -⟩ := C151_known numLess U j d w hl ha i hi
    rcases h with ⟨e, ks, k, h1, h2, h3⟩ | ⟨y, hy, h⟩
    · obtain ⟨ks', k', h1', h2', h3'⟩ := hx
      rw [h1] at h1'
      injection h1' with h1'
      subst h1'
      rw [h2] at h2'
      injection h2' with h2'
      injection h2' with h2'
      subst h2'
      rw [h3] at h3'
      cases h3'
    · have := spelledAt_unique hx hy
      subst this
      rcases h with h | ⟨key, r, h1, h2, h3, h4⟩
      · exact hc h
      · rw [addLoaded_eq hl] at ha
        exact addForms_compared _ ha i (List.mem_range.mpr hi) x key r hx h1 h2 h3 h4

/-! ## words with texts for forms -/

theorem less_texts (numLess : Json → Json → Bool) (a b : List Str) :
    Json.less numLess (.arr (a.map .str)) (.arr (b.map .str)) = .ok (strListLt a b) := by
  unfold Json.less
  simp only
  induction a generalizing b with
  | nil => cases b <;> simp [lessList, strListLt]
  | cons x a ih => cases b with
    | nil => simp [lessList, strListLt]
    | cons y b =>
      rw [List.map_cons, List.map_cons]
      unfold lessList strListLt
      have he : (Json.str x).eqv (.str y) = decide (x = y) := by simp [Json.eqv, Json.hkey]
      simp only [he, decide_eq_true_eq]
      by_cases h : x = y
      · rw [if_pos h, if_pos h]; exact ih b
      · rw [if_neg h, if_neg h]
        unfold Json.less
        rfl

theorem replaces_texts (numLess : Json → Json → Bool) (f r : WordForm) :
    replacesAny numLess (asLoadedForm f) (asLoadedForm r) = .ok (replaces f r) := by
  unfold replacesAny replaces
  simp only [asLoadedForm, asLoaded, less_texts, bind, Except.bind]
  repeat' split
  all_goals first | rfl | (simp_all; done) | (simp_all; exact decide_eq_false (by omega))

theorem spell_texts (U : PyUni) (w : Word) (p : Properties) :
    (asLoaded w).spell U p = (((WordForm.new w (some p)).form U).mapError LoadErr.other).map Json.str := by
  have hform : (asLoaded w).form p = ((w.formRaw (.new [.props p, .props w.properties])).mapError LoadErr.other).map .str := by
    unfold LoadedWord.form Word.formRaw asLoaded
    simp only [bind, Except.bind]
    cases rawWordsCache w.type with
    | error e => rfl
    | ok cache =>
      simp only
      cases cache.get? ((Properties.new [.props p, .props w.properties]).getRawKey w.type.schema) with
      | none => rfl
      | some i =>
        simp only [Json.nth, List.getElem?_map]
        cases w.forms[i]? <;> rfl
  have e1 : (WordForm.new w (some p)).form U = (do
      let form ← w.formRaw (.new [.props p, .props w.properties])
      let wc ← (Properties.new [.props p, .props w.properties]).getRec .WORD_CASE
      if wc = Rec.WORD_CASE_UPPER then upperFirst U form else .ok form) := rfl
  rw [e1]
  unfold LoadedWord.spell
  rw [hform]
  cases w.formRaw (.new [.props p, .props w.properties]) with
  | error e => rfl
  | ok s =>
    simp only [Except.mapError, Except.map, bind, Except.bind]
    show (match (Properties.new [.props p, .props w.properties]).getRec .WORD_CASE with
      | .error e => Except.error (LoadErr.other e)
      | .ok wc => if wc = Rec.WORD_CASE_UPPER then (Json.str s).upperFirst U else .ok (.str s)) = _
    cases (Properties.new [.props p, .props w.properties]).getRec .WORD_CASE with
    | error e => rfl
    | ok wc =>
      simp only
      by_cases hwc : wc = Rec.WORD_CASE_UPPER
      · rw [if_pos hwc, if_pos hwc]
        cases s <;> rfl
      · rw [if_neg hwc, if_neg hwc]

/-- A dictionary of words as they are after they were saved and loaded. -/
def asLoadedDict (d : Dictionary) : LoadedDictionary := d.map fun kv => (.text kv.1, asLoadedForm kv.2)

theorem get?_asLoaded (d : Dictionary) (text : Str) : Dict.get? (asLoadedDict d) (.text text) = (Dict.get? d text).map asLoadedForm := by
  unfold asLoadedDict
  induction d with
  | nil => rfl
  | cons kv d ih =>
    obtain ⟨k, v⟩ := kv
    rw [List.map_cons]
    unfold Dict.get?
    by_cases h : k = text
    · subst h; simp
    · rw [if_neg h, if_neg (by simpa using h)]; exact ih

theorem set_asLoaded (d : Dictionary) (text : Str) (f : WordForm) :
    Dict.set (asLoadedDict d) (.text text) (asLoadedForm f) = asLoadedDict (Dict.set d text f) := by
  unfold asLoadedDict
  induction d with
  | nil => rfl
  | cons kv d ih =>
    obtain ⟨k, v⟩ := kv
    rw [List.map_cons]
    unfold Dict.set
    by_cases h : k = text
    · subst h; simp
    · rw [if_neg h, if_neg (by simpa using h), ih]; rfl

theorem addForm_texts (numLess : Json → Json → Bool) (U : PyUni) (w : Word) (i : Nat) (d : Dictionary) :
    (asLoadedDict d).addForm numLess U (asLoaded w) i = match w.nthForm i with
      | .error e => .error (.other e)
      | .ok f => match f.form U with
        | .error e => .error (.other e)
        | .ok text => .ok (asLoadedDict (d.register text f)) := by
  unfold LoadedDictionary.addForm LoadedWord.nthProperties Word.nthForm invertedCacheProperties
  simp only [List.getElem?_map, bind, Except.bind]
  have ht : (asLoaded w).type = w.type := rfl
  rw [ht]
  cases hk : (invertedCache w.type)[i]? with
  | none => rfl
  | some key =>
    simp only [Option.map_some, spell_texts]
    cases hf : (WordForm.new w (some (propertiesOfKey key))).form U with
    | error e => rfl
    | ok text =>
      simp only [Except.mapError, Except.map, Json.hkey]
      show LoadedDictionary.register numLess (asLoadedDict d) (.text text) (asLoadedForm (WordForm.new w (some (propertiesOfKey key)))) = _
      unfold LoadedDictionary.register Dictionary.register
      rw [get?_asLoaded]
      cases hg : Dict.get? d text with
      | none => simp only [Option.map_none]; rw [set_asLoaded]
      | some r =>
        simp only [Option.map_some, replaces_texts, bind, Except.bind]
        by_cases hr : replaces (WordForm.new w (some (propertiesOfKey key))) r = true
        · rw [if_pos hr, if_pos hr, set_asLoaded]
        · rw [if_neg hr, if_neg hr]

theorem addForms_texts (numLess : Json → Json → Bool) (U : PyUni) (w : Word) (is : List Nat) (d : Dictionary) :
    (asLoadedDict d).addForms numLess U (asLoaded w) is = (asLoadedDict (d.addForms U w is).1, (d.addForms U w is).2.map .other) := by
  induction is generalizing d with
  | nil => rfl
  | cons i is ih =>
    unfold LoadedDictionary.addForms Dictionary.addForms
    rw [addForm_texts]
    cases w.nthForm i with
    | error e => rfl
    | ok f =>
      simp only
      cases f.form U with
      | error e => rfl
      | ok text => exact ih _

theorem addWord_texts (numLess : Json → Json → Bool) (U : PyUni) (w : Word) (d : Dictionary) :
    (asLoadedDict d).addWord numLess U (asLoaded w) = (asLoadedDict (d.addWord U w).1, (d.addWord U w).2.map .other) := by
  have : (asLoaded w).forms.size = .ok w.forms.length := by simp [asLoaded, Json.size]
  unfold LoadedDictionary.addWord Dictionary.addWord
  rw [this]
  exact addForms_texts numLess U w _ d

/-- C151: words whose forms are lists of texts are found as in any other dictionary. -/
theorem C151_proper (numLess : Json → Json → Bool) (U : PyUni) (ws : List Word) (text : Str) :
    (loadedHistory numLess U (ws.map asLoaded)).hasWord text = (history U ws).hasWord text ∧
    (∀ f, (history U ws).getWord text = .ok f → (loadedHistory numLess U (ws.map asLoaded)).getWord text = .ok (asLoadedForm f)) ∧
    (∀ e, (history U ws).getWord text = .error e → (loadedHistory numLess U (ws.map asLoaded)).getWord text = .error (.other e)) := by
  have h : ∀ (ws : List Word) (d : Dictionary), (ws.map asLoaded).foldl (fun d w => (d.addWord numLess U w).1) (asLoadedDict d) =
      asLoadedDict (ws.foldl (fun d w => (d.addWord U w).1) d) := by
    intro ws
    induction ws with
    | nil => intro d; rfl
    | cons w ws ih =>
      intro d
      rw [List.map_cons, List.foldl_cons, List.foldl_cons, addWord_texts]
      exact ih _
  have h' : loadedHistory numLess U (ws.map asLoaded) = asLoadedDict (history U ws) := h ws []
  rw [h']
  unfold LoadedDictionary.hasWord LoadedDictionary.getWord Dictionary.hasWord Dictionary.getWord Dict.contains
  rw [get?_asLoaded]
  cases Dict.get? (history U ws) text with
  | none => exact ⟨rfl, fun f h => (by cases h), fun e h => (by injection h with h; subst h; rfl)⟩
  | some g => exact ⟨rfl, fun f h => (by injection h with h; subst h; rfl), fun e h => (by cases h)⟩

/-! ## Examples -/

/-- A list of forms with a number, another one with a text in its place, and a text in place of the list. -/
def exNumberForm : LoadedWord := ⟨.PREPOSITION, .arr [.str (str! "в"), .int 5, .str (str! "во")], .new []⟩
def exTextForm : LoadedWord := ⟨.PREPOSITION, .arr [.str (str! "в"), .str (str! "во"), .str (str! "во")], .new []⟩
def exLetters : LoadedWord := ⟨.PREPOSITION, .str (str! "вов"), .new []⟩
def exListForm : LoadedWord := ⟨.PREPOSITION, .arr [.str (str! "в"), .arr [], .str (str! "во")], .new []⟩

example : loadWord (exOddForms exNumberForm.forms) = .ok exNumberForm ∧ loadWord (exOddForms exTextForm.forms) = .ok exTextForm ∧
    loadWord (exOddForms exLetters.forms) = .ok exLetters ∧ loadWord (exOddForms exListForm.forms) = .ok exListForm := ⟨rfl, rfl, rfl, rfl⟩

example : Distinct exNumberForm.forms ∧ Distinct exListForm.forms := by
  unfold exNumberForm exListForm
  simp [Distinct, DistinctList]

/-- C151: two words that can be added, but not both: a number and a text cannot be compared, nor a list and a text. -/
theorem C151_clash (numLess : Json → Json → Bool) (U : PyUni) :
    (LoadedDictionary.addWord numLess U [] exNumberForm).2 = none ∧ (LoadedDictionary.addWord numLess U [] exTextForm).2 = none ∧
    (LoadedDictionary.addWord numLess U [] exLetters).2 = none ∧
    ((loadedHistory numLess U [exNumberForm]).addWord numLess U exTextForm).2 = some .TypeError ∧
    ((loadedHistory numLess U [exLetters]).addWord numLess U exTextForm).2 = some .TypeError := by
  refine ⟨rfl, rfl, rfl, rfl, rfl⟩

/-- C151: a form that is a list makes `add_word` raise, after it has registered the forms before that one. -/
theorem C151_half (numLess : Json → Json → Bool) (U : PyUni) :
    (LoadedDictionary.addWord numLess U [] exListForm).2 = some .TypeError ∧
    (loadedHistory numLess U [exListForm]).hasWord (str! "в") = true ∧ (loadedHistory numLess U [exListForm]).hasWord (str! "во") = false :=
  ⟨rfl, rfl, rfl⟩

/-- Words without objects in which a key comes twice, in a dictionary with one such word. -/
example : Distinct exTextForm.forms ∧ ∀ key r, Dict.get? (loadedHistory (fun _ _ => false) exUni [exNumberForm]) key = some r → Distinct r.word.forms := by
  refine ⟨by simp [exTextForm, Distinct, DistinctList], fun key r h => ?_⟩
  obtain ⟨h, -⟩ := history_spelled _ _ _ _ _ h
  simp only [List.mem_singleton] at h
  rw [h]
  simp [exNumberForm, Distinct, DistinctList]

example : CannotCompare exTextForm.forms exNumberForm.forms ∧
    ¬ CannotCompare (.arr [.bool true, .null]) (.arr [.int 1, .null, .null]) ∧
    CannotCompare (.arr [.obj [(str! "a", .int 1)]]) (.arr [.obj [(str! "a", .int 2)]]) := by
  refine ⟨?_, ?_, ?_⟩
  · rw [← less_raises (fun _ _ => false)]; rfl
  · rw [← less_raises (fun _ _ => false)]; intro h; cases h
  · rw [← less_raises (fun _ _ => false)]; rfl

end Utg
