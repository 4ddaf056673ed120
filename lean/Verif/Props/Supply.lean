import Verif.Props.EndToEnd
import Verif.Props.Plain
/-! # C165: words that a template misses can be supplied -/

namespace Utg
open Py Spec

theorem hasWord_append {U : PyUni} {ws more : List Word} (hws : ∀ w ∈ ws, Accepted w) (hmore : ∀ w ∈ more, Accepted w) (t : Str) :
    (history U (ws ++ more)).hasWord t = ((history U ws).hasWord t || (history U more).hasWord t) := by
  have hall : ∀ w ∈ ws ++ more, Accepted w := fun w hw => (List.mem_append.mp hw).elim (hws w) (hmore w)
  rw [Bool.eq_iff_iff, Bool.or_eq_true, (C26_known_texts U _ hall t).2.1, (C26_known_texts U _ hws t).2.1, (C26_known_texts U _ hmore t).2.1]
  constructor
  · rintro ⟨w, hw, f, hf⟩
    rcases List.mem_append.mp hw with h | h
    · exact .inl ⟨w, h, f, hf⟩
    · exact .inr ⟨w, h, f, hf⟩
  · rintro (⟨w, hw, f, hf⟩ | ⟨w, hw, f, hf⟩)
    · exact ⟨w, List.mem_append_left _ hw, f, hf⟩
    · exact ⟨w, List.mem_append_right _ hw, f, hf⟩

/-- C165: after words are added, exactly those texts are still reported, in the same order and as often, that were reported before and
that a dictionary of the added words alone does not know. -/
theorem C165_remaining (U : PyUni) (t : Template) (names : List Str) (ws more : List Word) (hws : ∀ w ∈ ws, Accepted w)
    (hmore : ∀ w ∈ more, Accepted w) :
    t.getUndictionariedWords names (history U (ws ++ more)) =
      (t.getUndictionariedWords names (history U ws)).filter fun id => !(history U more).hasWord id := by
  rw [C49_exact, C49_exact, List.filter_filter]
  congr 1
  funext id
  rw [hasWord_append hws hmore]
  cases (history U ws).hasWord id <;> cases (history U more).hasWord id <;> simp

/-- C165: if for every reported text a word is added that can be added without an error and has a form spelled so, then nothing is
reported any more, and the template can be filled. -/
theorem C165_supplied (U : PyUni) (hU : ∀ c, U.upperC c ≠ []) (names : List Str) (text : Str) (t : Template)
    (ht : Template.empty.parse U text names = .ok t) (ws more : List Word) (hws : ∀ w ∈ ws ++ more, Accepted w)
    (hne : ∀ w ∈ ws ++ more, ∀ x ∈ w.forms, x ≠ [])
    (hsup : ∀ id ∈ t.getUndictionariedWords names (history U ws), ∃ w ∈ more, ∃ fs, w.allForms = .ok fs ∧ ∃ f ∈ fs, f.form U = .ok id) :
    t.getUndictionariedWords names (history U (ws ++ more)) = [] ∧
    ∀ ext : Externals, GoodExternals ext → (∀ n f, ext.get? n = some f → NonEmptyForms f) → (∀ n, n ∈ names ↔ ∃ f, ext.get? n = some f) →
      ∃ result, t.substitute U ext (history U (ws ++ more)) = .ok result := by
  have h1 : ∀ w ∈ ws, Accepted w := fun w hw => hws w (List.mem_append_left _ hw)
  have h2 : ∀ w ∈ more, Accepted w := fun w hw => hws w (List.mem_append_right _ hw)
  have hnone : t.getUndictionariedWords names (history U (ws ++ more)) = [] := by
    rw [C165_remaining U t names ws more h1 h2, List.filter_eq_nil_iff]
    intro id hid
    obtain ⟨w, hw, fs, hfs, f, hf, hft⟩ := hsup id hid
    have hs := (C26_spellable U w (h2 w hw) (.inr (hne w (List.mem_append_right _ hw)))).1
    have : (history U more).hasWord id = true :=
      (C26_known_texts U more h2 id).2.1.mpr ⟨w, hw, f, (C26_offered_all U w hs id f).mpr ⟨fs, hfs, hf, hft⟩⟩
    simp [this]
  refine ⟨hnone, fun ext he hen hn => ?_⟩
  exact C50_checked_template U names ext _ text t hU he (goodDictionary_history U _ hws) hen (nonEmpty_history hws hne) ht hn hnone

theorem plain_accepted (x : Str) : Accepted (plain x).word := (plain_good x).1

theorem plain_offers (U : PyUni) (x : Str) : ∃ fs, (plain x).word.allForms = .ok fs ∧ ∃ f ∈ fs, f.form U = .ok x := by
  have hs := (C26_spellable U _ (plain_accepted x) (.inl rfl)).1
  obtain ⟨f, hf⟩ := (C26_texts_are_forms U (plain x).word (plain_accepted x) (by intro g _; rfl) rfl x).mpr (by simp [plain, WordForm.new])
  obtain ⟨fs, h1, h2, h3⟩ := (C26_offered_all U _ hs x f).mp hf
  exact ⟨fs, h1, f, h2, h3⟩

/-- C165: so every template that can be parsed can be completed: a word of type text for each reported text suffices, for any dictionary,
whatever the reported texts are (only an empty one would be refused by the capital letter). -/
theorem C165_texts (U : PyUni) (hU : ∀ c, U.upperC c ≠ []) (names : List Str) (text : Str) (t : Template)
    (ht : Template.empty.parse U text names = .ok t) (ws : List Word) (hws : ∀ w ∈ ws, Accepted w) (hne : ∀ w ∈ ws, ∀ x ∈ w.forms, x ≠ [])
    (missing : List Str) (hm : t.getUndictionariedWords names (history U ws) = missing) (hz : [] ∉ missing) :
    (∀ id ∈ missing, Word.new .TEXT [id] (.new []) = .ok (plain id).word) ∧
    t.getUndictionariedWords names (history U (ws ++ missing.map fun id => (plain id).word)) = [] ∧
    ∀ ext : Externals, GoodExternals ext → (∀ n f, ext.get? n = some f → NonEmptyForms f) → (∀ n, n ∈ names ↔ ∃ f, ext.get? n = some f) →
      ∃ result, t.substitute U ext (history U (ws ++ missing.map fun id => (plain id).word)) = .ok result := by
  refine ⟨fun id _ => rfl, C165_supplied U hU names text t ht ws _ ?_ ?_ ?_⟩
  · intro w hw
    rcases List.mem_append.mp hw with h | h
    · exact hws w h
    · obtain ⟨id, -, rfl⟩ := List.mem_map.mp h
      exact plain_accepted id
  · intro w hw x hx
    rcases List.mem_append.mp hw with h | h
    · exact hne w h x hx
    · obtain ⟨id, hid, rfl⟩ := List.mem_map.mp h
      have : x = id := by simpa [plain, WordForm.new] using hx
      subst this
      rintro rfl
      exact hz hid
  · intro id hid
    rw [hm] at hid
    obtain ⟨fs, h1, h2⟩ := plain_offers U id
    exact ⟨_, List.mem_map.mpr ⟨id, hid, rfl⟩, fs, h1, h2⟩

theorem plain_allForms (x : Str) : (plain x).word.allForms = .ok [plain x] := rfl

/-- C165: and a text supplied so is printed where it was missing, with a capital letter if one is asked for, whatever else is asked of it;
a variable that was not missing gets what it got before. -/
theorem C165_prints (U : PyUni) (ws : List Word) (hws : ∀ w ∈ ws, Accepted w) (names : List Str) (text : Str) (t : Template)
    (ht : Template.empty.parse U text names = .ok t) (ext : Externals) (he : GoodExternals ext)
    (hn : ∀ n, n ∈ names ↔ ∃ f, ext.get? n = some f) (s : Substitution) (hs : s ∈ t.substitutions) (missing : List Str) (hm : t.getUndictionariedWords names (history U ws) = missing) :
    s.getText U ext (history U (ws ++ missing.map fun id => (plain id).word)) =
      if s.id ∈ missing then inCase U (asksCapital ext s.dependencies) s.id else s.getText U ext (history U ws) := by
  obtain ⟨hg, hd⟩ := template_good ht s hs
  have hmore : ∀ w ∈ missing.map (fun id => (plain id).word), Accepted w := by
    intro w hw
    obtain ⟨id, -, rfl⟩ := List.mem_map.mp hw
    exact plain_accepted id
  have hall : ∀ w ∈ ws ++ missing.map (fun id => (plain id).word), Accepted w :=
    fun w hw => (List.mem_append.mp hw).elim (hws w) (hmore w)
  have hrep : s.id ∈ missing ↔ s.id ∉ names ∧ (history U ws).hasWord s.id = false := by
    rw [← hm, C49_exact, List.mem_filter]
    simp only [List.mem_map, Bool.and_eq_true, decide_eq_true_eq, Bool.not_eq_true']
    exact ⟨fun h => h.2, fun h => ⟨⟨s, hs, rfl⟩, h⟩⟩
  -- an added word spells its own text only
  have honly : ∀ id ∈ missing, ∀ f, (s.id, f) ∈ offered U (plain id).word → id = s.id ∧ f = plain id := by
    intro id _ f hf
    obtain ⟨fs, h1, h2, h3⟩ := (C26_offered_all U _ (C26_spellable U _ (plain_accepted id) (.inl rfl)).1 s.id f).mp hf
    rw [plain_allForms] at h1; injection h1 with h1; subst h1
    have : f = plain id := by simpa using h2
    subst this
    have e : (plain id).form U = .ok id := by
      obtain ⟨gs, g1, g, g2, g3⟩ := plain_offers U id
      rw [plain_allForms] at g1; injection g1 with g1; subst g1
      have : g = plain id := by simpa using g2
      rw [← this]; exact g3
    rw [e] at h3; injection h3 with h3
    exact ⟨h3, rfl⟩
  split
  · rename_i hmiss
    obtain ⟨h1, h2⟩ := hrep.mp hmiss
    have hx : ext.get? s.id = none := by
      cases h : ext.get? s.id with
      | none => rfl
      | some f => exact absurd ((hn _).mpr ⟨f, h⟩) h1
    have hk : (history U (ws ++ missing.map fun id => (plain id).word)).hasWord s.id = true := by
      obtain ⟨fs, g1, g, g2, g3⟩ := plain_offers U s.id
      exact (C26_known_texts U _ hall s.id).2.1.mpr ⟨_, List.mem_append_right _ (List.mem_map.mpr ⟨_, hmiss, rfl⟩), g,
        (C26_offered_all U _ (C26_spellable U _ (plain_accepted _) (.inl rfl)).1 _ _).mpr ⟨fs, g1, g2, g3⟩⟩
    obtain ⟨f, hf⟩ := (C26_known_texts U _ hall s.id).1.mp hk
    obtain ⟨v, hv, hmem⟩ := mem_candidatesFor.mp (firstBest_mem (C27_first_best U _ hall s.id f hf))
    rcases List.mem_append.mp hv with hv | hv
    · have := (C26_known_texts U ws hws s.id).2.1.mpr ⟨v, hv, f, hmem⟩
      rw [h2] at this; cases this
    · obtain ⟨id, hid, rfl⟩ := List.mem_map.mp hv
      obtain ⟨e1, e2⟩ := honly id hid f hmem
      rw [e2, e1] at hf
      exact plain_getText U ext _ s s.id he (goodDictionary_history U _ hall) hg (.inr ⟨hx, hf⟩) fun n hnm h0 => by
        obtain ⟨g, hg⟩ := (hn n).mp (hd n hnm)
        rw [h0] at hg; cases hg
  · rename_i hmiss
    unfold Substitution.getText Substitution.baseForm
    cases hx : ext.get? s.id with
    | some f => rfl
    | none =>
      have hlook := getWord_unchanged hws hmore (id := s.id) (by
        intro w hw fs hfs f hf e
        obtain ⟨id, hid, rfl⟩ := List.mem_map.mp hw
        have := (honly id hid f ((C26_offered_all U _ (C26_spellable U _ (plain_accepted id) (.inl rfl)).1 s.id f).mpr ⟨fs, hfs, hf, e⟩)).1
        exact hmiss (this ▸ hid))
      simp only [hlook]

/-- C165 applies: two of three words are missing. -/
example : ∃ t, Template.empty.parse exPy (str! "[a|x] [x] [wow] [Zap|x]!") [str! "x"] = .ok t ∧
    t.getUndictionariedWords [str! "x"] (history exPy exWords) = [str! "wow", str! "zap"] ∧
    t.getUndictionariedWords [str! "x"] (history exPy (exWords ++ [(plain (str! "wow")).word])) = [str! "zap"] :=
  ⟨⟨[⟨str! "a", [.ext (str! "x")]⟩, ⟨str! "x", []⟩, ⟨str! "wow", []⟩, ⟨str! "zap", [.ext (str! "x"), .props (.new [.record .WORD_CASE_UPPER])]⟩],
    some (str! "%s %s %s %s!")⟩, by decide +kernel, by decide +kernel, by decide +kernel⟩

/-- C165: the completed template, filled. -/
example : ∃ t, Template.empty.parse exPy (str! "[a|x] [x] [wow] [Zap|x]!") [str! "x"] = .ok t ∧
    t.substitute exPy [(str! "x", plain (str! "b"))] (history exPy (exWords ++ [str! "wow", str! "zap"].map fun id => (plain id).word)) =
      .ok (str! "a b wow Zap!") :=
  ⟨⟨[⟨str! "a", [.ext (str! "x")]⟩, ⟨str! "x", []⟩, ⟨str! "wow", []⟩, ⟨str! "zap", [.ext (str! "x"), .props (.new [.record .WORD_CASE_UPPER])]⟩],
    some (str! "%s %s %s %s!")⟩, by decide +kernel, by decide +kernel⟩

end Utg
