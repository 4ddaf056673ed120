import Verif.Proofs.Migrations
import Verif.Props.Words
/-!
# The older migrations (C61, C62)
-/

namespace Utg
open Py Spec

/-- C61: m_0002 leaves words that are not nouns alone; a noun gets the forms of its patch, or its plural forms again. -/
theorem C61_m0002 (d : M0002.PatchedWordData) :
    (d.type ≠ (WordType.NOUN.value : Int) → M0002.migrate d = .ok d) ∧
    (d.type = (WordType.NOUN.value : Int) → d.patches = [] → d.forms.length = 12 →
      ∃ d', M0002.migrate d = .ok d' ∧ d'.type = d.type ∧ d'.patches = d.patches ∧
        d'.forms.length = slotCount .NOUN ∧ d.forms <+: d'.forms ∧
        ∀ c ∈ cases, stored nounLayout d'.forms [.NOUN_FORM_COUNTABLE, .NUMBER_PLURAL, c] =
          stored nounLayout d.forms [.NOUN_FORM_NORMAL, .NUMBER_PLURAL, c]) ∧
    (d.type = (WordType.NOUN.value : Int) → ∀ patch, d.patches.get? 7 = some patch → d.forms.length = 12 → patch.length = 6 →
      ∃ d', M0002.migrate d = .ok d' ∧ d'.type = d.type ∧ d'.patches = d.patches ∧
        d'.forms.length = slotCount .NOUN ∧ d.forms <+: d'.forms ∧
        ∀ c ∈ cases, stored nounLayout d'.forms [.NOUN_FORM_COUNTABLE, .NUMBER_PLURAL, c] =
          stored (cases.map fun c => [c]) patch [c]) := by
  obtain ⟨t, fs, ps⟩ := d
  refine ⟨?_, ?_, ?_⟩
  · intro h
    unfold M0002.migrate
    rw [if_pos (by exact h)]
  · intro h h1 h2
    simp only at h h1 h2
    subst h h1
    refine ⟨⟨_, fs ++ fs.drop 6, []⟩, by unfold M0002.migrate; rw [if_neg (by show ¬ ((WordType.NOUN.value : Int) ≠ 0); decide), if_neg (by simp)], rfl, rfl, ?_, ⟨_, rfl⟩, ?_⟩
    · simp [slotCount, h2]
    · intro c hc
      have h3 : ∀ c ∈ cases, nounLayout.idxOf [.NOUN_FORM_COUNTABLE, .NUMBER_PLURAL, c] =
          nounLayout.idxOf [.NOUN_FORM_NORMAL, .NUMBER_PLURAL, c] + 6 ∧
          12 ≤ nounLayout.idxOf [.NOUN_FORM_COUNTABLE, .NUMBER_PLURAL, c] := by decide +kernel
      obtain ⟨h4, h5⟩ := h3 c hc
      unfold stored
      rw [List.getElem?_append_right (by omega), List.getElem?_drop, h4, h2]
      congr 1
      omega
  · intro h patch hp h2 h3
    simp only at h hp h2
    subst h
    have hne : ps ≠ [] := by intro e; subst e; simp [Dict.get?] at hp
    refine ⟨⟨_, fs ++ patch, ps⟩, by unfold M0002.migrate; rw [if_neg (by show ¬ ((WordType.NOUN.value : Int) ≠ 0); decide), if_pos hne, hp], rfl, rfl, ?_, ⟨_, rfl⟩, ?_⟩
    · simp [slotCount, h2, h3]
    · intro c hc
      have h4 : ∀ c ∈ cases, nounLayout.idxOf [.NOUN_FORM_COUNTABLE, .NUMBER_PLURAL, c] =
          12 + (cases.map fun c => [c]).idxOf [c] := by decide +kernel
      unfold stored
      rw [h4 c hc, List.getElem?_append_right (by omega), h2]
      congr 1
      omega

/-- A noun of that time without patches, and one with a patch. -/
def exOldNoun : M0002.PatchedWordData := ⟨0, (List.range 12).map fun (i : Nat) => pyStr i, []⟩
def exPatchedNoun : M0002.PatchedWordData := { exOldNoun with patches := [(7, (List.range 6).map fun (i : Nat) => pyStr (i + 100))] }

example : exOldNoun.type = (WordType.NOUN.value : Int) ∧ exOldNoun.patches = [] ∧ exOldNoun.forms.length = 12 := by decide +kernel
example : ∃ patch, exPatchedNoun.patches.get? 7 = some patch ∧ patch.length = 6 := ⟨_, rfl, rfl⟩
example : (M0002.migrate exPatchedNoun).map (fun d => d.forms.drop 11) =
    .ok [str! "11", str! "100", str! "101", str! "102", str! "103", str! "104", str! "105"] := by decide +kernel

/-- C61: a noun with patches, none of them for the countable forms, is a `KeyError`. -/
theorem C61_m0002_missing_patch (d : M0002.PatchedWordData) (h : d.type = (WordType.NOUN.value : Int)) (h1 : d.patches ≠ [])
    (h2 : d.patches.get? 7 = none) : M0002.migrate d = .error .KeyError := by
  unfold M0002.migrate
  rw [if_neg (by rw [h]; decide), if_pos h1, h2]

/-- C61: m_0004 leaves words that are not prepositions alone; a preposition of two forms gets its second form as the third, and
can be loaded. -/
theorem C61_m0004 (d : WordData) :
    (d.type ≠ (WordType.PREPOSITION.value : Int) → M0004.migrate d = .ok d) ∧
    (d.type = (WordType.PREPOSITION.value : Int) → ∀ normal alternative, d.forms = [normal, alternative] →
      M0004.migrate d = .ok { d with forms := [normal, alternative, alternative] }) ∧
    (d.type = (WordType.PREPOSITION.value : Int) → d.forms = [] → M0004.migrate d = .error .IndexError) := by
  refine ⟨?_, ?_, ?_⟩
  · intro h
    unfold M0004.migrate
    rw [if_pos (by exact h)]
  · intro h a b hf
    unfold M0004.migrate
    rw [if_neg (by rw [h]; decide), hf]
    rfl
  · intro h hf
    unfold M0004.migrate
    rw [if_neg (by rw [h]; decide), hf]
    rfl

example : M0004.migrate ⟨10, [str! "о", str! "об"], []⟩ = .ok ⟨10, [str! "о", str! "об", str! "об"], []⟩ := by decide +kernel

/-- C61: the migrated preposition is loadable. -/
theorem C61_m0004_loadable (d : WordData) (p : Properties) (a b : Str) (h : d.type = (WordType.PREPOSITION.value : Int))
    (hf : d.forms = [a, b]) (hp : Properties.deserialize d.properties = .ok p) :
    ∃ d' w, M0004.migrate d = .ok d' ∧ Word.deserialize d' = .ok w ∧ w.forms = [a, b, b] := by
  refine ⟨_, ⟨.PREPOSITION, [a, b, b], p⟩, (C61_m0004 d).2.1 h a b hf, ?_, rfl⟩
  unfold Word.deserialize
  simp only [h, hp, wordTypeOfValue_value, bind, Except.bind]
  exact (C08_constructor .PREPOSITION [a, b, b] p).1 rfl

theorem get?_filter_ne {V : Type} (k0 : JKey) (ps : Dict JKey V) (k : JKey) :
    Dict.get? (ps.filter fun kv => decide (kv.1 ≠ k0)) k = if k = k0 then none else Dict.get? ps k := by
  induction ps with
  | nil => simp [Dict.get?]
  | cons kv ps ih =>
    by_cases h : kv.1 = k0
    · rw [List.filter_cons_of_neg (by simpa using h), ih]
      by_cases h1 : k = k0
      · simp [h1]
      · rw [if_neg h1, if_neg h1, Dict.get?, if_neg (by rw [h]; exact fun e => h1 e.symm)]
    · rw [List.filter_cons_of_pos (by simpa using h), Dict.get?, ih, Dict.get?]
      by_cases h1 : kv.1 = k
      · rw [if_pos h1, if_pos h1, if_neg (by rw [← h1]; exact h)]
      · rw [if_neg h1, if_neg h1]

/-- C61: m_0005 removes exactly the time of participles read from JSON (where the code of the property is a string). -/
theorem C61_m0005 (d : WordData) :
    (d.type ≠ (WordType.PARTICIPLE.value : Int) → M0005.migrate d = d) ∧
    (d.type = (WordType.PARTICIPLE.value : Int) →
      (M0005.migrate d).type = d.type ∧ (M0005.migrate d).forms = d.forms ∧
      ∀ k, (M0005.migrate d).properties.get? k = if k = .str (pyStr Group.TIME.code) then none else d.properties.get? k) := by
  refine ⟨?_, ?_⟩
  · intro h
    unfold M0005.migrate
    rw [if_pos (by exact h)]
  · intro h
    unfold M0005.migrate
    rw [if_neg (by rw [h]; decide)]
    refine ⟨rfl, rfl, ?_⟩
    intro k
    have : pyStr (Group.TIME.code : Int) = str! "5" := by decide +kernel
    rw [this]
    exact get?_filter_ne _ d.properties k

example : M0005.migrate ⟨4, [], [(.str (str! "4"), 1), (.str (str! "5"), 2), (.int 5, 2)]⟩ =
    ⟨4, [], [(.str (str! "4"), 1), (.int 5, 2)]⟩ := by decide +kernel

/-- C61: in particular, data serialized but not sent through JSON keep the time. -/
theorem C61_m0005_in_memory (w : Word) : M0005.migrate w.serialize = w.serialize := by
  unfold M0005.migrate
  by_cases h : w.serialize.type ≠ 4
  · rw [if_pos h]
  · rw [if_neg h]
    have : (w.serialize.properties.filter fun kv => decide (kv.1 ≠ .str (str! "5"))) = w.serialize.properties := by
      rw [List.filter_eq_self]
      intro kv hkv
      simp only [Word.serialize, Properties.serialize, List.mem_map] at hkv
      obtain ⟨a, _, rfl⟩ := hkv
      simp
    rw [this]

/-- C62 (violated): m_0003 and m_0006 cannot be imported, so m_0003 migrates no word. -/
theorem C62_import_violated : M0003.importModule = .error .AttributeError ∧ M0006.importModule = .error .AttributeError ∧
    ∀ d, M0003.migrate d = .error .AttributeError := by
  have h : M0003.importModule = .error .AttributeError := by decide +kernel
  refine ⟨h, ?_, ?_⟩
  · have h6 : (match M0006.importModule with | .error .AttributeError => true | _ => false) = true := by decide +kernel
    revert h6
    cases M0006.importModule with
    | ok _ => simp
    | error e => cases e <;> simp
  intro d
  unfold M0003.migrate
  rw [h]
  rfl

theorem wordsCache_zipIdx (t : WordType) : wordsCache t = (wordsCache t).keys.zipIdx := by cases t <;> decide +kernel

set_option maxHeartbeats 4000000 in
theorem plan1_adjective : (wordsCache .ADJECTIVE).keys.mapM (M0001.near M0001.oldAdjective) =
    .ok (List.replicate 101 (adjectiveBefore1.idxOf [.NUMBER_PLURAL, .CASE_INSTRUMENTAL, .ANIMALITY_ANIMATE, .GRADE_POSITIVE])) := by
  decide +kernel

/-- C62 (violated): m_0001 gives an adjective one and the same form in every slot, its old instrumental plural. -/
theorem C62_adjective_violated (d : WordData) (h : d.type = (WordType.ADJECTIVE.value : Int))
    (hl : d.forms.length = adjectiveBefore1.length) :
    ∃ d' f, M0001.migrate d = .ok d' ∧
      stored adjectiveBefore1 d.forms [.NUMBER_PLURAL, .CASE_INSTRUMENTAL, .ANIMALITY_ANIMATE, .GRADE_POSITIVE] = some f ∧
      d'.forms = List.replicate (slotCount .ADJECTIVE) f := by
  have hmem : [Rec.NUMBER_PLURAL, .CASE_INSTRUMENTAL, .ANIMALITY_ANIMATE, .GRADE_POSITIVE] ∈ adjectiveBefore1 := by decide +kernel
  refine ⟨{ d with forms := _ }, _, ?_, stored_mem hl hmem, rfl⟩
  unfold M0001.migrate
  rw [if_pos (by rw [h]; decide), M0001.migrateForms_plan (wordsCache_zipIdx _) plan1_adjective]
  · simp [bind, Except.bind]
  · intro i hi
    rw [List.mem_replicate] at hi
    rw [hi.2, hl]
    exact List.idxOf_lt_length_of_mem hmem

set_option maxHeartbeats 4000000 in
theorem plan1_participle : ∃ plan, (wordsCache .PARTICIPLE).keys.mapM (M0001.near M0001.oldParticiple) = .ok plan ∧
    plan.length = (layoutNow .PARTICIPLE).length ∧ (∀ i ∈ plan, i < participleBefore1.length) ∧
    ∀ e ∈ (layoutNow .PARTICIPLE).zip plan, (e.1.head? = some .PARTICIPLE_FORM_FULL →
        Compatible1 e.1 (participleBefore1.getD e.2 [])) ∧
      (e.1.head? ≠ some .PARTICIPLE_FORM_FULL → (e.1, participleBefore1.getD e.2 []) ∈ shortBefore1) := by
  have h : (match (wordsCache .PARTICIPLE).keys.mapM (M0001.near M0001.oldParticiple) with
    | .error _ => false
    | .ok plan => decide (plan.length = (layoutNow .PARTICIPLE).length ∧ (∀ i ∈ plan, i < participleBefore1.length) ∧
      ∀ e ∈ (layoutNow .PARTICIPLE).zip plan, (e.1.head? = some .PARTICIPLE_FORM_FULL →
          Compatible1 e.1 (participleBefore1.getD e.2 [])) ∧
        (e.1.head? ≠ some .PARTICIPLE_FORM_FULL → (e.1, participleBefore1.getD e.2 []) ∈ shortBefore1))) = true := by
    decide +kernel
  cases hp : (wordsCache .PARTICIPLE).keys.mapM (M0001.near M0001.oldParticiple) with
  | error e => rw [hp] at h; simp at h
  | ok plan =>
    rw [hp] at h
    exact ⟨plan, rfl, of_decide_eq_true h⟩

/-- The forms of a participle after m_0001: each is an old form for which the plan is right. -/
theorem participle_migrated1 (d : WordData) (h : d.type = (WordType.PARTICIPLE.value : Int))
    (hl : d.forms.length = participleBefore1.length) :
    ∃ d', M0001.migrate d = .ok d' ∧ d'.type = d.type ∧ d'.properties = d.properties ∧
      d'.forms.length = (layoutNow .PARTICIPLE).length ∧ ∀ m ∈ layoutNow .PARTICIPLE,
      ∃ o ∈ participleBefore1, (m.head? = some .PARTICIPLE_FORM_FULL → Compatible1 m o) ∧
        (m.head? ≠ some .PARTICIPLE_FORM_FULL → (m, o) ∈ shortBefore1) ∧
        stored (layoutNow .PARTICIPLE) d'.forms m = stored participleBefore1 d.forms o := by
  obtain ⟨plan, hp, hlen, hb, hc⟩ := plan1_participle
  refine ⟨{ d with forms := plan.map fun i => d.forms.getD i [] }, ?_, rfl, rfl, by simpa using hlen, ?_⟩
  · unfold M0001.migrate
    rw [if_neg (by rw [h]; decide), if_pos (by rw [h]; decide),
      M0001.migrateForms_plan (wordsCache_zipIdx _) hp (by intro i hi; rw [hl]; exact hb i hi)]
    simp [bind, Except.bind]
  · intro m hm
    have hi := List.idxOf_lt_length_of_mem hm
    have hi' : (layoutNow .PARTICIPLE).idxOf m < plan.length := by rw [hlen]; exact hi
    have hj := hb _ (List.getElem_mem hi')
    have hx := hc (m, plan[(layoutNow .PARTICIPLE).idxOf m]) (by
        rw [List.mem_iff_getElem]
        refine ⟨_, by rw [List.length_zip, hlen]; simpa using hi, ?_⟩
        rw [List.getElem_zip]
        simp)
    have hg : participleBefore1.getD plan[(layoutNow .PARTICIPLE).idxOf m] [] =
        participleBefore1[plan[(layoutNow .PARTICIPLE).idxOf m]] := by simp [List.getD, hj]
    rw [hg] at hx
    refine ⟨participleBefore1[plan[(layoutNow .PARTICIPLE).idxOf m]], List.getElem_mem _, hx.1, hx.2, ?_⟩
    have hnd : participleBefore1.Nodup := by decide +kernel
    unfold stored
    rw [hnd.idxOf_getElem, List.getElem?_map, List.getElem?_eq_getElem hi', Option.map_some,
      List.getElem?_eq_getElem (by rw [hl]; exact hj)]
    simp [List.getD, hl, hj]

/-- C62: m_0001 gives a participle, for each full form, an old form of the same number and case, in the past tense of the same time
and gender, in the plural of the same time, and otherwise of the same time or of the same gender. (Missing, and not true: the same
voice and animality, and both time and gender outside the past.) -/
theorem C62_participle_partial (d : WordData) (h : d.type = (WordType.PARTICIPLE.value : Int))
    (hl : d.forms.length = participleBefore1.length) :
    ∃ d', M0001.migrate d = .ok d' ∧ d'.type = d.type ∧ d'.properties = d.properties ∧
      d'.forms.length = (layoutNow .PARTICIPLE).length ∧
      ∀ m, .PARTICIPLE_FORM_FULL :: m ∈ layoutNow .PARTICIPLE →
      ∃ o ∈ participleBefore1, Compatible1 (.PARTICIPLE_FORM_FULL :: m) o ∧
        stored (layoutNow .PARTICIPLE) d'.forms (.PARTICIPLE_FORM_FULL :: m) = stored participleBefore1 d.forms o := by
  obtain ⟨d', h1, h2, h3, h4, h5⟩ := participle_migrated1 d h hl
  refine ⟨d', h1, h2, h3, h4, fun m hm => ?_⟩
  obtain ⟨o, ho, hc, _, hs⟩ := h5 _ hm
  exact ⟨o, ho, hc rfl, hs⟩

/-- C62 (violated): m_0001 fills the short forms of a participle, which the old layout did not have, with full forms: masculine and
neuter with accusatives of the past, feminine with a prepositional of the past, plural with a nominative of the future. -/
theorem C62_short_violated (d : WordData) (h : d.type = (WordType.PARTICIPLE.value : Int))
    (hl : d.forms.length = participleBefore1.length) :
    ∃ d', M0001.migrate d = .ok d' ∧ ∀ e ∈ shortBefore1,
      stored (layoutNow .PARTICIPLE) d'.forms e.1 = stored participleBefore1 d.forms e.2 := by
  obtain ⟨d', h1, _, _, _, h5⟩ := participle_migrated1 d h hl
  refine ⟨d', h1, fun e he => ?_⟩
  have hin : ∀ e ∈ shortBefore1, e.1 ∈ layoutNow .PARTICIPLE ∧ e.1.head? ≠ some .PARTICIPLE_FORM_FULL ∧
      ∀ e' ∈ shortBefore1, e'.1 = e.1 → e'.2 = e.2 := by decide +kernel
  obtain ⟨o, _, _, hs, hst⟩ := h5 _ (hin e he).1
  have := (hin e he).2.2 _ (hs (hin e he).2.1) rfl
  rw [hst]
  exact congrArg _ this

/-- C62: m_0001 leaves other words alone. -/
theorem C62_others_partial (d : WordData) (h : d.type ≠ (WordType.ADJECTIVE.value : Int)) (h' : d.type ≠ (WordType.PARTICIPLE.value : Int)) :
    M0001.migrate d = .ok d := by
  unfold M0001.migrate
  rw [if_neg (by exact h), if_neg (by exact h')]

example : (⟨1, (List.range 144).map fun (i : Nat) => pyStr i, []⟩ : WordData).forms.length = adjectiveBefore1.length ∧
    (⟨4, (List.range 192).map fun (i : Nat) => pyStr i, []⟩ : WordData).forms.length = participleBefore1.length := by decide +kernel

end Utg
