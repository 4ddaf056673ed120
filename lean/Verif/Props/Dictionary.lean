import Verif.Proofs.Dictionary
import Verif.Props.WordForms
/-! # Properties C25-C30: dictionaries

All statements are about `history U ws`: the dictionary after adding arbitrary accepted words in an arbitrary order, also
when some `add_word` raised on the way. -/

namespace Utg
open Py Spec

/-- A trivial interpretation of the Unicode functions, for the examples. -/
def exUni : PyUni := ⟨id, fun c => [c], fun _ => false, fun c => c = ' ', fun _ => true⟩

/-- A text word. -/
def exText (s : Str) (p : Properties := .new []) : Word := ⟨.TEXT, [s], p⟩

theorem exText_accepted (s : Str) (p : Properties) (hp : WFProps p) : Accepted (exText s p) :=
  ⟨.TEXT, [s], p, hp, (C08_constructor .TEXT [s] p).1 rfl⟩

/-- A dictionary history with a clash: a noun with the form `a`, and a text `a`. -/
def exWords : List Word := [exText (str! "a"), exNoun, exText (str! "zz"), exPlural]

theorem exWords_accepted : ∀ w ∈ exWords, Accepted w := by
  intro w hw
  simp only [exWords, List.mem_cons, List.not_mem_nil, or_false] at hw
  rcases hw with rfl | rfl | rfl | rfl
  · exact exText_accepted _ _ wf_empty
  · exact exNoun_accepted
  · exact exText_accepted _ _ wf_empty
  · exact exPlural_accepted

theorem offered_wf {U : PyUni} {w : Word} (hw : Accepted w) {c : Str × WordForm} (h : c ∈ offered U w) : WFProps c.2.properties := by
  have hall := allForms_spec (accepted_iff.mp hw).2
  unfold offered at h
  rw [hall] at h
  obtain ⟨k, _, hk⟩ := List.mem_map.mp (mem_spelled (t := c.1) (f := c.2) h).1
  rw [← hk]
  exact wf_new2 (wf_propertiesOfKey k) (accepted_iff.mp hw).1

theorem candidates_wf {U : PyUni} {ws : List Word} (hws : ∀ w ∈ ws, Accepted w) :
    ∀ c ∈ candidates U ws, WFProps c.2.properties := by
  intro c hc
  obtain ⟨w, hw, hm⟩ := List.mem_flatMap.mp hc
  exact offered_wf (hws w hw) hm

theorem getWord_history {U : PyUni} {ws : List Word} (hws : ∀ w ∈ ws, Accepted w) (t : Str) :
    (candidatesFor U ws t = [] ∧ (history U ws).getWord t = .error (.NoWordsFoundError t) ∧ (history U ws).hasWord t = false) ∨
    ∃ f, (history U ws).getWord t = .ok f ∧ (history U ws).hasWord t = true ∧ FirstBest (candidatesFor U ws t) f := by
  rw [history_eq hws]
  rcases registerAll_get? (candidates U ws) (candidates_wf hws) t with ⟨h1, h2⟩ | ⟨f, h1, h2⟩
  · left; refine ⟨h1, ?_, ?_⟩
    · unfold Dictionary.getWord; rw [h2]
    · unfold Dictionary.hasWord Dict.contains; rw [h2]; rfl
  · right; refine ⟨f, ?_, ?_, h2⟩
    · unfold Dictionary.getWord; rw [h1]
    · unfold Dictionary.hasWord Dict.contains; rw [h1]; rfl

theorem mem_candidatesFor {U : PyUni} {ws : List Word} {t : Str} {f : WordForm} :
    f ∈ candidatesFor U ws t ↔ ∃ w ∈ ws, (t, f) ∈ offered U w := by
  have : candidatesFor U ws t = only t (candidates U ws) := rfl
  rw [this, mem_only]
  unfold candidates
  simp [List.mem_flatMap]

theorem offered_word {U : PyUni} {w : Word} (hw : Accepted w) {t : Str} {f : WordForm} (h : (t, f) ∈ offered U w) :
    f.word = w ∧ f.form U = .ok t ∧ ∃ fs, w.allForms = .ok fs ∧ f ∈ fs := by
  have hall := allForms_spec (accepted_iff.mp hw).2
  unfold offered at h
  rw [hall] at h
  obtain ⟨h1, h2⟩ := mem_spelled h
  refine ⟨?_, h2, _, hall, h1⟩
  simp only [List.mem_map] at h1
  obtain ⟨k, _, rfl⟩ := h1
  rfl

/-- C25: a lookup returns a form spelled as asked; it is one of the forms of an added word. -/
theorem C25_lookup_sound (U : PyUni) (ws : List Word) (hws : ∀ w ∈ ws, Accepted w) (t : Str) (f : WordForm)
    (h : (history U ws).getWord t = .ok f) :
    f.form U = .ok t ∧ f.word ∈ ws ∧ ∃ fs, f.word.allForms = .ok fs ∧ f ∈ fs := by
  rcases getWord_history (U := U) hws t with ⟨_, h2, _⟩ | ⟨f', h1, _, h3⟩
  · rw [h] at h2; simp at h2
  · rw [h] at h1; injection h1 with h1; subst h1
    obtain ⟨w, hw, hm⟩ := mem_candidatesFor.mp (firstBest_mem h3)
    obtain ⟨e, h4, h5⟩ := offered_word (hws w hw) hm
    subst e
    exact ⟨h4, hw, h5⟩

example : ((history exUni exWords).getWord (str! "a")).map (fun f => f.word.type) = .ok .NOUN ∧
    ((history exUni exWords).getWord (str! "zz")).map (fun f => f.word.type) = .ok .TEXT := by decide +kernel

/-- C26: `has_word`, `get_word` and the added words agree. -/
theorem C26_known_texts (U : PyUni) (ws : List Word) (hws : ∀ w ∈ ws, Accepted w) (t : Str) :
    ((history U ws).hasWord t = true ↔ ∃ f, (history U ws).getWord t = .ok f) ∧
    ((history U ws).hasWord t = true ↔ ∃ w ∈ ws, ∃ f, (t, f) ∈ offered U w) ∧
    ((history U ws).hasWord t = false → (history U ws).getWord t = .error (.NoWordsFoundError t)) := by
  rcases getWord_history (U := U) hws t with ⟨h1, h2, h3⟩ | ⟨f, h1, h2, h3⟩
  · refine ⟨by simp [h2, h3], ?_, fun _ => h2⟩
    simp only [h3, Bool.false_eq_true, false_iff]
    rintro ⟨w, hw, f, hf⟩
    have := mem_candidatesFor.mpr ⟨w, hw, hf⟩
    rw [h1] at this; simp at this
  · refine ⟨by simp [h1, h2], ?_, by simp [h2]⟩
    simp only [h2, true_iff]
    obtain ⟨w, hw, hm⟩ := mem_candidatesFor.mp (firstBest_mem h3)
    exact ⟨w, hw, f, hm⟩

/-- C26: a word all of whose forms can be spelled offers exactly its forms. -/
theorem C26_offered_all (U : PyUni) (w : Word) (h : Spellable U w) (t : Str) (f : WordForm) :
    (t, f) ∈ offered U w ↔ ∃ fs, w.allForms = .ok fs ∧ f ∈ fs ∧ f.form U = .ok t := by
  obtain ⟨fs, hfs, hall⟩ := h
  unfold offered
  rw [hfs]
  rw [mem_spelled_all hall]
  constructor
  · rintro ⟨h1, h2⟩; exact ⟨fs, rfl, h1, h2⟩
  · rintro ⟨fs', e, h1, h2⟩; injection e with e; subst e; exact ⟨h1, h2⟩

/-- C26: a word that is in lower case, or has no empty form, can be spelled; adding it raises nothing. -/
theorem C26_spellable (U : PyUni) (w : Word) (hw : Accepted w)
    (h : w.properties.get .WORD_CASE = some .WORD_CASE_LOWER ∨ ∀ f ∈ w.forms, f ≠ []) :
    Spellable U w ∧ ∀ d : Dictionary, (d.addWord U w).2 = none := by
  have hs : Spellable U w := by
    obtain ⟨h1, h2⟩ := accepted_iff.mp hw
    refine ⟨_, allForms_spec h2, ?_⟩
    intro f hf
    simp only [List.mem_map] at hf
    obtain ⟨k, hk, rfl⟩ := hf
    obtain ⟨s, hs, hform⟩ := formRaw_ok h2 (wf_new2 (wf_propertiesOfKey k) h1)
    rcases wordCase_cases _ h1 with hwc | hwc
    · exact ⟨s, (getForm_lower ((allForms_wordCase h1 hk).trans hwc)).trans hform⟩
    · rcases h with h | h
      · rw [h] at hwc; simp at hwc
      · have hne := h s hs
        cases s with
        | nil => exact absurd rfl hne
        | cons c cs =>
          refine ⟨U.upperC c ++ cs, (getForm_upper ((allForms_wordCase h1 hk).trans hwc)).trans ?_⟩
          show (w.formRaw _).bind _ = _
          rw [hform]; rfl
  exact ⟨hs, fun d => (addWord_eq hw d).2.mpr hs⟩

/-- C26: for a lower-case word that fixes no schema property the known texts are exactly its forms. -/
theorem C26_texts_are_forms (U : PyUni) (w : Word) (hw : Accepted w)
    (hfree : ∀ g ∈ w.type.schema, w.properties.isSpecified g = false)
    (hlow : w.properties.get .WORD_CASE = some .WORD_CASE_LOWER) (t : Str) :
    (∃ f, (t, f) ∈ offered U w) ↔ t ∈ w.forms := by
  obtain ⟨hs, _⟩ := C26_spellable U w hw (Or.inl hlow)
  obtain ⟨fs, hfs, hmap⟩ := C09_spells_slot U w hw hfree hlow
  constructor
  · rintro ⟨f, hf⟩
    obtain ⟨fs', e, h1, h2⟩ := (C26_offered_all U w hs t f).mp hf
    rw [hfs] at e; injection e with e; subst e
    have : f.form U ∈ fs.map (WordForm.form U) := List.mem_map_of_mem h1
    rw [hmap, h2] at this
    simpa using this
  · intro ht
    have : (Except.ok t : Except PyErr Str) ∈ fs.map (WordForm.form U) := by rw [hmap]; exact List.mem_map_of_mem ht
    simp only [List.mem_map] at this
    obtain ⟨f, h1, h2⟩ := this
    exact ⟨f, (C26_offered_all U w hs t f).mpr ⟨fs, hfs, h1, h2⟩⟩

/-- C27: the registered form is the first, in order of addition and slot, of the forms spelled `t` to which no other is
preferred. -/
theorem C27_first_best (U : PyUni) (ws : List Word) (hws : ∀ w ∈ ws, Accepted w) (t : Str) (f : WordForm)
    (h : (history U ws).getWord t = .ok f) :
    ∃ pre post, candidatesFor U ws t = pre ++ f :: post ∧ (∀ g ∈ pre, Better f g) ∧ ∀ g ∈ post, ¬ Better g f := by
  rcases getWord_history (U := U) hws t with ⟨_, h2, _⟩ | ⟨f', h1, _, h3⟩
  · rw [h] at h2; simp at h2
  · rw [h] at h1; injection h1 with h1; subst h1; exact h3

/-- C27: preference is a strict weak order, so the registered form is preferred or equal in rank to every candidate. -/
theorem C27_minimal (U : PyUni) (ws : List Word) (hws : ∀ w ∈ ws, Accepted w) (t : Str) (f : WordForm)
    (h : (history U ws).getWord t = .ok f) (g : WordForm) (hg : g ∈ candidatesFor U ws t) : Better f g ∨ SameRank f g := by
  have hmin := firstBest_min (C27_first_best U ws hws t f h) g hg
  by_cases hb : Better f g
  · exact Or.inl hb
  · exact Or.inr (sameRank_of_not_better hb hmin)

example : candidatesFor exUni exWords (str! "a") ≠ [] ∧
    (candidatesFor exUni exWords (str! "g")).map (fun f => departures f.properties) = [3, 1, 1] := by
  decide +kernel

/-- C28: adding the same words in another order gives, for every text, a form of the same type with the same list of forms
and the same number of non-default properties; the same texts are known. -/
theorem C28_order_independence (U : PyUni) (ws ws' : List Word) (hws : ∀ w ∈ ws, Accepted w) (hperm : ws.Perm ws') (t : Str) :
    (history U ws).hasWord t = (history U ws').hasWord t ∧
    ∀ f f', (history U ws).getWord t = .ok f → (history U ws').getWord t = .ok f' →
      SameRank f f' ∧ (f ≠ f' → f' ∈ candidatesFor U ws t ∧ f ∈ candidatesFor U ws t) := by
  have hws' : ∀ w ∈ ws', Accepted w := fun w hw => hws w (hperm.mem_iff.mpr hw)
  have hmem : ∀ g, g ∈ candidatesFor U ws t ↔ g ∈ candidatesFor U ws' t := by
    intro g; rw [mem_candidatesFor, mem_candidatesFor]
    constructor
    · rintro ⟨w, hw, h⟩; exact ⟨w, hperm.mem_iff.mp hw, h⟩
    · rintro ⟨w, hw, h⟩; exact ⟨w, hperm.mem_iff.mpr hw, h⟩
  constructor
  · have h1 := (C26_known_texts U ws hws t).2.1
    have h2 := (C26_known_texts U ws' hws' t).2.1
    rw [Bool.eq_iff_iff, h1, h2]
    constructor
    · rintro ⟨w, hw, h⟩; exact ⟨w, hperm.mem_iff.mp hw, h⟩
    · rintro ⟨w, hw, h⟩; exact ⟨w, hperm.mem_iff.mpr hw, h⟩
  · intro f f' hf hf'
    have hb := C27_first_best U ws hws t f hf
    have hb' := C27_first_best U ws' hws' t f' hf'
    have m := firstBest_mem hb
    have m' := firstBest_mem hb'
    refine ⟨sameRank_of_not_better (firstBest_min hb' f ((hmem f).mp m)) (firstBest_min hb f' ((hmem f').mpr m')), ?_⟩
    intro _; exact ⟨(hmem f').mpr m', m⟩

example : exWords.Perm exWords.reverse ∧ ((history exUni exWords).getWord (str! "a")).isOk = true :=
  ⟨(List.reverse_perm _).symm, by decide +kernel⟩

/-- C29: adding a word keeps every known text known. -/
theorem C29_monotone (U : PyUni) (ws : List Word) (w : Word) (hws : ∀ w ∈ ws, Accepted w) (hw : Accepted w) (t : Str)
    (h : (history U ws).hasWord t = true) : (((history U ws).addWord U w).1).hasWord t = true := by
  have e : ((history U ws).addWord U w).1 = history U (ws ++ [w]) := by simp [history, List.foldl_append]
  have hws' : ∀ v ∈ ws ++ [w], Accepted v := by
    intro v hv; simp at hv; rcases hv with hv | rfl
    · exact hws v hv
    · exact hw
  rw [e, (C26_known_texts U _ hws' t).2.1]
  obtain ⟨v, hv, f, hf⟩ := (C26_known_texts U ws hws t).2.1.mp h
  exact ⟨v, by simp [hv], f, hf⟩

/-- Equal words offer equally good forms under the same texts. -/
theorem offered_of_eq {U : PyUni} {v w : Word} (hv : Accepted v) (hw : Accepted w) (h : v.eq w = true) {t : Str} {f : WordForm}
    (hf : (t, f) ∈ offered U w) : ∃ g, (t, g) ∈ offered U v ∧ SameRank f g := by
  obtain ⟨h1, h2⟩ := accepted_iff.mp hv
  obtain ⟨h3, h4⟩ := accepted_iff.mp hw
  simp only [Word.eq, Bool.and_eq_true, decide_eq_true_eq] at h
  obtain ⟨⟨ht, hp⟩, hfo⟩ := h
  have hget := (eq_iff_get? h1 h3).mp hp
  unfold offered at hf ⊢
  rw [allForms_spec h4] at hf
  rw [allForms_spec h2]
  rw [← ht] at hf
  simp only at hf ⊢
  have hkey : ∀ k : Key,
      (WordForm.new v (some (propertiesOfKey k))).form U = (WordForm.new w (some (propertiesOfKey k))).form U ∧
      SameRank (WordForm.new w (some (propertiesOfKey k))) (WordForm.new v (some (propertiesOfKey k))) := by
    intro k
    have hwk := wf_propertiesOfKey k
    have hg? : ∀ g, (Properties.new [.props (propertiesOfKey k), .props v.properties]).data.get? g =
        (Properties.new [.props (propertiesOfKey k), .props w.properties]).data.get? g := by
      intro g; rw [new2_get? hwk h1, new2_get? hwk h3, hget g]
    have hg : ∀ g, (Properties.new [.props (propertiesOfKey k), .props v.properties]).get g =
        (Properties.new [.props (propertiesOfKey k), .props w.properties]).get g := fun g => get_congr (hg? g)
    constructor
    · show WordForm.getForm U v (Properties.new [.props (propertiesOfKey k), .props v.properties]) =
        WordForm.getForm U w (Properties.new [.props (propertiesOfKey k), .props w.properties])
      have hraw : v.formRaw (Properties.new [.props (propertiesOfKey k), .props v.properties]) =
          w.formRaw (Properties.new [.props (propertiesOfKey k), .props w.properties]) := by
        rw [formRaw_congr (fun g _ => hg g)]
        unfold Word.formRaw; rw [ht, hfo]
      unfold WordForm.getForm Properties.getRec
      rw [hraw, hg .WORD_CASE]
    · refine ⟨ht.symm, hfo.symm, ?_⟩
      exact departures_congr fun g => (hg g).symm
  revert hf
  generalize invertedCache v.type = ks
  induction ks with
  | nil => intro hf; simp [spelled] at hf
  | cons k ks ih =>
    intro hf
    simp only [List.map_cons, spelled] at hf ⊢
    obtain ⟨hk1, hk2⟩ := hkey k
    rw [hk1]
    cases hs : (WordForm.new w (some (propertiesOfKey k))).form U with
    | error e => rw [hs] at hf; simp at hf
    | ok s =>
      rw [hs] at hf
      simp only [List.mem_cons, Prod.mk.injEq] at hf ⊢
      rcases hf with ⟨rfl, rfl⟩ | hf
      · exact ⟨_, Or.inl ⟨rfl, rfl⟩, hk2⟩
      · obtain ⟨g, hg1, hg2⟩ := ih hf
        exact ⟨g, Or.inr hg1, hg2⟩

/-- C29: adding a word equal to one that was already added changes nothing. -/
theorem C29_readd (U : PyUni) (ws : List Word) (v w : Word) (hws : ∀ w ∈ ws, Accepted w) (hw : Accepted w) (hv : v ∈ ws)
    (heq : v.eq w = true) : ((history U ws).addWord U w).1 = history U ws := by
  rw [(addWord_eq hw _).1, history_eq hws]
  have hstep : ∀ cs : List (Str × WordForm), (∀ c ∈ cs, WFProps c.2.properties ∧ ∃ g, (c.1, g) ∈ candidates U ws ∧ SameRank c.2 g) →
      registerAll (registerAll [] (candidates U ws)) cs = registerAll [] (candidates U ws) := by
    intro cs
    induction cs with
    | nil => intro _; rfl
    | cons c cs ih =>
      intro h
      obtain ⟨hc0, g, hg, hr⟩ := h c (by simp)
      have hreg : (registerAll [] (candidates U ws)).register c.1 c.2 = registerAll [] (candidates U ws) := by
        rcases registerAll_get? (candidates U ws) (candidates_wf hws) c.1 with ⟨h1, _⟩ | ⟨f, h1, h2⟩
        · have := mem_only.mpr hg; rw [h1] at this; simp at this
        · exact register_of_not_better h1 hc0 (candidates_wf hws (c.1, f) (mem_only.mp (firstBest_mem h2))) (fun hb => firstBest_min h2 g (mem_only.mpr hg) ((better_congr_left hr).mp hb))
      have : registerAll (registerAll [] (candidates U ws)) (c :: cs) =
          registerAll ((registerAll [] (candidates U ws)).register c.1 c.2) cs := rfl
      rw [this, hreg]
      exact ih (fun c hc => h c (List.mem_cons_of_mem _ hc))
  apply hstep
  intro c hc
  obtain ⟨g, hg, hr⟩ := offered_of_eq (hws v hv) hw heq (t := c.1) (f := c.2) hc
  exact ⟨offered_wf hw hc, g, List.mem_flatMap.mpr ⟨v, hv, hg⟩, hr⟩

example : exPlural ∈ exWords ∧
    exPlural.eq { exPlural with properties := .new [.record .NUMBER_SINGULAR, .record .NUMBER_PLURAL] } = true :=
  ⟨by simp [exWords], by decide +kernel⟩

/-- Adding a word fails only on an empty form to be capitalised. -/
theorem addWord_error {U : PyUni} {w : Word} (hw : Accepted w) (d : Dictionary) {e : PyErr} (h : (d.addWord U w).2 = some e) :
    e = .IndexError := by
  have key : ∀ (is : List Nat) (d : Dictionary), (Dictionary.addForms U w d is).2 = some e → e = .IndexError := by
    intro is
    induction is with
    | nil => intro d h; simp [Dictionary.addForms] at h
    | cons i is ih =>
      intro d h
      rw [Dictionary.addForms] at h
      cases hn : w.nthForm i with
      | error e' =>
        rw [hn] at h
        simp only [Option.some.injEq] at h
        unfold Word.nthForm at hn
        split at hn
        · injection hn with hn; rw [← h, ← hn]
        · cases hn
      | ok f =>
        rw [hn] at h
        dsimp only at h
        cases hf : f.form U with
        | ok text => rw [hf] at h; exact ih _ h
        | error e' =>
          rw [hf] at h
          simp only [Option.some.injEq] at h
          unfold Word.nthForm invertedCacheProperties at hn
          split at hn
          · cases hn
          · rename_i p hp
            injection hn with hn
            rw [List.getElem?_map] at hp
            obtain ⟨k, -, rfl⟩ := Option.map_eq_some_iff.mp hp
            obtain ⟨s, -, -, h1, h2, h3⟩ := C19_word_form U w _ f hw (wf_propertiesOfKey k) (.inl hn.symm)
            rw [hf] at h1 h2 h3
            obtain ⟨w1, -⟩ := accepted_iff.mp hw
            have := wordCase_cases _ (wf_new2 (wf_propertiesOfKey k) w1)
            rw [effective_eq w1 (wf_propertiesOfKey k) .WORD_CASE] at this
            rcases this with hc | hc
            · cases h1 hc
            · cases s with
              | nil => have := h3 hc rfl; injection this with this; rw [← h, this]
              | cons c cs => cases h2 hc c cs rfl
  exact key _ d h

/-- C29: `Dictionary(words)` succeeds iff every word can be spelled, and then is the dictionary of adding the words one by one;
otherwise it raises what adding the first other word raises, `IndexError`. -/
theorem C29_constructor (U : PyUni) (ws : List Word) (hws : ∀ w ∈ ws, Accepted w) :
    ((∀ w ∈ ws, Spellable U w) → Dictionary.new U ws = .ok (history U ws)) ∧
    ((∃ w ∈ ws, ¬ Spellable U w) → Dictionary.new U ws = .error .IndexError) ∧
    ∀ pre w post, ws = pre ++ w :: post → (∀ v ∈ pre, Spellable U v) → ¬ Spellable U w →
      ((history U pre).addWord U w).2 = some .IndexError := by
  have key : ∀ (ws : List Word) (d : Dictionary), (∀ w ∈ ws, Accepted w) →
      ((∀ w ∈ ws, Spellable U w) → ws.foldlM (fun d w => match d.addWord U w with
        | (d', none) => Except.ok d' | (_, some e) => .error e) d = .ok (ws.foldl (fun d w => (d.addWord U w).1) d)) ∧
      ((∃ w ∈ ws, ¬ Spellable U w) → ws.foldlM (fun d w => match d.addWord U w with
        | (d', none) => Except.ok d' | (_, some e) => .error e) d = .error .IndexError) := by
    intro ws
    induction ws with
    | nil => intro d _; exact ⟨fun _ => rfl, by simp⟩
    | cons w ws ih =>
      intro d h
      have hadd := (addWord_eq (U := U) (h w (by simp)) d).2
      have herr := fun e => addWord_error (U := U) (h w (by simp)) d (e := e)
      have ih' := ih (d.addWord U w).1 (fun w hw => h w (List.mem_cons_of_mem _ hw))
      rw [List.foldlM_cons]
      rcases hd : d.addWord U w with ⟨d', err⟩
      rw [hd] at hadd ih' herr
      constructor
      · intro hs
        have : err = none := hadd.mpr (hs w (by simp))
        subst this
        simp only [bind, Except.bind, List.foldl_cons, hd]
        exact ih'.1 (fun w hw => hs w (List.mem_cons_of_mem _ hw))
      · rintro ⟨v, hv, hns⟩
        cases err with
        | some e => rw [← herr e rfl]; rfl
        | none =>
          rcases List.mem_cons.mp hv with rfl | hv
          · exact absurd (hadd.mp rfl) hns
          · simp only [bind, Except.bind]
            exact ih'.2 ⟨v, hv, hns⟩
  refine ⟨(key ws [] hws).1, (key ws [] hws).2, ?_⟩
  intro pre w post e _ hn
  have hw := hws w (by simp [e])
  cases he : ((history U pre).addWord U w).2 with
  | none => exact absurd ((addWord_eq hw _).2.mp he) hn
  | some x => rw [addWord_error hw _ he]

/-- C30: `get_words` returns exactly the words returned by `get_word` for some text, each was added, and no two are equal. -/
theorem C30_get_words (U : PyUni) (ws : List Word) (hws : ∀ w ∈ ws, Accepted w) :
    (∀ w ∈ (history U ws).getWords, w ∈ ws ∧ ∃ t f, (history U ws).getWord t = .ok f ∧ f.word = w) ∧
    (∀ t f, (history U ws).getWord t = .ok f → ∃ w ∈ (history U ws).getWords, w.eq f.word = true) ∧
    (history U ws).getWords.Pairwise (fun v w => v.eq w = false) := by
  have hnd : (Dict.keys (history U ws)).Nodup := by
    rw [history_eq hws]; exact registerAll_nodup _ _ (by simp [Dict.keys])
  obtain ⟨hrefl, hsymm, htrans⟩ := C16_eq_equivalence
  -- the fold
  have hfold : ∀ (l s : List Word), s.Pairwise (fun v w => v.eq w = false) →
      (∀ w ∈ l, Accepted w) →
      (∀ w ∈ l.foldl setAdd s, w ∈ s ∨ w ∈ l) ∧ (∀ w ∈ s, w ∈ l.foldl setAdd s) ∧
      (∀ w ∈ l, ∃ v ∈ l.foldl setAdd s, v.eq w = true) ∧ (l.foldl setAdd s).Pairwise (fun v w => v.eq w = false) := by
    intro l
    induction l with
    | nil => intro s hs _; exact ⟨fun w hw => Or.inl hw, fun w hw => hw, by simp, hs⟩
    | cons x l ih =>
      intro s hs hl
      have hx : Accepted x := hl x (by simp)
      have hstep : (setAdd s x).Pairwise (fun v w => v.eq w = false) ∧ (∀ w ∈ setAdd s x, w ∈ s ∨ w = x) ∧
          (∀ w ∈ s, w ∈ setAdd s x) ∧ ∃ v ∈ setAdd s x, v.eq x = true := by
        unfold setAdd
        by_cases h : s.any (fun v => v.eq x) = true
        · rw [if_pos h]
          rw [List.any_eq_true] at h
          exact ⟨hs, fun w hw => Or.inl hw, fun w hw => hw, h⟩
        · rw [if_neg h]
          refine ⟨?_, by simp, by simp +contextual, ⟨x, by simp, hrefl x hx⟩⟩
          rw [List.pairwise_append]
          refine ⟨hs, by simp, ?_⟩
          intro a ha b hb
          simp at hb; subst hb
          by_contra hne
          exact h (List.any_eq_true.mpr ⟨a, ha, by simpa using hne⟩)
      obtain ⟨i1, i2, i3, i4⟩ := ih (setAdd s x) hstep.1 (fun w hw => hl w (List.mem_cons_of_mem _ hw))
      refine ⟨?_, fun w hw => i2 w (hstep.2.2.1 w hw), ?_, i4⟩
      · intro w hw
        rcases i1 w hw with h | h
        · rcases hstep.2.1 w h with h | rfl
          · exact Or.inl h
          · exact Or.inr (by simp)
        · exact Or.inr (List.mem_cons_of_mem _ h)
      · intro w hw
        rcases List.mem_cons.mp hw with rfl | hw
        · obtain ⟨v, hv, he⟩ := hstep.2.2.2
          exact ⟨v, i2 v hv, he⟩
        · exact i3 w hw
  have hmem : ∀ w, w ∈ (history U ws).map (fun kv => kv.2.word) ↔ ∃ t f, (history U ws).getWord t = .ok f ∧ f.word = w := by
    intro w
    simp only [List.mem_map]
    constructor
    · rintro ⟨⟨t, f⟩, hkv, rfl⟩
      refine ⟨t, f, ?_, rfl⟩
      unfold Dictionary.getWord
      rw [Dict.get?_of_mem hnd hkv]
    · rintro ⟨t, f, hf, rfl⟩
      unfold Dictionary.getWord at hf
      split at hf
      · simp at hf
      · rename_i g hg
        injection hf with hf; subst hf
        exact ⟨(t, _), Dict.mem_of_get? hg, rfl⟩
  have hin : ∀ w ∈ (history U ws).map (fun kv => kv.2.word), w ∈ ws := by
    intro w hw
    obtain ⟨t, f, hf, rfl⟩ := (hmem w).mp hw
    exact (C25_lookup_sound U ws hws t f hf).2.1
  obtain ⟨f1, _, f3, f4⟩ := hfold ((history U ws).map fun kv => kv.2.word) [] (by simp) (fun w hw => hws w (hin w hw))
  refine ⟨?_, ?_, f4⟩
  · intro w hw
    rcases f1 w hw with h | h
    · simp at h
    · exact ⟨hin w h, (hmem w).mp h⟩
  · intro t f hf
    exact f3 f.word ((hmem _).mpr ⟨t, f, hf, rfl⟩)

example : (history exUni exWords).getWords.map Word.type = [.NOUN, .NOUN, .TEXT] := by decide +kernel

end Utg
