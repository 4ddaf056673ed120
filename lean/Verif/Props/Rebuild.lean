import Verif.Props.Dictionary
/-! # C76: a dictionary can be saved and loaded -/

namespace Utg
open Py Spec

/-- C76: a dictionary built from the words of another one, in any order and with any repetitions, knows the same texts and finds
word forms of the same rank: same part of speech, same forms, as many non-default properties. -/
theorem C76_rebuild (U : PyUni) (ws ws' : List Word) (hws : ∀ w ∈ ws, Accepted w)
    (hsame : ∀ w, w ∈ ws' ↔ w ∈ (history U ws).getWords) (t : Str) :
    (history U ws').hasWord t = (history U ws).hasWord t ∧
    ∀ f, (history U ws).getWord t = .ok f → ∃ f', (history U ws').getWord t = .ok f' ∧ SameRank f f' := by
  obtain ⟨h1, h2, _⟩ := C30_get_words U ws hws
  have hsub : ∀ w ∈ ws', w ∈ ws := fun w hw => (h1 w ((hsame w).mp hw)).1
  have hws' : ∀ w ∈ ws', Accepted w := fun w hw => hws w (hsub w hw)
  obtain ⟨hknown, hoff, _⟩ := C26_known_texts U ws hws t
  obtain ⟨hknown', hoff', _⟩ := C26_known_texts U ws' hws' t
  have hfind : ∀ f, (history U ws).getWord t = .ok f →
      ∃ w ∈ ws', ∃ g, (t, g) ∈ offered U w ∧ SameRank f g := by
    intro f hf
    obtain ⟨w, hw, he⟩ := h2 t f hf
    obtain ⟨v, hv, hm⟩ := mem_candidatesFor.mp (firstBest_mem (C27_first_best U ws hws t f hf))
    have hw' := (hsame w).mpr hw
    have hv' : v = f.word := by
      unfold offered at hm
      rw [allForms_spec (accepted_iff.mp (hws v hv)).2] at hm
      obtain ⟨k, _, hk⟩ := List.mem_map.mp (mem_spelled hm).1
      rw [← hk]; rfl
    rw [hv'] at hm hv
    obtain ⟨g, hg1, hg2⟩ := offered_of_eq (hws w (hsub w hw')) (hws _ hv) he hm
    exact ⟨w, hw', g, hg1, hg2⟩
  constructor
  · rw [Bool.eq_iff_iff]
    constructor
    · intro h
      obtain ⟨w, hw, g, hg⟩ := hoff'.mp h
      exact hoff.mpr ⟨w, hsub w hw, g, hg⟩
    · intro h
      obtain ⟨f, hf⟩ := hknown.mp h
      obtain ⟨w, hw, g, hg, _⟩ := hfind f hf
      exact hoff'.mpr ⟨w, hw, g, hg⟩
  · intro f hf
    obtain ⟨w, hw, g, hg, hr⟩ := hfind f hf
    obtain ⟨f', hf'⟩ := hknown'.mp (hoff'.mpr ⟨w, hw, g, hg⟩)
    refine ⟨f', hf', ?_⟩
    have hb := C27_first_best U ws hws t f hf
    have hb' := C27_first_best U ws' hws' t f' hf'
    apply sameRank_of_not_better
    · intro hlt
      exact firstBest_min hb' g (mem_candidatesFor.mpr ⟨w, hw, hg⟩) ((better_congr_left hr).mp hlt)
    · intro hlt
      obtain ⟨v, hv, hm⟩ := mem_candidatesFor.mp (firstBest_mem hb')
      exact firstBest_min hb f' (mem_candidatesFor.mpr ⟨v, hsub v hv, hm⟩) hlt

/-- C76, saved and loaded: the words of a dictionary, serialized and read back, build a dictionary that knows the same texts and
finds word forms of the same rank. -/
theorem C76_save_load (U : PyUni) (ws : List Word) (hws : ∀ w ∈ ws, Accepted w) :
    ∃ ws', ((history U ws).getWords.map Word.serialize).mapM Word.deserialize = .ok ws' ∧
      ∀ t, (history U ws').hasWord t = (history U ws).hasWord t ∧
        ∀ f, (history U ws).getWord t = .ok f → ∃ f', (history U ws').getWord t = .ok f' ∧ SameRank f f' := by
  refine ⟨(history U ws).getWords, ?_, C76_rebuild U ws _ hws fun w => Iff.rfl⟩
  have : ∀ w ∈ (history U ws).getWords, Accepted w := fun w hw => hws w ((C30_get_words U ws hws).1 w hw).1
  revert this
  generalize (history U ws).getWords = vs
  intro hvs
  induction vs with
  | nil => rfl
  | cons v vs ih =>
    simp only [List.map_cons, List.mapM_cons, C15_roundtrip v (hvs v (by simp)), ih (fun w hw => hvs w (by simp [hw])), bind,
      Except.bind]
    rfl

/-- C76 applies: a dictionary of four words, rebuilt in the opposite order. -/
example : (∀ w ∈ exWords, Accepted w) ∧
    (∀ w, w ∈ (history exUni exWords).getWords.reverse ↔ w ∈ (history exUni exWords).getWords) ∧
    ((history exUni exWords).getWord (str! "a")).isOk = true := ⟨exWords_accepted, fun w => by simp, by decide +kernel⟩

end Utg
