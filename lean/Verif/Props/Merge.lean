import Verif.Props.Rebuild
/-! # C164: dictionaries can be merged -/

namespace Utg
open Py Spec

/-- What a dictionary finds for a text is offered, up to its rank, by one of the words it gives back. -/
theorem found_in_getWords (U : PyUni) (ws : List Word) (hws : ∀ w ∈ ws, Accepted w) (t : Str) (f : WordForm)
    (hf : (history U ws).getWord t = .ok f) : ∃ w ∈ (history U ws).getWords, ∃ g, (t, g) ∈ offered U w ∧ SameRank f g := by
  obtain ⟨h1, h2, _⟩ := C30_get_words U ws hws
  obtain ⟨w, hw, he⟩ := h2 t f hf
  obtain ⟨v, hv, hm⟩ := mem_candidatesFor.mp (firstBest_mem (C27_first_best U ws hws t f hf))
  have hv' : v = f.word := by
    unfold offered at hm
    rw [allForms_spec (accepted_iff.mp (hws v hv)).2] at hm
    obtain ⟨k, _, hk⟩ := List.mem_map.mp (mem_spelled hm).1
    rw [← hk]; rfl
  rw [hv'] at hm hv
  obtain ⟨g, hg1, hg2⟩ := offered_of_eq (hws w (h1 w hw).1) (hws _ hv) he hm
  exact ⟨w, hw, g, hg1, hg2⟩

/-- C164: a dictionary made of the words of several dictionaries, in any order and with any repetitions, knows a text exactly if one of
them does, and finds a word form of the rank found by one of them such that none of them finds a better one. -/
theorem C164_merge (U : PyUni) (wss : List (List Word)) (hwss : ∀ ws ∈ wss, ∀ w ∈ ws, Accepted w) (ws' : List Word)
    (hsame : ∀ w, w ∈ ws' ↔ ∃ ws ∈ wss, w ∈ (history U ws).getWords) (t : Str) :
    ((history U ws').hasWord t = true ↔ ∃ ws ∈ wss, (history U ws).hasWord t = true) ∧
    ∀ f', (history U ws').getWord t = .ok f' →
      (∃ ws ∈ wss, ∃ f, (history U ws).getWord t = .ok f ∧ SameRank f f') ∧
      ∀ ws ∈ wss, ∀ f, (history U ws).getWord t = .ok f → ¬ Better f f' := by
  have hfrom : ∀ w ∈ ws', ∃ ws ∈ wss, w ∈ ws := by
    intro w hw
    obtain ⟨ws, hm, hg⟩ := (hsame w).mp hw
    exact ⟨ws, hm, ((C30_get_words U ws (hwss ws hm)).1 w hg).1⟩
  have hws' : ∀ w ∈ ws', Accepted w := by
    intro w hw
    obtain ⟨ws, hm, h⟩ := hfrom w hw
    exact hwss ws hm w h
  obtain ⟨hknown', hoff', _⟩ := C26_known_texts U ws' hws' t
  have hfind : ∀ ws ∈ wss, ∀ f, (history U ws).getWord t = .ok f → ∃ w ∈ ws', ∃ g, (t, g) ∈ offered U w ∧ SameRank f g := by
    intro ws hm f hf
    obtain ⟨w, hw, g, hg, hr⟩ := found_in_getWords U ws (hwss ws hm) t f hf
    exact ⟨w, (hsame w).mpr ⟨ws, hm, hw⟩, g, hg, hr⟩
  constructor
  · constructor
    · intro h
      obtain ⟨w, hw, g, hg⟩ := hoff'.mp h
      obtain ⟨ws, hm, hin⟩ := hfrom w hw
      exact ⟨ws, hm, (C26_known_texts U ws (hwss ws hm) t).2.1.mpr ⟨w, hin, g, hg⟩⟩
    · rintro ⟨ws, hm, h⟩
      obtain ⟨f, hf⟩ := (C26_known_texts U ws (hwss ws hm) t).1.mp h
      obtain ⟨w, hw, g, hg, _⟩ := hfind ws hm f hf
      exact hoff'.mpr ⟨w, hw, g, hg⟩
  · intro f' hf'
    have hb' := C27_first_best U ws' hws' t f' hf'
    have hbest : ∀ ws ∈ wss, ∀ f, (history U ws).getWord t = .ok f → ¬ Better f f' := by
      intro ws hm f hf hlt
      obtain ⟨w, hw, g, hg, hr⟩ := hfind ws hm f hf
      exact firstBest_min hb' g (mem_candidatesFor.mpr ⟨w, hw, hg⟩) ((better_congr_left hr).mp hlt)
    refine ⟨?_, hbest⟩
    obtain ⟨v, hv, hm⟩ := mem_candidatesFor.mp (firstBest_mem hb')
    obtain ⟨ws, hmem, hin⟩ := hfrom v hv
    have hk := C26_known_texts U ws (hwss ws hmem) t
    obtain ⟨f, hf⟩ := hk.1.mp (hk.2.1.mpr ⟨v, hin, f', hm⟩)
    refine ⟨ws, hmem, f, hf, sameRank_of_not_better (hbest ws hmem f hf) ?_⟩
    exact firstBest_min (C27_first_best U ws (hwss ws hmem) t f hf) f' (mem_candidatesFor.mpr ⟨v, hin, hm⟩)

/-- C164: merging dictionaries and adding all words to one dictionary come to the same: the same texts, word forms of the same rank. -/
theorem C164_all_words (U : PyUni) (wss : List (List Word)) (hwss : ∀ ws ∈ wss, ∀ w ∈ ws, Accepted w) (ws' : List Word)
    (hsame : ∀ w, w ∈ ws' ↔ ∃ ws ∈ wss, w ∈ (history U ws).getWords) (t : Str) :
    (history U ws').hasWord t = (history U wss.flatten).hasWord t ∧
    ∀ f, (history U wss.flatten).getWord t = .ok f → ∃ f', (history U ws').getWord t = .ok f' ∧ SameRank f f' := by
  have hall : ∀ w ∈ wss.flatten, Accepted w := by
    intro w hw
    obtain ⟨ws, hm, h⟩ := List.mem_flatten.mp hw
    exact hwss ws hm w h
  have hws' : ∀ w ∈ ws', Accepted w := by
    intro w hw
    obtain ⟨ws, hm, hg⟩ := (hsame w).mp hw
    exact hwss ws hm w ((C30_get_words U ws (hwss ws hm)).1 w hg).1
  obtain ⟨hkn, hbest⟩ := C164_merge U wss hwss ws' hsame t
  have hkA := C26_known_texts U wss.flatten hall t
  have hk' := C26_known_texts U ws' hws' t
  have hone : (history U ws').hasWord t = (history U wss.flatten).hasWord t := by
    rw [Bool.eq_iff_iff, hkn, hkA.2.1]
    constructor
    · rintro ⟨ws, hm, h⟩
      obtain ⟨w, hw, g, hg⟩ := (C26_known_texts U ws (hwss ws hm) t).2.1.mp h
      exact ⟨w, List.mem_flatten.mpr ⟨ws, hm, hw⟩, g, hg⟩
    · rintro ⟨w, hw, g, hg⟩
      obtain ⟨ws, hm, h⟩ := List.mem_flatten.mp hw
      exact ⟨ws, hm, (C26_known_texts U ws (hwss ws hm) t).2.1.mpr ⟨w, h, g, hg⟩⟩
  refine ⟨hone, fun f hf => ?_⟩
  obtain ⟨f', hf'⟩ := hk'.1.mp (hone.trans (hkA.1.mpr ⟨f, hf⟩))
  refine ⟨f', hf', ?_⟩
  obtain ⟨⟨ws1, hm1, f1, hf1, hr1⟩, hmin⟩ := hbest f' hf'
  have hbA := C27_first_best U wss.flatten hall t f hf
  apply sameRank_of_not_better
  · intro hlt
    -- the form found among all the words was offered by a word of one of the dictionaries
    obtain ⟨v, hv, hm⟩ := mem_candidatesFor.mp (firstBest_mem hbA)
    obtain ⟨ws, hmem, hin⟩ := List.mem_flatten.mp hv
    have hk := C26_known_texts U ws (hwss ws hmem) t
    obtain ⟨f2, hf2⟩ := hk.1.mp (hk.2.1.mpr ⟨v, hin, f, hm⟩)
    have hb2 := firstBest_min (C27_first_best U ws (hwss ws hmem) t f2 hf2) f (mem_candidatesFor.mpr ⟨v, hin, hm⟩)
    have hnot := hmin ws hmem f2 hf2
    by_cases h : Better f2 f
    · exact hnot (better_trans h hlt)
    · exact hnot ((better_congr_left (sameRank_of_not_better h hb2)).mpr hlt)
  · intro hlt
    obtain ⟨v, hv, hm⟩ := mem_candidatesFor.mp (firstBest_mem (C27_first_best U ws' hws' t f' hf'))
    obtain ⟨ws, hmem, hg⟩ := (hsame v).mp hv
    exact firstBest_min hbA f' (mem_candidatesFor.mpr ⟨v, List.mem_flatten.mpr
      ⟨ws, hmem, ((C30_get_words U ws (hwss ws hmem)).1 v hg).1⟩, hm⟩) hlt

/-- C164 applies: the four words of the example in two dictionaries, merged. -/
example : (∀ ws ∈ [exWords.take 2, exWords.drop 1], ∀ w ∈ ws, Accepted w) ∧
    (∀ w, w ∈ (history exUni (exWords.take 2)).getWords ++ (history exUni (exWords.drop 1)).getWords ↔
      ∃ ws ∈ [exWords.take 2, exWords.drop 1], w ∈ (history exUni ws).getWords) ∧
    ((history exUni ((history exUni (exWords.take 2)).getWords ++ (history exUni (exWords.drop 1)).getWords)).getWord (str! "a")).isOk = true := by
  refine ⟨?_, fun w => by simp, by decide +kernel⟩
  intro ws hws w hw
  simp only [List.mem_cons, List.not_mem_nil, or_false] at hws
  rcases hws with rfl | rfl
  · exact exWords_accepted w (List.mem_of_mem_take hw)
  · exact exWords_accepted w (List.mem_of_mem_drop hw)

end Utg
