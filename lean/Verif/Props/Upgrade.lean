import Verif.Props.Expressive
import Verif.Props.AnyTables
import Verif.Props.Dictionary
import Verif.Spec.Upgrade
/-!
# Upgrading a saved dictionary (C135)
-/

namespace Utg
open Py Spec

/-- C135: every saved word of the m_0007 layout is upgraded, to an accepted word of the same type and with the same properties, whose forms
are the old ones. -/
theorem C135_word (t : WordType) (d : WordData) (hd : InLayout layoutBefore7 t d) :
    ∃ w, upgraded d = .ok w ∧ Accepted w ∧ w.type = t ∧ Properties.deserialize d.properties = .ok w.properties ∧
      ∀ m ∈ layoutNow t, ∃ f, stored (layoutNow t) w.forms m = some f ∧ stored (layoutBefore7 t) d.forms (oldForm t m) = some f := by
  obtain ⟨d1, d2, d3, w, h1, h2, h3, hw, ha, ht, hp, hf, -⟩ := C111_chain t d hd
  refine ⟨w, ?_, ha, ht, hp, hf⟩
  simp only [upgraded, bind, Except.bind, h1, h2, h3, hw]

/-- C135: for words other than pronouns and participles, and combinations other than the comparative, the old form is the one for this combination. -/
theorem C135_same (t : WordType) (m : List Rec) (h1 : t ≠ .PRONOUN) (h2 : t ≠ .PARTICIPLE) (hk : Kept m) : oldForm t m = m := by
  unfold oldForm
  split <;> first | rfl | exact absurd rfl h1 | exact absurd rfl h2 | exact absurd rfl hk

/-- C135: a list of saved words is upgraded word by word; none is lost or refused. -/
theorem C135_all (ds : List WordData) (h : ∀ d ∈ ds, ∃ t, InLayout layoutBefore7 t d) :
    ∃ ws, ds.mapM upgraded = .ok ws ∧ List.Forall₂ (fun d w => upgraded d = .ok w) ds ws ∧ ∀ w ∈ ws, Accepted w := by
  induction ds with
  | nil => exact ⟨[], rfl, .nil, by simp⟩
  | cons d ds ih =>
    obtain ⟨ws, hws, hf, ha⟩ := ih (fun d' hd' => h d' (List.mem_cons_of_mem _ hd'))
    obtain ⟨t, ht⟩ := h d (by simp)
    obtain ⟨w, hw, haw, -⟩ := C135_word t d ht
    refine ⟨w :: ws, ?_, .cons hw hf, ?_⟩
    · simp [List.mapM_cons, hw, hws, bind, Except.bind, pure, Except.pure]
    · intro w' hw'; rcases List.mem_cons.mp hw' with rfl | h'
      · exact haw
      · exact ha _ h'

/-- C135: after the upgrade, a dictionary made of the words knows every saved text of a word written in lower case whose own properties
permit the combination the text was saved for ... -/
theorem C135_known (U : PyUni) (ds : List WordData) (ws : List Word) (h : ∀ d ∈ ds, ∃ t, InLayout layoutBefore7 t d)
    (hws : ds.mapM upgraded = .ok ws) (d : WordData) (hd : d ∈ ds) (t : WordType) (ht : InLayout layoutBefore7 t d)
    (p : Properties) (hp : Properties.deserialize d.properties = .ok p)
    (hcase : p.get .WORD_CASE = some .WORD_CASE_LOWER) (m : List Rec) (hm : m ∈ layoutNow t)
    (hper : ∀ r ∈ m, p.isSpecified r.group = true → p.get r.group = some r) (text : Str)
    (hs : stored (layoutBefore7 t) d.forms (oldForm t m) = some text) :
    (history U ws).hasWord text = true := by
  obtain ⟨ws', hws', hf, ha⟩ := C135_all ds h
  rw [hws] at hws'; injection hws' with e; subst e
  obtain ⟨w, hw, haw, hwt, hwp, hst⟩ := C135_word t d ht
  rw [hp] at hwp; injection hwp with hwp
  have hmem : w ∈ ws := by
    obtain ⟨i, hi, e⟩ := List.getElem_of_mem hd
    have hi' : i < ws.length := by rw [← hf.length_eq]; exact hi
    have := (List.forall₂_iff_get.mp hf).2 i hi hi'
    simp only [List.get_eq_getElem, e, hw] at this
    injection this with this
    rw [this]; exact List.getElem_mem hi'
  have hlow : w.properties.get .WORD_CASE = some .WORD_CASE_LOWER := by rw [← hwp]; exact hcase
  have hspell := (C26_spellable U w haw (.inl hlow)).1
  obtain ⟨fs, hfs, hall⟩ := C09_permitted U w haw false hlow
  obtain ⟨fs', hfs', hlen, -⟩ := C09_spoken U w haw
  rw [hfs] at hfs'; injection hfs' with e; subst e
  obtain ⟨f, hst', hf'⟩ := hst m hm
  rw [hs] at hf'; injection hf' with hf'; subst hf'
  have hget : (layoutNow w.type)[(layoutNow t).idxOf m]? = some m := by
    rw [hwt, List.getElem?_eq_getElem (List.idxOf_lt_length_of_mem hm), List.getElem_idxOf]
  have hlt : (layoutNow t).idxOf m < fs.length := by
    rw [hlen]; exact (List.getElem?_eq_some_iff.mp hst').1
  have hspoken := hall _ m text fs[(layoutNow t).idxOf m] hget (by unfold Permits; rw [← hwp]; exact hper) hst' (List.getElem?_eq_getElem hlt)
  refine ((C26_known_texts U ws ha text).2.1).mpr ⟨w, hmem, fs[(layoutNow t).idxOf m], ?_⟩
  exact (C26_offered_all U w hspell text _).mpr ⟨fs, hfs, List.getElem_mem hlt, hspoken⟩

/-- ... and a template that asks a variable for that combination still prints that text. -/
theorem C135_text (U : PyUni) (d : WordData) (t : WordType) (ht : InLayout layoutBefore7 t d) (w : Word)
    (hw : upgraded d = .ok w) (ext : Externals) (dict : Dictionary) (he : GoodExternals ext) (hdict : GoodDictionary dict) (name : Str)
    (hn : ext.get? name = some (WordForm.new w)) (m rs : List Rec) (hm : m ∈ layoutNow t) (upper : Bool)
    (hnd : (rs.map Rec.group).Nodup) (hrs : m ++ [letterCase upper] ⊆ rs) (hper : Permits w (m ++ [letterCase upper])) (text : Str)
    (hs : stored (layoutBefore7 t) d.forms (oldForm t m) = some text) :
    Substitution.getText U ⟨name, [.props (.new (rs.map .record))]⟩ ext dict = inCase U upper text := by
  obtain ⟨w', hw', haw, hwt, hwp, hst⟩ := C135_word t d ht
  rw [hw] at hw'; injection hw' with e; subst e
  obtain ⟨f, hst', hf'⟩ := hst m hm
  rw [hs] at hf'; injection hf' with hf'; subst hf'
  have hget : (layoutNow w.type)[(layoutNow t).idxOf m]? = some m := by
    rw [hwt, List.getElem?_eq_getElem (List.idxOf_lt_length_of_mem hm), List.getElem_idxOf]
  exact C105_form U ext dict ⟨name, [.props (.new (rs.map .record))]⟩ (WordForm.new w) _ m rs text upper he hdict
    (.inl hn) hget hst' rfl hnd hrs hper

/-- C135 applies: two saved words, a noun and an adjective, in the m_0007 layout; the noun's third slot was saved as `2`. -/
example : (∀ d ∈ [exOld layoutBefore7 .NOUN, exOld layoutBefore7 .ADJECTIVE], ∃ t, InLayout layoutBefore7 t d) ∧
    (∃ m ∈ layoutNow .NOUN, Kept m ∧ stored (layoutBefore7 .NOUN) (exOld layoutBefore7 .NOUN).forms m = some (str! "2")) ∧
    (Properties.deserialize (exOld layoutBefore7 .ADJECTIVE).properties).map (fun p => p.get .WORD_CASE) = .ok (some .WORD_CASE_LOWER) ∧
    (∃ m ∈ layoutNow .ADJECTIVE, Kept m ∧ Rec.CASE_NOMINATIVE ∈ m ∧
      (layoutBefore7 .ADJECTIVE).idxOf m ≠ (layoutNow .ADJECTIVE).idxOf m) := by
  refine ⟨?_, ⟨[.NOUN_FORM_NORMAL, .NUMBER_SINGULAR, .CASE_DATIVE], by decide +kernel⟩, by decide +kernel, by decide +kernel⟩
  intro d hd
  simp only [List.mem_cons, List.not_mem_nil, or_false] at hd
  rcases hd with rfl | rfl
  · exact ⟨_, exOld_inLayout _ _⟩
  · exact ⟨_, exOld_inLayout _ _⟩

end Utg
