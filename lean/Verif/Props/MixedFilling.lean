import Verif.Spec.MixedFilling
import Verif.Spec.Templates
import Verif.Props.MixedProperties
/-! # C156: filling a template with words that have something that is no property -/

namespace Utg
open Py Spec

/-- Both raise the same, or both give the same properties. -/
def AgreeProps (a : Except PyErr MixedProps) (b : Except PyErr Properties) : Prop :=
  (∃ e, a = .error e ∧ b = .error e) ∨ ∃ p, a = .ok p ∧ Sound p.data ∧ b = .ok (knownPart p.data)

theorem cloneRecords_known {p : MixedProps} (hp : Sound p.data) (rs : List Rec) :
    Sound (p.cloneRecords rs).data ∧ knownPart (p.cloneRecords rs).data = (knownPart p.data).clone (rs.map .record) := by
  obtain ⟨h1, h2⟩ := known_update sound_nil hp
  have key : ∀ (rs : List Rec) (d : MixedData) (k : Dict Group Rec), Sound d → (knownPart d).data = k →
      Sound (rs.foldl (fun d r => Dict.set d (.inl r.group) (.inl r)) d) ∧
      (knownPart (rs.foldl (fun d r => Dict.set d (.inl r.group) (.inl r)) d)).data = (rs.map Arg.record).foldl Properties.updateOne k := by
    intro rs
    induction rs with
    | nil => exact fun d k hd hk => ⟨hd, hk⟩
    | cons r rs ih => exact fun d k hd hk => ih _ _ (sound_set_record hd r) (by rw [known_set_record hd.property, hk]; rfl)
  obtain ⟨h3, h4⟩ := key rs _ _ h1 h2
  exact ⟨h3, props_ext h4⟩

theorem cloneProps_known {p : MixedProps} (hp : Sound p.data) (qs : List MixedProps) (hq : ∀ q ∈ qs, Sound q.data) :
    Sound (p.cloneProps qs).data ∧ knownPart (p.cloneProps qs).data = (knownPart p.data).clone (qs.map fun q => .props (knownPart q.data)) := by
  obtain ⟨h1, h2⟩ := known_update sound_nil hp
  have key : ∀ (qs : List MixedProps), (∀ q ∈ qs, Sound q.data) → ∀ (d : MixedData) (k : Dict Group Rec), Sound d → (knownPart d).data = k →
      Sound (qs.foldl (fun d q => Dict.update d q.data) d) ∧
      (knownPart (qs.foldl (fun d q => Dict.update d q.data) d)).data =
        (qs.map fun q => Arg.props (knownPart q.data)).foldl Properties.updateOne k := by
    intro qs
    induction qs with
    | nil => exact fun _ d k hd hk => ⟨hd, hk⟩
    | cons q qs ih =>
      intro hqs d k hd hk
      obtain ⟨h1, h2⟩ := known_update hd (hqs q (List.mem_cons_self ..))
      exact ih (fun q hq => hqs q (List.mem_cons_of_mem _ hq)) _ _ h1 (by rw [h2, hk]; rfl)
  obtain ⟨h3, h4⟩ := key qs hq _ _ h1 h2
  exact ⟨h3, props_ext h4⟩

theorem getRec_known {p : MixedProps} (hp : Sound p.data) (g : Group) : p.getRec g = (knownPart p.data).getRec g := by
  unfold MixedProps.getRec Properties.getRec
  rw [(get_known hp g).1]
  rfl

theorem agree_clone {p : MixedProps} (hp : Sound p.data) (rs : List Rec) :
    AgreeProps (.ok (p.cloneRecords rs)) (.ok ((knownPart p.data).clone (rs.map .record))) := by
  obtain ⟨h1, h2⟩ := cloneRecords_known hp rs
  exact .inr ⟨_, rfl, h1, by rw [h2]⟩

theorem agree_same {p : MixedProps} (hp : Sound p.data) : AgreeProps (.ok p) (.ok (knownPart p.data)) := .inr ⟨_, rfl, hp, rfl⟩

theorem agree_error (e : PyErr) : AgreeProps (.error e) (.error e) := .inl ⟨e, rfl, rfl⟩

theorem agree_ite {c : Prop} [Decidable c] {a b : Except PyErr MixedProps} {a' b' : Except PyErr Properties} (h1 : AgreeProps a a')
    (h2 : AgreeProps b b') : AgreeProps (if c then a else b) (if c then a' else b') := by
  split
  · exact h1
  · exact h2

theorem nounInteger_mixed {p : MixedProps} (hp : Sound p.data) : AgreeProps (nounIntegerMixed p) (nounInteger (knownPart p.data)) := by
  unfold nounIntegerMixed nounInteger
  rw [getRec_known hp, getRec_known hp, getRec_known hp, getRec_known hp]
  cases (knownPart p.data).getRec .INTEGER_FORM with
  | error e => exact agree_error e
  | ok i =>
    cases (knownPart p.data).getRec .DEPENDENCY_MODE with
    | error e => exact agree_error e
    | ok m =>
      cases (knownPart p.data).getRec .CASE with
      | error e =>
        simp only [bind, Except.bind, pure, Except.pure]
        repeat' first | exact agree_clone hp _ | exact agree_error _ | apply agree_ite
      | ok c =>
        cases (knownPart p.data).getRec .ANIMALITY with
        | error e =>
          simp only [bind, Except.bind, pure, Except.pure]
          repeat' first | exact agree_clone hp _ | exact agree_error _ | apply agree_ite
        | ok a =>
          simp only [bind, Except.bind, pure, Except.pure]
          repeat' first | exact agree_clone hp _ | exact agree_error _ | apply agree_ite

theorem adjectiveInteger_mixed {p : MixedProps} (hp : Sound p.data) :
    AgreeProps (adjectiveIntegerMixed p) (adjectiveInteger (knownPart p.data)) := by
  unfold adjectiveIntegerMixed adjectiveInteger
  rw [getRec_known hp, getRec_known hp, getRec_known hp, getRec_known hp]
  cases (knownPart p.data).getRec .INTEGER_FORM with
  | error e => exact agree_error e
  | ok i =>
    cases (knownPart p.data).getRec .DEPENDENCY_MODE with
    | error e => exact agree_error e
    | ok m =>
      cases (knownPart p.data).getRec .CASE with
      | error e =>
        simp only [bind, Except.bind, pure, Except.pure]
        repeat' first | exact agree_clone hp _ | exact agree_error _ | apply agree_ite
      | ok c =>
        cases (knownPart p.data).getRec .GENDER with
        | error e =>
          simp only [bind, Except.bind, pure, Except.pure]
          repeat' first | exact agree_clone hp _ | exact agree_error _ | apply agree_ite
        | ok a =>
          simp only [bind, Except.bind, pure, Except.pure]
          repeat' first | exact agree_clone hp _ | exact agree_error _ | apply agree_ite

theorem cluster_mixed (U : PyUni) {f : MixedForm} (hf : SoundForm f) :
    f.startsWithConsonantCluster U = (knownForm f).startsWithConsonantCluster U := by
  unfold MixedForm.startsWithConsonantCluster WordForm.startsWithConsonantCluster
  rw [mixedForm_known U hf.formProperties]

theorem consonant_mixed (U : PyUni) (slave : Str) {p : MixedProps} (hp : Sound p.data) {f : MixedForm} (hf : SoundForm f) :
    AgreeProps (consonantPrepositionMixed U slave p f) (consonantPrepositionAny U slave (knownPart p.data) (knownForm f)) := by
  unfold consonantPrepositionMixed consonantPrepositionAny
  rw [mixedForm_known U hf.formProperties, cluster_mixed U hf]
  rw [show f.word.numberOfSyllables = (knownForm f).word.numberOfSyllables from rfl,
    show f.word.hasFluentVowel = (knownForm f).word.hasFluentVowel from rfl]
  cases (knownForm f).form U with
  | error e => exact agree_error e
  | ok master =>
    cases (knownForm f).startsWithConsonantCluster U with
    | error e => exact agree_error e
    | ok b =>
      cases (knownForm f).word.numberOfSyllables with
      | error e =>
        cases b with
        | true => exact agree_error e
        | false =>
          simp only [bind, Except.bind, pure, Except.pure]
          cases Py.first master <;> simp <;>
            repeat' first | exact agree_clone hp _ | exact agree_error _ | exact agree_same hp | split
      | ok n =>
        cases (knownForm f).word.hasFluentVowel with
        | error e =>
          simp only [bind, Except.bind, pure, Except.pure]
          cases b <;> by_cases hn : n = 1 <;> cases Py.first master <;> simp [hn] <;>
            repeat' first | exact agree_clone hp _ | exact agree_error _ | exact agree_same hp | split
        | ok c =>
          simp only [bind, Except.bind, pure, Except.pure]
          cases b <;> by_cases hn : n = 1 <;> cases c <;> cases Py.first master <;> simp [hn] <;>
            repeat' first | exact agree_clone hp _ | exact agree_error _ | exact agree_same hp | split

theorem vowels_mixed (U : PyUni) (slave : Str) {p : MixedProps} (hp : Sound p.data) {f : MixedForm} (hf : SoundForm f) :
    AgreeProps (vowelsPrepositionMixed U slave p f) (vowelsPrepositionAny U slave (knownPart p.data) (knownForm f)) := by
  unfold vowelsPrepositionMixed vowelsPrepositionAny
  rw [mixedForm_known U hf.formProperties]
  cases (knownForm f).form U with
  | error e => exact agree_error e
  | ok master =>
    simp only [bind, Except.bind, pure, Except.pure]
    split_ifs
    · exact agree_clone hp _
    · cases Py.first master with
      | error e => exact agree_error e
      | ok c =>
        dsimp only
        split_ifs
        · exact agree_clone hp _
        · exact agree_same hp

theorem transform_mixed (U : PyUni) {w : MixedWord} (hw : Sound w.properties.data) {p : MixedProps} (hp : Sound p.data) {f : MixedForm}
    (hf : SoundForm f) : AgreeProps (transformMixed U w p f) (transform U (knownWord w) (knownPart p.data) (knownForm f)) := by
  have hprep : AgreeProps (prepositionMixed U w p f) (prepositionAny U (knownWord w) (knownPart p.data) (knownForm f)) := by
    unfold prepositionMixed prepositionAny
    have : w.normalForm = (knownWord w).normalForm := C156_form w w.properties hw hw
    rw [this]
    cases (knownWord w).normalForm with
    | error e => exact agree_error e
    | ok slave =>
      simp only [bind, Except.bind]
      cases Py.last slave with
      | error e => exact agree_error e
      | ok c =>
        dsimp only
        split_ifs
        · exact consonant_mixed U slave hp hf
        · exact vowels_mixed U slave hp hf
  unfold transformMixed transform
  rw [show (knownWord w).type = w.type from rfl, show (knownForm f).word.type = f.word.type from rfl]
  generalize f.word.type = s
  cases hT : w.type <;> cases s <;> dsimp only <;>
    first | exact nounInteger_mixed hp | exact adjectiveInteger_mixed hp | exact hprep | exact agree_same hp


theorem get?_knownExternals (ext : MixedExternals) (n : Str) : (knownExternals ext).get? n = (ext.get? n).map knownForm := by
  induction ext with
  | nil => rfl
  | cons a ext ih =>
    show Dict.get? ((a.1, knownForm a.2) :: knownExternals ext) n = _
    simp only [Dict.get?]
    split
    · rfl
    · exact ih

theorem list_mixed {ext : MixedExternals} (he : ∀ n f, ext.get? n = some f → SoundForm f) :
    ∀ deps : List Dep, (∀ p, Dep.props p ∈ deps → WFProps p) →
    (∃ e, listPropertiesMixed ext deps = .error e ∧ listProperties (knownExternals ext) deps = .error e) ∨
    ∃ ps fs, listPropertiesMixed ext deps = .ok (ps, fs) ∧ (∀ p ∈ ps, Sound p.data) ∧ (∀ f ∈ fs, SoundForm f) ∧
      listProperties (knownExternals ext) deps = .ok (ps.map fun p => knownPart p.data, fs.map knownForm) := by
  intro deps
  induction deps with
  | nil => exact fun _ => .inr ⟨[], [], rfl, by simp, by simp, rfl⟩
  | cons a deps ih =>
    intro hd
    have ih := ih fun p hp => hd p (List.mem_cons_of_mem _ hp)
    cases a with
    | ext n =>
      rw [listPropertiesMixed, listProperties, get?_knownExternals]
      cases hg : ext.get? n with
      | none => exact .inl ⟨_, rfl, rfl⟩
      | some f =>
        rcases ih with ⟨e, h1, h2⟩ | ⟨ps, fs, h1, h2, h3, h4⟩
        · exact .inl ⟨e, by rw [h1]; rfl, by simp only [Option.map, h2, bind, Except.bind]⟩
        · refine .inr ⟨f.properties :: ps, f :: fs, by rw [h1]; rfl, ?_, ?_, by simp only [Option.map, h4, bind, Except.bind]; rfl⟩
          · intro p hp
            rcases List.mem_cons.mp hp with rfl | hp
            · exact (he n f hg).properties
            · exact h2 p hp
          · intro g hg'
            rcases List.mem_cons.mp hg' with rfl | hg'
            · exact he n _ hg
            · exact h3 g hg'
    | props p =>
      obtain ⟨e1, e2, -⟩ := embed_sound (hd p (List.mem_cons_self ..))
      rw [listPropertiesMixed, listProperties]
      rcases ih with ⟨e, h1, h2⟩ | ⟨ps, fs, h1, h2, h3, h4⟩
      · exact .inl ⟨e, by rw [h1]; rfl, by rw [h2]; rfl⟩
      · refine .inr ⟨.ofProperties p :: ps, fs, by rw [h1]; rfl, ?_, h3, ?_⟩
        · intro q hq
          rcases List.mem_cons.mp hq with rfl | hq
          · exact e1
          · exact h2 q hq
        · rw [h4, List.map_cons]
          show Except.ok _ = _
          rw [show knownPart (MixedProps.ofProperties p).data = p from e2]

theorem foldlM_mixed (U : PyUni) {w : MixedWord} (hw : Sound w.properties.data) : ∀ (fs : List MixedForm), (∀ f ∈ fs, SoundForm f) →
    ∀ p : MixedProps, Sound p.data → AgreeProps (fs.foldlM (transformMixed U w) p)
      ((fs.map knownForm).foldlM (fun ps external => transform U (knownWord w) ps external) (knownPart p.data)) := by
  intro fs
  induction fs with
  | nil => exact fun _ p hp => agree_same hp
  | cons f fs ih =>
    intro hfs p hp
    rw [List.foldlM_cons, List.map_cons, List.foldlM_cons]
    rcases transform_mixed U hw hp (hfs f (List.mem_cons_self ..)) with ⟨e, h1, h2⟩ | ⟨q, h1, h2, h3⟩
    · rw [h1, h2]; exact agree_error e
    · rw [h1, h3]; exact ih (fun f hf => hfs f (List.mem_cons_of_mem _ hf)) q h2

/-- C156: templates are filled as if nothing but properties had been given: same text, same exception. -/
theorem C156_variable (U : PyUni) (s : Substitution) (hs : GoodSubstitution s) (ext : MixedExternals) (he : ∀ n f, ext.get? n = some f → SoundForm f)
    (d : MixedDictionary) (hd : SoundDictionary d) : s.getMixed U ext d = s.getText U (knownExternals ext) (knownDictionary d) := by
  unfold Substitution.getMixed Substitution.getText
  have hbase : (∃ e, s.baseMixed ext d = .error e ∧ s.baseForm (knownExternals ext) (knownDictionary d) = .error e) ∨
      ∃ f, s.baseMixed ext d = .ok f ∧ SoundForm f ∧ s.baseForm (knownExternals ext) (knownDictionary d) = .ok (knownForm f) := by
    unfold Substitution.baseMixed Substitution.baseForm Dictionary.getWord
    rw [get?_knownExternals, get?_knownDictionary]
    cases hg : ext.get? s.id with
    | some f => exact .inr ⟨f, rfl, he _ _ hg, rfl⟩
    | none =>
      cases hw : Dict.get? d s.id with
      | none => exact .inl ⟨_, rfl, rfl⟩
      | some f =>
        have h := soundDictionary_form hd hw
        exact .inr ⟨f, rfl, ⟨(hd _ (Dict.mem_of_get? hw)).1, h.sound, h.formSound⟩, rfl⟩
  rcases hbase with ⟨e, h1, h2⟩ | ⟨f, h1, hf, h2⟩
  · rw [h1, h2]; rfl
  · rw [h1, h2]
    simp only [bind, Except.bind]
    rcases list_mixed he s.dependencies hs with ⟨e, h3, h4⟩ | ⟨ps, fs, h3, h4, h5, h6⟩
    · rw [h3, h4]
    · rw [h3, h6]
      dsimp only
      obtain ⟨c1, c2⟩ := cloneProps_known hf.properties (ps ++ [f.word.properties]) (by
        intro q hq
        rcases List.mem_append.mp hq with hq | hq
        · exact h4 q hq
        · rw [List.mem_singleton.mp hq]; exact hf.word)
      have e1 : (knownForm f).properties.clone
          (((ps.map fun p => knownPart p.data) ++ [(knownForm f).word.properties]).map .props) =
          knownPart (f.properties.cloneProps (ps ++ [f.word.properties])).data := by
        rw [c2]
        simp only [List.map_append, List.map_map, List.map_cons, List.map_nil]
        rfl
      rw [e1]
      rcases foldlM_mixed U hf.word fs h5 _ c1 with ⟨e, k1, k2⟩ | ⟨q, k1, k2, k3⟩
      · rw [k1]
        have : (List.map knownForm fs).foldlM (fun ps external => transform U (knownForm f).word ps external)
            (knownPart (f.properties.cloneProps (ps ++ [f.word.properties])).data) = .error e := k2
        rw [this]
      · rw [k1]
        have : (List.map knownForm fs).foldlM (fun ps external => transform U (knownForm f).word ps external)
            (knownPart (f.properties.cloneProps (ps ++ [f.word.properties])).data) = .ok (knownPart q.data) := k3
        rw [this]
        dsimp only
        unfold MixedForm.getForm WordForm.getForm
        rw [formRaw_known k2, getRec_known k2]
        rfl

/-- C156: the same for a whole template. -/
theorem C156_template (U : PyUni) (t : Template) (ht : ∀ s ∈ t.substitutions, GoodSubstitution s) (ext : MixedExternals)
    (he : ∀ n f, ext.get? n = some f → SoundForm f) (d : MixedDictionary) (hd : SoundDictionary d) :
    t.fillMixed U ext d = t.substitute U (knownExternals ext) (knownDictionary d) := by
  unfold Template.fillMixed Template.substitute
  have : (t.substitutions.mapM fun s => s.getMixed U ext d) =
      t.substitutions.mapM fun s => s.getText U (knownExternals ext) (knownDictionary d) := by
    generalize t.substitutions = l at ht
    induction l with
    | nil => rfl
    | cons s l ih =>
      rw [List.mapM_cons, List.mapM_cons, ih fun x hx => ht x (List.mem_cons_of_mem _ hx),
        C156_variable U s (ht s (List.mem_cons_self ..)) ext he d hd]
  rw [this]
  rfl

/-- A genitive plural in spite of a record that is no property. -/
example (U : PyUni) (d : MixedDictionary) (hd : SoundDictionary d) (w : MixedWord) (hw : Sound w.properties.data) :
    Substitution.getMixed U ⟨str! "x", [.props (.new [.record .CASE_GENITIVE])]⟩ [(str! "x", MixedForm.new w (some exMixed))] d =
      Substitution.getText U ⟨str! "x", [.props (.new [.record .CASE_GENITIVE])]⟩
        [(str! "x", WordForm.new (knownWord w) (some (.new [.record .NUMBER_PLURAL])))] (knownDictionary d) := by
  obtain ⟨h1, h2, h3⟩ := formNew_known hw (some exMixed) none (by rintro x ⟨⟩; exact exMixed_sound) (by simp)
  refine (C156_variable U _ ?_ _ ?_ d hd).trans ?_
  · intro p hp
    rw [show p = .new [.record .CASE_GENITIVE] by simpa using hp]
    exact wf_new (by intro q hq; simp at hq)
  · intro n f hf
    simp only [Dict.get?] at hf
    split at hf
    · cases hf; exact ⟨hw, h3, h2⟩
    · cases hf
  · unfold knownExternals
    rw [List.map_cons, h1]
    rfl

end Utg
