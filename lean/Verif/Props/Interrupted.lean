import Verif.Spec.Interrupted
import Verif.Props.AddWords
import Verif.Props.FillThreads
import Mathlib.Data.List.Induction
/-!
# C120: interrupted additions can be repeated
-/

namespace Utg
open Py Spec

/-! ## `add_word` -/

/-- All entries have well-formed properties. -/
def EntriesWF (d : Dictionary) : Prop := ∀ t r, Dict.get? d t = some r → WFProps r.properties

/-- The dictionary has an entry that the candidate cannot replace. -/
def Settled (d : Dictionary) (c : Str × WordForm) : Prop := ∃ r, Dict.get? d c.1 = some r ∧ ¬ Better c.2 r

theorem EntriesWF.register {d : Dictionary} (h : EntriesWF d) (c : Str × WordForm) (hc : WFProps c.2.properties) :
    EntriesWF (d.register c.1 c.2) := by
  intro t r hr
  rw [register_get?] at hr
  have := h t
  grind

theorem Settled.register {d : Dictionary} (h : EntriesWF d) {c c' : Str × WordForm} (hc : WFProps c.2.properties)
    (hs : Settled d c') : Settled (d.register c.1 c.2) c' := by
  obtain ⟨r, hr, hb⟩ := hs
  unfold Settled
  rw [register_get?, hr]
  by_cases he : c.1 = c'.1
  · rw [if_pos he]
    dsimp only
    by_cases hrep : replaces c.2 r = true
    · rw [if_pos hrep]
      exact ⟨c.2, rfl, fun hb' => hb (better_trans hb' ((replaces_iff hc (h _ _ hr)).mp hrep))⟩
    · rw [if_neg hrep]
      exact ⟨r, rfl, hb⟩
  · rw [if_neg he]
    exact ⟨r, rfl, hb⟩

theorem settled_register {d : Dictionary} (h : EntriesWF d) (c : Str × WordForm) (hc : WFProps c.2.properties) :
    Settled (d.register c.1 c.2) c := by
  unfold Settled
  rw [register_get?, if_pos rfl]
  rcases Option.eq_none_or_eq_some (Dict.get? d c.1) with hn | ⟨r, hr⟩
  · rw [hn]
    exact ⟨c.2, rfl, better_irrefl _⟩
  · rw [hr]
    dsimp only
    by_cases hrep : replaces c.2 r = true
    · rw [if_pos hrep]; exact ⟨c.2, rfl, better_irrefl _⟩
    · rw [if_neg hrep]; exact ⟨r, rfl, fun hb => hrep ((replaces_iff hc (h _ _ hr)).mpr hb)⟩

theorem registerAll_settles (cs : List (Str × WordForm)) : ∀ (d : Dictionary), EntriesWF d → (∀ c ∈ cs, WFProps c.2.properties) →
    EntriesWF (registerAll d cs) ∧ (∀ c, Settled d c → Settled (registerAll d cs) c) ∧ ∀ c ∈ cs, Settled (registerAll d cs) c := by
  induction cs with
  | nil => intro d hd _; exact ⟨hd, fun _ h => h, by simp⟩
  | cons c cs ih =>
    intro d hd hcs
    have hc := hcs c (by simp)
    obtain ⟨h1, h2, h3⟩ := ih (d.register c.1 c.2) (hd.register c hc) (fun c' h' => hcs c' (by simp [h']))
    refine ⟨h1, fun c' hs => h2 c' (hs.register hd hc), ?_⟩
    intro c' hc'
    rcases List.mem_cons.mp hc' with rfl | hc'
    · exact h2 _ (settled_register hd _ hc)
    · exact h3 c' hc'

theorem registerAll_settled (cs : List (Str × WordForm)) (d : Dictionary) (hd : EntriesWF d) (hcs : ∀ c ∈ cs, WFProps c.2.properties)
    (h : ∀ c ∈ cs, Settled d c) : registerAll d cs = d := by
  induction cs with
  | nil => rfl
  | cons c cs ih =>
    show registerAll (d.register c.1 c.2) cs = d
    obtain ⟨r, hr, hb⟩ := h c (by simp)
    rw [register_of_not_better hr (hcs c (by simp)) (hd _ _ hr) hb]
    exact ih (fun c' h' => hcs c' (by simp [h'])) (fun c' h' => h c' (by simp [h']))

/-- Registering the beginning of a list twice is registering it once. -/
theorem registerAll_again {d : Dictionary} (hd : EntriesWF d) {a b : List (Str × WordForm)} (h : ∀ c ∈ a, WFProps c.2.properties) :
    registerAll (registerAll d a) (a ++ b) = registerAll d (a ++ b) := by
  obtain ⟨h1, -, h3⟩ := registerAll_settles a d hd h
  rw [registerAll_append, registerAll_append, registerAll_settled a _ h1 h h3]

/-- The state of a call that runs alone. -/
structure AloneGood (U : PyUni) (w : Word) (d : Dictionary) (pc : AddWordPC) (d' : Dictionary) : Prop where
  prefix_ : ∃ a, todo U w (slots w) = a ++ ahead U w pc ∧ d' = registerAll d a
  put : ∀ t f is, pc = .form t f .put is → d'.register t f = Dict.set d' t f
  stay : ∀ t f is, pc = .form t f .compare is → Known d' t
  inside : ∀ t f p is, pc = .form t f p is → p = .check ∨ p = .compare ∨ p = .put

theorem AloneGood.step {U : PyUni} {w : Word} {d : Dictionary} {pc : AddWordPC} {d' : Dictionary} (h : AloneGood U w d pc d') :
    AloneGood U w d (addWordStep U w d' pc).1 (addWordStep U w d' pc).2 := by
  obtain ⟨⟨a, ha, hd⟩, hput, hstay, hin⟩ := h
  cases pc with
  | next is =>
    cases is with
    | nil => exact ⟨⟨a, ha, hd⟩, by simp [addWordStep], by simp [addWordStep], by simp [addWordStep]⟩
    | cons i is =>
      simp only [addWordStep]
      simp only [ahead, todo] at ha
      cases hi : w.nthForm i with
      | error e =>
        simp only [hi] at ha
        exact ⟨⟨a, ha, hd⟩, by simp, by simp, by simp⟩
      | ok f =>
        simp only [hi] at ha
        cases hf : f.form U with
        | error e =>
          simp only [hf] at ha
          simp only [hf]
          exact ⟨⟨a, ha, hd⟩, by simp, by simp, by simp⟩
        | ok text =>
          simp only [hf] at ha
          simp only [hf]
          exact ⟨⟨a, ha, hd⟩, by simp, by simp, by grind⟩
  | done => exact ⟨⟨a, ha, hd⟩, by simp [addWordStep], by simp [addWordStep], by simp [addWordStep]⟩
  | failed e => exact ⟨⟨a, ha, hd⟩, by simp [addWordStep], by simp [addWordStep], by simp [addWordStep]⟩
  | form t f p is =>
    simp only [ahead] at ha
    rcases hin t f p is rfl with rfl | rfl | rfl
    · simp only [addWordStep, regStep]
      by_cases hc : Dict.contains d' t = true
      · simp only [hc, if_true]
        exact ⟨⟨a, ha, hd⟩, by simp, by rintro _ _ _ ⟨⟩; exact contains_iff_get?.mp hc, by grind⟩
      · simp only [hc]
        have hn : Dict.get? d' t = none := by
          rcases Option.eq_none_or_eq_some (Dict.get? d' t) with h | ⟨g, h⟩
          · exact h
          · exact absurd (contains_iff_get?.mpr ⟨g, h⟩) hc
        exact ⟨⟨a, ha, hd⟩, by rintro _ _ _ ⟨⟩; simp [Dictionary.register, hn], by simp, by grind⟩
    · obtain ⟨g, hg⟩ := hstay t f is rfl
      simp only [addWordStep, regStep, hg]
      by_cases hr : replaces f g = true
      · simp only [hr, if_true]
        exact ⟨⟨a, ha, hd⟩, by rintro _ _ _ ⟨⟩; simp [Dictionary.register, hg, hr], by simp, by grind⟩
      · simp only [hr]
        refine ⟨⟨a ++ [(t, f)], by simp [ahead, ha], ?_⟩, by simp, by simp, by simp⟩
        rw [registerAll_append, ← hd]
        simp [registerAll, Dictionary.register, hg, hr]
    · simp only [addWordStep, regStep]
      refine ⟨⟨a ++ [(t, f)], by simp [ahead, ha], ?_⟩, by simp, by simp, by simp⟩
      rw [registerAll_append, ← hd]
      exact (hput t f is rfl).symm

/-- Where the interrupted call is. -/
theorem interrupted_good (U : PyUni) (w : Word) (d : Dictionary) (k : Nat) :
    ∃ pc, (wordsAdded U d (.start w :: List.replicate k (.run 0))).threads = [(w, pc)] ∧
      AloneGood U w d pc (interruptedAdd U w d k) := by
  unfold interruptedAdd
  induction k with
  | zero => exact ⟨.next (slots w), rfl, ⟨[], rfl, rfl⟩, by simp, by simp, by simp⟩
  | succ k ih =>
    obtain ⟨pc, h1, h2⟩ := ih
    rw [List.replicate_succ', ← List.cons_append]
    unfold wordsAdded at h1 h2 ⊢
    rw [List.foldl_append]
    simp only [List.foldl_cons (l := []), List.foldl_nil]
    generalize List.foldl (WordThreads.step U) ⟨d, []⟩ (.start w :: List.replicate k (.run 0)) = s at h1 h2
    refine ⟨(addWordStep U w s.dictionary pc).1, ?_, ?_⟩
    · simp [WordThreads.step, h1]
    · have := h2.step
      simpa [WordThreads.step, h1] using this

theorem interrupted_prefix (U : PyUni) (w : Word) (d : Dictionary) (k : Nat) :
    ∃ a b, todo U w (slots w) = a ++ b ∧ interruptedAdd U w d k = registerAll d a := by
  obtain ⟨pc, -, ⟨a, ha, hd⟩, -⟩ := interrupted_good U w d k
  exact ⟨a, _, ha, hd⟩

theorem getWord_iff {d : Dictionary} {t : Str} {g : WordForm} : Dictionary.getWord d t = .ok g ↔ Dict.get? d t = some g := by
  unfold Dictionary.getWord
  rcases Option.eq_none_or_eq_some (Dict.get? d t) with h | ⟨g', h⟩ <;> simp [h]

theorem registerAll_source (cs : List (Str × WordForm)) (d : Dictionary) (t : Str) (g : WordForm)
    (h : Dict.get? (registerAll d cs) t = some g) : Dict.get? d t = some g ∨ (t, g) ∈ cs := by
  induction cs generalizing d with
  | nil => exact .inl h
  | cons c cs ih =>
    rcases ih (d.register c.1 c.2) h with h | h
    · rw [register_get?] at h
      by_cases he : c.1 = t
      · rw [if_pos he] at h
        rcases Option.eq_none_or_eq_some (Dict.get? d t) with hn | ⟨r, hr⟩
        · rw [hn] at h
          injection h with h
          right; simp [← h, ← he]
        · rw [hr] at h
          dsimp only at h
          split at h
          · injection h with h
            right; simp [← h, ← he]
          · left; rw [hr, h]
      · rw [if_neg he] at h; exact .inl h
    · exact .inr (List.mem_cons_of_mem _ h)

theorem history_entries {U : PyUni} {ws : List Word} (hws : ∀ w ∈ ws, Accepted w) : EntriesWF (history U ws) := by
  rw [history_eq hws]
  refine (registerAll_settles _ [] (by intro t r h; cases h) ?_).1
  intro c hc
  obtain ⟨w, hw, hc⟩ := List.mem_flatMap.mp hc
  exact offered_wf (hws w hw) hc

/-- C120: an `add_word` that was interrupted anywhere, any number of times, can be repeated: it returns or raises as if it had not been
interrupted before, and leaves the same dictionary. -/
theorem C120_repeat (U : PyUni) (ws : List Word) (hws : ∀ w ∈ ws, Accepted w) (w : Word) (hw : Accepted w) (ks : List Nat) :
    (ks.foldl (interruptedAdd U w) (history U ws)).addWord U w = (history U ws).addWord U w := by
  have hwf : ∀ c ∈ todo U w (slots w), WFProps c.2.properties := by rw [← offered_todo hw]; exact fun c hc => offered_wf hw hc
  have key : ∀ (ks : List Nat) (d : Dictionary), EntriesWF d →
      registerAll (ks.foldl (interruptedAdd U w) d) (todo U w (slots w)) = registerAll d (todo U w (slots w)) := by
    intro ks
    induction ks with
    | nil => intro d _; rfl
    | cons k ks ih =>
      intro d hd
      obtain ⟨a, b, hab, hi⟩ := interrupted_prefix U w d k
      have ha : ∀ c ∈ a, WFProps c.2.properties := fun c hc => hwf c (by rw [hab]; simp [hc])
      rw [List.foldl_cons, hi, ih _ (registerAll_settles a d hd ha).1, hab, registerAll_again hd ha]
  rw [addWord_todo, addWord_todo, key ks _ (history_entries hws)]

/-- C120: so what was interrupted leaves no trace: the dictionary is the one of a history in which the word was added once. -/
theorem C120_history (U : PyUni) (ws : List Word) (hws : ∀ w ∈ ws, Accepted w) (w : Word) (hw : Accepted w) (ks : List Nat) :
    ((ks.foldl (interruptedAdd U w) (history U ws)).addWord U w).1 = history U (ws ++ [w]) := by
  rw [C120_repeat U ws hws w hw ks]
  simp [history]

/-- C120: what an interrupted `add_word` leaves: the dictionary is as if the word had had only some of its first forms to register. -/
theorem C120_left (U : PyUni) (ws : List Word) (w : Word) (hw : Accepted w) (k : Nat) :
    ∃ n, interruptedAdd U w (history U ws) k = ((offered U w).take n).foldl (fun d c => d.register c.1 c.2) (history U ws) := by
  obtain ⟨a, b, hab, hi⟩ := interrupted_prefix U w (history U ws) k
  refine ⟨a.length, ?_⟩
  rw [hi, offered_todo hw, hab]
  simp [registerAll]

/-- C120: nothing known is forgotten or gets worse, texts of other words are not affected, and what is new is spelled as asked and belongs
to the word. -/
theorem C120_safe (U : PyUni) (ws : List Word) (hws : ∀ w ∈ ws, Accepted w) (w : Word) (hw : Accepted w) (ks : List Nat) (t : Str) :
    (∀ f, Dictionary.getWord (history U ws) t = .ok f →
      ∃ g, Dictionary.getWord (ks.foldl (interruptedAdd U w) (history U ws)) t = .ok g ∧ ¬ Better f g) ∧
    ∀ g, Dictionary.getWord (ks.foldl (interruptedAdd U w) (history U ws)) t = .ok g →
      Dictionary.getWord (history U ws) t = .ok g ∨ (t, g) ∈ offered U w := by
  have hwf : ∀ c ∈ todo U w (slots w), WFProps c.2.properties := by rw [← offered_todo hw]; exact fun c hc => offered_wf hw hc
  have key : ∀ (ks : List Nat) (d : Dictionary), EntriesWF d →
      (∀ c, Settled d c → Settled (ks.foldl (interruptedAdd U w) d) c) ∧
      ∀ g, Dict.get? (ks.foldl (interruptedAdd U w) d) t = some g → Dict.get? d t = some g ∨ (t, g) ∈ todo U w (slots w) := by
    intro ks
    induction ks with
    | nil => intro d _; exact ⟨fun c h => h, fun g h => .inl h⟩
    | cons k ks ih =>
      intro d hd
      obtain ⟨a, b, hab, hi⟩ := interrupted_prefix U w d k
      have ha : ∀ c ∈ a, WFProps c.2.properties := fun c hc => hwf c (by rw [hab]; simp [hc])
      obtain ⟨h1, h2, -⟩ := registerAll_settles a d hd ha
      rw [List.foldl_cons, hi]
      obtain ⟨g1, g2⟩ := ih _ h1
      refine ⟨fun c hc => g1 c (h2 c hc), fun g hg => ?_⟩
      rcases g2 g hg with h | h
      · rcases registerAll_source a d t g h with h | h
        · exact .inl h
        · right; rw [hab]; simp [h]
      · exact .inr h
  obtain ⟨h1, h2⟩ := key ks _ (history_entries hws)
  constructor
  · intro f hf
    obtain ⟨r, hr, hb⟩ := h1 (t, f) ⟨f, getWord_iff.mp hf, better_irrefl f⟩
    exact ⟨r, getWord_iff.mpr hr, hb⟩
  · intro g hg
    rw [offered_todo hw]
    exact (h2 g (getWord_iff.mp hg)).imp getWord_iff.mpr id

/-! ## `add_template` -/

section
variable {K T R : Type} [DecidableEq K]

/-- The lists of a lexicon are not shared. -/
structure SharedLexicon.Sound (l : SharedLexicon K T R) : Prop where
  bound : ∀ k i, Dict.get? l.data k = some i → i < l.lists.length
  inj : ∀ k k' i, Dict.get? l.data k = some i → Dict.get? l.data k' = some i → k = k'

theorem templateSteps_done (c : AddCall K T R) (l : SharedLexicon K T R) (k m : Nat) (h : (templateSteps c l k).1 = .done) :
    templateSteps c l (k + m) = templateSteps c l k := by
  induction m with
  | zero => rfl
  | succ m ih =>
    rw [← Nat.add_assoc]
    show c.step (templateSteps c l (k + m)).2 (templateSteps c l (k + m)).1 = _
    rw [ih, h]
    show (AddPC.done, (templateSteps c l k).2) = _
    rw [← h]

/-- The steps of a call for a key that is there. -/
theorem templateSteps_known {c : AddCall K T R} {l : SharedLexicon K T R} {i : Nat} (h : Dict.get? l.data c.key = some i) :
    templateSteps c l 1 = (.load, l) ∧ templateSteps c l 2 = (.append i, l) ∧
    templateSteps c l 3 = (.done, { l with lists := l.lists.modify i fun ts => ts ++ [(c.template, c.restrictions)] }) := by
  have hc : Dict.contains l.data c.key = true := contains_iff_get?.mpr ⟨i, h⟩
  have h1 : templateSteps c l 1 = (.load, l) := by simp [templateSteps, AddCall.step, hc]
  have h2 : templateSteps c l 2 = (.append i, l) := by
    show c.step (templateSteps c l 1).2 (templateSteps c l 1).1 = _
    rw [h1]; simp [AddCall.step, h]
  refine ⟨h1, h2, ?_⟩
  show c.step (templateSteps c l 2).2 (templateSteps c l 2).1 = _
  rw [h2]; rfl

/-- The lexicon with a new list. -/
abbrev withKey (c : AddCall K T R) (l : SharedLexicon K T R) : SharedLexicon K T R :=
  ⟨l.lists ++ [[]], Dict.set l.data c.key l.lists.length⟩

/-- The steps of a call for a new key. -/
theorem templateSteps_new {c : AddCall K T R} {l : SharedLexicon K T R} (h : Dict.get? l.data c.key = none) :
    templateSteps c l 1 = (.create, l) ∧ templateSteps c l 2 = (.load, withKey c l) ∧
    templateSteps c l 3 = (.append l.lists.length, withKey c l) ∧
    templateSteps c l 4 = (.done, ⟨l.lists ++ [[(c.template, c.restrictions)]], Dict.set l.data c.key l.lists.length⟩) := by
  have hc : Dict.contains l.data c.key = false := by
    rcases hcc : Dict.contains l.data c.key with _ | _
    · rfl
    · obtain ⟨i, hi⟩ := contains_iff_get?.mp hcc; rw [h] at hi; cases hi
  have h1 : templateSteps c l 1 = (.create, l) := by simp [templateSteps, AddCall.step, hc]
  have h2 : templateSteps c l 2 = (.load, withKey c l) := by
    show c.step (templateSteps c l 1).2 (templateSteps c l 1).1 = _
    rw [h1]; rfl
  have h3 : templateSteps c l 3 = (.append l.lists.length, withKey c l) := by
    show c.step (templateSteps c l 2).2 (templateSteps c l 2).1 = _
    rw [h2]; simp [AddCall.step, Dict.get?_set]
  refine ⟨h1, h2, h3, ?_⟩
  show c.step (templateSteps c l 3).2 (templateSteps c l 3).1 = _
  rw [h3]
  simp [AddCall.step, List.modify_eq_set_getElem?]

theorem SharedLexicon.Sound.withKey {l : SharedLexicon K T R} (h : l.Sound) (c : AddCall K T R) (ts : List (T × Finset R)) :
    SharedLexicon.Sound ⟨l.lists ++ [ts], Dict.set l.data c.key l.lists.length⟩ ∧
    SharedLexicon.entries ⟨l.lists ++ [ts], Dict.set l.data c.key l.lists.length⟩ c.key = ts ∧
    ∀ key, key ≠ c.key → SharedLexicon.entries ⟨l.lists ++ [ts], Dict.set l.data c.key l.lists.length⟩ key = l.entries key := by
  obtain ⟨hb, hi⟩ := h
  refine ⟨⟨?_, ?_⟩, ?_, ?_⟩
  · intro k i hk
    simp only [Dict.get?_set] at hk
    simp only [List.length_append, List.length_singleton]
    have := hb k i
    grind
  · intro k k' i hk hk'
    simp only [Dict.get?_set] at hk hk'
    have := hb k i; have := hb k' i; have := hi k k' i
    grind
  · simp [SharedLexicon.entries, Dict.get?_set]
  · intro key hne
    simp only [SharedLexicon.entries, Dict.get?_set, if_neg (Ne.symm hne)]
    rcases Option.eq_none_or_eq_some (Dict.get? l.data key) with h | ⟨i, h⟩
    · simp [h]
    · simp only [h]
      rw [List.getElem?_append_left (hb key i h)]

theorem SharedLexicon.Sound.append {l : SharedLexicon K T R} (h : l.Sound) {key : K} {i : Nat} (hk : Dict.get? l.data key = some i)
    (x : T × Finset R) :
    SharedLexicon.Sound { l with lists := l.lists.modify i fun ts => ts ++ [x] } ∧
    SharedLexicon.entries { l with lists := l.lists.modify i fun ts => ts ++ [x] } key = l.entries key ++ [x] ∧
    ∀ key', key' ≠ key → SharedLexicon.entries { l with lists := l.lists.modify i fun ts => ts ++ [x] } key' = l.entries key' := by
  obtain ⟨hb, hi⟩ := h
  refine ⟨⟨fun k j hj => by simpa using hb k j hj, hi⟩, ?_, ?_⟩
  · have hlt := hb key i hk
    simp [SharedLexicon.entries, hk, hlt]
  · intro key' hne
    simp only [SharedLexicon.entries]
    rcases Option.eq_none_or_eq_some (Dict.get? l.data key') with h | ⟨j, h⟩
    · simp [h]
    · have : i ≠ j := fun e => hne (hi key' key j h (e ▸ hk))
      simp [h, this]

/-- All about a call of `add_template` that was cut off. -/
theorem templateSteps_spec {l : SharedLexicon K T R} (h : l.Sound) (c : AddCall K T R) (k : Nat) :
    (templateSteps c l k).2.Sound ∧
    ((templateSteps c l k).1 = .done ∧ 3 ≤ k ∧ (templateSteps c l k).2.entries c.key = l.entries c.key ++ [(c.template, c.restrictions)] ∨
      (templateSteps c l k).1 ≠ .done ∧ k < 4 ∧ (templateSteps c l k).2.entries c.key = l.entries c.key) ∧
    ∀ key, key ≠ c.key → (templateSteps c l k).2.entries key = l.entries key := by
  rcases Option.eq_none_or_eq_some (Dict.get? l.data c.key) with hn | ⟨i, hi⟩
  · obtain ⟨h1, h2, h3, h4⟩ := templateSteps_new hn
    have he : l.entries c.key = [] := by simp [SharedLexicon.entries, hn]
    obtain ⟨n1, n2, n3⟩ := h.withKey c []
    obtain ⟨m1, m2, m3⟩ := h.withKey c [(c.template, c.restrictions)]
    match k with
    | 0 => exact ⟨h, .inr ⟨by simp [templateSteps], by omega, rfl⟩, fun _ _ => rfl⟩
    | 1 => rw [h1]; exact ⟨h, .inr ⟨by simp, by omega, rfl⟩, fun _ _ => rfl⟩
    | 2 => rw [h2]; exact ⟨n1, .inr ⟨by simp, by omega, by rw [he]; exact n2⟩, n3⟩
    | 3 => rw [h3]; exact ⟨n1, .inr ⟨by simp, by omega, by rw [he]; exact n2⟩, n3⟩
    | k + 4 =>
      rw [Nat.add_comm, templateSteps_done c l 4 k (by rw [h4]), h4]
      exact ⟨m1, .inl ⟨rfl, by omega, by rw [he]; exact m2⟩, m3⟩
  · obtain ⟨h1, h2, h3⟩ := templateSteps_known hi
    obtain ⟨m1, m2, m3⟩ := h.append hi (c.template, c.restrictions)
    match k with
    | 0 => exact ⟨h, .inr ⟨by simp [templateSteps], by omega, rfl⟩, fun _ _ => rfl⟩
    | 1 => rw [h1]; exact ⟨h, .inr ⟨by simp, by omega, rfl⟩, fun _ _ => rfl⟩
    | 2 => rw [h2]; exact ⟨h, .inr ⟨by simp, by omega, rfl⟩, fun _ _ => rfl⟩
    | k + 3 =>
      rw [Nat.add_comm, templateSteps_done c l 3 k (by rw [h3]), h3]
      exact ⟨m1, .inl ⟨rfl, by omega, m2⟩, m3⟩

theorem templatesTried_append (calls : List (AddCall K T R × Nat)) (c : AddCall K T R × Nat) :
    templatesTried (calls ++ [c]) = (templateSteps c.1 (templatesTried calls) c.2).2 := by simp [templatesTried]

theorem templatesTried_sound (calls : List (AddCall K T R × Nat)) : (templatesTried calls).Sound := by
  induction calls using List.reverseRecOn with
  | nil => exact ⟨(by intro k i h; cases h), (by intro k k' i h; cases h)⟩
  | append_singleton calls c ih => rw [templatesTried_append]; exact (templateSteps_spec ih _ _).1

/-- C120: one more `add_template`, cut off anywhere, after any history of such calls: if it has returned, its template is the last one of
its key; if not, the templates of the key are what they were. Four steps are always enough to return. Other keys are not affected. -/
theorem C120_template (calls : List (AddCall K T R × Nat)) (c : AddCall K T R) (k : Nat) :
    ((templateSteps c (templatesTried calls) k).1 = .done →
      (templatesTried (calls ++ [(c, k)])).entries c.key = (templatesTried calls).entries c.key ++ [(c.template, c.restrictions)]) ∧
    ((templateSteps c (templatesTried calls) k).1 ≠ .done →
      (templatesTried (calls ++ [(c, k)])).entries c.key = (templatesTried calls).entries c.key) ∧
    (4 ≤ k → (templateSteps c (templatesTried calls) k).1 = .done) ∧
    ∀ key, key ≠ c.key → (templatesTried (calls ++ [(c, k)])).entries key = (templatesTried calls).entries key := by
  obtain ⟨-, h, h'⟩ := templateSteps_spec (templatesTried_sound calls) c k
  rw [templatesTried_append]
  refine ⟨fun hd => ?_, fun hd => ?_, fun hk => ?_, h'⟩
  · rcases h with ⟨-, -, h⟩ | ⟨h, -⟩
    · exact h
    · exact absurd hd h
  · rcases h with ⟨h, -⟩ | ⟨-, -, h⟩
    · exact absurd h hd
    · exact h
  · rcases h with ⟨h, -⟩ | ⟨-, h, -⟩
    · exact h
    · omega

/-- C120: an `add_template` that was cut off any number of times and then repeated to the end: the template is there, at the end of its
key, once more than the number of attempts that had already put it there. -/
theorem C120_template_repeat (calls : List (AddCall K T R × Nat)) (c : AddCall K T R) (ks : List Nat) (k : Nat) (hk : 4 ≤ k) :
    ∃ m ≤ (ks.filter fun k' => decide (3 ≤ k')).length,
      (templatesTried (calls ++ ks.map (fun k' => (c, k')) ++ [(c, k)])).entries c.key =
        (templatesTried calls).entries c.key ++ List.replicate (m + 1) (c.template, c.restrictions) := by
  have key : ∃ m ≤ (ks.filter fun k' => decide (3 ≤ k')).length, (templatesTried (calls ++ ks.map (fun k' => (c, k')))).entries c.key =
      (templatesTried calls).entries c.key ++ List.replicate m (c.template, c.restrictions) := by
    induction ks using List.reverseRecOn with
    | nil => exact ⟨0, by simp, by simp⟩
    | append_singleton ks k' ih =>
      obtain ⟨m, hm, hm'⟩ := ih
      rw [List.map_append, List.map_singleton, ← List.append_assoc, templatesTried_append]
      obtain ⟨-, h, -⟩ := templateSteps_spec (templatesTried_sound (calls ++ ks.map (fun k' => (c, k')))) c k'
      rcases h with ⟨-, h3, h⟩ | ⟨-, -, h⟩
      · refine ⟨m + 1, by simp [h3, List.filter_append]; exact hm, ?_⟩
        rw [h, hm', List.replicate_succ', List.append_assoc]
      · exact ⟨m, by rw [List.filter_append, List.length_append]; omega, by rw [h, hm']⟩
  obtain ⟨m, hm, hm'⟩ := key
  refine ⟨m, hm, ?_⟩
  obtain ⟨h1, -, h3, -⟩ := C120_template (calls ++ ks.map (fun k' => (c, k'))) c k
  rw [h1 (h3 hk), hm', List.replicate_succ', List.append_assoc]

/-- C120: cut off before the list was read, an attempt puts nothing there, and the repeated call adds the template exactly once. -/
theorem C120_template_once (calls : List (AddCall K T R × Nat)) (c : AddCall K T R) (ks : List Nat) (hks : ∀ k' ∈ ks, k' ≤ 2) (k : Nat)
    (hk : 4 ≤ k) :
    (templatesTried (calls ++ ks.map (fun k' => (c, k')) ++ [(c, k)])).entries c.key =
      (templatesTried calls).entries c.key ++ [(c.template, c.restrictions)] := by
  obtain ⟨m, hm, h⟩ := C120_template_repeat calls c ks k hk
  have : ks.filter (fun k' => decide (3 ≤ k')) = [] := by
    rw [List.filter_eq_nil_iff]; intro k' hk'; have := hks k' hk'; simp; omega
  rw [this] at hm
  simp only [List.length_nil, Nat.le_zero] at hm
  subst hm
  exact h

end

/-- C120: a first `add_template` for a key may be cut off between making the list and filling it: then the lexicon has the key, and no
template. -/
theorem C120_template_key_only : ∃ (c : AddCall Nat Str Nat) (k : Nat),
    Dict.contains (templatesTried [(c, k)]).data c.key = true ∧ (templatesTried [(c, k)]).entries c.key = [] :=
  ⟨⟨1, str! "[hero]", ∅⟩, 2, by decide +kernel, by decide +kernel⟩

/-! ## `autofill_missed_forms` -/

/-- C120: wherever `autofill_missed_forms` is interrupted, calling it again succeeds, forms that were present are kept, and no form is missing if
one was present. -/
theorem C120_autofill (w : Word) (hw : Accepted w) (k n : Nat) (hn : 4 * w.forms.length + 2 ≤ n) :
    Returned (refilled w k n) 1 ∧
    (∀ (i : Nat) (f : Str), w.forms[i]? = some f → f ≠ [] → (refilled w k n).forms[i]? = some f) ∧
    (∀ f ∈ (refilled w k n).forms, f = [] ∨ f ∈ w.forms) ∧
    ((∃ f ∈ w.forms, f ≠ []) → ∀ f ∈ (refilled w k n).forms, f ≠ []) := by
  have hr : Returned (refilled w k n) 1 := by
    have := C118_finishes w hw (.start :: List.replicate k (.turn 0) ++ [.start]) (List.replicate n (.turn 1)) 1
      (by simp [callsBegun, List.filter_append]) (by simpa [turnsOfCall] using hn)
    simpa [refilled] using this
  obtain ⟨-, h2, h3⟩ := C118_present_kept w hw (.start :: List.replicate k (.turn 0) ++ .start :: List.replicate n (.turn 1))
  exact ⟨hr, h2, h3, fun hex => C118_complete w hw _ 1 hr hex⟩

/-- C120: but the forms filled in can be others than without an interruption: the second call takes those the first one filled in for forms of the
word (книга for книги). -/
theorem C120_autofill_differs : ∃ (w w' : Word) (k n : Nat), Accepted w ∧ 4 * w.forms.length + 2 ≤ n ∧ w.autofillMissedForms = .ok w' ∧
    w'.forms[7]? = some (str! "книги") ∧ (refilled w k n).forms[7]? = some (str! "книга") := by
  obtain ⟨w', h, _⟩ := autofill_spec (accepted_iff.mp exNominatives_accepted).2
  have h7 : (exNominatives.autofillMissedForms).map (fun x : Word => x.forms[7]?) = .ok (some (str! "книги")) := by decide +kernel
  rw [h] at h7
  refine ⟨exNominatives, w', 35, 74, exNominatives_accepted, by decide +kernel, h, ?_, ?_⟩
  · injection h7
  · decide +kernel

/-! ## Examples -/

/-- Interrupting the second of the words that share the text "в" at every step, in a dictionary with the first one: the repeated call
gives the dictionary of both. -/
example : (∀ k ∈ List.range 14, (interruptedAdd exUni exPrep (history exUni [exText (str! "в")]) k).addWord exUni exPrep =
      (history exUni [exText (str! "в")]).addWord exUni exPrep) ∧
    interruptedAdd exUni exPrep (history exUni [exText (str! "в")]) 5 ≠ (history exUni [exText (str! "в"), exPrep]) := by
  constructor
  · intro k _
    exact C120_repeat exUni [exText (str! "в")] (by intro w hw; obtain rfl := List.mem_singleton.mp hw; exact exText_accepted _ _ wf_empty) exPrep
      exPrep_accepted [k]
  · decide +kernel

/-- A template that is added, with the call interrupted after the template was put in the list, is there twice after the repetition. -/
example : let c : AddCall Nat Str Nat := ⟨1, str! "[hero]", ∅⟩
    (templatesTried [(c, 4), (c, 4)]).entries 1 = [(str! "[hero]", ∅), (str! "[hero]", ∅)] ∧
    (templatesTried [(c, 3), (c, 1), (c, 4)]).entries 1 = [(str! "[hero]", ∅)] := by
  decide +kernel

end Utg
