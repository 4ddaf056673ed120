import Verif.Spec.World
import Verif.Props.Objects
import Verif.Props.Histories
import Verif.Props.EndToEnd
/-! # C102, C103: many objects that refer to each other -/

namespace Utg
open Py Spec

section
variable {K R : Type} [DecidableEq K] [DecidableEq R]

theorem step_words_any (U : PyUni) (ws : List WordObj) (d d' : Dict Str FormObj) (op : Op) :
    (Heap.step U ⟨ws, d⟩ op).words = (Heap.step U ⟨ws, d'⟩ op).words := by
  cases op <;> simp only [Heap.step, Heap.change]
  case create => split <;> rfl
  case add => split <;> rfl
  all_goals (split <;> rfl)

theorem onWords_words (U : PyUni) (W : World K R) (op : Op) (data : Dict Str FormObj) (hop : ∀ n, op ≠ .add n) :
    Heap.step U ⟨W.words, data⟩ op = ⟨(W.onWords U op).words, data⟩ := by
  have h1 := step_words_any U W.words data [] op
  have h2 := step_data U ⟨W.words, data⟩ op hop
  rcases hs : Heap.step U ⟨W.words, data⟩ op with ⟨ws, d⟩
  rw [hs] at h1 h2
  simp only at h1 h2
  rw [h1, h2]; rfl

theorem add_words (U : PyUni) (h : Heap) (n : Nat) : (h.step U (.add n)).words = h.words := by
  simp only [Heap.step]; split <;> rfl

theorem counts (U : PyUni) (ops : List (WorldOp K R)) : ∀ W : World K R,
    (ops.foldl (World.step U) W).dictionaries.length = W.dictionaries.length + dictionariesMade ops ∧
    (ops.foldl (World.step U) W).templates.length = W.templates.length + templatesMade ops ∧
    (ops.foldl (World.step U) W).lexicons.length = W.lexicons.length + lexiconsMade ops := by
  induction ops with
  | nil => intro W; exact ⟨rfl, rfl, rfl⟩
  | cons op ops ih =>
    intro W
    rw [List.foldl_cons]
    obtain ⟨h1, h2, h3⟩ := ih (W.step U op)
    rw [h1, h2, h3]
    cases op <;> simp only [World.step, World.onWords, dictionariesMade, templatesMade, lexiconsMade] <;> (try split) <;> simp <;> omega

/-- One dictionary and the words, whatever happens to the other objects. -/
theorem after_dictionary (U : PyUni) (d : Nat) (ops : List (WorldOp K R)) : ∀ (W : World K R) (data : Dict Str FormObj),
    W.dictionaries[d]?.getD [] = data →
    (ops.foldl (World.step U) W).dictionaries[d]?.getD [] =
      ((wordsAnd d W.dictionaries.length ops).foldl (Heap.step U) ⟨W.words, data⟩).data ∧
    (ops.foldl (World.step U) W).words = ((wordsAnd d W.dictionaries.length ops).foldl (Heap.step U) ⟨W.words, data⟩).words := by
  induction ops with
  | nil => intro W data h; exact ⟨h, rfl⟩
  | cons op ops ih =>
    intro W data h
    rw [List.foldl_cons]
    cases op <;> simp only [wordsAnd, List.foldl_cons, World.step] <;>
      first
        | (rw [onWords_words U W _ data (by intro n; simp)]; exact ih (W.onWords U _) _ h)
        | exact ih _ _ h
        | skip
    case newDictionary =>
      have := ih { W with dictionaries := W.dictionaries ++ [[]] } data (by
        simp only
        rw [← h]
        by_cases hl : d < W.dictionaries.length
        · rw [List.getElem?_append_left hl]
        · rw [List.getElem?_append_right (by omega), List.getElem?_eq_none (by omega : W.dictionaries.length ≤ d)]
          cases d - W.dictionaries.length <;> simp)
      simpa using this
    case addWord d' w =>
      cases hw : W.words[w]? with
      | none =>
        simp only
        have hstep : Heap.step U ⟨W.words, data⟩ (.add w) = ⟨W.words, data⟩ := by simp only [Heap.step, hw]
        split
        · rw [List.foldl_cons, hstep]; exact ih _ _ h
        · exact ih _ _ h
      | some o =>
        simp only
        have hstep : Heap.step U ⟨W.words, data⟩ (.add w) =
            ⟨W.words, (addFormsObj U W.words o w data (List.range o.value.forms.length)).1⟩ := by simp only [Heap.step, hw]
        split
        · rename_i hd
          obtain ⟨rfl, hd⟩ := hd
          rw [List.foldl_cons, hstep]
          rw [List.getElem?_eq_getElem hd] at h
          have := ih { W with dictionaries := W.dictionaries.modify d' fun data =>
            (addFormsObj U W.words o w data (List.range o.value.forms.length)).1 }
            ((addFormsObj U W.words o w data (List.range o.value.forms.length)).1) (by
              simp only; rw [List.getElem?_modify_eq, List.getElem?_eq_getElem hd, ← h]; rfl)
          simpa using this
        · rename_i hd
          have := ih { W with dictionaries := W.dictionaries.modify d' fun data =>
            (addFormsObj U W.words o w data (List.range o.value.forms.length)).1 } data (by
              simp only
              by_cases hdd : d' = d
              · subst hdd
                have : W.dictionaries.length ≤ d' := by omega
                rw [List.getElem?_eq_none (by simpa using this), ← h, List.getElem?_eq_none this]
              · rw [List.getElem?_modify_ne _ _ hdd]; exact h)
          simpa using this
    case addTemplate =>
      split
      · exact ih _ _ h
      · exact ih { W with lexicons := _ } _ h

/-- One template, whatever happens to the other objects. -/
theorem after_template (U : PyUni) (t : Nat) (ops : List (WorldOp K R)) : ∀ (W : World K R) (T : Template),
    W.templates[t]?.getD .empty = T →
    (ops.foldl (World.step U) W).templates[t]?.getD .empty =
      (parseCalls t W.templates.length ops).foldl (fun T c => (T.parseState U c.1 c.2).1) T := by
  induction ops with
  | nil => intro W T h; exact h
  | cons op ops ih =>
    intro W T h
    rw [List.foldl_cons]
    cases op <;> simp only [parseCalls, List.foldl_cons, World.step] <;> first | exact ih _ _ h | skip
    case newTemplate =>
      have := ih { W with templates := W.templates ++ [.empty] } T (by
        simp only
        rw [← h]
        by_cases hl : t < W.templates.length
        · rw [List.getElem?_append_left hl]
        · rw [List.getElem?_append_right (by omega), List.getElem?_eq_none (by omega : W.templates.length ≤ t)]
          cases t - W.templates.length <;> simp)
      simpa using this
    case addWord => split <;> exact ih _ _ h
    case addTemplate => split <;> exact ih _ _ h
    case parse t' text names =>
      split
      · rename_i ht
        obtain ⟨rfl, ht⟩ := ht
        rw [List.getElem?_eq_getElem ht] at h
        have := ih { W with templates := W.templates.modify t' fun T => (T.parseState U text names).1 } (T.parseState U text names).1 (by
          simp only; rw [List.getElem?_modify_eq, List.getElem?_eq_getElem ht, ← h]; rfl)
        simpa using this
      · have := ih { W with templates := W.templates.modify t' fun T => (T.parseState U text names).1 } T (by
          simp only
          by_cases htt : t' = t
          · subst htt
            have : W.templates.length ≤ t' := by omega
            rw [List.getElem?_eq_none (by simpa using this), ← h, List.getElem?_eq_none this]
          · rw [List.getElem?_modify_ne _ _ htt]; exact h)
        simpa using this

/-- One lexicon, whatever happens to the other objects. -/
theorem after_lexicon (U : PyUni) (l : Nat) (ops : List (WorldOp K R)) : ∀ (W : World K R) (L : Lexicon K Nat R),
    W.lexicons[l]?.getD .empty = L →
    (ops.foldl (World.step U) W).lexicons[l]?.getD .empty =
      (addCalls l W.lexicons.length W.templates.length ops).foldl (fun L c => L.addTemplate c.key c.template c.restrictions) L := by
  induction ops with
  | nil => intro W L h; exact h
  | cons op ops ih =>
    intro W L h
    rw [List.foldl_cons]
    cases op <;> simp only [addCalls, List.foldl_cons, World.step] <;> first | exact ih _ _ h | skip
    case newLexicon =>
      have := ih { W with lexicons := W.lexicons ++ [.empty] } L (by
        simp only
        rw [← h]
        by_cases hl : l < W.lexicons.length
        · rw [List.getElem?_append_left hl]
        · rw [List.getElem?_append_right (by omega), List.getElem?_eq_none (by omega : W.lexicons.length ≤ l)]
          cases l - W.lexicons.length <;> simp)
      simpa using this
    case newTemplate => have := ih { W with templates := W.templates ++ [Template.empty] } _ h; simpa using this
    case addWord => split <;> exact ih _ _ h
    case parse t text names =>
      have := ih { W with templates := W.templates.modify t fun T => (T.parseState U text names).1 } _ h
      simpa using this
    case addTemplate l' key t rs =>
      cases hT : W.templates[t]? with
      | none =>
        rw [List.getElem?_eq_none_iff] at hT
        rw [if_neg (by omega)]
        exact ih _ _ h
      | some T =>
        have hlt : t < W.templates.length := (List.getElem?_eq_some_iff.mp hT).1
        simp only
        split
        · rename_i hl
          obtain ⟨rfl, hl, -⟩ := hl
          rw [List.getElem?_eq_getElem hl] at h
          have := ih { W with lexicons := W.lexicons.modify l' fun L => L.addTemplate key t rs } (L.addTemplate key t rs) (by
            simp only; rw [List.getElem?_modify_eq, List.getElem?_eq_getElem hl, ← h]; rfl)
          simpa using this
        · have := ih { W with lexicons := W.lexicons.modify l' fun L => L.addTemplate key t rs } L (by
            simp only
            by_cases hll : l' = l
            · subst hll
              have : W.lexicons.length ≤ l' := by omega
              rw [List.getElem?_eq_none (by simpa using this), ← h, List.getElem?_eq_none this]
            · rw [List.getElem?_modify_ne _ _ hll]; exact h)
          simpa using this

/-- `x[i]?` from its length and its value with a default. -/
theorem getElem?_of_getD {α : Type} {xs : List α} {i : Nat} {a v : α} (h : xs[i]?.getD a = v) :
    xs[i]? = if i < xs.length then some v else none := by
  by_cases hi : i < xs.length
  · rw [if_pos hi, List.getElem?_eq_getElem hi] at *; simpa using h
  · rw [if_neg hi]; exact List.getElem?_eq_none (by omega)

/-- C102: in any history, a dictionary and the words are what the operations on words and on this dictionary alone make of them:
the model of C77, which has one dictionary, is right for each of many dictionaries that share words. -/
theorem C102_dictionary (U : PyUni) (ops : List (WorldOp K R)) (d : Nat) :
    (World.after U ops).dictionaries[d]? = (if d < dictionariesMade ops then some (Heap.after U (wordsAnd d 0 ops)).data else none) ∧
    (World.after U ops).words = (Heap.after U (wordsAnd d 0 ops)).words := by
  obtain ⟨h1, h2⟩ := after_dictionary U d ops ⟨[], [], [], []⟩ [] rfl
  have hl := (counts U ops ⟨[], [], [], []⟩).1
  simp only [List.length_nil, Nat.zero_add] at hl
  refine ⟨?_, h2⟩
  have := getElem?_of_getD h1
  rw [hl] at this
  exact this

/-- C102: in any history, a template is what the calls of `parse` on it make of it. -/
theorem C102_template (U : PyUni) (ops : List (WorldOp K R)) (t : Nat) :
    (World.after U ops).templates[t]? = if t < templatesMade ops then some (parses U (parseCalls t 0 ops)) else none := by
  have hl := (counts U ops ⟨[], [], [], []⟩).2.1
  simp only [List.length_nil, Nat.zero_add] at hl
  have := getElem?_of_getD (after_template U t ops ⟨[], [], [], []⟩ .empty rfl)
  rw [hl] at this
  exact this

/-- C102: in any history, a lexicon is what the calls of `add_template` on it make of it. -/
theorem C102_lexicon (U : PyUni) (ops : List (WorldOp K R)) (l : Nat) :
    (World.after U ops).lexicons[l]? = if l < lexiconsMade ops then some (lexiconOf (addCalls l 0 0 ops)) else none := by
  have hl := (counts U ops ⟨[], [], [], []⟩).2.2
  simp only [List.length_nil, Nat.zero_add] at hl
  have := getElem?_of_getD (after_lexicon U l ops ⟨[], [], [], []⟩ .empty rfl)
  rw [hl] at this
  exact this

theorem world_append (U : PyUni) (a b : List (WorldOp K R)) : World.after U (a ++ b) = b.foldl (World.step U) (World.after U a) := by
  simp [World.after, List.foldl_append]

/-- The heap of one dictionary. -/
theorem heap_of {U : PyUni} {ops : List (WorldOp K R)} {d : Nat} {data : Dict Str FormObj}
    (h : (World.after U ops).dictionaries[d]? = some data) : Heap.after U (wordsAnd d 0 ops) = ⟨(World.after U ops).words, data⟩ := by
  obtain ⟨h1, h2⟩ := C102_dictionary U ops d
  rw [h1] at h
  split at h
  · injection h with h; rw [h2, ← h]
  · cases h

theorem wordsAnd_append (d : Nat) (a b : List (WorldOp K R)) : ∀ n,
    wordsAnd d n (a ++ b) = wordsAnd d n a ++ wordsAnd d (n + dictionariesMade a) b := by
  induction a with
  | nil => intro n; rfl
  | cons op a ih =>
    intro n
    cases op <;> simp only [List.cons_append, wordsAnd, dictionariesMade, ih] <;>
      first | rfl | (split <;> simp) | (simp only [Nat.add_assoc, Nat.add_comm 1])

theorem parseCalls_append (t : Nat) (a b : List (WorldOp K R)) : ∀ n,
    parseCalls t n (a ++ b) = parseCalls t n a ++ parseCalls t (n + templatesMade a) b := by
  induction a with
  | nil => intro n; rfl
  | cons op a ih =>
    intro n
    cases op <;> simp only [List.cons_append, parseCalls, templatesMade, ih] <;>
      first | rfl | (split <;> simp) | (simp only [Nat.add_assoc, Nat.add_comm 1])

theorem parseCalls_nil (t : Nat) (ops : List (WorldOp K R)) (h : ∀ text names, .parse t text names ∉ ops) : ∀ n, parseCalls t n ops = [] := by
  induction ops with
  | nil => intro n; rfl
  | cons op ops ih =>
    intro n
    have ih := ih fun text names hm => h text names (by simp [hm])
    cases op <;> simp only [parseCalls, ih]
    case parse t' text names =>
      rw [if_neg]
      rintro ⟨rfl, -⟩
      exact h text names (by simp)

theorem made_append (a b : List (WorldOp K R)) : dictionariesMade (a ++ b) = dictionariesMade a + dictionariesMade b ∧
    templatesMade (a ++ b) = templatesMade a + templatesMade b := by
  induction a with
  | nil => simp [dictionariesMade, templatesMade]
  | cons op a ih => obtain ⟨i1, i2⟩ := ih; cases op <;> simp only [List.cons_append, dictionariesMade, templatesMade] <;> constructor <;> omega

/-- C102: a template keeps its content until it is parsed again. -/
theorem C102_template_stays (U : PyUni) (ops later : List (WorldOp K R)) (t : Nat) (T : Template)
    (h : (World.after U ops).templates[t]? = some T) (hno : ∀ text names, .parse t text names ∉ later) :
    (World.after U (ops ++ later)).templates[t]? = some T := by
  rw [C102_template] at h ⊢
  rw [parseCalls_append, parseCalls_nil t later hno, List.append_nil, (made_append ops later).2]
  split at h
  · rw [if_pos (by omega)]; exact h
  · cases h

theorem goodOps {ops : List (WorldOp K R)} (h : ∀ op ∈ ops, GoodWorldOp op) (d : Nat) : ∀ n, ∀ op ∈ wordsAnd d n ops, GoodOp op := by
  induction ops with
  | nil => intro n op hop; simp [wordsAnd] at hop
  | cons o ops ih =>
    have ho := h o (by simp)
    have ih := ih fun op hop => h op (by simp [hop])
    intro n op hop
    cases o <;> simp only [wordsAnd, List.mem_cons] at hop
    case addWord =>
      split at hop
      · rcases List.mem_cons.mp hop with rfl | hop
        · trivial
        · exact ih _ _ hop
      · exact ih _ _ hop
    all_goals first
      | exact ih _ _ hop
      | (rcases hop with rfl | hop
         · first | trivial | exact ho
         · exact ih _ _ hop)

/-- Operations that do not change words leave the values of words. -/
theorem step_world_value (U : PyUni) (W : World K R) (op : WorldOp K R) (hop : ¬ ChangesWords op) (n : Nat) (o : WordObj)
    (ho : W.words[n]? = some o) : ∃ o', (W.step U op).words[n]? = some o' ∧ o'.value = o.value := by
  cases op <;> simp only [World.step]
  case setForm => exact absurd trivial hop
  case setProperties => exact absurd trivial hop
  case autofill => exact absurd trivial hop
  case addWord => split <;> exact ⟨o, ho, rfl⟩
  case addTemplate => split <;> exact ⟨o, ho, rfl⟩
  all_goals first
    | exact ⟨o, ho, rfl⟩
    | exact step_value U ⟨W.words, []⟩ _ n o ho (by simp [Mutates])

/-- C102: operations that neither change words nor concern the template or the dictionary do not change what substitution gives. -/
theorem C102_undisturbed (U : PyUni) (ops later : List (WorldOp K R)) (t d : Nat) (ext : Externals)
    (hex : (World.after U ops).render U t ext d ≠ none)
    (hwords : ∀ op ∈ later, ¬ ChangesWords op) (ht : ∀ text names, .parse t text names ∉ later) (hd : ∀ w, .addWord d w ∉ later) :
    (World.after U (ops ++ later)).render U t ext d = (World.after U ops).render U t ext d := by
  induction later using List.reverseRecOn with
  | nil => simp
  | append_singleton later op ih =>
    have ih := ih (fun o ho => hwords o (by simp [ho])) (fun a b hm => ht a b (by simp [hm])) (fun a hm => hd a (by simp [hm]))
    rw [← ih]
    rw [← ih] at hex
    have h1 := C102_template_stays U (ops ++ later) [op] t
    rw [← List.append_assoc]
    unfold World.render at hex ⊢
    cases hT : (World.after U (ops ++ later)).templates[t]? with
    | none => rw [hT] at hex; simp at hex
    | some T =>
      cases hD : (World.after U (ops ++ later)).dictionaries[d]? with
      | none => rw [hT, hD] at hex; simp at hex
      | some data =>
        rw [h1 T hT (fun a b hm => ht a b (by simp at hm; simp [hm]))]
        have hwop := hwords op (by simp)
        have hD' : (World.after U (ops ++ later ++ [op])).dictionaries[d]? = some data := by
          have hlt : d < (World.after U (ops ++ later)).dictionaries.length := (List.getElem?_eq_some_iff.mp hD).1
          rw [world_append, List.foldl_cons, List.foldl_nil]
          cases op <;> simp only [World.step, World.onWords] <;> first | exact hD | skip
          case newDictionary => rw [List.getElem?_append_left hlt]; exact hD
          case addTemplate => split <;> exact hD
          case addWord d' w =>
            have hne : d' ≠ d := by rintro rfl; exact hd w (by simp)
            split
            · exact hD
            · simp only; rw [List.getElem?_modify_ne _ _ hne]; exact hD
        rw [hD']
        have hr : Refs (World.after U (ops ++ later)).words data := by
          have := (after_dict U (wordsAnd d 0 (ops ++ later))).1
          rw [heap_of hD] at this; exact this
        have hsnap : Heap.snapshot ⟨(World.after U (ops ++ later ++ [op])).words, data⟩ =
            Heap.snapshot ⟨(World.after U (ops ++ later)).words, data⟩ := by
          refine snap_congr fun e he => ?_
          obtain ⟨o', e1, e2⟩ := step_world_value U (World.after U (ops ++ later)) op hwop e.2.word _ (List.getElem?_eq_getElem (hr e he))
          rw [world_append, List.foldl_cons, List.foldl_nil, e1, List.getElem?_eq_getElem (hr e he)]
          simp [e2]
        simp only [hsnap]

theorem mem_addCalls {l : Nat} {c : Added K Nat R} {ops : List (WorldOp K R)} : ∀ {m n : Nat}, c ∈ addCalls l m n ops →
    c.template < n + templatesMade ops := by
  induction ops with
  | nil => intro m n h; simp [addCalls] at h
  | cons op ops ih =>
    intro m n h
    cases op <;> simp only [addCalls] at h <;> simp only [templatesMade]
    case addTemplate =>
      split at h
      · rcases List.mem_cons.mp h with rfl | h
        · simp only; omega
        · exact ih h
      · exact ih h
    case newTemplate => have := ih h; omega
    all_goals exact ih h

/-- C103: whatever was done, a request to a lexicon that has an applicable template gives a most specific one; the template is what
the calls of `parse` on it have made of it by now, whether they came before or after it was added; and the dictionary it is filled from
has the words that were added to it. -/
theorem C103_served (U : PyUni) (ops : List (WorldOp K R)) (l d : Nat) (key : K) (rs : Finset R) (draw : Nat) (ext : Externals)
    (hl : l < lexiconsMade ops) (hd : d < dictionariesMade ops) (hs : SettledBeforeAdded (wordsAnd d 0 ops))
    (happ : ∃ c ∈ addCalls l 0 0 ops, Applicable key rs c) :
    ∃ L c, (World.after U ops).lexicons[l]? = some L ∧ c ∈ addCalls l 0 0 ops ∧ MostSpecific (addCalls l 0 0 ops) key rs c ∧
      L.getRandomNearestTemplate key rs draw = .ok c.template ∧
      (World.after U ops).render U c.template ext d =
        some ((parses U (parseCalls c.template 0 ops)).substitute U ext (history U (addedValues U ⟨[], []⟩ (wordsAnd d 0 ops)))) := by
  obtain ⟨c, hc, h1, h2⟩ := (C33_nearest_template (addCalls l 0 0 ops) key rs).1 draw happ
  refine ⟨_, c, by rw [C102_lexicon, if_pos hl], hc, h1, h2, ?_⟩
  have ht : (World.after U ops).templates[c.template]? = some (parses U (parseCalls c.template 0 ops)) := by
    rw [C102_template, if_pos (by have := mem_addCalls hc; omega)]
  obtain ⟨h3, h4⟩ := C102_dictionary U ops d
  rw [if_pos hd] at h3
  unfold World.render
  rw [ht, h3]
  simp only
  rw [← C77_value_model U _ hs]
  have : (⟨(World.after U ops).words, (Heap.after U (wordsAnd d 0 ops)).data⟩ : Heap) = Heap.after U (wordsAnd d 0 ops) := by rw [h4]
  rw [this]

/-- A text is known to the snapshot iff the dictionary has it. -/
theorem snapshot_known (U : PyUni) (ops : List Op) (x : Str) : (Heap.after U ops).snapshot.hasWord x = (Heap.after U ops).hasWord x := by
  have hr := (after_dict U ops).1
  unfold Dictionary.hasWord Heap.hasWord
  show Dict.contains (snap _ _) x = _
  unfold Dict.contains
  rw [snap_get? hr]
  cases h : Dict.get? (Heap.after U ops).data x with
  | none => rfl
  | some f =>
    obtain ⟨v, hv⟩ := value_of_lt (hr _ (Dict.mem_of_get? h))
    simp [hv]

/-- C103: a template that was parsed and checked against a dictionary can be filled at any later time, whatever has been done in
between - words added to this and other dictionaries, words created and changed, even after they were added, other templates parsed -
as long as the template itself was not parsed again and no word has an empty form when it is filled. -/
theorem C103_checked_stays (U : PyUni) (ops later : List (WorldOp K R)) (t d : Nat) (T : Template) (data : Dict Str FormObj) (text : Str)
    (names : List Str) (ext : Externals)
    (hgood : ∀ op ∈ ops ++ later, GoodWorldOp op)
    (hT : (World.after U ops).templates[t]? = some T) (hparse : Template.empty.parse U text names = .ok T)
    (hD : (World.after U ops).dictionaries[d]? = some data)
    (hcheck : T.getUndictionariedWords names (Heap.snapshot ⟨(World.after U ops).words, data⟩) = [])
    (hno : ∀ text names, .parse t text names ∉ later)
    (hforms : ∀ o ∈ (World.after U (ops ++ later)).words, ∀ x ∈ o.value.forms, x ≠ [])
    (hU : ∀ c, U.upperC c ≠ []) (he : GoodExternals ext) (hen : ∀ n f, ext.get? n = some f → NonEmptyForms f)
    (hn : ∀ n, n ∈ names ↔ ∃ f, ext.get? n = some f) :
    ∃ result, (World.after U (ops ++ later)).render U t ext d = some (.ok result) := by
  have hT' := C102_template_stays U ops later t T hT hno
  obtain ⟨h3, h4⟩ := C102_dictionary U (ops ++ later) d
  have hlt : d < dictionariesMade ops := by
    have := (C102_dictionary U ops d).1
    rw [hD] at this
    by_contra hc
    rw [if_neg hc] at this; cases this
  rw [if_pos (by rw [(made_append ops later).1]; omega)] at h3
  have hheap : (⟨(World.after U (ops ++ later)).words, (Heap.after U (wordsAnd d 0 (ops ++ later))).data⟩ : Heap) =
      Heap.after U (wordsAnd d 0 (ops ++ later)) := by rw [h4]
  have hsub : ∃ result, T.substitute U ext (Heap.after U (wordsAnd d 0 (ops ++ later))).snapshot = .ok result := by
    refine C50_checked_template U names ext _ text T hU he (C77_good_dictionary U _ (goodOps hgood d 0)) hen ?_ hparse hn ?_
    · intro x f hf y hy
      unfold Dictionary.getWord at hf
      have hr := (after_dict U (wordsAnd d 0 (ops ++ later))).1
      have key : Dict.get? (Heap.after U (wordsAnd d 0 (ops ++ later))).snapshot x = _ := snap_get? hr x
      rw [key] at hf
      cases hx : Dict.get? (Heap.after U (wordsAnd d 0 (ops ++ later))).data x with
      | none => rw [hx] at hf; simp at hf
      | some fo =>
        rw [hx] at hf
        have hlt := hr _ (Dict.mem_of_get? hx)
        simp only [FormObj.value, List.getElem?_eq_getElem hlt, Option.map_some, Option.bind_some] at hf
        injection hf with hf
        subst hf
        refine hforms ((Heap.after U (wordsAnd d 0 (ops ++ later))).words[fo.word]) ?_ y hy
        rw [h4]; exact List.getElem_mem _
    · rw [← heap_of hD] at hcheck
      rw [C49_exact, List.filter_eq_nil_iff] at hcheck ⊢
      intro id hid hx
      refine hcheck id hid ?_
      simp only [Bool.and_eq_true, decide_eq_true_eq, Bool.not_eq_true'] at hx ⊢
      refine ⟨hx.1, ?_⟩
      rw [snapshot_known] at hx ⊢
      by_contra hc
      have := C77_known_stays U (wordsAnd d 0 ops) (wordsAnd d (0 + dictionariesMade ops) later) id (by simpa using hc)
      rw [← wordsAnd_append, hx.2] at this
      cases this
  obtain ⟨result, hres⟩ := hsub
  refine ⟨result, ?_⟩
  unfold World.render
  rw [hT', h3]
  simp only
  rw [hheap, hres]

end

/-- Two dictionaries share a word; two templates, of which the first is in a lexicon. -/
def exWorld : List (WorldOp Nat Nat) :=
  [.newDictionary, .newWord .TEXT [str! "ух"] (.new []), .newDictionary, .addWord 1 0, .newWord .NOUN exNoun.forms exNoun.properties,
   .addWord 1 1, .addWord 0 0, .newTemplate, .parse 0 (str! "[ух]!") [], .newLexicon, .addTemplate 0 5 0 {7}, .newTemplate,
   .parse 1 (str! "[нет]") []]

/-- The objects of this history, and the projections of C102. -/
example : dictionariesMade exWorld = 2 ∧ templatesMade exWorld = 2 ∧ lexiconsMade exWorld = 1 ∧
    wordsAnd 0 0 exWorld = [.create .TEXT [str! "ух"] (.new []), .create .NOUN exNoun.forms exNoun.properties, .add 0] ∧
    wordsAnd 1 0 exWorld = [.create .TEXT [str! "ух"] (.new []), .add 0, .create .NOUN exNoun.forms exNoun.properties, .add 1] ∧
    parseCalls 0 0 exWorld = [(str! "[ух]!", [])] ∧ addCalls 0 0 0 exWorld = [⟨5, 0, {7}⟩] := by
  refine ⟨rfl, rfl, rfl, by decide +kernel, by decide +kernel, by decide +kernel, rfl⟩

/-- C102, C103 apply: the first template can be filled, also after the words and the other objects were worked on. -/
example : (World.after exPy exWorld).render exPy 0 [] 0 = some (.ok (str! "ух!")) ∧
    (World.after exPy exWorld).render exPy 0 [] 1 = some (.ok (str! "ух!")) ∧
    (World.after exPy (exWorld ++ [.parse 1 (str! "[a]") [], .addWord 1 0, .setForm 0 0 (str! "эх"), .newWord .TEXT [str! "а"] (.new [])])).render
      exPy 0 [] 0 = some (.ok (str! "эх!")) := by
  refine ⟨by decide +kernel, by decide +kernel, by decide +kernel⟩

/-- `C103_checked_stays` applies to it: the template was checked, then a word was changed. -/
example : ∃ result, (World.after exPy (exWorld ++ [.setForm 0 0 (str! "эх")])).render exPy 0 [] 0 = some (.ok result) := by
  have hD := (C102_dictionary exPy exWorld 0).1
  refine C103_checked_stays exPy exWorld [.setForm 0 0 (str! "эх")] 0 0 ⟨[⟨str! "ух", []⟩], some (str! "%s!")⟩ _ (str! "[ух]!") [] []
    ?_ (by decide +kernel) (by decide +kernel) hD (by decide +kernel) (by simp) (by decide +kernel) ?_ ?_ ?_ ?_
  · intro op hop
    simp only [exWorld, List.cons_append, List.nil_append, List.mem_cons, List.not_mem_nil, or_false] at hop
    rcases hop with rfl | rfl | rfl | rfl | rfl | rfl | rfl | rfl | rfl | rfl | rfl | rfl | rfl | rfl <;> simp only [GoodWorldOp] <;>
      first | exact wf_empty | exact (accepted_iff.mp exNoun_accepted).1
  · intro c; unfold exPy; simp only; split <;> simp
  · intro n f h; simp [Dict.get?] at h
  · intro n f h; simp [Dict.get?] at h
  · intro n; simp [Dict.get?]

/-- `C103_served` applies to it. -/
example : SettledBeforeAdded (wordsAnd 0 0 exWorld) ∧ ∃ c ∈ addCalls 0 0 0 exWorld, Applicable 5 {7, 8} c := by
  constructor
  · intro before op later n e hm
    exfalso
    have : op ∈ wordsAnd 0 0 exWorld := by rw [e]; simp
    simp only [exWorld, wordsAnd] at this
    simp at this
    rcases this with rfl | rfl | rfl <;> simp [Mutates] at hm
  · exact ⟨⟨5, 0, {7}⟩, by simp [exWorld, addCalls], rfl, by simp⟩

/-- C103: a template drawn from a lexicon is not the template that was added, if it was parsed again in the meantime; then it cannot
be filled although both of its texts can. -/
theorem C103_reparsed : ∃ (ops : List (WorldOp Nat Nat)) (L : Lexicon Nat Nat Nat),
    (World.after exPy ops).lexicons[0]? = some L ∧ (∀ draw, L.getRandomNearestTemplate 5 {7} draw = .ok 0) ∧
    (World.after exPy ops).render exPy 0 [] 0 = some (.ok (str! "ух!")) ∧
    (World.after exPy (ops ++ [.parse 0 (str! "Эй, [ух]!") []])).render exPy 0 [] 0 = some (.error .TypeError) ∧
    ∃ T, Template.empty.parse exPy (str! "Эй, [ух]!") [] = .ok T ∧
      T.substitute exPy [] (history exPy [exText (str! "ух")]) = .ok (str! "Эй, ух!") := by
  refine ⟨exWorld, lexiconOf [⟨5, 0, {7}⟩], by rw [C102_lexicon]; rfl, ?_, by decide +kernel, by decide +kernel,
    ⟨[⟨str! "ух", []⟩], some (str! "Эй, %s!")⟩, by decide +kernel, by decide +kernel⟩
  intro draw
  obtain ⟨c, hc, -, h⟩ := (C33_nearest_template [(⟨5, 0, {7}⟩ : Added Nat Nat Nat)] 5 {7}).1 draw ⟨⟨5, 0, {7}⟩, by simp, rfl, by simp⟩
  simp at hc
  subst hc
  exact h

end Utg
