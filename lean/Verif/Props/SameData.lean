import Verif.Spec.SameData
import Verif.Props.Checked
/-!
# C124: objects are equal exactly if their saved data are
-/

namespace Utg
open Py Spec

theorem get?_map_keys {K K' V V' : Type} [DecidableEq K] [DecidableEq K'] {f : K → K'} (hf : Function.Injective f) (g : K → V → V') (d : Dict K V)
    (k : K) : Dict.get? (d.map fun kv => (f kv.1, g kv.1 kv.2)) (f k) = (Dict.get? d k).map (g k) := by
  induction d with
  | nil => rfl
  | cons e d ih =>
    obtain ⟨a, v⟩ := e
    simp only [List.map_cons, Dict.get?]
    by_cases h : a = k
    · subst h; simp
    · rw [if_neg h, if_neg (fun e => h (hf e)), ih]

theorem get?_map_none {K K' V V' : Type} [DecidableEq K] [DecidableEq K'] {f : K → K'} (g : K → V → V') (d : Dict K V) (k' : K')
    (h : ∀ k, f k ≠ k') : Dict.get? (d.map fun kv => (f kv.1, g kv.1 kv.2)) k' = none := by
  induction d with
  | nil => rfl
  | cons e d ih => simp only [List.map_cons, Dict.get?]; rw [if_neg (h _), ih]

theorem code_injective : Function.Injective fun g : Group => JKey.int g.code := by
  intro g h e
  revert e
  cases g <;> cases h <;> decide

theorem value_injective {r q : Rec} (h : r.group = q.group) (hv : r.value = q.value) : r = q := by
  have : ∀ g : Group, ∀ r ∈ g.records, ∀ q ∈ g.records, r.value = q.value → r = q := by intro g; cases g <;> decide +kernel
  have hm : ∀ r : Rec, r ∈ r.group.records := by intro r; cases r <;> decide
  exact this r.group r (hm r) q (h ▸ hm q) hv

theorem sameItems_serialize {p q : Properties} (hp : WFProps p) (hq : WFProps q) : SameItems p.serialize q.serialize ↔ p.eq q = true := by
  unfold Properties.eq
  rw [Dict.beq_iff hp.1 hq.1]
  have key : ∀ (p : Properties) (g : Group), Dict.get? p.serialize (.int g.code) = (p.data.get? g).map fun r => (r.value : Int) :=
    fun p g => get?_map_keys (f := fun g : Group => JKey.int g.code) code_injective (fun _ (r : Rec) => (r.value : Int)) p.data g
  constructor
  · intro h g
    have hg := h (.int g.code)
    rw [key, key] at hg
    cases h1 : p.data.get? g with
    | none =>
      cases h2 : q.data.get? g with
      | none => rfl
      | some r => rw [h1, h2] at hg; simp at hg
    | some r =>
      cases h2 : q.data.get? g with
      | none => rw [h1, h2] at hg; simp at hg
      | some s =>
        rw [h1, h2] at hg
        simp only [Option.map_some, Option.some.injEq, Int.natCast_inj] at hg
        have e1 := hp.2 _ (Dict.mem_of_get? h1)
        have e2 := hq.2 _ (Dict.mem_of_get? h2)
        exact congrArg some (value_injective (r := r) (q := s) (e1.trans e2.symm) hg)
  · intro h k
    by_cases hk : ∃ g : Group, JKey.int g.code = k
    · obtain ⟨g, rfl⟩ := hk
      rw [key, key, h g]
    · rw [not_exists] at hk
      have := fun p : Properties => get?_map_none (f := fun g : Group => JKey.int g.code) (fun _ (r : Rec) => (r.value : Int)) p.data k hk
      exact (this p).trans (this q).symm

theorem jsonKeys_serialize {p q : Properties} : SameItems (jsonKeys p.serialize) (jsonKeys q.serialize) ↔ SameItems p.serialize q.serialize := by
  have e : ∀ p : Properties, jsonKeys p.serialize = p.data.map fun kv => (.str (pyStr kv.1.code), (kv.2.value : Int)) := by
    intro p; simp [jsonKeys, Properties.serialize]
  have hinj : Function.Injective fun g : Group => JKey.str (pyStr g.code) := by
    intro g h hh
    simp only [JKey.str.injEq] at hh
    exact code_injective (by simpa using pyStr_injective hh)
  have key : ∀ (p : Properties) (g : Group), Dict.get? (jsonKeys p.serialize) (.str (pyStr g.code)) = Dict.get? p.serialize (.int g.code) := by
    intro p g
    rw [e, show Dict.get? p.serialize (.int g.code) = _ from
      get?_map_keys (f := fun g : Group => JKey.int g.code) code_injective (fun _ (r : Rec) => (r.value : Int)) p.data g]
    exact get?_map_keys (f := fun g : Group => JKey.str (pyStr g.code)) hinj (fun _ (r : Rec) => (r.value : Int)) p.data g
  constructor
  · intro h k
    by_cases hk : ∃ g : Group, JKey.int g.code = k
    · obtain ⟨g, rfl⟩ := hk
      rw [← key, ← key, h]
    · rw [not_exists] at hk
      have := fun p : Properties => get?_map_none (f := fun g : Group => JKey.int g.code) (fun _ (r : Rec) => (r.value : Int)) p.data k hk
      exact (this p).trans (this q).symm
  · intro h k
    by_cases hk : ∃ g : Group, JKey.str (pyStr g.code) = k
    · obtain ⟨g, rfl⟩ := hk
      rw [key, key, h]
    · rw [not_exists] at hk
      have := fun p : Properties => get?_map_none (f := fun g : Group => JKey.str (pyStr g.code)) (fun _ (r : Rec) => (r.value : Int)) p.data k hk
      rw [e, e]
      exact (this p).trans (this q).symm

/-- C124: properties are equal exactly if their data are, before and after JSON. -/
theorem C124_properties (p q : Properties) (hp : WFProps p) (hq : WFProps q) :
    (p.eq q = true ↔ SameItems p.serialize q.serialize) ∧ (p.eq q = true ↔ SameItems (jsonKeys p.serialize) (jsonKeys q.serialize)) :=
  ⟨(sameItems_serialize hp hq).symm, by rw [jsonKeys_serialize]; exact (sameItems_serialize hp hq).symm⟩

/-- C124: the same for words. -/
theorem C124_words (v w : Word) (hv : Accepted v) (hw : Accepted w) :
    (v.eq w = true ↔ SameWordData v.serialize w.serialize) ∧ (v.eq w = true ↔ SameWordData (jsonWord v.serialize) (jsonWord w.serialize)) := by
  have h1 := (accepted_iff.mp hv).1
  have h2 := (accepted_iff.mp hw).1
  have ht : (v.type.value : Int) = w.type.value ↔ v.type = w.type := ⟨fun h => type_value_inj (by exact_mod_cast h), fun h => by rw [h]⟩
  have h := C124_properties v.properties w.properties h1 h2
  unfold Word.eq SameWordData jsonWord Word.serialize
  dsimp only
  simp only [Bool.and_eq_true, decide_eq_true_eq, ht, ← h.1, ← h.2]
  tauto

theorem sameList_map {α β : Type} {R : β → β → Prop} {P : α → α → Bool} {f : α → β} {l l' : List α}
    (h : ∀ a ∈ l, ∀ b ∈ l', R (f a) (f b) ↔ P a b = true) : SameList R (l.map f) (l'.map f) ↔ List.Forall₂ (fun a b => P a b = true) l l' := by
  induction l generalizing l' with
  | nil => cases l' <;> simp [SameList]
  | cons a l ih =>
    cases l' with
    | nil => simp [SameList]
    | cons b l' =>
      simp only [List.map_cons, SameList, List.forall₂_cons, h a (by simp) b (by simp)]
      rw [ih fun x hx y hy => h x (by simp [hx]) y (by simp [hy])]

/-- C124: the same for templates. -/
theorem C124_templates (t u : Template) (ht : ∀ s ∈ t.substitutions, GoodSubstitution s) (hu : ∀ s ∈ u.substitutions, GoodSubstitution s) :
    (t.eq u = true ↔ SameTemplateData t.serialize u.serialize) ∧
    (t.eq u = true ↔ SameTemplateData (jsonTemplate t.serialize) (jsonTemplate u.serialize)) := by
  constructor
  · unfold SameTemplateData Template.serialize Template.eq
    dsimp only
    rw [sameList_map (P := Substitution.eq)]
    · rw [Bool.and_eq_true, subsEq_iff, decide_eq_true_eq]; exact and_comm
    intro a ha b hb
    unfold SameSubstitutionData Substitution.serialize Substitution.eq
    dsimp only
    rw [sameList_map (P := Dep.eq)]
    · rw [Bool.and_eq_true, decide_eq_true_eq, depsEq_iff]; rfl
    intro x hx y hy
    cases x <;> cases y <;> simp only [Dep.serialize, SameDepData, Dep.eq, decide_eq_true_eq, Bool.false_eq_true]
    exact sameItems_serialize (ht a ha _ hx) (hu b hb _ hy)
  · unfold SameTemplateData jsonTemplate Template.serialize Template.eq
    dsimp only
    rw [List.map_map, List.map_map, sameList_map (P := Substitution.eq)]
    · rw [Bool.and_eq_true, subsEq_iff, decide_eq_true_eq]; exact and_comm
    intro a ha b hb
    unfold SameSubstitutionData Substitution.eq
    simp only [Function.comp, Substitution.serialize]
    rw [List.map_map, List.map_map, sameList_map (P := Dep.eq)]
    · rw [Bool.and_eq_true, decide_eq_true_eq, depsEq_iff]; rfl
    intro x hx y hy
    cases x <;> cases y <;> simp only [Function.comp, Dep.serialize, SameDepData, Dep.eq, decide_eq_true_eq, Bool.false_eq_true]
    rw [jsonKeys_serialize]
    exact sameItems_serialize (ht a ha _ hx) (hu b hb _ hy)

theorem sameList_forall₂ {α : Type} {R : α → α → Prop} {l l' : List α} : SameList R l l' ↔ List.Forall₂ R l l' := by
  induction l generalizing l' with
  | nil => cases l' <;> simp [SameList]
  | cons a l ih => cases l' <;> simp [SameList, ih]

/-- C124: equality of templates is an equivalence relation. -/
theorem C124_equivalence : (∀ t : Template, (∀ s ∈ t.substitutions, GoodSubstitution s) → t.eq t = true) ∧
    (∀ t u : Template, (∀ s ∈ t.substitutions, GoodSubstitution s) → (∀ s ∈ u.substitutions, GoodSubstitution s) → t.eq u = true → u.eq t = true) ∧
    ∀ t u v : Template, (∀ s ∈ t.substitutions, GoodSubstitution s) → (∀ s ∈ u.substitutions, GoodSubstitution s) →
      (∀ s ∈ v.substitutions, GoodSubstitution s) → t.eq u = true → u.eq v = true → t.eq v = true := by
  have drefl : ∀ d, SameDepData d d := by intro d; cases d <;> simp [SameDepData, SameItems]
  have dsymm : ∀ d e, SameDepData d e → SameDepData e d := by
    intro d e; cases d <;> cases e <;> simp only [SameDepData, SameItems]
    · exact Eq.symm
    · exact id
    · exact id
    · exact fun h k => (h k).symm
  have dtrans : ∀ d e f, SameDepData d e → SameDepData e f → SameDepData d f := by
    intro d e f; cases d <;> cases e <;> cases f <;> simp only [SameDepData, SameItems] <;> try tauto
    · exact Eq.trans
    · exact fun h h' k => (h k).trans (h' k)
  have lrefl : ∀ {α : Type} {R : α → α → Prop}, (∀ a, R a a) → ∀ l, SameList R l l := by
    intro α R h l; induction l with | nil => trivial | cons a l ih => exact ⟨h a, ih⟩
  have lsymm : ∀ {α : Type} {R : α → α → Prop}, (∀ a b, R a b → R b a) → ∀ l m, SameList R l m → SameList R m l := by
    intro α R h l
    induction l with
    | nil => intro m; cases m <;> simp [SameList]
    | cons a l ih => intro m; cases m with
      | nil => simp [SameList]
      | cons b m => exact fun hh => ⟨h _ _ hh.1, ih _ hh.2⟩
  have ltrans : ∀ {α : Type} {R : α → α → Prop}, (∀ a b c, R a b → R b c → R a c) → ∀ l m n, SameList R l m → SameList R m n → SameList R l n := by
    intro α R h l
    induction l with
    | nil => intro m n; cases m <;> cases n <;> simp [SameList]
    | cons a l ih =>
      intro m n
      cases m with
      | nil => simp [SameList]
      | cons b m =>
        cases n with
        | nil => simp [SameList]
        | cons c n => exact fun h1 h2 => ⟨h _ _ _ h1.1 h2.1, ih _ _ h1.2 h2.2⟩
  have srefl : ∀ s, SameSubstitutionData s s := fun s => ⟨rfl, lrefl drefl _⟩
  have ssymm : ∀ s t, SameSubstitutionData s t → SameSubstitutionData t s := fun s t h => ⟨h.1.symm, lsymm dsymm _ _ h.2⟩
  have strans : ∀ s t u, SameSubstitutionData s t → SameSubstitutionData t u → SameSubstitutionData s u :=
    fun s t u h h' => ⟨h.1.trans h'.1, ltrans dtrans _ _ _ h.2 h'.2⟩
  refine ⟨fun t h => ?_, fun t u h h' => ?_, fun t u v h h' h'' => ?_⟩
  · rw [(C124_templates t t h h).1]
    exact ⟨rfl, lrefl srefl _⟩
  · rw [(C124_templates t u h h').1, (C124_templates u t h' h).1]
    exact fun hh => ⟨hh.1.symm, lsymm ssymm _ _ hh.2⟩
  · rw [(C124_templates t u h h').1, (C124_templates u v h' h'').1, (C124_templates t v h h'').1]
    exact fun h1 h2 => ⟨h1.1.trans h2.1, ltrans strans _ _ _ h1.2 h2.2⟩

/-! ## A concrete case -/

/-- The same properties given in another order: the data have their items in another order, and are equal. -/
example : (Properties.new [.record .CASE_DATIVE, .record .NUMBER_PLURAL]).serialize ≠ (Properties.new [.record .NUMBER_PLURAL, .record .CASE_DATIVE]).serialize ∧
    SameItems (Properties.new [.record .CASE_DATIVE, .record .NUMBER_PLURAL]).serialize (Properties.new [.record .NUMBER_PLURAL, .record .CASE_DATIVE]).serialize ∧
    ¬ SameItems (Properties.new [.record .CASE_DATIVE]).serialize (Properties.new [.record .NUMBER_PLURAL, .record .CASE_DATIVE]).serialize :=
  ⟨by decide +kernel, (C124_properties _ _ (wf_new (wfargs_records [_, _])) (wf_new (wfargs_records [_, _]))).1.mp (by decide +kernel),
    fun h => absurd ((C124_properties _ _ (wf_new (wfargs_records [_])) (wf_new (wfargs_records [_, _]))).1.mpr h) (by decide +kernel)⟩

/-- Two templates that are written differently and are equal. -/
example : ∃ t u, Template.empty.parse exPy (str! "[x|дт,мн]") [str! "x"] = .ok t ∧ Template.empty.parse exPy (str! "[x|мн,дт]") [str! "x"] = .ok u ∧
    t.serialize ≠ u.serialize ∧ t.eq u = true := ⟨_, _, rfl, rfl, by decide +kernel, by decide +kernel⟩

end Utg
