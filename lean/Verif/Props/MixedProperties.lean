import Verif.Spec.MixedProperties
import Verif.Spec.Words
import Verif.Proofs.Dict
import Verif.Proofs.Words
import Verif.Proofs.Dictionary
/-! # C156: what may be given to `Properties` -/

namespace Utg
open Py Spec

theorem mem_dict_set {K V : Type} [DecidableEq K] {d : Dict K V} {k : K} {v : V} {kv : K × V} (h : kv ∈ Dict.set d k v) :
    kv = (k, v) ∨ kv ∈ d := by
  induction d with
  | nil => simpa [Dict.set] using h
  | cons a d ih =>
    simp only [Dict.set] at h
    split at h
    · rename_i hk
      rcases List.mem_cons.mp h with rfl | h
      · exact .inl (by rw [hk])
      · exact .inr (List.mem_cons_of_mem _ h)
    · rcases List.mem_cons.mp h with rfl | h
      · exact .inr (List.mem_cons_self ..)
      · exact (ih h).imp id (List.mem_cons_of_mem _)

theorem mem_dict_set_of {K V : Type} [DecidableEq K] {d : Dict K V} {k : K} {v : V} {kv : K × V} (h : kv ∈ d) (hk : kv.1 ≠ k) :
    kv ∈ Dict.set d k v := by
  induction d with
  | nil => cases h
  | cons a d ih =>
    simp only [Dict.set]
    rcases List.mem_cons.mp h with rfl | h
    · rw [if_neg hk]; exact List.mem_cons_self ..
    · split
      · exact List.mem_cons_of_mem _ h
      · exact List.mem_cons_of_mem _ (ih h)

theorem mem_dict_set_self {K V : Type} [DecidableEq K] (d : Dict K V) (k : K) (v : V) : (k, v) ∈ Dict.set d k v := by
  induction d with
  | nil => simp [Dict.set]
  | cons a d ih =>
    simp only [Dict.set]
    split
    · rename_i hk; rw [hk]; exact List.mem_cons_self ..
    · exact List.mem_cons_of_mem _ ih

theorem sound_nil : Sound [] := ⟨List.nodup_nil, by simp, by simp⟩

theorem sound_set_record {d : MixedData} (h : Sound d) (r : Rec) : Sound (Dict.set d (.inl r.group) (.inl r)) := by
  refine ⟨Dict.nodup_set h.nodup _ _, ?_, ?_⟩
  · intro g v hm
    rcases mem_dict_set hm with e | hm
    · obtain ⟨e1, e2⟩ := Prod.mk.injEq .. ▸ e
      exact ⟨r, e2, (Sum.inl.inj e1).symm⟩
    · exact h.property g v hm
  · intro k v hm
    rcases mem_dict_set hm with e | hm
    · cases (Prod.mk.injEq .. ▸ e).1
    · exact h.foreign k v hm

theorem sound_set_foreign {d : MixedData} (h : Sound d) (k x : Nat) : Sound (Dict.set d (.inr k) (.inr x)) := by
  refine ⟨Dict.nodup_set h.nodup _ _, ?_, ?_⟩
  · intro g v hm
    rcases mem_dict_set hm with e | hm
    · cases (Prod.mk.injEq .. ▸ e).1
    · exact h.property g v hm
  · intro k' v hm
    rcases mem_dict_set hm with e | hm
    · exact ⟨x, (Prod.mk.injEq .. ▸ e).2⟩
    · exact h.foreign k' v hm

theorem known_cons (kv : (Group ⊕ Nat) × (Rec ⊕ Nat)) (d : MixedData) :
    (knownPart (kv :: d)).data = (match kv with | (.inl g, .inl r) => [(g, r)] | _ => []) ++ (knownPart d).data := by
  obtain ⟨k, v⟩ := kv
  cases k <;> cases v <;> rfl

theorem known_set_record {d : MixedData} (h : ∀ g v, (Sum.inl g, v) ∈ d → ∃ r : Rec, v = .inl r ∧ r.group = g) (r : Rec) :
    (knownPart (Dict.set d (.inl r.group) (.inl r))).data = Dict.set (knownPart d).data r.group r := by
  induction d with
  | nil => rfl
  | cons a d ih =>
    obtain ⟨k, v⟩ := a
    have ih := ih fun g v hm => h g v (List.mem_cons_of_mem _ hm)
    simp only [Dict.set]
    cases k with
    | inr k =>
      rw [if_neg (by simp), known_cons, ih, known_cons]
      cases v <;> rfl
    | inl g =>
      obtain ⟨r', rfl, hg⟩ := h g v (List.mem_cons_self ..)
      by_cases hk : g = r.group
      · subst hk
        rw [if_pos rfl, known_cons, known_cons]
        simp [Dict.set]
      · rw [if_neg (by simpa using hk), known_cons, ih, known_cons]
        simp [Dict.set, hk]

theorem known_set_foreign (d : MixedData) (k x : Nat) : knownPart (Dict.set d (.inr k) (.inr x)) = knownPart d := by
  have : (knownPart (Dict.set d (.inr k) (.inr x))).data = (knownPart d).data := by
    induction d with
    | nil => rfl
    | cons a d ih =>
      obtain ⟨k', v⟩ := a
      simp only [Dict.set]
      split
      · rename_i hk
        subst hk
        rw [known_cons, known_cons]
      · rw [known_cons, known_cons, ih]
  cases h : knownPart d
  rw [h] at this
  exact congrArg Properties.mk this

theorem known_update {d e : MixedData} (hd : Sound d) (he : Sound e) :
    Sound (Dict.update d e) ∧ (knownPart (Dict.update d e)).data = Dict.update (knownPart d).data (knownPart e).data := by
  have hp := he.property
  have hf := he.foreign
  clear he
  induction e generalizing d with
  | nil => exact ⟨hd, rfl⟩
  | cons a e ih =>
    obtain ⟨k, v⟩ := a
    have ih := fun d hd => ih (d := d) hd (fun g v hm => hp g v (List.mem_cons_of_mem _ hm)) fun k v hm => hf k v (List.mem_cons_of_mem _ hm)
    rw [Dict.update_cons]
    cases k with
    | inl g =>
      obtain ⟨r, rfl, rfl⟩ := hp g v (List.mem_cons_self ..)
      obtain ⟨h1, h2⟩ := ih _ (sound_set_record hd r)
      refine ⟨h1, ?_⟩
      rw [h2, known_set_record hd.property, known_cons]
      rfl
    | inr k =>
      obtain ⟨x, rfl⟩ := hf k v (List.mem_cons_self ..)
      obtain ⟨h1, h2⟩ := ih _ (sound_set_foreign hd k x)
      refine ⟨h1, ?_⟩
      rw [h2, known_set_foreign, known_cons]
      rfl

theorem carries_set_record {d : MixedData} (r : Rec) : Carries (Dict.set d (.inl r.group) (.inl r)) ↔ Carries d := by
  constructor
  · rintro ⟨k, v, h⟩
    rcases mem_dict_set h with e | h
    · cases (Prod.mk.injEq .. ▸ e).1
    · exact ⟨k, v, h⟩
  · rintro ⟨k, v, h⟩
    exact ⟨k, v, mem_dict_set_of h (by simp)⟩

theorem carries_set_foreign {d : MixedData} (k x : Nat) : Carries (Dict.set d (.inr k) (.inr x)) :=
  ⟨k, .inr x, mem_dict_set_self d _ _⟩

theorem carries_update {d e : MixedData} (he : Sound e) : Carries (Dict.update d e) ↔ Carries d ∨ Carries e := by
  have hp := he.property
  have hf := he.foreign
  clear he
  induction e generalizing d with
  | nil => simp [Dict.update, Carries]
  | cons a e ih =>
    obtain ⟨k, v⟩ := a
    rw [Dict.update_cons]
    refine (ih (fun g v hm => hp g v (List.mem_cons_of_mem _ hm)) fun k v hm => hf k v (List.mem_cons_of_mem _ hm)).trans ?_
    cases k with
    | inl g =>
      obtain ⟨r, rfl, rfl⟩ := hp g v (List.mem_cons_self ..)
      rw [carries_set_record]
      simp [Carries]
    | inr k =>
      obtain ⟨x, rfl⟩ := hf k v (List.mem_cons_self ..)
      constructor
      · intro _; exact .inr ⟨k, _, List.mem_cons_self ..⟩
      · intro _; exact .inl (carries_set_foreign k x)

/-- C156: `Properties` raises `AttributeError` exactly if an argument is neither `None` nor a record nor something with `_data`. -/
theorem C156_accepts (argv : List MixedArg) :
    (.other ∈ argv → MixedProps.new argv = .error .AttributeError) ∧ (.other ∉ argv → ∃ p, MixedProps.new argv = .ok p) := by
  have key : ∀ d, (.other ∈ argv → argv.foldlM MixedProps.updateOne d = .error .AttributeError) ∧
      (.other ∉ argv → ∃ d', argv.foldlM MixedProps.updateOne d = .ok d') := by
    induction argv with
    | nil => exact fun d => ⟨fun h => (by cases h), fun _ => ⟨d, rfl⟩⟩
    | cons a argv ih =>
      intro d
      rw [List.foldlM_cons]
      cases a with
      | other => exact ⟨fun _ => rfl, fun h => absurd (List.mem_cons_self ..) h⟩
      | _ =>
        simp only [MixedProps.updateOne, bind, Except.bind, List.mem_cons, reduceCtorEq, false_or]
        exact ih _
  unfold MixedProps.new
  refine ⟨fun h => ?_, fun h => ?_⟩
  · rw [(key []).1 h]; rfl
  · obtain ⟨d, hd⟩ := (key []).2 h
    exact ⟨⟨d⟩, by rw [hd]; rfl⟩

theorem new_known {argv : List MixedArg} {p : MixedProps} (h : MixedProps.new argv = .ok p) (hs : ∀ d, .holder d ∈ argv → Sound d) :
    Sound p.data ∧ knownPart p.data = .new (knownArgs argv) ∧
      (Carries p.data ↔ ∃ a ∈ argv, (∃ k x, a = .foreign k x) ∨ ∃ d, a = .holder d ∧ Carries d) := by
  have key : ∀ (d d' : MixedData), Sound d → argv.foldlM MixedProps.updateOne d = .ok d' → Sound d' ∧
      (knownPart d').data = (knownArgs argv).foldl Properties.updateOne (knownPart d).data ∧
      (Carries d' ↔ Carries d ∨ ∃ a ∈ argv, (∃ k x, a = .foreign k x) ∨ ∃ d, a = .holder d ∧ Carries d) := by
    clear h
    induction argv with
    | nil =>
      intro d d' hd h
      cases h
      exact ⟨hd, rfl, by simp⟩
    | cons a argv ih =>
      intro d d' hd h
      rw [List.foldlM_cons] at h
      have ih := ih fun d hm => hs d (List.mem_cons_of_mem _ hm)
      cases a with
      | none =>
        obtain ⟨h1, h2, h3⟩ := ih d d' hd h
        exact ⟨h1, h2, by rw [h3]; simp⟩
      | other => cases h
      | record r =>
        obtain ⟨h1, h2, h3⟩ := ih _ d' (sound_set_record hd r) h
        refine ⟨h1, ?_, by rw [h3, carries_set_record]; simp⟩
        rw [h2, known_set_record hd.property]
        rfl
      | «foreign» k x =>
        obtain ⟨h1, h2, h3⟩ := ih _ d' (sound_set_foreign hd k x) h
        refine ⟨h1, ?_, ?_⟩
        · rw [h2, known_set_foreign]; rfl
        · rw [h3]
          exact ⟨fun _ => .inr ⟨_, List.mem_cons_self .., .inl ⟨k, x, rfl⟩⟩, fun _ => .inl (carries_set_foreign k x)⟩
      | holder e =>
        have he := hs e (List.mem_cons_self ..)
        obtain ⟨h0, h0'⟩ := known_update hd he
        obtain ⟨h1, h2, h3⟩ := ih _ d' h0 h
        refine ⟨h1, ?_, ?_⟩
        · rw [h2, h0']; rfl
        · rw [h3, carries_update he]
          constructor
          · rintro ((h | h) | ⟨a, ha, h⟩)
            · exact .inl h
            · exact .inr ⟨_, List.mem_cons_self .., .inr ⟨e, rfl, h⟩⟩
            · exact .inr ⟨a, List.mem_cons_of_mem _ ha, h⟩
          · rintro (h | ⟨a, ha, h⟩)
            · exact .inl (.inl h)
            · rcases List.mem_cons.mp ha with rfl | ha
              · rcases h with ⟨k, x, h⟩ | ⟨d1, h, h'⟩
                · cases h
                · cases h; exact .inl (.inr h')
              · exact .inr ⟨a, ha, h⟩
  unfold MixedProps.new at h
  cases hf : argv.foldlM MixedProps.updateOne [] with
  | error e => rw [hf] at h; cases h
  | ok d =>
    rw [hf] at h
    cases h
    obtain ⟨h1, h2, h3⟩ := key [] d sound_nil hf
    refine ⟨h1, ?_, ?_⟩
    · unfold Properties.new
      rw [← show (knownPart []).data = [] from rfl, ← h2]
    · rw [h3]; simp [Carries]


theorem get?_known {d : MixedData} (h : ∀ g v, (Sum.inl g, v) ∈ d → ∃ r : Rec, v = .inl r ∧ r.group = g) (g : Group) :
    Dict.get? d (.inl g) = (Dict.get? (knownPart d).data g).map .inl := by
  induction d with
  | nil => rfl
  | cons a d ih =>
    obtain ⟨k, v⟩ := a
    have ih := ih fun g v hm => h g v (List.mem_cons_of_mem _ hm)
    rw [known_cons]
    cases k with
    | inr k =>
      rw [Dict.get?, if_neg (by simp), ih]
      cases v <;> rfl
    | inl g' =>
      obtain ⟨r, rfl, -⟩ := h g' v (List.mem_cons_self ..)
      simp only [Dict.get?, Sum.inl.injEq, List.cons_append, List.nil_append]
      split
      · rfl
      · exact ih

theorem get_known {p : MixedProps} (h : Sound p.data) (g : Group) :
    p.get g = (knownPart p.data).get g ∧ p.isSpecified g = (knownPart p.data).isSpecified g := by
  unfold MixedProps.get Properties.get MixedProps.isSpecified Properties.isSpecified Dict.contains
  rw [get?_known h.property]
  cases Dict.get? (knownPart p.data).data g <;> exact ⟨rfl, rfl⟩

theorem toText_known {p : MixedProps} (h : Sound p.data) : p.toText = (knownPart p.data).toText := by
  unfold MixedProps.toText Properties.toText
  congr 3
  refine List.filterMap_congr fun g _ => ?_
  rw [get?_known h.property]
  cases Dict.get? (knownPart p.data).data g <;> rfl

/-- C156: what is no property makes no difference to `get`, `is_specified` and the text of a `Properties` object: they are as if it had not
been given. Objects made by `Properties` may be given to it again. -/
theorem C156_known (argv : List MixedArg) (p : MixedProps) (h : MixedProps.new argv = .ok p) (hs : ∀ d, .holder d ∈ argv → Sound d) :
    (∀ g, p.get g = (Properties.new (knownArgs argv)).get g ∧ p.isSpecified g = (Properties.new (knownArgs argv)).isSpecified g) ∧
    p.toText = (Properties.new (knownArgs argv)).toText ∧ Sound p.data := by
  obtain ⟨h1, h2, -⟩ := new_known h hs
  rw [← h2]
  exact ⟨get_known h1, toText_known h1, h1⟩

/-- C156: it stays in the object, and in what is made of it. -/
theorem C156_carried (argv : List MixedArg) (p : MixedProps) (h : MixedProps.new argv = .ok p) (hs : ∀ d, .holder d ∈ argv → Sound d) :
    Carries p.data ↔ ∃ a ∈ argv, (∃ k x, a = .foreign k x) ∨ ∃ d, a = .holder d ∧ Carries d := (new_known h hs).2.2

theorem mapM_mixed {β γ : Type} {f : (Group ⊕ Nat) × (Rec ⊕ Nat) → Except PyErr β} {F : Group × Rec → β}
    (hi : ∀ k v, f (.inr k, v) = .error .KeyError) (hl : ∀ g r, f (.inl g, .inl r) = .ok (F (g, r))) (d : MixedData)
    (h : ∀ g v, (Sum.inl g, v) ∈ d → ∃ r : Rec, v = .inl r ∧ r.group = g) :
    (Carries d → d.mapM f = .error .KeyError) ∧ (¬ Carries d → d.mapM f = .ok ((knownPart d).data.map F)) := by
  induction d with
  | nil => exact ⟨fun ⟨_, _, h⟩ => (by cases h), fun _ => rfl⟩
  | cons a d ih =>
    obtain ⟨k, v⟩ := a
    obtain ⟨h1, h2⟩ := ih fun g v hm => h g v (List.mem_cons_of_mem _ hm)
    rw [List.mapM_cons]
    cases k with
    | inr k =>
      rw [hi]
      exact ⟨fun _ => rfl, fun hc => absurd ⟨k, v, List.mem_cons_self ..⟩ hc⟩
    | inl g =>
      obtain ⟨r, rfl, -⟩ := h g v (List.mem_cons_self ..)
      have hc : Carries ((Sum.inl g, Sum.inl r) :: d) ↔ Carries d := by simp [Carries]
      rw [hl, hc]
      refine ⟨fun h => ?_, fun h => ?_⟩
      · rw [h1 h]; rfl
      · rw [h2 h, known_cons]; rfl

theorem sum_departures (l : Dict Group Rec) :
    (l.map fun kv => if some kv.2 ≠ defaultProperty kv.1 then 1 else 0).sum =
      (l.filter fun kv => decide (some kv.2 ≠ defaultProperty kv.1)).length := by
  induction l with
  | nil => rfl
  | cons a l ih =>
    rw [List.map_cons, List.sum_cons, ih, List.filter_cons]
    by_cases h : some a.2 ≠ defaultProperty a.1
    · rw [if_pos h, if_pos (by simpa using h), List.length_cons, Nat.add_comm]
    · rw [if_neg h, if_neg (by simpa using h), Nat.zero_add]

/-- C156: but an object with something that is no property cannot be saved, and has no hash and no distance: `KeyError`. Without, these are as
usual. -/
theorem C156_refused (p : MixedProps) (h : Sound p.data) :
    (Carries p.data → p.serialize = .error .KeyError ∧ p.manhattanDistance = .error .KeyError) ∧
    (¬ Carries p.data → p.serialize = .ok (knownPart p.data).serialize ∧ p.manhattanDistance = .ok (knownPart p.data).manhattanDistance) := by
  have h1 := mapM_mixed (γ := Unit) (f := mixedItem) (F := fun kv => (.int kv.1.code, (kv.2.value : Int))) (fun _ _ => rfl) (fun _ _ => rfl)
    p.data h.property
  have h2 := mapM_mixed (γ := Unit) (f := mixedDeparture) (F := fun kv => if some kv.2 ≠ defaultProperty kv.1 then 1 else 0) (fun _ _ => rfl)
    (fun _ _ => rfl) p.data h.property
  unfold MixedProps.serialize MixedProps.manhattanDistance
  refine ⟨fun hc => ⟨h1.1 hc, ?_⟩, fun hc => ⟨h1.2 hc, ?_⟩⟩
  · rw [h2.1 hc]; rfl
  · rw [h2.2 hc]
    exact congrArg Except.ok (sum_departures _)

/-- C156: two objects are equal exactly if their properties are, and what else is in them. -/
theorem C156_equal (p q : MixedProps) (hp : Sound p.data) (hq : Sound q.data) :
    p.eq q = true ↔ (knownPart p.data).eq (knownPart q.data) = true ∧ ∀ k, Dict.get? p.data (.inr k) = Dict.get? q.data (.inr k) := by
  have nodup : ∀ {d : MixedData}, Sound d → (Dict.keys (knownPart d).data).Nodup := by
    intro d hd
    have h1 := hd.nodup
    have h2 := hd.property
    clear hd
    induction d with
    | nil => exact List.nodup_nil
    | cons a d ih =>
      obtain ⟨k, v⟩ := a
      have ih := ih (List.nodup_cons.mp h1).2 fun g v hm => h2 g v (List.mem_cons_of_mem _ hm)
      cases k with
      | inr k => cases v <;> exact ih
      | inl g =>
        obtain ⟨r, rfl, -⟩ := h2 g v (List.mem_cons_self ..)
        refine List.nodup_cons.mpr ⟨?_, ih⟩
        intro hm
        have : Dict.get? (knownPart d).data g ≠ none := fun hn => Dict.get?_eq_none.mp hn hm
        have h3 := get?_known (d := d) (fun g v hm => h2 g v (List.mem_cons_of_mem _ hm)) g
        have h4 : Dict.get? d (.inl g) = none := Dict.get?_eq_none.mpr (List.nodup_cons.mp h1).1
        rw [h4] at h3
        cases hx : Dict.get? (knownPart d).data g with
        | none => exact this hx
        | some r => rw [hx] at h3; cases h3
  unfold MixedProps.eq Properties.eq
  rw [Dict.beq_iff hp.nodup hq.nodup, Dict.beq_iff (nodup hp) (nodup hq)]
  constructor
  · intro h
    refine ⟨fun g => ?_, fun k => h _⟩
    have := h (.inl g)
    rw [get?_known hp.property, get?_known hq.property] at this
    exact Option.map_injective (fun _ _ h => Sum.inl.inj h) this
  · rintro ⟨h1, h2⟩ (g | k)
    · rw [get?_known hp.property, get?_known hq.property, h1]
    · exact h2 k


theorem props_ext {p q : Properties} (h : p.data = q.data) : p = q := by cases p; cases q; exact congrArg Properties.mk h

theorem merge_known {p q : MixedProps} (hp : Sound p.data) (hq : Sound q.data) :
    Sound (p.merge q).data ∧ knownPart (p.merge q).data = .new [.props (knownPart p.data), .props (knownPart q.data)] ∧
      (Carries (p.merge q).data ↔ Carries p.data ∨ Carries q.data) := by
  obtain ⟨h1, h2⟩ := known_update sound_nil hp
  obtain ⟨h3, h4⟩ := known_update h1 hq
  refine ⟨h3, props_ext ?_, ?_⟩
  · refine h4.trans ?_
    rw [h2]; rfl
  · refine (carries_update hq).trans ?_
    rw [carries_update hp]
    simp [Carries]

theorem formRaw_known {w : MixedWord} {p : MixedProps} (hp : Sound p.data) : w.formRaw p = (knownWord w).formRaw (knownPart p.data) := by
  unfold MixedWord.formRaw Word.formRaw
  have : p.getRawKey w.type.schema = (knownPart p.data).getRawKey w.type.schema := by
    unfold MixedProps.getRawKey Properties.getRawKey
    exact List.map_congr_left fun g _ => (get_known hp g).1
  rw [this]
  rfl

/-- C156: forms are not concerned: a word gives the form it would give if nothing but properties had been used. -/
theorem C156_form (w : MixedWord) (p : MixedProps) (hw : Sound w.properties.data) (hp : Sound p.data) :
    w.form p = (knownWord w).form (knownPart p.data) := by
  obtain ⟨h1, h2, -⟩ := merge_known hp hw
  unfold MixedWord.form Word.form
  rw [formRaw_known h1, h2]
  rfl

theorem mixedForm_known (U : PyUni) {f : MixedForm} (hf : Sound f.formProperties.data) : f.form U = (knownForm f).form U := by
  unfold MixedForm.form WordForm.form WordForm.getForm Properties.getRec
  rw [formRaw_known hf, (get_known hf .WORD_CASE).1]
  simp only [knownForm]
  cases (knownWord f.word).formRaw (knownPart f.formProperties.data) with
  | error e => rfl
  | ok form => cases (knownPart f.formProperties.data).get .WORD_CASE <;> rfl

theorem formNew_known {w : MixedWord} (hw : Sound w.properties.data) (p q : Option MixedProps) (hp : ∀ x ∈ p, Sound x.data)
    (hq : ∀ x ∈ q, Sound x.data) :
    knownForm (.new w p q) = WordForm.new (knownWord w) (p.map fun x => knownPart x.data) (q.map fun x => knownPart x.data) ∧
      Sound (MixedForm.new w p q).formProperties.data ∧ Sound (MixedForm.new w p q).properties.data := by
  cases p with
  | none =>
    cases q with
    | none => exact ⟨rfl, hw, hw⟩
    | some y =>
      obtain ⟨h1, h2, -⟩ := merge_known (hq y rfl) hw
      exact ⟨by simp only [knownForm, MixedForm.new, WordForm.new, h2, Option.map]; rfl, h1, hw⟩
  | some x =>
    obtain ⟨h1, h2, -⟩ := merge_known (hp x rfl) hw
    cases q with
    | none => exact ⟨by simp only [knownForm, MixedForm.new, WordForm.new, h2, Option.map]; rfl, h1, h1⟩
    | some y =>
      obtain ⟨h3, h4, -⟩ := merge_known (hq y rfl) hw
      exact ⟨by simp only [knownForm, MixedForm.new, WordForm.new, h2, h4, Option.map]; rfl, h3, h1⟩

/-- C156: a word form is spelled as it would be if nothing but properties had been used. -/
theorem C156_word_form (U : PyUni) (w : MixedWord) (p q : Option MixedProps) (hw : Sound w.properties.data) (hp : ∀ x ∈ p, Sound x.data)
    (hq : ∀ x ∈ q, Sound x.data) : (MixedForm.new w p q).form U =
      (WordForm.new (knownWord w) (p.map fun x => knownPart x.data) (q.map fun x => knownPart x.data)).form U := by
  obtain ⟨h1, h2, -⟩ := formNew_known hw p q hp hq
  rw [mixedForm_known U h2, h1]

/-- C156: a word that fixes something that is no property cannot be saved; any other is saved as usual. -/
theorem C156_save (w : MixedWord) (hw : Sound w.properties.data) :
    (Carries w.properties.data → w.serialize = .error .KeyError) ∧ (¬ Carries w.properties.data → w.serialize = .ok (knownWord w).serialize) := by
  obtain ⟨h1, h2⟩ := C156_refused w.properties hw
  unfold MixedWord.serialize
  exact ⟨fun h => by rw [(h1 h).1]; rfl, fun h => by rw [(h2 h).1]; rfl⟩

/-! ## dictionaries -/

theorem embed_sound {p : Properties} (h : WFProps p) : Sound (p.data.map fun kv => ((.inl kv.1, .inl kv.2) : (Group ⊕ Nat) × (Rec ⊕ Nat))) ∧
    knownPart (p.data.map fun kv => (.inl kv.1, .inl kv.2)) = p ∧
    ¬ Carries (p.data.map fun kv => ((.inl kv.1, .inl kv.2) : (Group ⊕ Nat) × (Rec ⊕ Nat))) := by
  refine ⟨⟨?_, ?_, ?_⟩, ?_, ?_⟩
  · rw [List.map_map]
    have := h.1
    rw [show (Prod.fst ∘ fun kv : Group × Rec => ((.inl kv.1, .inl kv.2) : (Group ⊕ Nat) × (Rec ⊕ Nat))) = Sum.inl ∘ Prod.fst from rfl,
      ← List.map_map]
    exact List.Nodup.map (fun _ _ h => Sum.inl.inj h) this
  · intro g v hm
    obtain ⟨kv, hkv, e⟩ := List.mem_map.mp hm
    obtain ⟨e1, e2⟩ := Prod.mk.injEq .. ▸ e
    refine ⟨kv.2, e2.symm, ?_⟩
    rw [← Sum.inl.inj e1]
    exact h.2 kv hkv
  · intro k v hm
    obtain ⟨kv, hkv, e⟩ := List.mem_map.mp hm
    cases (Prod.mk.injEq .. ▸ e).1
  · refine props_ext ?_
    show List.filterMap _ (List.map _ p.data) = p.data
    rw [List.filterMap_map]
    exact List.filterMap_some
  · rintro ⟨k, v, hm⟩
    obtain ⟨kv, hkv, e⟩ := List.mem_map.mp hm
    cases (Prod.mk.injEq .. ▸ e).1


theorem inverted_wf {t : WordType} {p : Properties} (h : p ∈ invertedCacheProperties t) : WFProps p := by
  obtain ⟨key, -, rfl⟩ := List.mem_map.mp h
  refine wf_new fun q hq => ?_
  obtain ⟨x, -, e⟩ := List.mem_map.mp hq
  cases x <;> cases e

/-- What is known of the forms that `all_forms` gives. -/
structure FormOf (w : MixedWord) (f : MixedForm) : Prop where
  word : f.word = w
  sound : Sound f.properties.data
  formSound : Sound f.formProperties.data
  carries : Carries f.properties.data ↔ Carries w.properties.data

theorem nthForm_known {w : MixedWord} (hw : Sound w.properties.data) (i : Nat) :
    (∀ e, w.nthForm i = .error e → (knownWord w).nthForm i = .error e) ∧
    (∀ f, w.nthForm i = .ok f → (knownWord w).nthForm i = .ok (knownForm f) ∧ FormOf w f) := by
  unfold MixedWord.nthForm Word.nthForm
  rw [show (knownWord w).type = w.type from rfl]
  cases h : (invertedCacheProperties w.type)[i]? with
  | none => exact ⟨fun e he => (by cases he; rfl), fun f hf => (by cases hf)⟩
  | some p =>
    obtain ⟨h1, h2, h3⟩ := embed_sound (inverted_wf (List.mem_of_getElem? h))
    refine ⟨fun e he => (by cases he), fun f hf => ?_⟩
    cases hf
    obtain ⟨k1, k2, k3⟩ := formNew_known hw (some ⟨p.data.map fun kv => (.inl kv.1, .inl kv.2)⟩) none (by rintro x ⟨⟩; exact h1) (by simp)
    refine ⟨?_, rfl, k3, k2, ?_⟩
    · rw [k1]
      simp only [Option.map, h2]
    · refine (merge_known (p := ⟨_⟩) h1 hw).2.2.trans ?_
      simp [h3]

theorem replaces_known {f g : MixedForm} (hf : Sound f.properties.data) (hg : Sound g.properties.data) :
    (g.word.type = f.word.type → g.word.forms = f.word.forms → Carries f.properties.data ∨ Carries g.properties.data →
      replacesMixed f g = .error .KeyError) ∧
    (¬ (g.word.type = f.word.type ∧ g.word.forms = f.word.forms ∧ (Carries f.properties.data ∨ Carries g.properties.data)) →
      replacesMixed f g = .ok (replaces (knownForm f) (knownForm g))) := by
  obtain ⟨f1, f2⟩ := C156_refused f.properties hf
  obtain ⟨g1, g2⟩ := C156_refused g.properties hg
  have hirr : ∀ l : List Str, strListLt l l = false := fun l => by
    cases h : strListLt l l with
    | false => rfl
    | true => exact absurd (strListLt_iff.mp h) (forms_irrefl l)
  constructor
  · intro ht hforms hc
    unfold replacesMixed
    rw [ht, hforms, if_neg (lt_irrefl _), if_neg (lt_irrefl _), hirr]
    simp only [Bool.false_eq_true, if_false]
    by_cases hcf : Carries f.properties.data
    · rw [(f1 hcf).2]; rfl
    · rw [(f2 hcf).2, (g1 (hc.resolve_left hcf)).2]; rfl
  · intro hn
    have hr : replaces (knownForm f) (knownForm g) = if f.word.type.value < g.word.type.value then true
        else if f.word.type.value > g.word.type.value then false
        else if strListLt f.word.forms g.word.forms then true
        else if strListLt g.word.forms f.word.forms then false
        else if (knownPart f.properties.data).manhattanDistance < (knownPart g.properties.data).manhattanDistance then true
        else false := rfl
    rw [hr]
    unfold replacesMixed
    by_cases h1 : f.word.type.value < g.word.type.value
    · rw [if_pos h1, if_pos h1]
    rw [if_neg h1, if_neg h1]
    by_cases h2 : f.word.type.value > g.word.type.value
    · rw [if_pos h2, if_pos h2]
    rw [if_neg h2, if_neg h2]
    cases h3 : strListLt f.word.forms g.word.forms with
    | true => rfl
    | false =>
      cases h4 : strListLt g.word.forms f.word.forms with
      | true => rfl
      | false =>
        have ht : g.word.type = f.word.type := type_value_inj (by omega)
        have hforms : g.word.forms = f.word.forms := by
          rcases forms_trichotomy f.word.forms g.word.forms with h | h | h
          · rw [strListLt_iff.mpr h] at h3; cases h3
          · exact h.symm
          · rw [strListLt_iff.mpr h] at h4; cases h4
        have hc : ¬ (Carries f.properties.data ∨ Carries g.properties.data) := fun hc => hn ⟨ht, hforms, hc⟩
        rw [(f2 fun h => hc (.inl h)).2, (g2 fun h => hc (.inr h)).2]
        simp only [Bool.false_eq_true, if_false, bind, Except.bind]
        split <;> simp_all

theorem get?_knownDictionary (d : MixedDictionary) (t : Str) :
    Dict.get? (knownDictionary d) t = (Dict.get? d t).map knownForm := by
  induction d with
  | nil => rfl
  | cons a d ih =>
    show Dict.get? ((a.1, knownForm a.2) :: knownDictionary d) t = _
    simp only [Dict.get?]
    split
    · rfl
    · exact ih

theorem set_knownDictionary (d : MixedDictionary) (t : Str) (f : MixedForm) :
    knownDictionary (Dict.set d t f) = Dict.set (knownDictionary d) t (knownForm f) := by
  induction d with
  | nil => rfl
  | cons a d ih =>
    show _ = Dict.set ((a.1, knownForm a.2) :: knownDictionary d) t _
    simp only [Dict.set]
    split
    · rfl
    · rw [← ih]; rfl

theorem soundDictionary_form {d : MixedDictionary} (hd : SoundDictionary d) {t : Str} {g : MixedForm} (h : Dict.get? d t = some g) :
    FormOf g.word g := by
  obtain ⟨h1, i, h2⟩ := hd _ (Dict.mem_of_get? h)
  exact ((nthForm_known h1 i).2 _ h2).2

/-- C156: a form of a word is registered as usual, unless it is spelled as a registered form of a word of the same type with the same forms and
one of the two words fixes something that is no property: then `KeyError` is raised. -/
theorem C156_register (d : MixedDictionary) (hd : SoundDictionary d) (w : MixedWord) (hw : Sound w.properties.data) (i : Nat) (f : MixedForm)
    (hf : w.nthForm i = .ok f) (text : Str) :
    (∀ g, Dict.get? d text = some g → g.word.type = w.type → g.word.forms = w.forms →
      Carries w.properties.data ∨ Carries g.word.properties.data → MixedDictionary.register d text f = .error .KeyError) ∧
    ((¬ ∃ g, Dict.get? d text = some g ∧ g.word.type = w.type ∧ g.word.forms = w.forms ∧
      (Carries w.properties.data ∨ Carries g.word.properties.data)) →
      ∃ d', MixedDictionary.register d text f = .ok d' ∧ SoundDictionary d' ∧
        knownDictionary d' = (knownDictionary d).register text (knownForm f)) := by
  have kf := ((nthForm_known hw i).2 f hf).2
  have hset : SoundDictionary (Dict.set d text f) := by
    intro kv hkv
    rcases mem_dict_set hkv with rfl | h
    · exact ⟨by rw [kf.word]; exact hw, i, by rw [kf.word]; exact hf⟩
    · exact hd kv h
  unfold MixedDictionary.register Dictionary.register
  rw [get?_knownDictionary]
  constructor
  · intro g hg ht hforms hc
    have kg := soundDictionary_form hd hg
    rw [hg]
    dsimp only
    rw [(replaces_known kf.sound kg.sound).1 (by rw [kf.word]; exact ht) (by rw [kf.word]; exact hforms) (by rw [kf.carries, kg.carries]; exact hc)]
    rfl
  · intro hn
    cases hg : Dict.get? d text with
    | none => exact ⟨_, rfl, hset, set_knownDictionary ..⟩
    | some g =>
      have kg := soundDictionary_form hd hg
      dsimp only [Option.map]
      rw [(replaces_known kf.sound kg.sound).2 (by
        rw [kf.word, kf.carries, kg.carries]
        rintro ⟨h1, h2, h3⟩
        exact hn ⟨g, hg, h1, h2, h3⟩)]
      refine ⟨_, rfl, ?_, ?_⟩
      · split
        · exact hset
        · exact hd
      · split
        · exact set_knownDictionary ..
        · rfl


theorem addForms_mixed (U : PyUni) {w : MixedWord} (hw : Sound w.properties.data) : ∀ (is : List Nat) (d : MixedDictionary), SoundDictionary d →
    SoundDictionary (MixedDictionary.addForms U w d is).1 ∧
    (((MixedDictionary.addForms U w d is).2 = (Dictionary.addForms U (knownWord w) (knownDictionary d) is).2 ∧
      knownDictionary (MixedDictionary.addForms U w d is).1 = (Dictionary.addForms U (knownWord w) (knownDictionary d) is).1) ∨
    ((MixedDictionary.addForms U w d is).2 = some .KeyError ∧ ∃ v, (v = w ∨ ∃ kv ∈ d, kv.2.word = v) ∧ v.type = w.type ∧ v.forms = w.forms ∧
      (Carries w.properties.data ∨ Carries v.properties.data))) := by
  intro is
  induction is with
  | nil => exact fun d hd => ⟨hd, .inl ⟨rfl, rfl⟩⟩
  | cons i is ih =>
    intro d hd
    obtain ⟨n1, n2⟩ := nthForm_known hw i
    simp only [MixedDictionary.addForms, Dictionary.addForms]
    cases hf : w.nthForm i with
    | error e => rw [n1 e hf]; exact ⟨hd, .inl ⟨rfl, rfl⟩⟩
    | ok f =>
      obtain ⟨m1, m2⟩ := n2 f hf
      rw [m1]
      dsimp only
      rw [mixedForm_known U m2.formSound]
      cases (knownForm f).form U with
      | error e => exact ⟨hd, .inl ⟨rfl, rfl⟩⟩
      | ok text =>
        obtain ⟨r1, r2⟩ := C156_register d hd w hw i f hf text
        dsimp only
        by_cases hc : ∃ g, Dict.get? d text = some g ∧ g.word.type = w.type ∧ g.word.forms = w.forms ∧
            (Carries w.properties.data ∨ Carries g.word.properties.data)
        · obtain ⟨g, h1, h2, h3, h4⟩ := hc
          rw [r1 g h1 h2 h3 h4]
          exact ⟨hd, .inr ⟨rfl, g.word, .inr ⟨_, Dict.mem_of_get? h1, rfl⟩, h2, h3, h4⟩⟩
        · obtain ⟨d', h1, h2, h3⟩ := r2 hc
          rw [h1]
          dsimp only
          obtain ⟨k1, k2⟩ := ih d' h2
          rw [← h3]
          refine ⟨k1, k2.imp id ?_⟩
          rintro ⟨k3, v, hv, k4⟩
          refine ⟨k3, v, ?_, k4⟩
          rcases hv with rfl | ⟨kv, hkv, rfl⟩
          · exact .inl rfl
          · have : kv = (text, f) ∨ kv ∈ d := by
              unfold MixedDictionary.register at h1
              cases hg : Dict.get? d text with
              | none => rw [hg] at h1; cases h1; exact mem_dict_set hkv
              | some g =>
                rw [hg] at h1
                dsimp only at h1
                cases hb : replacesMixed f g with
                | error e => rw [hb] at h1; cases h1
                | ok b =>
                  rw [hb] at h1
                  cases h1
                  cases b with
                  | true => exact mem_dict_set hkv
                  | false => exact .inr hkv
            rcases this with rfl | h
            · exact .inl m2.word
            · exact .inr ⟨kv, h, rfl⟩

/-- C156: `add_word` does what it does for the words without what is no property, or it raises `KeyError`; the latter only if this word, or a
registered one of the same type with the same forms, fixes something that is no property. -/
theorem C156_add (U : PyUni) (d : MixedDictionary) (hd : SoundDictionary d) (w : MixedWord) (hw : Sound w.properties.data) :
    SoundDictionary (d.addWord U w).1 ∧
    (((d.addWord U w).2 = ((knownDictionary d).addWord U (knownWord w)).2 ∧
      knownDictionary (d.addWord U w).1 = ((knownDictionary d).addWord U (knownWord w)).1) ∨
    ((d.addWord U w).2 = some .KeyError ∧ ∃ v, (v = w ∨ ∃ kv ∈ d, kv.2.word = v) ∧ v.type = w.type ∧ v.forms = w.forms ∧
      (Carries w.properties.data ∨ Carries v.properties.data))) := addForms_mixed U hw _ d hd

theorem addForms_carried (U : PyUni) {w : MixedWord} (hw : Sound w.properties.data) (hc : Carries w.properties.data) :
    ∀ (is : List Nat) (d : MixedDictionary), SoundDictionary d → (∀ kv ∈ d, kv.2.word = w) →
    ∀ texts, List.Forall₂ (fun i t => ∃ f, w.nthForm i = .ok f ∧ f.form U = .ok t) is texts →
      ((texts.Nodup ∧ ∀ t ∈ texts, t ∉ Dict.keys d) →
        (MixedDictionary.addForms U w d is).2 = none ∧ (∀ kv ∈ (MixedDictionary.addForms U w d is).1, kv.2.word = w) ∧
        SoundDictionary (MixedDictionary.addForms U w d is).1 ∧
        Dict.keys (MixedDictionary.addForms U w d is).1 = Dict.keys d ++ texts) ∧
      (¬ (texts.Nodup ∧ ∀ t ∈ texts, t ∉ Dict.keys d) → (MixedDictionary.addForms U w d is).2 = some .KeyError) := by
  intro is
  induction is with
  | nil =>
    intro d hd hall texts ht
    cases ht
    exact ⟨fun _ => ⟨rfl, hall, hd, (List.append_nil _).symm⟩, fun h => absurd ⟨List.nodup_nil, by simp⟩ h⟩
  | cons i is ih =>
    intro d hd hall texts ht
    cases ht with
    | cons h1 h2 =>
      rename_i t texts
      obtain ⟨f, hf, hform⟩ := h1
      obtain ⟨r1, r2⟩ := C156_register d hd w hw i f hf t
      simp only [MixedDictionary.addForms, hf, hform]
      cases hg : Dict.get? d t with
      | some g =>
        have hgw := hall _ (Dict.mem_of_get? hg)
        dsimp only at hgw
        rw [r1 g hg (by rw [hgw]) (by rw [hgw]) (.inl hc)]
        refine ⟨fun h => ?_, fun _ => rfl⟩
        exact absurd (Dict.get?_eq_none.mpr (h.2 t (List.mem_cons_self ..))) (by rw [hg]; simp)
      | none =>
        obtain ⟨d', e1, e2, -⟩ := r2 (by rintro ⟨g, h, -⟩; rw [hg] at h; cases h)
        have hd' : d' = Dict.set d t f := by
          unfold MixedDictionary.register at e1
          rw [hg] at e1
          cases e1; rfl
        have hk : t ∉ Dict.keys d := Dict.get?_eq_none.mp hg
        have hkeys : Dict.keys d' = Dict.keys d ++ [t] := by rw [hd', Dict.keys_set, if_neg hk]
        have kf := ((nthForm_known hw i).2 f hf).2
        obtain ⟨i1, i2⟩ := ih d' e2 (by
          intro kv hkv
          rw [hd'] at hkv
          rcases mem_dict_set hkv with rfl | h
          · exact kf.word
          · exact hall kv h) texts h2
        rw [e1]
        dsimp only
        have hiff : (texts.Nodup ∧ ∀ x ∈ texts, x ∉ Dict.keys d') ↔ ((t :: texts).Nodup ∧ ∀ x ∈ t :: texts, x ∉ Dict.keys d) := by
          rw [hkeys]
          simp only [List.nodup_cons, List.mem_append, List.mem_cons, List.not_mem_nil, or_false, not_or, forall_eq_or_imp]
          constructor
          · rintro ⟨a, b⟩
            exact ⟨⟨fun h => (b t h).2 rfl, a⟩, hk, fun x hx => (b x hx).1⟩
          · rintro ⟨⟨a, b⟩, -, c⟩
            exact ⟨b, fun x hx => ⟨c x hx, fun h => a (h ▸ hx)⟩⟩
        refine ⟨fun h => ?_, fun h => i2 fun h' => h (hiff.mp h')⟩
        obtain ⟨j1, j2, j3, j4⟩ := i1 (hiff.mpr h)
        exact ⟨j1, j2, j3, by rw [j4, hkeys, List.append_assoc]; rfl⟩

/-- C156: a word that fixes something that is no property can be added to an empty dictionary exactly if no two of its forms are spelled alike;
else `KeyError` is raised. Where it could be added, it cannot be added again. -/
theorem C156_empty (U : PyUni) (w : MixedWord) (hw : Sound w.properties.data) (hc : Carries w.properties.data) (texts : List Str)
    (ht : List.Forall₂ (fun i t => ∃ f, w.nthForm i = .ok f ∧ f.form U = .ok t) (List.range w.forms.length) texts) :
    (texts.Nodup → (MixedDictionary.addWord U [] w).2 = none ∧
      (texts ≠ [] → ((MixedDictionary.addWord U [] w).1.addWord U w).2 = some .KeyError)) ∧
    (¬ texts.Nodup → (MixedDictionary.addWord U [] w).2 = some .KeyError) := by
  obtain ⟨h1, h2⟩ := addForms_carried U hw hc (List.range w.forms.length) [] (by intro kv h; cases h) (by intro kv h; cases h) texts ht
  refine ⟨fun hn => ?_, fun hn => h2 fun h => hn h.1⟩
  obtain ⟨k1, k2, k3, k4⟩ := h1 ⟨hn, by simp [Dict.keys]⟩
  refine ⟨k1, fun hne => ?_⟩
  refine (addForms_carried U hw hc (List.range w.forms.length) _ k3 k2 texts ht).2 ?_
  rintro ⟨-, h⟩
  obtain ⟨t, rest, rfl⟩ := List.exists_cons_of_ne_nil hne
  refine h t (List.mem_cons_self ..) ?_
  rw [k4]
  simp

theorem not_carries_get? {d : MixedData} (h : ¬ Carries d) (k : Nat) : Dict.get? d (.inr k) = none := by
  cases hg : Dict.get? d (.inr k) with
  | none => rfl
  | some v => exact absurd ⟨k, v, Dict.mem_of_get? hg⟩ h

/-- C156: `get_words` raises `KeyError` exactly if a word with something that is no property is registered; else it gives the usual words. -/
theorem C156_words (d : MixedDictionary) (hd : SoundDictionary d) :
    ((∃ kv ∈ d, Carries kv.2.word.properties.data) → d.getWords = .error .KeyError) ∧
    ((∀ kv ∈ d, ¬ Carries kv.2.word.properties.data) → ∃ ws, d.getWords = .ok ws ∧ ws.map knownWord = (knownDictionary d).getWords) := by
  have key : ∀ (l : List MixedWord) (s : List MixedWord), (∀ w ∈ l, Sound w.properties.data) →
      (∀ w ∈ s, Sound w.properties.data ∧ ¬ Carries w.properties.data) →
      ((∃ w ∈ l, Carries w.properties.data) → l.foldlM mixedSetAdd s = .error .KeyError) ∧
      ((∀ w ∈ l, ¬ Carries w.properties.data) → ∃ ws, l.foldlM mixedSetAdd s = .ok ws ∧
        ws.map knownWord = (l.map knownWord).foldl setAdd (s.map knownWord)) := by
    intro l
    induction l with
    | nil => exact fun s _ _ => ⟨fun ⟨_, h, _⟩ => (by cases h), fun _ => ⟨s, rfl, rfl⟩⟩
    | cons w l ih =>
      intro s hl hs
      have hw := hl w (List.mem_cons_self ..)
      obtain ⟨c1, c2⟩ := C156_refused w.properties hw
      rw [List.foldlM_cons]
      by_cases hc : Carries w.properties.data
      · refine ⟨fun _ => ?_, fun h => absurd hc (h w (List.mem_cons_self ..))⟩
        simp only [mixedSetAdd, (c1 hc).2, bind, Except.bind]
      · have e : mixedSetAdd s w = .ok (if s.any (fun v => v.eq w) then s else s ++ [w]) := by
          simp only [mixedSetAdd, (c2 hc).2, bind, Except.bind]
        have heq : ∀ v ∈ s, v.eq w = (knownWord v).eq (knownWord w) := by
          intro v hv
          obtain ⟨v1, v2⟩ := hs v hv
          have := C156_equal v.properties w.properties v1 hw
          have hp : v.properties.eq w.properties = (knownPart v.properties.data).eq (knownPart w.properties.data) := by
            rw [Bool.eq_iff_iff, this]
            exact ⟨fun h => h.1, fun h => ⟨h, fun k => by rw [not_carries_get? v2, not_carries_get? hc]⟩⟩
          unfold MixedWord.eq Word.eq
          rw [hp]
          rfl
        have hany : s.any (fun v => v.eq w) = (s.map knownWord).any fun v => v.eq (knownWord w) := by
          rw [List.any_map]
          clear ih hs e
          induction s with
          | nil => rfl
          | cons v s ihs =>
            rw [List.any_cons, List.any_cons, heq v (List.mem_cons_self ..), ihs fun v hv => heq v (List.mem_cons_of_mem _ hv)]
            rfl
        obtain ⟨i1, i2⟩ := ih (if s.any (fun v => v.eq w) then s else s ++ [w]) (fun v hv => hl v (List.mem_cons_of_mem _ hv)) (by
          intro v hv
          split at hv
          · exact hs v hv
          · rcases List.mem_append.mp hv with hv | hv
            · exact hs v hv
            · rw [List.mem_singleton.mp hv]; exact ⟨hw, hc⟩)
        rw [e]
        refine ⟨?_, ?_⟩
        · rintro ⟨v, hv, hcv⟩
          rcases List.mem_cons.mp hv with rfl | hv
          · exact absurd hcv hc
          · exact i1 ⟨v, hv, hcv⟩
        · intro h
          obtain ⟨ws, h1, h2⟩ := i2 fun v hv => h v (List.mem_cons_of_mem _ hv)
          refine ⟨ws, h1, ?_⟩
          rw [h2, List.map_cons, List.foldl_cons]
          congr 1
          unfold setAdd
          rw [← hany]
          split <;> simp
  obtain ⟨h1, h2⟩ := key (d.map fun kv => kv.2.word) [] (by
    intro w hw
    obtain ⟨kv, hkv, rfl⟩ := List.mem_map.mp hw
    exact (hd kv hkv).1) (by simp)
  unfold MixedDictionary.getWords Dictionary.getWords
  refine ⟨?_, ?_⟩
  · rintro ⟨kv, hkv, hc⟩
    exact h1 ⟨_, List.mem_map.mpr ⟨kv, hkv, rfl⟩, hc⟩
  · intro h
    obtain ⟨ws, e1, e2⟩ := h2 (by
      intro w hw
      obtain ⟨kv, hkv, rfl⟩ := List.mem_map.mp hw
      exact h kv hkv)
    refine ⟨ws, e1, ?_⟩
    rw [e2]
    unfold knownDictionary
    rw [List.map_map, List.map_map]
    rfl


/-! ## examples -/

/-- `Properties(r.NUMBER.PLURAL, r.PROPERTY_TYPE.CASE, None)`. -/
def exMixedArgs : List MixedArg := [.record .NUMBER_PLURAL, .foreign 0 0, .none]

/-- What it makes. -/
def exMixed : MixedProps := ⟨[(.inl .NUMBER, .inl .NUMBER_PLURAL), (.inr 0, .inr 0)]⟩

theorem exMixed_sound : Sound exMixed.data :=
  (C156_known exMixedArgs exMixed rfl (by intro d h; simp [exMixedArgs] at h)).2.2

theorem exMixed_carries : Carries exMixed.data := ⟨0, .inr 0, by simp [exMixed]⟩

/-- It is accepted and cannot be saved. A text is refused, a dictionary is not. -/
example : MixedProps.new exMixedArgs = .ok exMixed ∧ exMixed.serialize = .error .KeyError ∧ exMixed.get .NUMBER = some .NUMBER_PLURAL ∧
    MixedProps.new [.holder exMixed.data, .other] = .error .AttributeError ∧
    MixedProps.new [.holder exMixed.data, .holder [(.inr 7, .inr 1)], .record .NUMBER_SINGULAR] =
      .ok ⟨[(.inl .NUMBER, .inl .NUMBER_SINGULAR), (.inr 0, .inr 0), (.inr 7, .inr 1)]⟩ :=
  ⟨rfl, ((C156_refused exMixed exMixed_sound).1 exMixed_carries).1, rfl, rfl, rfl⟩

/-- A preposition that fixes such a record. -/
def exMixedWord (forms : List Str) : MixedWord := ⟨.PREPOSITION, forms, exMixed⟩

theorem exMixed_texts (U : PyUni) (a b c : Str) :
    List.Forall₂ (fun i t => ∃ f, (exMixedWord [a, b, c]).nthForm i = .ok f ∧ f.form U = .ok t) (List.range 3) [a, b, c] := by
  refine .cons ⟨_, rfl, rfl⟩ (.cons ⟨_, rfl, rfl⟩ (.cons ⟨_, rfl, rfl⟩ .nil))

/-- With three spellings it can be added once; with two it cannot be added. -/
example (U : PyUni) : (MixedDictionary.addWord U [] (exMixedWord [str! "о", str! "об", str! "обо"])).2 = none ∧
    ((MixedDictionary.addWord U [] (exMixedWord [str! "о", str! "об", str! "обо"])).1.addWord U
      (exMixedWord [str! "о", str! "об", str! "обо"])).2 = some .KeyError ∧
    (MixedDictionary.addWord U [] (exMixedWord [str! "с", str! "со", str! "со"])).2 = some .KeyError := by
  have h1 := (C156_empty U (exMixedWord [str! "о", str! "об", str! "обо"]) exMixed_sound exMixed_carries _ (exMixed_texts U ..)).1 (by decide)
  exact ⟨h1.1, h1.2 (by decide),
    (C156_empty U (exMixedWord [str! "с", str! "со", str! "со"]) exMixed_sound exMixed_carries _ (exMixed_texts U ..)).2 (by decide)⟩

end Utg
