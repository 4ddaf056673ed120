import Verif.Spec.Properties
import Verif.Proofs.Dict
/-! # Lemmas about `Properties` -/

namespace Utg
open Py Spec

theorem wf_keys {p : Properties} (h : WFProps p) : (Dict.keys p.data).Nodup := h.1

theorem wf_group {p : Properties} (h : WFProps p) {g : Group} {r : Rec} (hr : p.data.get? g = some r) : r.group = g :=
  h.2 (g, r) (Dict.mem_of_get? hr)

/-- Lookup in the data of a list of arguments, right to left. -/
def argGet (a : Arg) (g : Group) : Option Rec :=
  match a with
  | .none => none
  | .record r => if r.group = g then some r else none
  | .props p => p.data.get? g

theorem argSays_eq {a : Arg} {g : Group} : argSays a g = argGet a g := by
  cases a with
  | none => rfl
  | record r => rfl
  | props p =>
    simp only [argSays, argGet, Properties.isSpecified, Properties.get, Dict.contains]
    rcases Option.eq_none_or_eq_some (p.data.get? g) with h | ⟨v, h⟩ <;> simp [h]

/-- Invariant of the data during the constructor loop. -/
def WFData (d : Dict Group Rec) : Prop := (Dict.keys d).Nodup ∧ ∀ kv ∈ d, kv.2.group = kv.1

theorem wfdata_nil : WFData [] := ⟨by simp [Dict.keys], by simp⟩

theorem mem_set {d : Dict Group Rec} {k : Group} {v : Rec} {kv : Group × Rec} (h : kv ∈ Dict.set d k v) :
    kv = (k, v) ∨ kv ∈ d := by
  induction d with
  | nil => simpa [Dict.set] using h
  | cons e d ih =>
    obtain ⟨a, b⟩ := e
    by_cases hak : a = k
    · subst hak; simp [Dict.set] at h; rcases h with h | h
      · exact Or.inl h
      · exact Or.inr (List.mem_cons_of_mem _ h)
    · simp [Dict.set, hak] at h; rcases h with h | h
      · right; rw [h]; simp
      · rcases ih h with h | h
        · exact Or.inl h
        · exact Or.inr (List.mem_cons_of_mem _ h)

theorem wfdata_set {d : Dict Group Rec} (h : WFData d) (r : Rec) : WFData (d.set r.group r) := by
  refine ⟨Dict.nodup_set h.1 _ _, ?_⟩
  intro kv hkv
  rcases mem_set hkv with rfl | hm
  · rfl
  · exact h.2 kv hm

theorem wfdata_update {d e : Dict Group Rec} (h : WFData d) (he : ∀ kv ∈ e, kv.2.group = kv.1) : WFData (d.update e) := by
  induction e generalizing d with
  | nil => exact h
  | cons x e ih =>
    rw [Dict.update_cons]
    apply ih
    · obtain ⟨g, r⟩ := x
      have := he (g, r) (by simp); simp only at this; subst this
      exact wfdata_set h r
    · intro kv hkv; exact he kv (List.mem_cons_of_mem _ hkv)

theorem wfdata_updateOne {d : Dict Group Rec} (h : WFData d) {a : Arg} (ha : ∀ p, a = .props p → WFProps p) :
    WFData (Properties.updateOne d a) := by
  cases a with
  | none => exact h
  | record r => exact wfdata_set h r
  | props p => exact wfdata_update h (ha p rfl).2

theorem wfdata_foldl {argv : List Arg} {d : Dict Group Rec} (h : WFData d) (ha : WFArgs argv) :
    WFData (argv.foldl Properties.updateOne d) := by
  induction argv generalizing d with
  | nil => exact h
  | cons a argv ih =>
    apply ih
    · exact wfdata_updateOne h (fun p e => ha p (by simp [e]))
    · intro p hp; exact ha p (List.mem_cons_of_mem _ hp)

theorem wf_new {argv : List Arg} (ha : WFArgs argv) : WFProps (Properties.new argv) := wfdata_foldl wfdata_nil ha

theorem built_wf {p : Properties} (h : Built p) : WFProps p := by
  induction h with
  | new argv h ih => exact wf_new ih

theorem wfargs_nil : WFArgs [] := by intro p hp; simp at hp

theorem wfargs_cons {a : Arg} {as : List Arg} (h : ∀ p, a = .props p → WFProps p) (hs : WFArgs as) : WFArgs (a :: as) := by
  intro p hp
  rcases List.mem_cons.mp hp with h1 | h1
  · exact h p h1.symm
  · exact hs p h1

theorem wfargs_records (rs : List Rec) : WFArgs (rs.map .record) := by
  intro p hp; simp at hp

theorem wfargs_props {ps : List Properties} (h : ∀ p ∈ ps, WFProps p) : WFArgs (ps.map .props) := by
  intro p hp; simp at hp; exact h p hp

theorem wf_empty : WFProps (.new []) := wf_new wfargs_nil

theorem updateOne_get? {d : Dict Group Rec} {a : Arg} (ha : ∀ p, a = .props p → WFProps p) (g : Group) :
    (Properties.updateOne d a).get? g = (argGet a g).or (d.get? g) := by
  cases a with
  | none => simp [Properties.updateOne, argGet]
  | record r => simp only [Properties.updateOne, argGet, Dict.get?_set]; split <;> simp
  | props p =>
    simp only [Properties.updateOne, argGet]
    exact Dict.get?_update' d (ha p rfl).1 g

theorem foldl_get? {argv : List Arg} (ha : WFArgs argv) (d : Dict Group Rec) (g : Group) :
    (argv.foldl Properties.updateOne d).get? g = (argv.reverse.findSome? fun a => argGet a g).or (d.get? g) := by
  induction argv generalizing d with
  | nil => simp
  | cons a argv ih =>
    rw [List.foldl_cons, ih (fun p hp => ha p (List.mem_cons_of_mem _ hp)),
      updateOne_get? (fun p e => ha p (by simp [e])), List.reverse_cons, List.findSome?_append]
    simp [Option.or_assoc]

theorem new_get? {argv : List Arg} (ha : WFArgs argv) (g : Group) :
    (Properties.new argv).data.get? g = argv.reverse.findSome? fun a => argGet a g := by
  simp [Properties.new, foldl_get? ha]

theorem new2_get? {p q : Properties} (hp : WFProps p) (hq : WFProps q) (g : Group) :
    (Properties.new [.props p, .props q]).data.get? g = (q.data.get? g).or (p.data.get? g) := by
  rw [new_get?]
  · simp only [List.reverse_cons, List.reverse_nil, List.nil_append, List.cons_append, List.findSome?_cons, argGet]
    cases q.data.get? g <;> cases p.data.get? g <;> simp
  · exact wfargs_cons (by rintro _ ⟨⟩; exact hp) (wfargs_cons (by rintro _ ⟨⟩; exact hq) wfargs_nil)

theorem wf_new2 {p q : Properties} (hp : WFProps p) (hq : WFProps q) : WFProps (.new [.props p, .props q]) :=
  wf_new (wfargs_cons (by rintro _ ⟨⟩; exact hp) (wfargs_cons (by rintro _ ⟨⟩; exact hq) wfargs_nil))

theorem defaultProperty_eq (g : Group) : defaultProperty g = documentedDefault g := by cases g <;> rfl

theorem defaultProperty_group {g : Group} {r : Rec} (h : defaultProperty g = some r) : r.group = g := by
  cases g <;> simp [defaultProperty, Group.records] at h <;> subst h <;> rfl

/-- Two objects with the same lookups read the same. -/
theorem get_congr {p q : Properties} {g : Group} (h : p.data.get? g = q.data.get? g) : p.get g = q.get g := by
  simp [Properties.get, h]

theorem get_group {p : Properties} (h : WFProps p) {g : Group} {r : Rec} (hr : p.get g = some r) : r.group = g := by
  unfold Properties.get at hr
  cases h2 : p.data.get? g with
  | some v => rw [h2] at hr; simp at hr; subst hr; exact wf_group h h2
  | none => rw [h2] at hr; exact defaultProperty_group hr

theorem mem_records_iff {g : Group} {r : Rec} : r ∈ g.records ↔ r.group = g := by
  constructor
  · revert r; cases g <;> simp [Group.records, Rec.group]
  · intro h; subst h; cases r <;> simp [Rec.group, Group.records]

theorem get_mem_records {p : Properties} (h : WFProps p) {g : Group} (hg : g ≠ .WORD_TYPE) :
    ∃ r ∈ g.records, p.get g = some r := by
  have : ∃ r, p.get g = some r := by
    unfold Properties.get
    cases p.data.get? g with
    | some v => exact ⟨v, rfl⟩
    | none =>
      revert hg; cases g <;> simp [defaultProperty, Group.records]
  obtain ⟨r, hr⟩ := this
  exact ⟨r, mem_records_iff.mpr (get_group h hr), hr⟩

theorem eq_iff_get? {p q : Properties} (hp : WFProps p) (hq : WFProps q) :
    p.eq q = true ↔ ∀ g, p.data.get? g = q.data.get? g := Dict.beq_iff hp.1 hq.1

theorem isSpecified_iff {p : Properties} {g : Group} : p.isSpecified g = true ↔ ∃ r, p.data.get? g = some r := by
  simp [Properties.isSpecified, Dict.contains, Option.isSome_iff_exists]

theorem isSpecified_false {p : Properties} {g : Group} : p.isSpecified g = false ↔ p.data.get? g = none := by
  simp [Properties.isSpecified, Dict.contains]

theorem get?_eq_ite (p : Properties) (g : Group) : p.data.get? g = if p.isSpecified g then p.get g else none := by
  simp only [Properties.isSpecified, Dict.contains, Properties.get]
  rcases Option.eq_none_or_eq_some (p.data.get? g) with h | ⟨v, h⟩ <;> simp [h]

theorem group_mem_all (g : Group) : g ∈ Group.all := by cases g <;> simp [Group.all]

theorem group_all_nodup : Group.all.Nodup := by decide

/-- `manhattan_distance` counts groups. -/
theorem manhattan_eq_count {p : Properties} (hp : WFProps p) :
    p.manhattanDistance =
      (Group.all.filter fun g => p.isSpecified g && decide (p.get g ≠ documentedDefault g)).length := by
  unfold Properties.manhattanDistance
  rw [← List.length_map (as := p.data.filter _) (f := Prod.fst)]
  apply List.Perm.length_eq
  rw [List.perm_ext_iff_of_nodup]
  · intro g
    simp only [List.mem_map, List.mem_filter, decide_eq_true_eq, Bool.and_eq_true, group_mem_all, true_and]
    constructor
    · rintro ⟨⟨g', r⟩, ⟨hm, hd⟩, rfl⟩
      have hg := Dict.get?_of_mem hp.1 hm
      refine ⟨isSpecified_iff.mpr ⟨r, hg⟩, ?_⟩
      simp only [Properties.get, hg]; rw [← defaultProperty_eq]; exact hd
    · rintro ⟨hs, hd⟩
      obtain ⟨r, hr⟩ := isSpecified_iff.mp hs
      refine ⟨(g, r), ⟨Dict.mem_of_get? hr, ?_⟩, rfl⟩
      simp only [Properties.get, hr] at hd; rw [defaultProperty_eq]; exact hd
  · exact (hp.1).sublist ((List.filter_sublist (l := p.data)).map Prod.fst)
  · exact List.Nodup.filter _ group_all_nodup

end Utg
