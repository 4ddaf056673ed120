import Verif.Spec.Writing
import Verif.Props.Reference
import Verif.Props.Expressive
import Verif.Props.Checked
/-!
# C121, C122: two ways to write a template
-/

namespace Utg
open Py Spec

theorem forall₂_split {α β : Type} {R : α → β → Prop} {a b : List α} {c : List β} (h : List.Forall₂ R (a ++ b) c) :
    ∃ c1 c2, List.Forall₂ R a c1 ∧ List.Forall₂ R b c2 ∧ c = c1 ++ c2 := by
  induction a generalizing c with
  | nil => exact ⟨[], c, .nil, h, rfl⟩
  | cons x a ih =>
    cases h with
    | cons hx h =>
      obtain ⟨c1, c2, h1, h2, rfl⟩ := ih h
      exact ⟨_ :: c1, c2, .cons hx h1, h2, rfl⟩

/-- Two texts whose variables are parsed alike. -/
theorem parsed_alike {U : PyUni} {names names' : List Str} {R : Str → Str → Prop} {S : Substitution → Substitution → Prop} {text text' : Str}
    (h : SameBut R text text')
    (hR : ∀ v v', IsVariable v → R v v' → (∃ e, Substitution.parse U v names = .error e ∧ Substitution.parse U v' names' = .error e) ∨
      ∃ s s', Substitution.parse U v names = .ok s ∧ Substitution.parse U v' names' = .ok s' ∧ S s s') :
    (∃ e, Template.empty.parse U text names = .error e ∧ Template.empty.parse U text' names' = .error e) ∨
    ∃ t t', Template.empty.parse U text names = .ok t ∧ Template.empty.parse U text' names' = .ok t' ∧ t.template = t'.template ∧
      List.Forall₂ S t.substitutions t'.substitutions := by
  obtain ⟨l, ps, ps', h1, h2, h3⟩ := h
  have key : ∀ (ps ps' : List (Str × Str)), (∀ p ∈ ps, IsVariable p.1) → List.Forall₂ (fun p p' => p.2 = p'.2 ∧ '%' ∉ p.1 ∧ '%' ∉ p'.1 ∧ R p.1 p'.1) ps ps' →
      ps.map Prod.snd = ps'.map Prod.snd ∧
      ((∃ subs subs', List.Forall₂ (fun p s => Substitution.parse U (doubled p.1) names = .ok s) ps subs ∧
        List.Forall₂ (fun p s => Substitution.parse U (doubled p.1) names' = .ok s) ps' subs' ∧ List.Forall₂ S subs subs') ∨
       ∃ e, (∃ pre p post, ps = pre ++ p :: post ∧ (∀ q ∈ pre, ∃ s, Substitution.parse U (doubled q.1) names = .ok s) ∧
          Substitution.parse U (doubled p.1) names = .error e) ∧
         ∃ pre p post, ps' = pre ++ p :: post ∧ (∀ q ∈ pre, ∃ s, Substitution.parse U (doubled q.1) names' = .ok s) ∧
          Substitution.parse U (doubled p.1) names' = .error e) := by
    intro ps ps' hvar h
    induction h with
    | nil => exact ⟨rfl, .inl ⟨[], [], .nil, .nil, .nil⟩⟩
    | @cons p p' ps ps' hp _ ih =>
      obtain ⟨e1, e2, e3, hr⟩ := hp
      obtain ⟨i1, i2⟩ := ih (fun q hq => hvar q (by simp [hq]))
      refine ⟨by simp [e1, i1], ?_⟩
      rcases hR _ _ (hvar p (by simp)) hr with ⟨e, he, he'⟩ | ⟨s, s', hs, hs', hss⟩
      · exact .inr ⟨e, ⟨[], p, ps, rfl, by simp, by rw [doubled_of_not_mem e2]; exact he⟩,
          [], p', ps', rfl, by simp, by rw [doubled_of_not_mem e3]; exact he'⟩
      · rw [← doubled_of_not_mem e2] at hs
        rw [← doubled_of_not_mem e3] at hs'
        rcases i2 with ⟨subs, subs', j1, j2, j3⟩ | ⟨e, ⟨pre, q, post, j1, j2, j3⟩, pre', q', post', k1, k2, k3⟩
        · exact .inl ⟨s :: subs, s' :: subs', .cons hs j1, .cons hs' j2, .cons hss j3⟩
        · refine .inr ⟨e, ⟨p :: pre, q, post, by simp [j1], ?_, j3⟩, p' :: pre', q', post', by simp [k1], ?_, k3⟩
          · intro x hx
            rcases List.mem_cons.mp hx with rfl | hx
            · exact ⟨s, hs⟩
            · exact j2 x hx
          · intro x hx
            rcases List.mem_cons.mp hx with rfl | hx
            · exact ⟨s', hs'⟩
            · exact k2 x hx
  obtain ⟨k1, ⟨subs, subs', j1, j2, j3⟩ | ⟨e, j1, j2⟩⟩ := key ps ps' (pieces_variables h1) h3
  · refine .inr ⟨⟨subs, some (formatted l (ps.map Prod.snd))⟩, ⟨subs', some (formatted l (ps'.map Prod.snd))⟩,
      (C45_parse U names text l ps _ h1).mpr ⟨j1, rfl⟩, (C45_parse U names' text' l ps' _ h2).mpr ⟨j2, rfl⟩, by simp only [k1], j3⟩
  · exact .inl ⟨e, (C45_parse_error U names text l ps e h1).mpr j1, (C45_parse_error U names' text' l ps' e h2).mpr j2⟩

/-- Templates with the same text and variables with the same texts. -/
theorem substitute_alike {U : PyUni} {ext ext' : Externals} {d d' : Dictionary} {t t' : Template} (h : t.template = t'.template)
    (hs : List.Forall₂ (fun s s' => Substitution.getText U s ext d = Substitution.getText U s' ext' d') t.substitutions t'.substitutions) :
    t.substitute U ext d = t'.substitute U ext' d' := by
  have : t.substitutions.mapM (fun s => s.getText U ext d) = t'.substitutions.mapM (fun s => s.getText U ext' d') := by
    generalize t.substitutions = a at hs
    generalize t'.substitutions = b at hs
    induction hs with
    | nil => rfl
    | cons e _ ih => rw [List.mapM_cons, List.mapM_cons, e, ih]
  unfold Template.substitute
  rw [this, h]

/-! ## C121: names of externals -/

/-- A dependency and the renamed one. -/
inductive RenamedDep (names : List Str) (ρ : Str → Str) : Dep → Dep → Prop
  | ext (n : Str) : n ∈ names → RenamedDep names ρ (.ext n) (.ext (ρ n))
  | props (p : Properties) : RenamedDep names ρ (.props p) (.props p)

/-- A substitution and the renamed one. -/
def RenamedSub (names : List Str) (ρ : Str → Str) (s s' : Substitution) : Prop :=
  (s.id ∈ names ∧ s'.id = ρ s.id ∨ s.id ∉ names ∧ s'.id ∉ names.map ρ ∧ s'.id = s.id) ∧
  List.Forall₂ (RenamedDep names ρ) s.dependencies s'.dependencies

theorem renamed_reads {U : PyUni} {names : List Str} {ρ : Str → Str} {slug slug' : Str} (h : RenamedPart U names ρ slug slug') {dep : Dep}
    (hd : Reads U names slug dep) : ∃ dep', Reads U (names.map ρ) slug' dep' ∧ RenamedDep names ρ dep dep' := by
  obtain ⟨part, part', h1, h2, h3⟩ := h
  obtain ⟨name, hn, hr⟩ := hd
  have := stripped_unique hn h1
  subst this
  rcases hr with ⟨hin, rfl⟩ | ⟨hnin, ids, rs, e1, e2, e3, e4, rfl⟩
  · rcases h3 with ⟨-, e⟩ | ⟨h, -⟩
    · exact ⟨.ext (ρ name), ⟨part', h2, .inl ⟨by rw [e]; exact List.mem_map_of_mem hin, by rw [e]⟩⟩, .ext name hin⟩
    · exact absurd hin h
  · rcases h3 with ⟨h, -⟩ | ⟨-, hn', e⟩
    · exact absurd h hnin
    · subst e
      exact ⟨_, ⟨part', h2, .inr ⟨hn', ids, rs, e1, e2, e3, e4, rfl⟩⟩, .props _⟩

theorem renamed_unreadable {U : PyUni} {names : List Str} {ρ : Str → Str} {slug slug' bad : Str} (h : RenamedPart U names ρ slug slug')
    (hb : Unreadable U names slug bad) : Unreadable U (names.map ρ) slug' bad := by
  obtain ⟨part, part', h1, h2, h3⟩ := h
  obtain ⟨name, hn, hnin, rest⟩ := hb
  have := stripped_unique hn h1
  subst this
  rcases h3 with ⟨h, -⟩ | ⟨-, hn', e⟩
  · exact absurd h hnin
  · subst e
    exact ⟨part', h2, hn', rest⟩

theorem renamed_deps {U : PyUni} {names : List Str} {ρ : Str → Str} {slugs slugs' : List Str}
    (h : List.Forall₂ (RenamedPart U names ρ) slugs slugs') : ∀ {deps : List Dep}, List.Forall₂ (Reads U names) slugs deps →
    ∃ deps', List.Forall₂ (Reads U (names.map ρ)) slugs' deps' ∧ List.Forall₂ (RenamedDep names ρ) deps deps' := by
  induction h with
  | nil => intro deps hd; cases hd; exact ⟨[], .nil, .nil⟩
  | cons h _ ih =>
    intro deps hd
    cases hd with
    | cons hd hds =>
      obtain ⟨dep', h1, h2⟩ := renamed_reads h hd
      obtain ⟨deps', h3, h4⟩ := ih hds
      exact ⟨dep' :: deps', .cons h1 h3, .cons h2 h4⟩

theorem renamed_parse {U : PyUni} {names : List Str} {ρ : Str → Str} {v v' : Str} (h : RenamedVariable U names ρ v v') (hv : IsVariable v) :
    (∃ e, Substitution.parse U v names = .error e ∧ Substitution.parse U v' (names.map ρ) = .error e) ∨
    ∃ s s', Substitution.parse U v names = .ok s ∧ Substitution.parse U v' (names.map ρ) = .ok s' ∧ RenamedSub names ρ s s' := by
  obtain ⟨head, head', slugs, slugs', c, c', id, id', rfl, rfl, ⟨b1, b2, b3, b4⟩, s1, s2, hu, hid, hp⟩ := h
  have hne : head ≠ [] := by rintro rfl; obtain ⟨a, b, e, -⟩ := s1; simp at e
  have hne' : head' ≠ [] := by rintro rfl; obtain ⟨a, b, e, -⟩ := s2; simp at e
  obtain ⟨head0, slugs0, e0, c1, c2, hcases⟩ := C46_exhaustive U names _ hv
  obtain ⟨rfl, rfl⟩ := C46_unique _ _ _ _ b1 b3 c1 c2 e0
  rcases hcases with h | ⟨-, ⟨pre, slug, post, deps, bad, e1, hd, hb⟩ | ⟨deps, hd, -⟩⟩
  · exact absurd h hne
  · left
    subst e1
    obtain ⟨pre', rest', hpre, hrest, rfl⟩ := forall₂_split hp
    cases hrest with
    | @cons _ slug' _ post' hs hpost =>
      obtain ⟨deps', hd', -⟩ := renamed_deps hpre hd
      exact ⟨_, C46_unknown_id U names head slug bad pre post deps b1 b3 hne hd hb,
        C46_unknown_id U (names.map ρ) head' slug' bad pre' post' deps' b2 b4 hne' hd' (renamed_unreadable hs hb)⟩
  · right
    obtain ⟨deps', hd', hdd⟩ := renamed_deps hp hd
    refine ⟨_, _, C46_parse U names head slugs deps c id b1 b3 s1 hd, C46_parse U (names.map ρ) head' slugs' deps' c' id' b2 b4 s2 hd',
      hid, ?_⟩
    rw [← hu]
    refine List.rel_append hdd ?_
    split
    · exact .cons (.props _) .nil
    · exact .nil

theorem renamed_listProperties {names : List Str} {ρ : Str → Str} {ext ext' : Externals} (hc : RenamedCast names ρ ext ext')
    {deps deps' : List Dep} (h : List.Forall₂ (RenamedDep names ρ) deps deps') : listProperties ext deps = listProperties ext' deps' := by
  obtain ⟨c1, c2, c3⟩ := hc
  induction h with
  | nil => rfl
  | cons h _ ih =>
    cases h with
    | ext n hn =>
      obtain ⟨f, h1, h2⟩ := c1 n hn
      simp only [listProperties, h1, h2, ih]
    | props p => simp only [listProperties, ih]

theorem renamed_variables {U : PyUni} {names : List Str} {ρ : Str → Str} {ext ext' : Externals} (hc : RenamedCast names ρ ext ext')
    {s s' : Substitution} (h : RenamedSub names ρ s s') (d : Dictionary) : s.getText U ext d = s'.getText U ext' d := by
  obtain ⟨hid, hdeps⟩ := h
  have hl := renamed_listProperties hc hdeps
  obtain ⟨c1, c2, c3⟩ := hc
  have hb : s.baseForm ext d = s'.baseForm ext' d := by
    unfold Substitution.baseForm
    rcases hid with ⟨h1, h2⟩ | ⟨h1, h2, h3⟩
    · obtain ⟨f, f1, f2⟩ := c1 _ h1
      rw [h2, f1, f2]
    · rw [c2 _ h1, h3, c3 _ (h3 ▸ h2)]
  unfold Substitution.getText
  rw [hb, hl]

/-- C121: names do not matter. If externals are given new names, in the text of a template and where they are handed over, then the template
with the new names is parsed like the old one, or the same exception is raised; and filling it gives the same text or the same exception with
every dictionary. A new name may be an old one, may be used for something else or may be shared by externals that are the same. -/
theorem C121_names (U : PyUni) (names : List Str) (ρ : Str → Str) (text text' : Str)
    (h : SameBut (RenamedVariable U names ρ) text text') :
    (∃ e, Template.empty.parse U text names = .error e ∧ Template.empty.parse U text' (names.map ρ) = .error e) ∨
    ∃ t t', Template.empty.parse U text names = .ok t ∧ Template.empty.parse U text' (names.map ρ) = .ok t' ∧
      ∀ (ext ext' : Externals) (d : Dictionary), RenamedCast names ρ ext ext' →
        t.substitute U ext d = t'.substitute U ext' d ∧
        t.getUndictionariedWords names d = t'.getUndictionariedWords (names.map ρ) d := by
  rcases parsed_alike (U := U) (names := names) (names' := names.map ρ) (S := RenamedSub names ρ) h (fun v v' hv hr => renamed_parse hr hv) with
    h | ⟨t, t', h1, h2, h3, h4⟩
  · exact .inl h
  · refine .inr ⟨t, t', h1, h2, fun ext ext' d hc => ⟨substitute_alike h3 ?_, ?_⟩⟩
    · exact h4.imp fun s s' hs => renamed_variables hc hs d
    · unfold Template.getUndictionariedWords
      generalize t.substitutions = a at h4
      generalize t'.substitutions = b at h4
      induction h4 with
      | nil => rfl
      | cons hs _ ih =>
        rw [List.filterMap_cons, List.filterMap_cons, ih]
        rcases hs.1 with ⟨e1, e2⟩ | ⟨e1, e2, e3⟩
        · rw [if_pos e1, e2, if_pos (List.mem_map_of_mem e1)]
        · rw [if_neg e1, if_neg e2, e3]

/-! ## C122: what is mentioned -/

theorem depSays_values (ext : Externals) (rs : List Rec) (g : Group) :
    depSays ext (.props (.new (rs.map .record))) g = lastSaid ext g (rs.map .value) := by
  have h1 : depSays ext (.props (.new (rs.map .record))) g = (Properties.new (rs.map .record)).data.get? g := by
    rw [get?_eq_ite]; rfl
  rw [h1, new_get? (wfargs_records rs), ← List.head?_filterMap, List.filterMap_reverse, List.head?_reverse]
  unfold lastSaid
  rw [List.filterMap_map, List.filterMap_map]
  rfl

theorem lastSaid_append (ext : Externals) (g : Group) (a b : List Mention) :
    lastSaid ext g (a ++ b) = (lastSaid ext g b).or (lastSaid ext g a) := by
  unfold lastSaid
  rw [List.filterMap_append, List.getLast?_append]

/-- The word forms with these names, or the first one that is not given. -/
def formsNamed (ext : Externals) : List Str → Except PyErr (List WordForm)
  | [] => .ok []
  | n :: ns => match ext.get? n with
    | none => .error (.ExternalDependecyNotFoundError n)
    | some f => do .ok (f :: (← formsNamed ext ns))

theorem mentions_deps {U : PyUni} {names : List Str} {slugs : List Str} {ms : List Mention} (h : Mentions U names slugs ms) :
    ∃ deps, List.Forall₂ (Reads U names) slugs deps ∧ (∀ p, Dep.props p ∈ deps → WFProps p) ∧
      ∀ ext, masters ext deps = formsNamed ext (namesIn ms) ∧ ∀ g, lastSay ext g deps = lastSaid ext g ms := by
  induction h with
  | nil => exact ⟨[], .nil, by simp, fun ext => ⟨rfl, fun g => rfl⟩⟩
  | name slug n slugs ms h1 h2 _ ih =>
    obtain ⟨deps, i1, i2, i3⟩ := ih
    refine ⟨.ext n :: deps, .cons ⟨n, h1, .inl ⟨h2, rfl⟩⟩ i1, by simpa using i2, fun ext => ⟨?_, fun g => ?_⟩⟩
    · simp only [masters, namesIn, List.filterMap_cons, formsNamed, (i3 ext).1]
      rfl
    · have : lastSaid ext g (.name n :: ms) = (lastSaid ext g ms).or (depSays ext (.ext n) g) := by
        rw [← List.singleton_append, lastSaid_append]
        congr 1
        have hs : Mention.says ext g (.name n) = depSays ext (.ext n) g := rfl
        cases hx : depSays ext (.ext n) g <;> simp [lastSaid, hs, hx]
      rw [this, ← (i3 ext).2 g]
      simp only [lastSay]
      cases lastSay ext g deps <;> rfl
  | values slug list ids rs slugs ms h1 h2 h3 h4 h5 h6 _ ih =>
    obtain ⟨deps, i1, i2, i3⟩ := ih
    refine ⟨.props (.new (rs.map .record)) :: deps, .cons ⟨list, h1, .inr ⟨h2, ids, rs, h3, h4, h5, h6, rfl⟩⟩ i1, ?_, fun ext => ⟨?_, fun g => ?_⟩⟩
    · intro p hp
      rcases List.mem_cons.mp hp with hp | hp
      · injection hp with hp; subst hp; exact wf_new (wfargs_records _)
      · exact i2 p hp
    · have : namesIn (rs.map .value ++ ms) = namesIn ms := by
        unfold namesIn
        rw [List.filterMap_append, List.filterMap_map]
        simp
      rw [this, ← (i3 ext).1]
      rfl
    · rw [lastSaid_append, ← (i3 ext).2 g, ← depSays_values]
      simp only [lastSay]
      cases lastSay ext g deps <;> rfl

theorem lastSay_append (ext : Externals) (g : Group) (a b : List Dep) :
    lastSay ext g (a ++ b) = (lastSay ext g b).or (lastSay ext g a) := by
  induction a with
  | nil => simp [lastSay]
  | cons x a ih =>
    simp only [List.cons_append, lastSay, ih]
    cases lastSay ext g b <;> cases lastSay ext g a <;> rfl

theorem masters_append_props (ext : Externals) (a : List Dep) (b : List Dep) (hb : ∀ n, Dep.ext n ∉ b) :
    masters ext (a ++ b) = masters ext a := by
  induction a with
  | nil =>
    induction b with
    | nil => rfl
    | cons x b ih =>
      cases x with
      | ext n => exact absurd (List.mem_cons_self) (hb n)
      | props p => simp only [List.nil_append, masters] at ih ⊢; exact ih fun n hn => hb n (List.mem_cons_of_mem _ hn)
  | cons x a ih =>
    cases x with
    | ext n => simp only [List.cons_append, masters, ih]
    | props p => simp only [List.cons_append, masters, ih]

theorem says_same_parse {U : PyUni} {names : List Str} {ext : Externals} {d : Dictionary} (he : GoodExternals ext) (hd : GoodDictionary d)
    {v v' : Str} (h : SaysTheSame U names ext v v') :
    ∃ s s', Substitution.parse U v names = .ok s ∧ Substitution.parse U v' names = .ok s' ∧
      s.getText U ext d = s'.getText U ext d ∧ s.id = s'.id := by
  obtain ⟨head, slugs, slugs', c, id, ms, ms', rfl, rfl, ⟨b1, b2, b3⟩, hs, hm, hm', hq1, hq2⟩ := h
  obtain ⟨deps, i1, i2, i3⟩ := mentions_deps hm
  obtain ⟨deps', j1, j2, j3⟩ := mentions_deps hm'
  refine ⟨_, _, C46_parse U names head slugs deps c id b1 b2 hs i1, C46_parse U names head slugs' deps' c id b1 b3 hs j1, ?_, rfl⟩
  generalize hx : (if U.isUpper c then [Dep.props (.new [.record .WORD_CASE_UPPER])] else []) = extra
  have hx1 : ∀ n, Dep.ext n ∉ extra := by intro n hn; rw [← hx] at hn; split at hn <;> simp at hn
  have hx2 : ∀ p, Dep.props p ∈ extra → WFProps p := by
    intro p hp; rw [← hx] at hp
    split at hp
    · simp only [List.mem_singleton, Dep.props.injEq] at hp
      subst hp; exact wf_new (wfargs_records [.WORD_CASE_UPPER])
    · simp at hp
  let lookup : Str → Option WordForm := fun t => (d.getWord t).toOption
  have hl : ∀ t f, lookup t = some f ↔ d.getWord t = .ok f := by
    intro t f; simp only [lookup]; cases d.getWord t <;> simp [Except.toOption]
  rw [C86_substitution U ext d lookup _ he hd (by
      intro p hp; rcases List.mem_append.mp hp with hp | hp
      · exact i2 p hp
      · exact hx2 p hp) hl,
    C86_substitution U ext d lookup _ he hd (by
      intro p hp; rcases List.mem_append.mp hp with hp | hp
      · exact j2 p hp
      · exact hx2 p hp) hl]
  have e1 : masters ext (deps ++ extra) = masters ext (deps' ++ extra) := by
    rw [masters_append_props _ _ _ hx1, masters_append_props _ _ _ hx1, (i3 ext).1, (j3 ext).1, hq1]
  have e2 : ∀ base, initialReading ext base (deps ++ extra) = initialReading ext base (deps' ++ extra) := by
    intro base; funext g
    unfold initialReading
    rw [lastSay_append, lastSay_append, (i3 ext).2, (j3 ext).2, hq2]
  unfold meaning
  simp only [e1, e2]

/-- C122: how a template is written matters only by what its variables mention: the names of externals in their order, and the last thing that is
said about each property, directly or by an external. Two texts that agree in this, and in the heads of the variables and the literal text, are
both parsed, give the same text or exception, and the same words are missing from the dictionary. -/
theorem C122_mentions (U : PyUni) (ws : List Word) (hws : ∀ w ∈ ws, Accepted w) (names : List Str) (ext : Externals) (he : GoodExternals ext)
    (text text' : Str) (h : SameBut (SaysTheSame U names ext) text text') :
    ∃ t t', Template.empty.parse U text names = .ok t ∧ Template.empty.parse U text' names = .ok t' ∧
      t.substitute U ext (history U ws) = t'.substitute U ext (history U ws) ∧
      t.getUndictionariedWords names (history U ws) = t'.getUndictionariedWords names (history U ws) := by
  have hd := goodDictionary_history U ws hws
  rcases parsed_alike (U := U) (names := names) (names' := names)
    (S := fun s s' => s.getText U ext (history U ws) = s'.getText U ext (history U ws) ∧ s.id = s'.id ∧ ∃ x, Substitution.parse U x names = .ok s) h
    (fun v v' _ hr => by
      obtain ⟨s, s', h1, h2, h3, h4⟩ := says_same_parse he hd hr
      exact .inr ⟨s, s', h1, h2, h3, h4, v, h1⟩) with ⟨e, h1, h2⟩ | ⟨t, t', h1, h2, h3, h4⟩
  · exfalso
    obtain ⟨l, ps, ps', k1, k2, k3⟩ := h
    obtain ⟨pre, p, post, rfl, -, hp⟩ := (C45_parse_error U names text l ps e k1).mp h1
    obtain ⟨c1, c2, -, g2, -⟩ := forall₂_split k3
    cases g2 with
    | cons hx _ =>
      obtain ⟨-, hx1, -, hx2⟩ := hx
      obtain ⟨s, s', m1, -⟩ := says_same_parse (d := history U ws) he hd hx2
      rw [doubled_of_not_mem hx1, m1] at hp
      cases hp
  · refine ⟨t, t', h1, h2, substitute_alike h3 (h4.imp fun s s' hs => hs.1), ?_⟩
    unfold Template.getUndictionariedWords
    generalize t.substitutions = a at h4
    generalize t'.substitutions = b at h4
    clear h1 h2 h3
    induction h4 with
    | nil => rfl
    | cons hs _ ih => rw [List.filterMap_cons, List.filterMap_cons, ih, hs.2.1]

/-- C122: values of different properties can change places. -/
theorem C122_order (ext : Externals) (pre post : List Mention) (r q : Rec) (h : r.group ≠ q.group) :
    Equivalent ext (pre ++ .value r :: .value q :: post) (pre ++ .value q :: .value r :: post) := by
  refine ⟨by simp [namesIn], fun g => ?_⟩
  have : ∀ x y : Rec, pre ++ Mention.value x :: .value y :: post = pre ++ ([.value x, .value y] ++ post) := by simp
  rw [this, this, lastSaid_append, lastSaid_append, lastSaid_append, lastSaid_append]
  have : lastSaid ext g [.value r, .value q] = lastSaid ext g [.value q, .value r] := by
    unfold lastSaid
    simp only [List.filterMap_cons, List.filterMap_nil, Mention.says]
    by_cases h1 : r.group = g <;> by_cases h2 : q.group = g <;> simp [h1, h2]
    exact absurd (h1.trans h2.symm) h
  rw [this]

/-- C122: so can a value and the name of an external that does not specify this property. -/
theorem C122_across_name (ext : Externals) (pre post : List Mention) (r : Rec) (n : Str)
    (h : ∀ f, ext.get? n = some f → f.properties.isSpecified r.group = false) :
    Equivalent ext (pre ++ .value r :: .name n :: post) (pre ++ .name n :: .value r :: post) := by
  refine ⟨by simp [namesIn], fun g => ?_⟩
  have h1 : pre ++ Mention.value r :: .name n :: post = pre ++ ([.value r, .name n] ++ post) := by simp
  have h2 : pre ++ Mention.name n :: .value r :: post = pre ++ ([.name n, .value r] ++ post) := by simp
  rw [h1, h2, lastSaid_append, lastSaid_append, lastSaid_append, lastSaid_append]
  have : lastSaid ext g [.value r, .name n] = lastSaid ext g [.name n, .value r] := by
    unfold lastSaid
    by_cases hg : r.group = g
    · have hn : Mention.says ext g (.name n) = none := by
        subst hg
        simp only [Mention.says]
        split
        · rfl
        · rename_i f hf; rw [h f hf]; rfl
      simp [hn]
    · have hn : Mention.says ext g (.value r) = none := by simp [Mention.says, hg]
      simp [hn]
  rw [this]

/-- C122: a value that is followed by another one (or the same) of the same property can be left out. -/
theorem C122_overridden (ext : Externals) (pre mid post : List Mention) (r q : Rec) (h : r.group = q.group) :
    Equivalent ext (pre ++ .value r :: mid ++ .value q :: post) (pre ++ mid ++ .value q :: post) := by
  refine ⟨by simp [namesIn], fun g => ?_⟩
  have h1 : pre ++ Mention.value r :: mid ++ .value q :: post = pre ++ ([.value r] ++ (mid ++ ([.value q] ++ post))) := by simp
  have h2 : pre ++ mid ++ Mention.value q :: post = pre ++ (mid ++ ([.value q] ++ post)) := by simp
  rw [h1, h2]
  simp only [lastSaid_append]
  by_cases hg : q.group = g
  · have : lastSaid ext g [.value q] = some q := by simp [lastSaid, Mention.says, hg]
    rw [this]
    cases lastSaid ext g post <;> rfl
  · have : lastSaid ext g [.value r] = none := by simp [lastSaid, Mention.says, h, hg]
    rw [this]
    simp

/-! ## Concrete cases -/

theorem literal_plain {l : Str} (h : '[' ∉ l) : IsLiteral l ∧ IsFinalLiteral l :=
  ⟨fun a b e => absurd (e ▸ (by simp : '[' ∈ a ++ '[' :: b)) h, fun a body b e _ => absurd (e ▸ (by simp : '[' ∈ a ++ '[' :: body ++ ']' :: b)) h⟩

/-- `[Hero] [пришёл|hero]!` and `[Npc] [пришёл| NPC]!` are the same but for the name. -/
theorem exRenamed : SameBut (RenamedVariable exPy [str! "hero"] fun _ => str! "npc") (str! "[Hero] [пришёл|hero]!") (str! "[Npc] [пришёл| NPC]!") := by
  refine ⟨[], [(str! "[Hero]", str! " "), (str! "[пришёл|hero]", str! "!")], [(str! "[Npc]", str! " "), (str! "[пришёл| NPC]", str! "!")], ?_, ?_,
    .cons ⟨rfl, by decide +kernel, by decide +kernel, ?_⟩ (.cons ⟨rfl, by decide +kernel, by decide +kernel, ?_⟩ .nil)⟩
  · exact .var [] (str! "[Hero]") _ _ _ (literal_plain (by decide +kernel)).1 ⟨str! "Hero", by decide +kernel, by decide +kernel, by decide +kernel⟩
      (.var (str! " ") (str! "[пришёл|hero]") _ _ _ (literal_plain (by decide +kernel)).1 ⟨str! "пришёл|hero", by decide +kernel, by decide +kernel, by decide +kernel⟩ (.last (str! "!") (literal_plain (by decide +kernel)).2))
  · exact .var [] (str! "[Npc]") _ _ _ (literal_plain (by decide +kernel)).1 ⟨str! "Npc", by decide +kernel, by decide +kernel, by decide +kernel⟩
      (.var (str! " ") (str! "[пришёл| NPC]") _ _ _ (literal_plain (by decide +kernel)).1 ⟨str! "пришёл| NPC", by decide +kernel, by decide +kernel, by decide +kernel⟩ (.last (str! "!") (literal_plain (by decide +kernel)).2))
  · exact ⟨str! "Hero", str! "Npc", [], [], 'H', 'N', str! "ero", str! "pc", by decide +kernel, by decide +kernel, by decide +kernel,
      ⟨[], [], by decide +kernel, by simp, by simp, by decide +kernel, by decide +kernel⟩,
      ⟨[], [], by decide +kernel, by simp, by simp, by decide +kernel, by decide +kernel⟩, by decide +kernel, by decide +kernel, .nil⟩
  · refine ⟨str! "пришёл", str! "пришёл", [str! "hero"], [str! " NPC"], 'п', 'п', str! "ришёл", str! "ришёл", by decide +kernel, by decide +kernel,
      by decide +kernel, ⟨[], [], by decide +kernel, by simp, by simp, by decide +kernel, by decide +kernel⟩,
      ⟨[], [], by decide +kernel, by simp, by simp, by decide +kernel, by decide +kernel⟩, rfl, by decide +kernel, .cons ?_ .nil⟩
    exact ⟨str! "hero", str! "npc", ⟨[], [], by decide +kernel, by simp, by simp, by decide +kernel, by decide +kernel⟩,
      ⟨str! " ", [], by decide +kernel, by decide +kernel, by simp, by decide +kernel, by decide +kernel⟩, by decide +kernel⟩

/-- Both can be parsed, and the cast can be renamed. -/
example : (Template.empty.parse exPy (str! "[Hero] [пришёл|hero]!") [str! "hero"]).toBool = true ∧
    RenamedCast [str! "hero"] (fun _ => str! "npc") [(str! "hero", integerForm 5)] [(str! "npc", integerForm 5)] := by
  refine ⟨by decide +kernel, fun n hn => ?_, fun n hn => ?_, fun n hn => ?_⟩
  · simp only [List.mem_singleton] at hn
    subst hn
    exact ⟨integerForm 5, by decide +kernel, by decide +kernel⟩
  · simp only [List.mem_singleton] at hn
    simp [Dict.get?, Ne.symm hn]
  · simp only [List.map_cons, List.map_nil, List.mem_singleton] at hn
    simp [Dict.get?, Ne.symm hn]

/-- `[монета|дт|hero|мн,рд]` and `[монета|hero|рд|мн]` say the same, if `hero` is given. -/
theorem exSaysTheSame (f : WordForm) : SaysTheSame exPy [str! "hero"] [(str! "hero", f)] (str! "[монета|дт|hero|мн,рд]") (str! "[монета|hero|рд|мн]") := by
  refine ⟨str! "монета", [str! "дт", str! "hero", str! "мн,рд"], [str! "hero", str! "рд", str! "мн"], 'м', str! "онета",
    [.value .CASE_DATIVE, .name (str! "hero"), .value .NUMBER_PLURAL, .value .CASE_GENITIVE],
    [.name (str! "hero"), .value .CASE_GENITIVE, .value .NUMBER_PLURAL], by decide +kernel, by decide +kernel,
    ⟨by decide +kernel, by decide +kernel, by decide +kernel⟩, ⟨[], [], by decide +kernel, by simp, by simp, by decide +kernel, by decide +kernel⟩, ?_, ?_, ?_⟩
  · refine .values (str! "дт") (str! "дт") [str! "дт"] [.CASE_DATIVE] _ _
      ⟨[], [], by decide +kernel, by simp, by simp, by decide +kernel, by decide +kernel⟩ (by decide +kernel) (by decide +kernel)
      (by decide +kernel) (by decide +kernel) (by decide +kernel) ?_
    refine .name (str! "hero") (str! "hero") _ _ ⟨[], [], by decide +kernel, by simp, by simp, by decide +kernel, by decide +kernel⟩ (by decide +kernel) ?_
    exact .values (str! "мн,рд") (str! "мн,рд") [str! "мн", str! "рд"] [.NUMBER_PLURAL, .CASE_GENITIVE] _ []
      ⟨[], [], by decide +kernel, by simp, by simp, by decide +kernel, by decide +kernel⟩ (by decide +kernel) (by decide +kernel)
      (by decide +kernel) (by decide +kernel) (by decide +kernel) .nil
  · refine .name (str! "hero") (str! "hero") _ _ ⟨[], [], by decide +kernel, by simp, by simp, by decide +kernel, by decide +kernel⟩ (by decide +kernel) ?_
    refine .values (str! "рд") (str! "рд") [str! "рд"] [.CASE_GENITIVE] _ _
      ⟨[], [], by decide +kernel, by simp, by simp, by decide +kernel, by decide +kernel⟩ (by decide +kernel) (by decide +kernel)
      (by decide +kernel) (by decide +kernel) (by decide +kernel) ?_
    exact .values (str! "мн") (str! "мн") [str! "мн"] [.NUMBER_PLURAL] _ []
      ⟨[], [], by decide +kernel, by simp, by simp, by decide +kernel, by decide +kernel⟩ (by decide +kernel) (by decide +kernel)
      (by decide +kernel) (by decide +kernel) (by decide +kernel) .nil
  · have h1 := C122_overridden [(str! "hero", f)] [] [.name (str! "hero"), .value .NUMBER_PLURAL] [] .CASE_DATIVE .CASE_GENITIVE rfl
    have h2 := C122_order [(str! "hero", f)] [.name (str! "hero")] [] .NUMBER_PLURAL .CASE_GENITIVE (by decide)
    exact ⟨h1.1.trans h2.1, fun g => (h1.2 g).trans (h2.2 g)⟩

/-- The order of externals does matter, and so does the last mention: neither pair is `Equivalent`. -/
example : ¬ Equivalent [(str! "a", integerForm 5), (str! "b", integerForm 21)] [.name (str! "a"), .name (str! "b")] [.name (str! "b"), .name (str! "a")] ∧
    ¬ Equivalent [] [.value .CASE_DATIVE, .value .CASE_GENITIVE] [.value .CASE_GENITIVE, .value .CASE_DATIVE] := by
  refine ⟨fun h => absurd h.1 (by decide +kernel), fun h => absurd (h.2 .CASE) (by decide +kernel)⟩

end Utg
