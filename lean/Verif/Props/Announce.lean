import Verif.Spec.Announce
import Verif.Props.Templates
import Verif.Props.Histories
/-! # C138: announcing more variables -/

namespace Utg
open Py Spec

theorem mapM_congr_mem {α β ε : Type} {f g : α → Except ε β} {l : List α} (h : ∀ a ∈ l, f a = g a) : l.mapM f = l.mapM g := by
  induction l with
  | nil => rfl
  | cons a l ih =>
    rw [List.mapM_cons, List.mapM_cons, h a (by simp), ih fun b hb => h b (by simp [hb])]

theorem parse_announced {U : PyUni} {names names' : List Str} {v : Str}
    (hv : IsVariable v) (h : ∀ name, Asks U v name → (name ∈ names ↔ name ∈ names')) :
    Substitution.parse U v names = Substitution.parse U v names' := by
  obtain ⟨head, slugs, rfl, h1, h2, -⟩ := C46_exhaustive U names v hv
  by_cases hh : head = []
  · subst hh; rw [C46_empty_id U names slugs h2, C46_empty_id U names' slugs h2]
  rw [parse_bracketed h1 h2 hh, parse_bracketed h1 h2 hh]
  rw [mapM_congr_mem (f := parseDependency U names) (g := parseDependency U names')]
  intro slug hs
  unfold parseDependency
  have := h _ ⟨head, slugs, slug, rfl, h1, h2, hs, strip_stripped U (U.lower slug)⟩
  simp only [this]

theorem pieces_variable {text l : Str} {ps : List (Str × Str)} (h : Pieces text l ps) : ∀ p ∈ ps, IsVariable p.1 := by
  induction h with
  | last => simp
  | var l v text l' rest _ hv _ ih =>
    intro p hp
    rcases List.mem_cons.mp hp with rfl | hp
    · exact hv
    · exact ih p hp

/-- C138: only announced names that are a part of some variable matter. If two lists of names agree on the parts of the
variables (percent signs are doubled before a variable is looked at), `parse` does the same: same exception or none, same object
afterwards. -/
theorem C138_only_parts_matter (U : PyUni) (t : Template) (names names' : List Str) (text l : Str) (ps : List (Str × Str))
    (h : Pieces text l ps) (ha : ∀ p ∈ ps, ∀ name, Asks U (doubled p.1) name → (name ∈ names ↔ name ∈ names')) :
    t.parseState U text names = t.parseState U text names' := by
  have hf : ∀ p ∈ ps, Substitution.parse U (doubled p.1) names = Substitution.parse U (doubled p.1) names' := fun p hp =>
    parse_announced (isVariable_doubled (pieces_variable h p hp)) (ha p hp)
  rcases forall₂_or_first (fun p : Str × Str => Substitution.parse U (doubled p.1) names) ps with ⟨subs, hs⟩ | ⟨pre, p, post, subs, e, h1, h2, h3⟩
  · rw [(parseState_pieces U t names h).1 subs hs, (parseState_pieces U t names' h).1 subs]
    rw [List.forall₂_iff_get] at hs ⊢
    exact ⟨hs.1, fun i hi hi' => by rw [← hf _ (List.get_mem ps ⟨i, hi⟩)]; exact hs.2 i hi hi'⟩
  · rw [(parseState_pieces U t names h).2 pre p post subs e h1 h2 h3,
      (parseState_pieces U t names' h).2 pre p post subs e h1 _ (by rw [← hf p (by simp [h1])]; exact h3)]
    rw [List.forall₂_iff_get] at h2 ⊢
    exact ⟨h2.1, fun i hi hi' => by
      rw [← hf (pre.get ⟨i, hi⟩) (by rw [h1]; exact List.mem_append_left _ (List.get_mem _ _))]; exact h2.2 i hi hi'⟩

/-- C138: in particular the order of the announced names and repeated names do not matter. -/
theorem C138_order (U : PyUni) (t : Template) (names names' : List Str) (text : Str) (h : ∀ n, n ∈ names ↔ n ∈ names') :
    t.parseState U text names = t.parseState U text names' := by
  obtain ⟨l, ps, hp, -⟩ := C45_pieces_unique text
  exact C138_only_parts_matter U t names names' text l ps hp fun _ _ n _ => h n

theorem mapM_more {U : PyUni} {names names' : List Str} (h : ∀ n ∈ names, n ∈ names') {slugs : List Str} {deps : List Dep}
    (hd : slugs.mapM (parseDependency U names) = .ok deps) :
    ∃ deps', slugs.mapM (parseDependency U names') = .ok deps' ∧ List.Forall₂ (Reinterpreted names names') deps deps' := by
  replace hd := forall₂_of_mapM hd
  obtain ⟨deps', h1, h2⟩ : ∃ deps', List.Forall₂ (fun s d => parseDependency U names' s = .ok d) slugs deps' ∧
      List.Forall₂ (Reinterpreted names names') deps deps' := by
    induction hd with
    | nil => exact ⟨[], .nil, .nil⟩
    | @cons slug dep slugs deps hx _ ih =>
      obtain ⟨deps', h1, h2⟩ := ih
      unfold parseDependency at hx
      dsimp only at hx
      by_cases hn : strip U (U.lower slug) ∈ names
      · rw [if_pos hn] at hx; injection hx with hx; subst hx
        refine ⟨.ext (strip U (U.lower slug)) :: deps', .cons ?_ h1, .cons (.inl rfl) h2⟩
        unfold parseDependency; dsimp only; rw [if_pos (h _ hn)]
      · rw [if_neg hn] at hx
        cases hp : parseProperties (strip U (U.lower slug)) with
        | error e => rw [hp] at hx; cases hx
        | ok p =>
          rw [hp] at hx
          have hx : dep = .props p := by simpa [bind, Except.bind] using hx.symm
          subst hx
          by_cases hn' : strip U (U.lower slug) ∈ names'
          · refine ⟨.ext (strip U (U.lower slug)) :: deps', .cons ?_ h1, .cons (.inr ⟨p, _, rfl, rfl, hn', hn⟩) h2⟩
            unfold parseDependency; dsimp only; rw [if_pos hn']
          · refine ⟨.props p :: deps', .cons ?_ h1, .cons (.inl rfl) h2⟩
            unfold parseDependency; dsimp only; rw [if_neg hn', hp]; rfl
  exact ⟨deps', mapM_of_forall₂ h1, h2⟩

theorem parse_more {U : PyUni} {names names' : List Str} (h : ∀ n ∈ names, n ∈ names') {v : Str} (hv : IsVariable v)
    {s : Substitution} (hs : Substitution.parse U v names = .ok s) :
    ∃ s', Substitution.parse U v names' = .ok s' ∧ s'.id = s.id ∧
      List.Forall₂ (Reinterpreted names names') s.dependencies s'.dependencies := by
  obtain ⟨head, slugs, rfl, h1, h2, -⟩ := C46_exhaustive U names v hv
  by_cases hh : head = []
  · subst hh; rw [C46_empty_id U names slugs h2] at hs; cases hs
  rw [parse_bracketed h1 h2 hh] at hs ⊢
  cases hd : slugs.mapM (parseDependency U names) with
  | error e => rw [hd] at hs; cases hs
  | ok deps =>
    obtain ⟨deps', h3, h4⟩ := mapM_more h hd
    rw [hd] at hs; rw [h3]
    simp only [bind, Except.bind] at hs ⊢
    cases hc : Py.first (strip U head) with
    | error e => rw [hc] at hs; cases hs
    | ok c =>
      rw [hc] at hs
      simp only [Except.ok.injEq] at hs
      subst hs
      refine ⟨_, rfl, rfl, ?_⟩
      dsimp only
      split
      · exact List.rel_append (R := Reinterpreted names names') h4 (.cons (.inl rfl) .nil)
      · exact h4

/-- C138: a text that is accepted is still accepted if more names are announced. The stored text and the ids stay; a part of a
variable stays what it was, or, if it is one of the new names, becomes a mention of that name instead of a list of properties. -/
theorem C138_announce_more (U : PyUni) (t : Template) (names names' : List Str) (text : Str) (h : ∀ n ∈ names, n ∈ names')
    (ht : Template.empty.parse U text names = .ok t) :
    ∃ t', Template.empty.parse U text names' = .ok t' ∧ t'.template = t.template ∧
      List.Forall₂ (fun s s' : Substitution => s'.id = s.id ∧ List.Forall₂ (Reinterpreted names names') s.dependencies s'.dependencies)
        t.substitutions t'.substitutions := by
  obtain ⟨l, ps, hp, -⟩ := C45_pieces_unique text
  obtain ⟨h1, h2⟩ := (C45_parse U names text l ps t hp).mp ht
  have hv := pieces_variable hp
  obtain ⟨subs', h3, h4⟩ : ∃ subs', List.Forall₂ (fun p s => Substitution.parse U (doubled p.1) names' = .ok s) ps subs' ∧
      List.Forall₂ (fun s s' : Substitution => s'.id = s.id ∧ List.Forall₂ (Reinterpreted names names') s.dependencies s'.dependencies)
        t.substitutions subs' := by
    clear hp h2 ht
    generalize t.substitutions = subs at h1 ⊢
    induction h1 with
    | nil => exact ⟨[], .nil, .nil⟩
    | cons hx _ ih =>
      obtain ⟨subs', h3, h4⟩ := ih fun p hp => hv p (by simp [hp])
      obtain ⟨s', h5, h6⟩ := parse_more h (isVariable_doubled (hv _ (by simp))) hx
      exact ⟨s' :: subs', .cons h5 h3, .cons h6 h4⟩
  exact ⟨⟨subs', t.template⟩, (C45_parse U names' text l ps _ hp).mpr ⟨h3, h2⟩, rfl, h4⟩

/-- C138: hence templates that mention none of the new names are parsed as before (whatever `parse` did with the old ones). -/
theorem C138_unmentioned (U : PyUni) (t : Template) (names more : List Str) (text l : Str) (ps : List (Str × Str))
    (h : Pieces text l ps) (ha : ∀ p ∈ ps, ∀ name ∈ more, ¬ Asks U (doubled p.1) name) :
    t.parseState U text (names ++ more) = t.parseState U text names :=
  C138_only_parts_matter U t _ _ text l ps h fun p hp name hn => by
    have : name ∉ more := fun hm => ha p hp name hm hn
    simp [this]

/-- A new name that is also the id of a property: the same text is accepted, but the part is now a mention. -/
example : Template.empty.parse exPy (str! "[a|мн]") [str! "a"] = .ok ⟨[⟨str! "a", [.props (.new [.record .NUMBER_PLURAL])]⟩], some (str! "%s")⟩ ∧
    Template.empty.parse exPy (str! "[a|мн]") [str! "a", str! "мн"] = .ok ⟨[⟨str! "a", [.ext (str! "мн")]⟩], some (str! "%s")⟩ ∧
    Template.empty.parse exPy (str! "[a|мн]") [str! "мн", str! "a", str! "z", str! "a"] =
      .ok ⟨[⟨str! "a", [.ext (str! "мн")]⟩], some (str! "%s")⟩ := by
  refine ⟨by decide +kernel, by decide +kernel, by decide +kernel⟩

/-- The only part of `[a| МН ]` is "мн". -/
example : ∀ name, Asks exPy (str! "[a| МН ]") name → name = str! "мн" := by
  rintro name ⟨head, slugs, slug, h, h1, h2, h3, h4⟩
  have e : str! "[a| МН ]" = bracketed (str! "a") [str! " МН "] := by decide +kernel
  obtain ⟨rfl, rfl⟩ := C46_unique _ _ _ _ (by decide) (by decide +kernel) h1 h2 (e.symm.trans h)
  simp only [List.mem_singleton] at h3
  subst h3
  rw [← strip_eq h4]; decide +kernel

end Utg
