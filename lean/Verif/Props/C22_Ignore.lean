import Verif.Spec.Utils
import Verif.Lemmas.Str

/-!
# C22: ignore patterns
-/

namespace Verif
open Spec

theorem pathSplit_spec (s : Str) :
    s = (pathSplit s).1 ++ (pathSplit s).2 ∧ '/' ∉ (pathSplit s).2 ∧ ((pathSplit s).1 = [] ∨ IsDirs (pathSplit s).1) := by
  induction s with
  | nil => simp [pathSplit]
  | cons c t ih =>
    obtain ⟨h1, h2, h3⟩ := ih
    simp only [pathSplit]
    split
    · rename_i hd
      refine ⟨by simp only [List.cons_append, ← h1], h2, .inr ?_⟩
      rcases h3 with h3 | ⟨r, hr⟩
      · exact absurd h3 hd
      · exact ⟨c :: r, by rw [hr]; rfl⟩
    · rename_i hd
      have hd : (pathSplit t).1 = [] := by simpa using hd
      split
      · rename_i hc; subst hc
        refine ⟨?_, h2, .inr ⟨[], rfl⟩⟩
        rw [hd] at h1; simp only [List.nil_append] at h1; simp [← h1]
      · rename_i hc
        refine ⟨?_, ?_, .inl rfl⟩
        · rw [hd] at h1; simp only [List.nil_append] at h1; simp [← h1]
        · simp only [List.mem_cons, not_or]; exact ⟨fun e => hc e.symm, h2⟩

theorem split_unique {d d' f f' : Str} (h : d ++ f = d' ++ f') (hf : '/' ∉ f) (hf' : '/' ∉ f')
    (hd : d = [] ∨ IsDirs d) (hd' : d' = [] ∨ IsDirs d') : d = d' ∧ f = f' := by
  rcases List.append_eq_append_iff.1 h with ⟨w, h1, h2⟩ | ⟨w, h1, h2⟩
  · -- d' = d ++ w, f = w ++ f'
    rcases List.eq_nil_or_concat w with rfl | ⟨w', c, rfl⟩
    · simp at h1 h2; exact ⟨h1.symm, h2⟩
    · exfalso
      rw [List.concat_eq_append] at h1 h2
      rcases hd' with rfl | ⟨r, rfl⟩
      · simp at h1
      · rw [← List.append_assoc] at h1
        have := (List.append_inj' h1 rfl).2
        simp at this
        subst this
        exact hf (by rw [h2]; simp)
  · rcases List.eq_nil_or_concat w with rfl | ⟨w', c, rfl⟩
    · simp at h1 h2; exact ⟨h1, h2.symm⟩
    · exfalso
      rw [List.concat_eq_append] at h1 h2
      rcases hd with rfl | ⟨r, rfl⟩
      · simp at h1
      · rw [← List.append_assoc] at h1
        have := (List.append_inj' h1 rfl).2
        simp at this
        subst this
        exact hf' (by rw [h2]; simp)

theorem pathSplit_eq {d f : Str} (hf : '/' ∉ f) (hd : d = [] ∨ IsDirs d) : pathSplit (d ++ f) = (d, f) := by
  obtain ⟨h1, h2, h3⟩ := pathSplit_spec (d ++ f)
  obtain ⟨e1, e2⟩ := split_unique h1 hf h2 hd h3
  exact Prod.ext e1.symm e2.symm

theorem pathSplit_dirs {d : Str} (hd : IsDirs d) : pathSplit d = (d, []) := by
  have := pathSplit_eq (d := d) (f := []) (by simp) (.inr hd)
  simpa using this

theorem Spec.IsDirs.append {a b : Str} (h : IsDirs b) : IsDirs (a ++ b) := by
  obtain ⟨r, rfl⟩ := h; exact ⟨a ++ r, by simp⟩

theorem Spec.IsDirs.ne_nil {a : Str} (h : IsDirs a) : a ≠ [] := by
  obtain ⟨r, rfl⟩ := h; simp

/-- The stars of a pattern are seen exactly if it is starred. -/
theorem starred_iff {d f : Str} (hf : '/' ∉ f) (hd : d = [] ∨ IsDirs d) :
    (hasPrefix g!"**" d = true ↔ Starred (d ++ f)) := by
  constructor
  · intro h
    obtain ⟨D, rfl⟩ := hasPrefix_iff.1 h
    refine ⟨D, f, rfl, ?_, hf⟩
    rcases hd with hd | ⟨r, hr⟩
    · simp at hd
    · rcases List.eq_nil_or_concat D with rfl | ⟨D', c, rfl⟩
      · simp only [List.append_nil] at hr
        have := (List.append_inj' (show g!"*" ++ g!"*" = r ++ g!"/" from hr) rfl).2
        simp at this
      · rw [List.concat_eq_append, ← List.append_assoc] at hr
        have := (List.append_inj' hr rfl).2
        simp at this; subst this
        exact ⟨D', by simp⟩
  · rintro ⟨D, n, h, hD, hn⟩
    obtain ⟨rfl, -⟩ := split_unique h hf hn hd (.inr hD.append)
    exact hasPrefix_append _ _

theorem ignoredBy_iff {fD fF p : Str} (hF : '/' ∉ fF) (hD : fD = [] ∨ IsDirs fD) :
    ignoredBy fD fF p = true ↔ Ignores p (fD ++ fF) := by
  constructor
  · intro h
    obtain ⟨h1, h2, h3⟩ := pathSplit_spec p
    unfold ignoredBy at h
    generalize hps : pathSplit p = x at h h1 h2 h3
    obtain ⟨d, f⟩ := x
    simp only at h h1 h2 h3
    subst h1
    cases hs : hasPrefix g!"**" d with
    | false =>
      have hns : ¬ Starred (d ++ f) := by rw [← starred_iff h2 h3, hs]; simp
      simp only [hs, Bool.not_false, Bool.true_and, Bool.false_and, Bool.or_false, Bool.false_eq_true, if_false,
        Bool.or_eq_true, Bool.and_eq_true, decide_eq_true_eq] at h
      rcases h with ⟨⟨rfl, hf⟩, rfl⟩ | ⟨hp, rfl⟩
      · exact .exact d f h3 ⟨hf, hF⟩ hns
      · obtain ⟨r, rfl⟩ := hasPrefix_iff.1 hp
        simp only [List.append_nil] at hns ⊢
        rw [List.append_assoc]
        rcases h3 with rfl | h3
        · exact .empty _
        · exact .below d _ h3 hns
    | true =>
      obtain ⟨D, n, e, hDd, hn⟩ := (starred_iff h2 h3).1 hs
      obtain ⟨rfl, rfl⟩ := split_unique e h2 hn h3 (.inr hDd.append)
      simp only [hs, Bool.not_true, Bool.false_and, Bool.false_or, Bool.true_and, if_true,
        Bool.or_eq_true, Bool.and_eq_true, decide_eq_true_eq] at h
      have hdrop : (g!"**" ++ D).drop 2 = D := rfl
      simp only [hdrop] at h
      rcases h with (⟨⟨rfl, hf⟩, rfl⟩ | ⟨⟨hc, hf⟩, rfl⟩) | ⟨hc, rfl⟩
      · rcases hD with rfl | hD
        · exact .anywhere f ⟨hf, hF⟩
        · exact .anywhereIn fD f hD ⟨hf, hF⟩
      · obtain ⟨a, b, rfl⟩ := contains_iff.1 hc
        refine .named a D b f hDd ?_ ⟨hf, hF⟩
        rcases hD with hD | ⟨r, hr⟩
        · simp [hDd.ne_nil] at hD
        · rcases List.eq_nil_or_concat b with rfl | ⟨b', c, rfl⟩
          · exact .inl rfl
          · rw [List.concat_eq_append, ← List.append_assoc] at hr
            have := (List.append_inj' hr rfl).2
            simp at this; subst this
            exact .inr ⟨b', by simp⟩
      · obtain ⟨a, b, rfl⟩ := contains_iff.1 hc
        have := Ignores.under a D (b ++ fF) hDd
        simpa using this
  · intro h
    generalize hx : fD ++ fF = x at h
    unfold ignoredBy
    cases h with
    | exact dirs name hd hn hs =>
      obtain ⟨rfl, rfl⟩ := split_unique hx hF hn.2 hD hd
      have : hasPrefix g!"**" fD = false := by
        rw [← Bool.not_eq_true, starred_iff hn.2 hd]; exact hs
      simp [pathSplit_eq hn.2 hd, this, hn.1]
    | below dirs rest hd hs =>
      have : hasPrefix g!"**" p = false := by
        rw [← Bool.not_eq_true, starred_iff (f := []) (by simp) (.inr hd)]; simpa using hs
      obtain ⟨h1, h2, h3⟩ := pathSplit_spec rest
      have e : fD ++ fF = (p ++ (pathSplit rest).1) ++ (pathSplit rest).2 := by
        rw [hx, List.append_assoc, ← h1]
      obtain ⟨rfl, -⟩ := split_unique e hF h2 hD (by
        rcases h3 with h3 | h3
        · rw [h3]; simp [hd]
        · exact .inr h3.append)
      simp [pathSplit_dirs hd, this]
    | empty => simp [pathSplit, hasPrefix]
    | anywhere name hn =>
      obtain ⟨rfl, rfl⟩ := split_unique (d' := []) hx hF hn.2 hD (.inl rfl)
      have := pathSplit_eq (d := g!"**/") hn.2 (.inr ⟨g!"**", rfl⟩)
      rw [this]
      simp [hasPrefix, List.isPrefixOf, hn.1]
    | anywhereIn dirs name hd hn =>
      obtain ⟨rfl, rfl⟩ := split_unique hx hF hn.2 hD (.inr hd)
      have := pathSplit_eq (d := g!"**/") hn.2 (.inr ⟨g!"**", rfl⟩)
      rw [this]
      simp [hasPrefix, List.isPrefixOf, hn.1]
    | named a dirs b name hd hb hn =>
      have hpd : IsDirs (a ++ dirs ++ b) := by
        rcases hb with rfl | hb
        · rw [List.append_nil]; exact hd.append
        · exact hb.append
      obtain ⟨rfl, rfl⟩ := split_unique hx hF hn.2 hD (.inr hpd)
      rw [pathSplit_eq (d := g!"**" ++ dirs) hn.2 (.inr hd.append)]
      have hc : contains dirs (a ++ dirs ++ b) = true := contains_iff.2 ⟨a, b, rfl⟩
      have hdrop : (g!"**" ++ dirs).drop 2 = dirs := rfl
      simp only [hasPrefix_append, if_true, hdrop, hc, hn.1]
      simp [hn.1]
    | under a dirs rest hd =>
      obtain ⟨h1, h2, h3⟩ := pathSplit_spec rest
      have e : fD ++ fF = (a ++ dirs ++ (pathSplit rest).1) ++ (pathSplit rest).2 := by
        rw [hx, List.append_assoc _ (pathSplit rest).1, ← h1]
      obtain ⟨rfl, -⟩ := split_unique e hF h2 hD (by
        rcases h3 with h3 | h3
        · rw [h3]; simp only [List.append_nil]; exact .inr hd.append
        · exact .inr h3.append)
      rw [pathSplit_dirs hd.append]
      have hc : contains dirs (a ++ dirs ++ (pathSplit rest).1) = true := contains_iff.2 ⟨a, _, rfl⟩
      have hdrop : (g!"**" ++ dirs).drop 2 = dirs := rfl
      simp only [hasPrefix_append, if_true, hdrop, hc]
      simp

/-- **C22.** A path is ignored exactly if one of the patterns ignores it. -/
theorem C22_ignored_iff (path : Str) (patterns : List Str) :
    shouldIgnore path patterns = true ↔ ∃ p ∈ patterns, Ignores p path := by
  obtain ⟨h1, h2, h3⟩ := pathSplit_spec path
  unfold shouldIgnore
  simp only [List.any_eq_true]
  constructor
  · rintro ⟨p, hp, h⟩
    have := (ignoredBy_iff h2 h3).1 h
    rw [← h1] at this
    exact ⟨p, hp, this⟩
  · rintro ⟨p, hp, h⟩
    refine ⟨p, hp, (ignoredBy_iff h2 h3).2 ?_⟩
    rw [← h1]; exact h

/-- **C22.** More patterns never ignore less, and neither their order nor repetitions matter. -/
theorem C22_monotone (path : Str) (ps qs : List Str) (h : ∀ p ∈ ps, p ∈ qs) (hi : shouldIgnore path ps = true) :
    shouldIgnore path qs = true := by
  rw [C22_ignored_iff] at hi ⊢
  obtain ⟨p, hp, hx⟩ := hi
  exact ⟨p, h p hp, hx⟩

/-- **C22.** Without patterns nothing is ignored. -/
theorem C22_no_patterns (path : Str) : shouldIgnore path [] = false := rfl

/-! ## Concrete cases -/

example : Ignores g!"**/test/" g!"/src/test/a/b.c" ∧ Ignores g!"**/b.c" g!"/src/test/a/b.c" ∧
    Ignores g!"/src/" g!"/src/test/a/b.c" ∧ ¬ Ignores g!"/src" g!"/src/test/a/b.c" := by
  refine ⟨.under g!"/src" g!"/test/" g!"a/b.c" ⟨g!"/test", rfl⟩,
    .anywhereIn g!"/src/test/a/" g!"b.c" ⟨g!"/src/test/a", rfl⟩ ⟨by decide, by decide⟩, ?_, ?_⟩
  · have := ignoredBy_iff (fD := g!"/src/test/a/") (fF := g!"b.c") (p := g!"/src/") (by decide) (.inr ⟨g!"/src/test/a", rfl⟩)
    exact this.1 (by decide)
  · have := ignoredBy_iff (fD := g!"/src/test/a/") (fF := g!"b.c") (p := g!"/src") (by decide) (.inr ⟨g!"/src/test/a", rfl⟩)
    exact fun h => absurd (this.2 h) (by decide)

/-- A directory pattern without a slash after the stars also matches the end of a longer name: `**test/`
ignores what is below `mytest`. -/
theorem C22_partial_name : shouldIgnore g!"/mytest/a" [g!"**test/"] = true := by decide

/-- A path that does not begin with a slash is not below `**/dir/` although its first directory has that
name. -/
theorem C22_relative_path : shouldIgnore g!"dir/a" [g!"**/dir/"] = false := by decide

end Verif
