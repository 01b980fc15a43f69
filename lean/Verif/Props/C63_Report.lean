import Verif.Model.ReportTo
import Verif.Props.C63_Streams
import Verif.Props.C29_Printed

/-!
# C63: a license report on a writer that fails
-/

namespace Verif

theorem pushReport_watched {k : Sink} (hh : k.Honest) (again : List Str → List Str) (ps : List Str) : ∀ s : k.State,
    (pushReport k.watched again (s, true) ps).1 = pushReport k again s ps ∧
    ((pushReport k.watched again (s, true) ps).2 = true → k.got (pushReport k again s ps) = k.got s ++ ps.flatten) := by
  induction ps with
  | nil => intro s; exact ⟨rfl, fun _ => by simp [pushReport]⟩
  | cons p ps ih =>
    intro s
    have e : pushReport k.watched again (s, true) (p :: ps) = if (k.write s p).2 then
        pushReport k.watched again ((k.write s p).1, true && (k.write s p).2) ps
      else writePieces k.watched ((k.write s p).1, true && (k.write s p).2) (again (p :: ps)) := rfl
    rw [e, pushReport]
    obtain ⟨q, h1, -, h3⟩ := hh s p
    cases hw : (k.write s p).2 with
    | true =>
      refine ⟨(ih _).1, fun h => ?_⟩
      simp only [if_true]
      rw [(ih _).2 h, h1, h3 hw]
      simp
    | false =>
      refine ⟨writePieces_watched_fst k _ _ _, fun h => ?_⟩
      have h2 : (writePieces k.watched ((k.write s p).1, false) (again (p :: ps))).2 = true := h
      rw [writePieces_watched_false] at h2
      cases h2

theorem pushReport_good {k : Sink} (hg : k.Good) (again : List Str → List Str) (ps : List Str) : ∀ s : k.State,
    (pushReport k.watched again (s, true) ps).2 = true := by
  induction ps with
  | nil => intro s; rfl
  | cons p ps ih =>
    intro s
    have e : pushReport k.watched again (s, true) (p :: ps) = if (k.write s p).2 then
        pushReport k.watched again ((k.write s p).1, true && (k.write s p).2) ps
      else writePieces k.watched ((k.write s p).1, true && (k.write s p).2) (again (p :: ps)) := rfl
    rw [e, hg s p]
    exact ih _

theorem pushReport_dead {k : Sink} (hh : k.Honest) (hd : k.Dead) (again : List Str → List Str) (ps : List Str) : ∀ s : k.State,
    ∃ q, k.got (pushReport k again s ps) = k.got s ++ q ∧ q <+: ps.flatten := by
  induction ps with
  | nil => intro s; exact ⟨[], by simp [pushReport]⟩
  | cons p ps ih =>
    intro s
    obtain ⟨q, h1, h2, h3⟩ := hh s p
    rw [pushReport]
    cases hw : (k.write s p).2 with
    | true =>
      obtain ⟨q', h4, h5⟩ := ih (k.write s p).1
      refine ⟨p ++ q', ?_, ?_⟩
      · simp only [if_true]
        rw [h4, h1, h3 hw, List.append_assoc]
      · simpa [List.prefix_append_right_inj] using h5
    | false =>
      refine ⟨q, ?_, ?_⟩
      · simp only [Bool.false_eq_true, if_false]
        rw [writePieces_after hd _ _ _ hw, h1]
      · exact h2.trans (List.prefix_append _ _)

/-- **C63.** The license report: if no call of `Write` failed the whole report has arrived; if the writer takes nothing any more
after a failure, the beginning of the report has arrived, however it is divided into calls and whatever is tried again; nil is
returned in any case.  If there is no report, nothing is written. -/
theorem C63_report {k : Sink} (hh : k.Honest) (s : k.State) (cut : Str → List Str) (hc : ∀ t, (cut t).flatten = t)
    (again : List Str → List Str) (so : CountSorter) (filesAnalyzed : Bool) (files : List (Option FileV)) :
    (∀ t, printReport so filesAnalyzed files = .ok t →
      (generateTo k s cut again so filesAnalyzed files).1 = .ok () ∧
      (generateTo k.watched (s, true) cut again so filesAnalyzed files).2.1 = (generateTo k s cut again so filesAnalyzed files).2 ∧
      ((generateTo k.watched (s, true) cut again so filesAnalyzed files).2.2 = true →
        k.got (generateTo k s cut again so filesAnalyzed files).2 = k.got s ++ t) ∧
      (k.Good → k.got (generateTo k s cut again so filesAnalyzed files).2 = k.got s ++ t) ∧
      (k.Dead → ∃ q, k.got (generateTo k s cut again so filesAnalyzed files).2 = k.got s ++ q ∧ q <+: t)) ∧
    (printReport so filesAnalyzed files = .err → generateTo k s cut again so filesAnalyzed files = (.err, s)) ∧
    (printReport so filesAnalyzed files = .panic → generateTo k s cut again so filesAnalyzed files = (.panic, s)) := by
  unfold generateTo
  refine ⟨fun t h => ?_, fun h => by rw [h], fun h => by rw [h]⟩
  simp only [h]
  have hp := pushReport_watched hh again (cut t) s
  rw [hc] at hp
  refine ⟨trivial, hp.1, hp.2, fun hg => hp.2 (pushReport_good hg again _ s), fun hd => ?_⟩
  have := pushReport_dead hh hd again (cut t) s
  rwa [hc] at this

/-- The report of one package, with a writer that fails and one that does not. -/
theorem C63_report_sample : ∃ t, printReport countSorter true [some { licenseConcluded := g!"MIT" }, some {}] = .ok t ∧ t.length = 80 ∧
    (generateTo disk.watched (([], some 1000), true) (fun t => t.map fun c => [c]) id countSorter true
      [some { licenseConcluded := g!"MIT" }, some {}]).2.2 = true ∧
    disk.got (generateTo disk ([], some 20) (fun t => t.map fun c => [c]) id countSorter true
      [some { licenseConcluded := g!"MIT" }, some {}]).2 = t.take 20 := by
  refine ⟨_, rfl, by decide +kernel, by decide +kernel, by decide +kernel⟩

/-- **The license report does not report failures**: the disk is full, most of the report is missing, and nil is returned. -/
theorem C63_report_unreported_false : ∃ (k : Sink) (s : k.State) (files : List (Option FileV)) (t : Str), k.Honest ∧ k.Dead ∧
    printReport countSorter true files = .ok t ∧
    (generateTo k s (fun t => t.map fun c => [c]) id countSorter true files).1 = .ok () ∧
    k.got (generateTo k s (fun t => t.map fun c => [c]) id countSorter true files).2 ≠ k.got s ++ t :=
  ⟨disk, ([], some 20), [some { licenseConcluded := g!"MIT" }, some {}], _, disk_honest, disk_dead, rfl, rfl, by decide +kernel⟩

end Verif
