import Verif.Lemmas.Streams
import Verif.Lemmas.Sort

/-!
# C63: readers and writers that deliver piecemeal or fail
-/

namespace Verif

/-- **C63.** Reading depends only on the text that is delivered, not on the pieces it comes in. -/
theorem C63_pieces (src : Source) (h : src.fails = false) (isPtr : Bool) (target : Version) :
    (∀ copy, readTagValueFrom copy isPtr target src = readTagValueInto copy isPtr target src.pieces.flatten) ∧
    (∀ so copy float odd, readJsonFrom so copy float odd isPtr target src = readJsonText so copy float odd isPtr target src.pieces.flatten) ∧
    (∀ y so copy, readYamlFrom y so copy isPtr target src = readYamlText y so copy isPtr target src.pieces.flatten) := by
  refine ⟨fun copy => ?_, fun so copy float odd => ?_, fun y so copy => ?_⟩
  · unfold readTagValueFrom readTagValueInto
    rw [readTagValuesFrom_eq src h]
    rfl
  · unfold readJsonFrom readAll
    rw [h]
    cases isPtr <;> rfl
  · unfold readYamlFrom readAll
    rw [h]
    cases isPtr <;> rfl

/-- **C63.** If the reader fails, whatever it delivered before, reading returns an error and no document. -/
theorem C63_reader_fails (src : Source) (h : src.fails = true) (isPtr : Bool) (target : Version) :
    (∀ copy, readTagValueFrom copy isPtr target src = .err) ∧
    (∀ so copy float odd, readJsonFrom so copy float odd isPtr target src = .err) ∧
    (∀ y so copy, readYamlFrom y so copy isPtr target src = .err) := by
  refine ⟨fun copy => ?_, fun so copy float odd => ?_, fun y so copy => ?_⟩
  · unfold readTagValueFrom
    rw [readTagValuesFrom_fails src h]
    cases isPtr <;> rfl
  · unfold readJsonFrom readAll
    rw [h]
    cases isPtr <;> rfl
  · unfold readYamlFrom readAll
    rw [h]
    cases isPtr <;> rfl

theorem writeOnce_reports {k : Sink} (hh : k.Honest) (s : k.State) (text : Res Str) : ReportsLoss k s text (writeOnce k s text) := by
  cases text with
  | err => rfl
  | panic => rfl
  | ok t =>
    obtain ⟨q, h1, h2, h3⟩ := hh s t
    cases hw : (k.write s t).2 with
    | true => exact .inl ⟨by simp [writeOnce, hw], by rw [writeOnce, h1, h3 hw]⟩
    | false => exact .inr ⟨by simp [writeOnce, hw], q, h1, h2⟩

/-- **C63.** JSON and YAML writers report every loss. -/
theorem C63_json_yaml_writer {k : Sink} (hh : k.Honest) (s : k.State) (so : Sorter) (v : Version) (d : Doc) :
    (∀ html indent, ReportsLoss k s (writeJsonText so v html indent d) (writeJsonTo k s so v html indent d)) ∧
    (∀ y, ReportsLoss k s (writeYamlText y so v d) (writeYamlTo k s y so v d)) :=
  ⟨fun _ _ => writeOnce_reports hh s _, fun _ => writeOnce_reports hh s _⟩

/-- **C63.** Tag-value: if no call of `Write` failed the whole text has arrived; if the writer takes nothing any more
after a failure, the beginning of the text has arrived.  A document without creation information gives an error and
no call. -/
theorem C63_tagvalue_writer {k : Sink} (hh : k.Honest) (s : k.State) (v : Version) (so : Sorter) (d : Doc) :
    (∀ t, writeTagValue v so d = .ok t →
      (writeTagValueTo k s v so d).1 = .ok () ∧
      ((writeTagValueTo k.watched (s, true) v so d).2.1 = (writeTagValueTo k s v so d).2) ∧
      ((writeTagValueTo k.watched (s, true) v so d).2.2 = true → k.got (writeTagValueTo k s v so d).2 = k.got s ++ t) ∧
      (k.Good → k.got (writeTagValueTo k s v so d).2 = k.got s ++ t) ∧
      (k.Dead → ∃ q, k.got (writeTagValueTo k s v so d).2 = k.got s ++ q ∧ q <+: t)) ∧
    (∀ e, writeTagValue v so d = e → (∀ t, e ≠ .ok t) → d.creationInfo = none ∧ writeTagValueTo k s v so d = (.err, s)) := by
  unfold writeTagValue writeTagValueTo
  cases hc : d.creationInfo with
  | none =>
    have hr : renderDocument v so d = .err := by simp [renderDocument, hc]
    rw [hr]
    refine ⟨fun t h => ?_, fun e _ _ => ⟨rfl, rfl⟩⟩
    exact nomatch h
  | some ci =>
    have hr : renderDocument v so d = .ok (renderBody v so d ci, sortDocument so d) := by simp [renderDocument, hc]
    rw [hr]
    refine ⟨fun t h => ?_, fun e h hn => absurd h.symm (hn _)⟩
    obtain rfl : emit (renderBody v so d ci) = t := by injection h
    rw [← writeCalls_flatten]
    exact ⟨rfl, writePieces_watched_fst k _ s true, fun hw => writePieces_watched hh _ s hw,
      fun hg => writePieces_watched hh _ s (writePieces_watched_good hg _ s), fun hd => writePieces_dead hh hd _ s⟩

theorem disk_honest : disk.Honest := by
  rintro ⟨s, _ | n⟩ p
  · exact ⟨[], by simp [disk], by simp, by simp [disk]⟩
  · by_cases h : p.length ≤ n
    · exact ⟨p, by simp [disk, h], List.prefix_rfl, fun _ => rfl⟩
    · exact ⟨p.take n, by simp [disk, h], List.take_prefix _ _, by simp [disk, h]⟩

theorem disk_dead : disk.Dead := by
  rintro ⟨s, _ | n⟩ p q h
  · exact ⟨rfl, rfl⟩
  · by_cases hn : p.length ≤ n
    · simp [disk, hn] at h
    · simp [disk, hn]

theorem flaky_honest (n : Nat) : (flaky n).Honest := by
  intro s p
  by_cases h : s.2 = n
  · exact ⟨[], by simp [flaky, h], by simp, by simp [flaky, h]⟩
  · exact ⟨p, by simp [flaky, h], List.prefix_rfl, fun _ => rfl⟩

def doc63 : Doc :=
  { spdxVersion := g!"SPDX-2.3", spdxId := g!"DOCUMENT", name := g!"d", creationInfo := some { created := g!"now" }
    packages := [{ name := g!"p", spdxId := g!"p" }] }

/-- A text in pieces that do not end with lines, read as the text. -/
example : readTagValuesFrom { pieces := [g!"SPDXVers", g!"ion: SPDX-2.3\nSPD", [], g!"XID: SPDXRef-DOCU", g!"MENT"] } =
    .ok [⟨g!"SPDXVersion", g!"SPDX-2.3"⟩, ⟨g!"SPDXID", g!"SPDXRef-DOCUMENT"⟩] := by decide +kernel

/-- Enough room: everything arrives.  Not enough: a part. -/
theorem C63_sample :
    (writeTagValueTo disk.watched (([], some 1000), true) .v23 insertionSorter doc63).2.2 = true ∧
    (∃ t, writeTagValue .v23 insertionSorter doc63 = .ok t ∧ t.length = 150 ∧
      disk.got (writeTagValueTo disk ([], some 20) .v23 insertionSorter doc63).2 = t.take 20) := by
  refine ⟨by decide +kernel, _, rfl, by decide +kernel, by decide +kernel⟩

/-- **The tag-value writer does not report failures**: the disk is full, most of the text is missing, and nil is
returned. -/
theorem C63_unreported_false : ∃ (k : Sink) (s : k.State) (d : Doc) (t : Str), k.Honest ∧ k.Dead ∧
    writeTagValue .v23 insertionSorter d = .ok t ∧ (writeTagValueTo k s .v23 insertionSorter d).1 = .ok () ∧
    k.got (writeTagValueTo k s .v23 insertionSorter d).2 ≠ k.got s ++ t :=
  ⟨disk, ([], some 20), doc63, _, disk_honest, disk_dead, rfl, rfl, by decide +kernel⟩

/-- **After a failure the tag-value writer goes on**: a line in the middle is lost, nil is returned, and what arrived
is not the beginning of the text. -/
theorem C63_hole_false : ∃ (k : Sink) (s : k.State) (d : Doc) (t : Str), k.Honest ∧
    writeTagValue .v23 insertionSorter d = .ok t ∧ (writeTagValueTo k s .v23 insertionSorter d).1 = .ok () ∧
    ¬∃ q, q <+: t ∧ k.got (writeTagValueTo k s .v23 insertionSorter d).2 = k.got s ++ q := by
  refine ⟨flaky 1, ([], 0), doc63, _, flaky_honest 1, rfl, rfl, ?_⟩
  rintro ⟨q, h1, h2⟩
  rw [show (flaky 1).got ([], 0) ++ q = q from rfl] at h2
  subst h2
  exact absurd (List.isPrefixOf_iff_prefix.2 h1) (by decide +kernel)

end Verif
