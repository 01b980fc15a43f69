import Verif.Props.C22_Ignore
import Verif.Lemmas.Sort

/-!
# C23: directory listings
-/

namespace Verif
open Spec

theorem pathText_append (a b : List Str) : pathText (a ++ b) = pathText a ++ pathText b := by simp [pathText]
theorem pathText_cons (a : Str) (b : List Str) : pathText (a :: b) = '/' :: a ++ pathText b := by simp [pathText]

theorem concatRes_ok (l : List (List Str)) : concatRes (l.map .ok) = .ok l.flatten := by
  induction l with
  | nil => rfl
  | cons a l ih => simp [concatRes, ih]

theorem strLt_of_le_ne {a b : Str} (h : strLe a b = true) (hn : a ≠ b) : strLt a b = true := by
  simp [strLt, h, hn]

/-- What the callback records for a file below the root. -/
theorem recordPath_eq (pre : Str) (ign : List Str) (ns : List Str) (h : ns ≠ []) :
    recordPath pre ign (pre ++ pathText ns) = if shouldIgnore (pathText ns) ign then [] else [pathText ns] := by
  unfold recordPath
  cases ns with
  | nil => exact absurd rfl h
  | cons a b =>
    have h2 : hasPrefix g!"/" (pathText (a :: b)) = true := hasPrefix_iff.2 ⟨a ++ pathText b, by simp [pathText_cons]⟩
    simp only [trimPrefix_append, h2, Bool.not_true, Bool.false_eq_true, if_false]

/-- The results for the entries of a directory, with the names that lead to the files. -/
structure Listed (so : Sorter) (pre : Str) (ign : List Str) (path : Str) (ns : List Str) (es : Entries)
    (L : List (Str × List (List Str))) : Prop where
  walk : walkEntries so pre ign path es = L.map fun x => (x.1, .ok (x.2.map fun c => pathText (ns ++ x.1 :: c)))
  names : L.map (·.1) = namesIn es
  sorted : ∀ x ∈ L, x.2.Pairwise PathLt
  sound : ∀ x ∈ L, ∀ c ∈ x.2, FileIn es x.1 c ∧ shouldIgnore (pathText (ns ++ x.1 :: c)) ign = false
  complete : ∀ n c, FileIn es n c → shouldIgnore (pathText (ns ++ n :: c)) ign = false → ∃ cs, (n, cs) ∈ L ∧ c ∈ cs

/-- The path of a node below the root. -/
structure PathOf (pre path : Str) (ns : List Str) : Prop where
  here : ns ≠ [] → path = pre ++ pathText ns
  join : ∀ n, joinPath path n = pre ++ pathText (ns ++ [n])

theorem PathOf.child {pre path : Str} {ns : List Str} (h : PathOf pre path ns) {n : Str} (hn : IsName n) :
    PathOf pre (joinPath path n) (ns ++ [n]) := by
  refine ⟨fun _ => h.join n, fun m => ?_⟩
  have hne : pre ++ pathText (ns ++ [n]) ≠ g!"/" := by
    intro e
    have := congrArg List.length e
    simp [pathText] at this
    have hl : n.length ≠ 0 := by simpa using hn.1
    omega
  rw [h.join n, joinPath, if_neg hne, pathText_append _ [m]]
  simp [pathText]

mutual
theorem walk_node (so : Sorter) (pre : Str) (ign : List Str) :
    ∀ (t : Node) (path : Str) (ns : List Str), GoodTree t → ¬ unreadable t → PathOf pre path ns → (t = .file → ns ≠ []) →
    ∃ cs : List (List Str), walkNode so pre ign path t = .ok (cs.map fun c => pathText (ns ++ c)) ∧
      (∀ c, c ∈ cs ↔ FileAt t c ∧ shouldIgnore (pathText (ns ++ c)) ign = false) ∧ cs.Pairwise PathLt
  | .file, path, ns, _, _, hp, hf => by
    have hne := hf rfl
    rw [walkNode, hp.here hne, recordPath_eq _ _ _ hne]
    cases hs : shouldIgnore (pathText ns) ign with
    | true =>
      refine ⟨[], rfl, fun c => ⟨by simp, ?_⟩, .nil⟩
      rintro ⟨hc, h⟩
      cases hc
      simp [hs] at h
    | false =>
      refine ⟨[[]], by simp, fun c => ⟨?_, ?_⟩, List.pairwise_singleton ..⟩
      · intro h; simp at h; subst h; exact ⟨.here, by simpa using hs⟩
      · rintro ⟨hc, h⟩; cases hc; simp
  | .link, path, ns, _, _, _, _ => by
    refine ⟨[], by simp [walkNode], fun c => ⟨by simp, ?_⟩, .nil⟩
    rintro ⟨hc, -⟩; cases hc
  | .bad, path, ns, _, hb, _, _ => absurd trivial hb
  | .dir es, path, ns, hg, hb, hp, _ => by
    obtain ⟨L, hL⟩ := walk_entries so pre ign es path ns hg.2 hb hp
    have hnd : (L.map (·.1)).Nodup := by rw [hL.names]; exact hg.1
    have hrefl : Pointwise (fun (x : Str × List (List Str)) y =>
        y = (x.1, Res.ok (x.2.map fun c => pathText (ns ++ x.1 :: c)))) L (walkEntries so pre ign path es) := by
      rw [hL.walk]; exact Pointwise.map_right L fun _ _ => rfl
    obtain ⟨L', hperm, hpw⟩ := hrefl.perm_right (so.perm (·.1) (walkEntries so pre ign path es)).symm
    have hM : so.run (·.1) (walkEntries so pre ign path es) =
        L'.map fun x => (x.1, Res.ok (x.2.map fun c => pathText (ns ++ x.1 :: c))) := by
      clear hperm
      generalize so.run (·.1) (walkEntries so pre ign path es) = M at hpw
      induction hpw with
      | nil => rfl
      | cons h1 _ ih => rw [List.map_cons, h1, ih]
    have hsorted : L'.Pairwise fun a b => strLe a.1 b.1 = true := by
      have := so.sorted (·.1) (walkEntries so pre ign path es)
      rw [hM] at this
      exact List.pairwise_map.1 this
    have hnd' : (L'.map (·.1)).Nodup := (hperm.map _).nodup_iff.1 hnd
    refine ⟨L'.flatMap fun x => x.2.map (x.1 :: ·), ?_, fun c => ⟨?_, ?_⟩, ?_⟩
    · rw [walkNode, hM, List.map_map]
      have e : ((fun x : Str × Res (List Str) => x.2) ∘ fun x : Str × List (List Str) =>
          (x.1, Res.ok (x.2.map fun c => pathText (ns ++ x.1 :: c)))) =
          Res.ok ∘ fun x => x.2.map fun c => pathText (ns ++ x.1 :: c) := rfl
      rw [e, ← List.map_map, concatRes_ok]
      congr 1
      rw [List.flatten_eq_flatMap, List.flatMap_map, List.map_flatMap]
      congr 1
      funext x
      simp
    · intro h
      obtain ⟨x, hx, hc⟩ := List.mem_flatMap.1 h
      obtain ⟨c', hc', rfl⟩ := List.mem_map.1 hc
      obtain ⟨h1, h2⟩ := hL.sound x (hperm.mem_iff.2 hx) c' hc'
      exact ⟨.inside h1, h2⟩
    · rintro ⟨hf, hi⟩
      cases hf with
      | inside hf =>
        obtain ⟨cs, h1, h2⟩ := hL.complete _ _ hf hi
        exact List.mem_flatMap.2 ⟨_, hperm.mem_iff.1 h1, List.mem_map.2 ⟨_, h2, rfl⟩⟩
    · rw [List.pairwise_flatMap]
      refine ⟨fun x hx => ?_, ?_⟩
      · exact List.pairwise_map.2 ((hL.sorted x (hperm.mem_iff.2 hx)).imp fun h => .tail h)
      · have hlt : L'.Pairwise fun a b => strLt a.1 b.1 = true := by
          have h2 : L'.Pairwise fun a b => a.1 ≠ b.1 := List.pairwise_map.1 hnd'
          exact (hsorted.and h2).imp fun h => strLt_of_le_ne h.1 h.2
        refine hlt.imp ?_
        intro a b hab x hx y hy
        obtain ⟨x', -, rfl⟩ := List.mem_map.1 hx
        obtain ⟨y', -, rfl⟩ := List.mem_map.1 hy
        exact .head hab
theorem walk_entries (so : Sorter) (pre : Str) (ign : List Str) :
    ∀ (es : Entries) (path : Str) (ns : List Str), GoodEntries es → ¬ unreadableIn es → PathOf pre path ns →
    ∃ L, Listed so pre ign path ns es L
  | .nil, path, ns, _, _, _ => by
    refine ⟨[], ⟨by simp [walkEntries], rfl, by simp, by simp, ?_⟩⟩
    intro n c h; cases h
  | .cons name t es, path, ns, hg, hb, hp => by
    obtain ⟨hname, hgt, hge⟩ := hg
    have hb1 : ¬ unreadable t := fun h => hb (.inl h)
    have hb2 : ¬ unreadableIn es := fun h => hb (.inr h)
    obtain ⟨cs, h1, h2, h3⟩ := walk_node so pre ign t (joinPath path name) (ns ++ [name]) hgt hb1 (hp.child hname)
      (by simp)
    obtain ⟨L, hL⟩ := walk_entries so pre ign es path ns hge hb2 hp
    have e : ∀ c, ns ++ [name] ++ c = ns ++ name :: c := by simp
    simp only [e] at h1 h2
    refine ⟨(name, cs) :: L, ?_, ?_, ?_, ?_, ?_⟩
    · rw [walkEntries, h1, hL.walk]; rfl
    · simp [namesIn, hL.names]
    · intro x hx
      rcases List.mem_cons.1 hx with rfl | hx
      · exact h3
      · exact hL.sorted x hx
    · intro x hx c hc
      rcases List.mem_cons.1 hx with rfl | hx
      · obtain ⟨h4, h5⟩ := (h2 c).1 hc
        exact ⟨.head h4, h5⟩
      · obtain ⟨h4, h5⟩ := hL.sound x hx c hc
        exact ⟨.tail h4, h5⟩
    · intro n c hf hi
      cases hf with
      | head hf => exact ⟨cs, by simp, (h2 c).2 ⟨hf, hi⟩⟩
      | tail hf =>
        obtain ⟨cs', h4, h5⟩ := hL.complete n c hf hi
        exact ⟨cs', by simp [h4], h5⟩
end

theorem pathOf_root {r : Str} (h : CleanRoot r) : PathOf (trimSuffix g!"/" r) r [] := by
  refine ⟨fun h => absurd rfl h, fun n => ?_⟩
  rcases h with rfl | ⟨h1, h2⟩
  · have : trimSuffix g!"/" g!"/" = [] := by decide
    rw [this]; simp [joinPath, pathText]
  · have hne : r ≠ g!"/" := fun e => h2 ⟨[], e⟩
    have ht : trimSuffix g!"/" r = r := by
      unfold trimSuffix trimPrefix
      cases hc : cutPrefix g!"/".reverse r.reverse with
      | none => simp
      | some x =>
        rw [cutPrefix_eq_some] at hc
        exfalso; apply h2
        have := congrArg List.reverse hc
        exact ⟨x.reverse, by simpa using this⟩
    rw [ht]; simp [joinPath, hne, pathText]

/-- **C23.** Listing a directory that can be read returns the regular files below it that no pattern
ignores, and nothing else, in the order of their names from the root down. -/
theorem C23_listing (so : Sorter) (root : Str) (es : Entries) (patterns : List Str)
    (clean : CleanRoot root) (good : GoodTree (.dir es)) (readable : ¬ unreadable (.dir es)) :
    ∃ files : List (List Str), getAllFilePaths so root (.dir es) patterns = .ok (files.map pathText) ∧
      (∀ f, f ∈ files ↔ FileAt (.dir es) f ∧ ¬ ∃ p ∈ patterns, Ignores p (pathText f)) ∧
      files.Pairwise PathLt := by
  obtain ⟨cs, h1, h2, h3⟩ := walk_node so (trimSuffix g!"/" root) patterns (.dir es) root [] good readable
    (pathOf_root clean) (by simp)
  refine ⟨cs, by simpa [getAllFilePaths] using h1, fun f => ?_, h3⟩
  rw [h2, ← C22_ignored_iff]
  simp

mutual
theorem fileAt_names : ∀ (t : Node) (c : List Str), GoodTree t → FileAt t c → ∀ n ∈ c, IsName n
  | .file, c, _, h => by cases h; simp
  | .link, c, _, h => by cases h
  | .bad, c, _, h => by cases h
  | .dir es, c, hg, h => by
    cases h with
    | inside h => exact fileIn_names es _ _ hg.2 h
theorem fileIn_names : ∀ (es : Entries) (n : Str) (c : List Str), GoodEntries es → FileIn es n c →
    ∀ m ∈ n :: c, IsName m
  | .nil, _, _, _, h => by cases h
  | .cons name t es, n, c, hg, h => by
    cases h with
    | head h =>
      intro m hm
      rcases List.mem_cons.1 hm with rfl | hm
      · exact hg.1
      · exact fileAt_names t c hg.2.1 h m hm
    | tail h => exact fileIn_names es n c hg.2.2 h
end

theorem splitChar_pathText {ns : List Str} (h : ∀ n ∈ ns, '/' ∉ n) : splitChar '/' (pathText ns) = [] :: ns := by
  induction ns with
  | nil => rfl
  | cons a l ih =>
    have ha := h a (by simp)
    have hl := ih fun n hn => h n (by simp [hn])
    rw [pathText_cons]
    show splitChar '/' ('/' :: (a ++ pathText l)) = _
    simp only [splitChar, if_true]
    congr 1
    cases l with
    | nil => simpa [pathText] using splitChar_of_not_mem ha
    | cons b l' =>
      rw [pathText_cons] at hl ⊢
      rw [show a ++ ('/' :: b ++ pathText l') = a ++ '/' :: (b ++ pathText l') by simp, splitChar_append,
        splitChar_of_not_mem ha]
      have : splitChar '/' ('/' :: (b ++ pathText l')) = [] :: splitChar '/' (b ++ pathText l') := by
        simp [splitChar]
      rw [show '/' :: b ++ pathText l' = '/' :: (b ++ pathText l') by simp, this] at hl
      simp at hl
      simp [hl]

theorem pathLt_irrefl : ∀ c : List Str, ¬ PathLt c c
  | [], h => by cases h
  | a :: c, h => by
    cases h with
    | head h => simp [strLt] at h
    | tail h => exact pathLt_irrefl c h

theorem concatRes_cases (l : List (Res (List Str))) (hp : ∀ r ∈ l, r ≠ .panic) :
    (concatRes l = .err ↔ .err ∈ l) ∧ concatRes l ≠ .panic := by
  induction l with
  | nil => simp [concatRes]
  | cons r l ih =>
    obtain ⟨h1, h2⟩ := ih fun r h => hp r (by simp [h])
    cases r with
    | panic => exact absurd rfl (hp .panic (by simp))
    | err => simp [concatRes]
    | ok a =>
      simp only [concatRes, Res.bind_ok]
      cases hc : concatRes l with
      | ok b => rw [hc] at h1; simp at h1; simp [h1]
      | err => rw [hc] at h1; simp at h1; simp [h1]
      | panic => exact absurd hc h2

mutual
theorem walk_error (so : Sorter) (pre : Str) (ign : List Str) : ∀ (t : Node) (path : Str),
    (walkNode so pre ign path t = .err ↔ unreadable t) ∧ walkNode so pre ign path t ≠ .panic
  | .file, _ => by simp [walkNode, unreadable]
  | .link, _ => by simp [walkNode, unreadable]
  | .bad, _ => by simp [walkNode, unreadable]
  | .dir es, path => by
    obtain ⟨h1, h2⟩ := walkEntries_error so pre ign es path
    rw [walkNode, unreadable]
    have hm : ∀ x, x ∈ (so.run (·.1) (walkEntries so pre ign path es)).map (·.2) ↔
        x ∈ (walkEntries so pre ign path es).map (·.2) := fun x => ((so.perm _ _).map _).mem_iff
    have := concatRes_cases ((so.run (·.1) (walkEntries so pre ign path es)).map (·.2))
      (fun r hr => h2 r ((hm r).1 hr))
    rw [this.1, hm, h1]
    exact ⟨Iff.rfl, this.2⟩
theorem walkEntries_error (so : Sorter) (pre : Str) (ign : List Str) : ∀ (es : Entries) (path : Str),
    (.err ∈ (walkEntries so pre ign path es).map (·.2) ↔ unreadableIn es) ∧
    ∀ r ∈ (walkEntries so pre ign path es).map (·.2), r ≠ .panic
  | .nil, _ => by simp [walkEntries, unreadableIn]
  | .cons name t es, path => by
    obtain ⟨h1, h2⟩ := walk_error so pre ign t (joinPath path name)
    obtain ⟨h3, h4⟩ := walkEntries_error so pre ign es path
    rw [walkEntries, unreadableIn]
    simp only [List.map_cons, List.mem_cons]
    refine ⟨?_, ?_⟩
    · rw [h3, ← h1]
      exact or_congr_left eq_comm
    · rintro r (rfl | hr)
      · exact h2
      · exact h4 r hr
end

/-- **C23.** Listing fails exactly if something below the root cannot be read; it never panics. -/
theorem C23_error (so : Sorter) (root : Str) (t : Node) (patterns : List Str) :
    (getAllFilePaths so root t patterns = .err ↔ unreadable t) ∧ getAllFilePaths so root t patterns ≠ .panic :=
  walk_error so _ patterns t root

/-- **C23.** No path is listed twice, and every path begins with a slash. -/
theorem C23_no_repetition (so : Sorter) (root : Str) (es : Entries) (patterns paths : List Str)
    (clean : CleanRoot root) (good : GoodTree (.dir es))
    (h : getAllFilePaths so root (.dir es) patterns = .ok paths) :
    paths.Nodup ∧ ∀ p ∈ paths, ∃ r, p = '/' :: r := by
  have readable : ¬ unreadable (.dir es) := fun hu => by
    rw [(C23_error so root (.dir es) patterns).1.2 hu] at h; exact nomatch h
  obtain ⟨cs, h1, h2, h3⟩ := C23_listing so root es patterns clean good readable
  rw [h1] at h
  obtain rfl : cs.map pathText = paths := by simpa using h
  have hn : ∀ c ∈ cs, ∀ n ∈ c, '/' ∉ n := fun c hc n hn =>
    (fileAt_names _ c good ((h2 c).1 hc).1 n hn).2
  refine ⟨?_, ?_⟩
  · refine List.pairwise_map.2 ?_
    have hp : cs.Pairwise fun a b => PathLt a b ∧ a ∈ cs ∧ b ∈ cs :=
      List.Pairwise.and h3 (List.pairwise_iff_forall_sublist.2 fun {a b} hs =>
        ⟨hs.subset (by simp), hs.subset (by simp)⟩)
    refine hp.imp ?_
    rintro a b ⟨hlt, ha, hb⟩ e
    have e2 := congrArg (splitChar '/') e
    rw [splitChar_pathText (hn a ha), splitChar_pathText (hn b hb)] at e2
    simp at e2
    subst e2
    exact pathLt_irrefl _ hlt
  · intro p hp
    obtain ⟨c, hc, rfl⟩ := List.mem_map.1 hp
    have := ((h2 c).1 hc).1
    cases this with
    | inside hf => exact ⟨_, by rw [pathText_cons]; rfl⟩

/-! ## Concrete cases -/

/-- A directory with a link, a file, and a directory with a file. -/
def C23_tree : Entries :=
  .cons g!"link" .link (.cons g!"a.txt" .file (.cons g!"a" (.dir (.cons g!"b" .file (.cons g!"c" .file .nil))) .nil))

example : CleanRoot g!"/home/me" ∧ GoodTree (.dir C23_tree) ∧ ¬ unreadable (.dir C23_tree) := by
  refine ⟨.inr ⟨by decide, ?_⟩, ?_, ?_⟩
  · rintro ⟨r, hr⟩
    have := (List.append_inj' (show g!"/home/m" ++ g!"e" = r ++ g!"/" from hr) rfl).2
    simp at this
  · simp [GoodTree, GoodEntries, C23_tree, namesIn, IsName]
  · simp [unreadable, unreadableIn, C23_tree]

/-- The order is that of the names, not of the texts: `/a/b` is listed before `/a.txt`, although the text
`/a.txt` is smaller. -/
theorem C23_text_order_false :
    getAllFilePaths insertionSorter g!"/home/me" (.dir C23_tree) [g!"**/c"] = .ok [g!"/a/b", g!"/a.txt"] ∧
    strLe g!"/a/b" g!"/a.txt" = false := by decide +kernel

/-- If the root itself is a file, the listing has the single path "/". -/
theorem C23_root_file (so : Sorter) (root : Str) (h : CleanRoot root) (hr : root ≠ g!"/") :
    getAllFilePaths so root .file [] = .ok [g!"/"] := by
  have h' := (pathOf_root h).join []
  have hp : trimSuffix g!"/" root = root := by
    have h2 : joinPath root [] = root ++ g!"/" := by simp [joinPath, hr]
    rw [h2] at h'
    simpa [pathText] using h'.symm
  simp only [getAllFilePaths, walkNode, hp, recordPath]
  have : trimPrefix root root = [] := by
    have := trimPrefix_append root []
    simpa using this
  rw [this]
  rfl

end Verif
