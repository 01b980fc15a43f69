import Verif.Model.Rdf
import Verif.Lemmas.Identifier

/-!
# The functions of the RDF reader that do not use the state never panic
-/

namespace Verif

theorem Res.bind_ne_panic {α β : Type} {r : Res α} {f : α → Res β} (h : r ≠ .panic) (hf : ∀ a, f a ≠ .panic) :
    (r >>= f) ≠ .panic := by
  cases r with
  | ok a => exact hf a
  | err => simp
  | panic => exact absurd rfl h

theorem foldTriples_ne_panic {α : Type} {step : α → Triple → Res α} (h : ∀ a t, step a t ≠ .panic) :
    ∀ ts a, foldTriples step a ts ≠ .panic
  | [], a => by simp [foldTriples]
  | t :: ts, a => Res.bind_ne_panic (h a t) fun _ => foldTriples_ne_panic h ts _

theorem nodeType_ne_panic (ts : List Triple) (n : RNode) : nodeType ts n ≠ .panic := by
  unfold nodeType; split <;> simp

theorem boolOf_ne_panic (s : Str) : boolOf s ≠ .panic := by
  unfold boolOf; split
  · simp
  · split <;> simp

theorem simpleStep_ne_panic (u : Str → Bool) (l : SimpleLic) (t : Triple) : simpleStep u l t ≠ .panic := by
  unfold simpleStep
  cases t.pred <;> simp <;> split <;> simp

theorem simpleOf_ne_panic (u : Str → Bool) (ts : List Triple) : simpleOf u ts ≠ .panic :=
  foldTriples_ne_panic (simpleStep_ne_panic u) _ _

theorem simpleAt_ne_panic (g : Graph) (n : RNode) : simpleAt g n ≠ .panic := simpleOf_ne_panic _ _

theorem licenseRest_ne_panic : ∀ ts, licenseRest ts ≠ .panic
  | [] => by simp [licenseRest]
  | t :: ts => by
    have ih := licenseRest_ne_panic ts
    unfold licenseRest
    cases t.pred <;> first
      | exact Res.bind_ne_panic (boolOf_ne_panic _) fun _ => ih
      | exact ih
      | exact Res.bind_ne_panic ih fun _ => by simp

theorem licenseAt_ne_panic (g : Graph) (n : RNode) : licenseAt g n ≠ .panic :=
  Res.bind_ne_panic (licenseRest_ne_panic _) fun _ => simpleOf_ne_panic _ _

theorem extractedAt_ne_panic (g : Graph) (n : RNode) : extractedAt g n ≠ .panic :=
  Res.bind_ne_panic (simpleOf_ne_panic _ _) fun _ => by simp

theorem exceptionAt_ne_panic (g : Graph) (n : RNode) : exceptionAt g n ≠ .panic := by
  refine foldTriples_ne_panic (fun a t => ?_) _ _
  unfold exceptionStep
  cases t.pred <;> simp <;> split <;> simp

theorem withExceptionAt_ne_panic (g : Graph) (n : RNode) : withExceptionAt g n ≠ .panic := by
  refine Res.bind_ne_panic (foldTriples_ne_panic (fun a t => ?_) _ _) fun _ => by simp
  unfold withStep
  cases t.pred <;> first
    | simp; done
    | exact Res.bind_ne_panic (exceptionAt_ne_panic _ _) fun _ => by simp
    | (simp only []
       split
       · simp
       · exact Res.bind_ne_panic (simpleAt_ne_panic _ _) fun _ => by simp)

theorem orLaterAt_ne_panic (g : Graph) (n : RNode) : orLaterAt g n ≠ .panic := by
  unfold orLaterAt
  split
  · simp
  · refine Res.bind_ne_panic (foldTriples_ne_panic (fun a t => ?_) _ _) fun _ => by simp
    unfold orLaterStep
    cases t.pred <;> first
      | simp; done
      | exact simpleAt_ne_panic _ _

theorem specialOf_ne_panic (id : Str) : specialOf id ≠ .panic := by
  simp only [specialOf]
  split
  · simp
  · split
    · simp
    · split <;> simp

theorem otherLicenseAt_ne_panic (g : Graph) (n : RNode) : otherLicenseAt g n ≠ .panic :=
  Res.bind_ne_panic (extractedAt_ne_panic _ _) fun _ => by simp

theorem algorithmOf_ne_panic (u : Str) : algorithmOf u ≠ .panic := by
  simp only [algorithmOf]
  split
  · simp
  · split <;> simp

theorem checksumAt_ne_panic (g : Graph) (n : RNode) : checksumAt g n ≠ .panic := by
  refine foldTriples_ne_panic (fun a t => ?_) _ _
  unfold checksumStep
  cases t.pred <;> first
    | simp; done
    | exact Res.bind_ne_panic (algorithmOf_ne_panic _) fun _ => by simp

theorem elementChecksumAt_ne_panic (v : Version) (g : Graph) (n : RNode) : elementChecksumAt v g n ≠ .panic :=
  Res.bind_ne_panic (checksumAt_ne_panic _ _) fun _ => by split <;> simp

theorem annotatorOf_ne_panic (x : Str) : annotatorOf x ≠ .panic :=
  Res.bind_ne_panic (extractSubs_ne_panic _ _) fun _ => by split; split <;> simp

theorem annotationTypeOf_ne_panic (x : Str) : annotationTypeOf x ≠ .panic := by
  unfold annotationTypeOf
  split
  · simp
  · split <;> simp

theorem annotationAt_ne_panic (g : Graph) (n : RNode) : annotationAt g n ≠ .panic := by
  refine foldTriples_ne_panic (fun a t => ?_) _ _
  unfold annotationStep
  cases t.pred <;> first
    | simp; done
    | exact Res.bind_ne_panic (annotatorOf_ne_panic _) fun _ => by simp
    | exact Res.bind_ne_panic (annotationTypeOf_ne_panic _) fun _ => by simp

theorem creatorOf_ne_panic (x : Str) : creatorOf x ≠ .panic :=
  Res.bind_ne_panic (extractSubs_ne_panic _ _) fun _ => by split; split <;> simp

theorem creationStep_ne_panic (ci : CreationInfo) (t : Triple) : creationStep ci t ≠ .panic := by
  unfold creationStep
  cases t.pred <;> first
    | simp; done
    | exact Res.bind_ne_panic (creatorOf_ne_panic _) fun _ => by simp

theorem reviewAt_ne_panic (g : Graph) (n : RNode) : reviewAt g n ≠ .panic := by
  refine foldTriples_ne_panic (fun a t => ?_) _ _
  unfold reviewStep
  cases t.pred <;> first
    | simp; done
    | exact Res.bind_ne_panic (extractSubs_ne_panic _ _) fun _ => by split; simp

theorem externalDocumentRefAt_ne_panic (g : Graph) (n : RNode) : externalDocumentRefAt g n ≠ .panic := by
  refine foldTriples_ne_panic (fun a t => ?_) _ _
  unfold externalDocumentRefStep
  cases t.pred <;> first
    | simp; done
    | exact Res.bind_ne_panic (checksumAt_ne_panic _ _) fun _ => by simp

theorem referenceCategoryOf_ne_panic (x : Str) : referenceCategoryOf x ≠ .panic := by
  unfold referenceCategoryOf
  split
  · simp
  · split
    · simp
    · split <;> simp

theorem externalRefAt_ne_panic (g : Graph) (n : RNode) : externalRefAt g n ≠ .panic := by
  refine foldTriples_ne_panic (fun a t => ?_) _ _
  unfold externalRefStep
  cases t.pred <;> first
    | simp; done
    | exact Res.bind_ne_panic (referenceCategoryOf_ne_panic _) fun _ => by simp

theorem verificationAt_ne_panic (v : Version) (g : Graph) (o : Option VerificationCode) (n : RNode) :
    verificationAt v g o n ≠ .panic := by
  refine Res.bind_ne_panic (foldTriples_ne_panic (fun a t => ?_) _ _) fun _ => by split <;> simp
  unfold verificationStep
  cases t.pred <;> simp

theorem supplierOf_ne_panic (x : Str) : supplierOf x ≠ .panic := by
  simp only [supplierOf]
  split
  · simp
  · exact Res.bind_ne_panic (extractSubs_ne_panic _ _) fun _ => by split <;> simp

theorem originatorOf_ne_panic (x : Str) : originatorOf x ≠ .panic := by
  simp only [originatorOf]
  split
  · simp
  · exact Res.bind_ne_panic (extractSubs_ne_panic _ _) fun _ => by split <;> simp

theorem locationOf_ne_panic (g : Graph) (x : Str) : locationOf g x ≠ .panic := by
  unfold locationOf
  split
  · simp
  · split
    · simp
    · split <;> simp

theorem fileTypeOf_ne_panic (x : Str) : fileTypeOf x ≠ .panic := by
  unfold fileTypeOf; split <;> simp

theorem artifactAt_ne_panic (g : Graph) (n : RNode) : artifactAt g n ≠ .panic := by
  refine foldTriples_ne_panic (fun a t => ?_) _ _
  unfold artifactStep
  cases t.pred <;> simp

theorem referenceOf_ne_panic (x : Str) : referenceOf x ≠ .panic := by
  simp only [referenceOf]
  split
  · simp
  · exact extractDocElementID_ne_panic _

theorem relationshipTypeOf_ne_panic (x : Str) : relationshipTypeOf x ≠ .panic := by
  simp only [relationshipTypeOf]
  split
  · simp
  · split <;> simp

theorem snippetFileOf_ne_panic (v : Version) (x : Str) : snippetFileOf v x ≠ .panic := by
  unfold snippetFileOf
  have := extractDocElementID_ne_panic (lastPart x)
  split
  · simp
  · split <;> simp
  · contradiction

end Verif
