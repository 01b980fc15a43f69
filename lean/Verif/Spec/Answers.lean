import Verif.Model.Examples
import Verif.Model.Utils
import Verif.Spec.SameDoc

/-!
# Specification: two documents about which the tools say the same
-/

namespace Verif.Spec

/-- Validation, the described packages, the license reports and the verification codes of the packages, one by one, and the programs
that report and compare licenses, give the same for both documents. -/
structure SameAnswers (d e : Doc) : Prop where
  valid : validateDocument (d.packages.map some) (d.files.map some) (d.relationships.map some) =
    validateDocument (e.packages.map some) (e.files.map some) (e.relationships.map some)
  described : ∀ so, getDescribedPackageIDs so (d.packages.map some) (d.relationships.map some) =
    getDescribedPackageIDs so (e.packages.map some) (e.relationships.map some)
  packages : Pointwise (fun p q => p.spdxId = q.spdxId ∧
    (∀ co, printReport co p.filesAnalyzed (p.files.map some) = printReport co q.filesAnalyzed (q.files.map some)) ∧
    ∀ so sha1 exclude, getVerificationCode so sha1 (p.files.map some) exclude = getVerificationCode so sha1 (q.files.map some) exclude)
    d.packages e.packages
  report : ∀ so co, reportProgram so co d = reportProgram so co e
  compare : ∀ so po f, diffProgram so po d f = diffProgram so po e f ∧ diffProgram so po f d = diffProgram so po f e

/-- No two files of a package have the same name, and no two packages the same identifier. -/
structure DistinctFileNames (d : Doc) : Prop where
  packages : (d.packages.map (·.spdxId)).Nodup
  files : ∀ p ∈ d.packages, (p.files.map (·.name)).Nodup

/-- The same, for documents whose packages and files may come in another order: a license report may list licenses of equally many
files in another order; two documents are compared alike if the names of files are distinct.  The program that reports licenses is
left out: it stops at the first package that was not analyzed. -/
structure LikeAnswers (d e : Doc) : Prop where
  valid : validateDocument (d.packages.map some) (d.files.map some) (d.relationships.map some) =
    validateDocument (e.packages.map some) (e.files.map some) (e.relationships.map some)
  described : ∀ so so', getDescribedPackageIDs so (d.packages.map some) (d.relationships.map some) =
    getDescribedPackageIDs so' (e.packages.map some) (e.relationships.map some)
  packages : ∃ l, d.packages.Perm l ∧ Pointwise (fun p q => p.spdxId = q.spdxId ∧
    (∀ co, ∃ co', printReport co p.filesAnalyzed (p.files.map some) = printReport co' q.filesAnalyzed (q.files.map some)) ∧
    ∀ so so' sha1 exclude,
      getVerificationCode so sha1 (p.files.map some) exclude = getVerificationCode so' sha1 (q.files.map some) exclude) l e.packages
  compare : DistinctFileNames d → ∀ so po f, diffProgram so po d f = diffProgram so po e f ∧ diffProgram so po f d = diffProgram so po f e

end Verif.Spec
