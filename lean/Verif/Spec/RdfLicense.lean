import Verif.Model.RdfState

/-!
# What a license description in an RDF graph means
-/

namespace Verif.Spec

/-- A license tree: a named license, all of several or one of several. -/
inductive Lic where
  | named (id : Str)
  | all (members : List Lic)
  | any (members : List Lic)

mutual
/-- A license tree as the text the reader puts into the document: the members of a set with AND or OR between them
and nothing else. -/
def Lic.text : Lic → Str
  | .named id => id
  | .all ms => join g!" AND " (Lic.texts ms)
  | .any ms => join g!" OR " (Lic.texts ms)
def Lic.texts : List Lic → List Str
  | [] => []
  | m :: ms => m.text :: Lic.texts ms
end

/-- The statements of the graph about an identifier. -/
def Stated (g : Graph) (id : Str) (t : Triple) : Prop := t ∈ g.triples ∧ t.subject.id = id

/-- The only class the graph gives to an identifier, by exactly one statement. -/
def ClassOf (g : Graph) (id : Str) (c : Cls) : Prop :=
  ∃ t, g.triples.filter (fun t => t.subject.id = id && t.pred = .type_) = [t] ∧ Cls.ofStr t.object.id = c

/-- The value of the last statement with a property about an identifier, or nothing. -/
def lastSaid (g : Graph) (id : Str) (p : Pred) : Str :=
  ((g.triples.filter fun t => t.subject.id = id && t.pred = p).map (·.object.id)).getLastD []

/-- A statement that any license description may contain. -/
def Common (g : Graph) (t : Triple) : Prop :=
  t.pred = .type_ ∨ t.pred = .comment ∨ t.pred = .licenseId ∨ t.pred = .name ∨ t.pred = .example_ ∨
  (t.pred = .seeAlso ∧ g.uriValid t.object.id = true)

/-- True or false, in any case. -/
def IsBoolean (x : Str) : Prop := toLower x = g!"true" ∨ toLower x = g!"false"

/-- A description with only the common statements. -/
def PlainLicense (g : Graph) (id : Str) : Prop := ∀ t, Stated g id t → Common g t

/-- A description of a license in a license list. -/
def ListedInfo (g : Graph) (id : Str) : Prop := ∀ t, Stated g id t → Common g t ∨ t.pred = .licenseText ∨
  t.pred = .standardLicenseHeader ∨ t.pred = .standardLicenseTemplate ∨ t.pred = .standardLicenseHeaderTemplate ∨
  ((t.pred = .isOsiApproved ∨ t.pred = .isDeprecatedLicenseId ∨ t.pred = .isFsfLibre) ∧ IsBoolean t.object.id)

/-- A description of a license with its text. -/
def Extracted (g : Graph) (id : Str) : Prop := ∀ t, Stated g id t → Common g t ∨ t.pred = .extractedText

/-- A description of an exception. -/
def Exception (g : Graph) (id : Str) : Prop := ∀ t, Stated g id t → t.pred = .type_ ∨ t.pred = .licenseExceptionId ∨
  t.pred = .licenseExceptionText ∨ t.pred = .name ∨ t.pred = .example_ ∨ t.pred = .comment ∨
  (t.pred = .seeAlso ∧ g.uriValid t.object.id = true)

/-- A name of no license or of no statement on licenses, or an identifier of the SPDX license list. -/
def SpecialName (uri id : Str) : Prop :=
  ((trimSpace uri = spdxNoneCaps ∨ trimSpace uri = spdxNoneSmall) ∧ id = g!"NONE") ∨
  ((trimSpace uri = spdxNoassertionCaps ∨ trimSpace uri = spdxNoassertionSmall) ∧ id = g!"NOASSERTION") ∨
  (trimSpace uri ≠ spdxNoneCaps ∧ trimSpace uri ≠ spdxNoneSmall ∧ trimSpace uri ≠ spdxNoassertionCaps ∧
    trimSpace uri ≠ spdxNoassertionSmall ∧ id = lastPart (trimSpace uri) ∧ id ∈ allStandardLicenseIDs)

/-- The node describes a single license, called `name` in the document. -/
inductive Named (g : Graph) (n : RNode) : Str → Prop
  /-- Nothing is said about the node, only its name counts. -/
  | special {id} : (∀ t, ¬ Stated g n.id t) → SpecialName n.id id → Named g n id
  | simple : ClassOf g n.id .simpleLicensingInfo → PlainLicense g n.id → Named g n (lastSaid g n.id .licenseId)
  | extracted : ClassOf g n.id .extractedLicensingInfo → Extracted g n.id → Named g n (lastSaid g n.id .licenseId)
  | listed : ClassOf g n.id .listedLicense → ListedInfo g n.id → Named g n (lastSaid g n.id .licenseId)
  | license : ClassOf g n.id .license → ListedInfo g n.id → Named g n (lastSaid g n.id .licenseId)
  /-- The "or later" of a license is called like the license (see C41). -/
  | orLater {t m} : ClassOf g n.id .orLaterOperator →
      (g.triples.filter (fun t => t.subject.id = n.id) = [t, m] ∨ g.triples.filter (fun t => t.subject.id = n.id) = [m, t]) →
      t.pred = .type_ → m.pred = .member → PlainLicense g m.object.id → Named g n (lastSaid g m.object.id .licenseId)
  /-- A license with exceptions is called like the license (see C41). -/
  | withException {m} : ClassOf g n.id .withExceptionOperator →
      (∀ t, Stated g n.id t → t.pred = .type_ ∨ t.pred = .member ∨ (t.pred = .licenseException ∧ Exception g t.object.id)) →
      g.triples.filter (fun t => t.subject.id = n.id && t.pred = .member) = [m] → PlainLicense g m.object.id →
      Named g n (lastSaid g m.object.id .licenseId)
  /-- Exceptions without a license. -/
  | exceptionAlone : ClassOf g n.id .withExceptionOperator →
      (∀ t, Stated g n.id t → t.pred = .type_ ∨ (t.pred = .licenseException ∧ Exception g t.object.id)) → Named g n []

/-- The members of a license set, in order. -/
def membersOf (g : Graph) (n : RNode) : List RNode :=
  (g.triples.filter fun t => t.subject = n && t.pred = .member).map (·.object)

/-- The node is a license set: of all its members, or of one of them.  The first kind must have no other statements. -/
inductive IsSet (g : Graph) (n : RNode) : Bool → Prop
  | all : ClassOf g n.id .conjunctiveLicenseSet →
      (∀ t ∈ g.triples, t.subject = n → t.pred = .type_ ∨ t.pred = .member) → IsSet g n true
  | any : ClassOf g n.id .disjunctiveLicenseSet → IsSet g n false

/-- A node that is being read while another one is, or that one. -/
def opening (G : Str → Bool) (id : Str) : Str → Bool := fun x => x = id || G x

mutual
/-- The node describes the license tree; the nodes in `G` are already being read and must not be met again. -/
inductive Describes (g : Graph) : (Str → Bool) → RNode → Lic → Prop
  | named {G n x} : G n.id = false → Named g n x → Describes g G n (.named x)
  | all {G n ms} : G n.id = false → IsSet g n true → DescribeAll g (opening G n.id) (membersOf g n) ms →
      Describes g G n (.all ms)
  | any {G n ms} : G n.id = false → IsSet g n false → DescribeAll g (opening G n.id) (membersOf g n) ms →
      Describes g G n (.any ms)
inductive DescribeAll (g : Graph) : (Str → Bool) → List RNode → List Lic → Prop
  | nil {G} : DescribeAll g G [] []
  | cons {G n ns l ls} : Describes g G n l → DescribeAll g G ns ls → DescribeAll g G (n :: ns) (l :: ls)
end

/-- A walk through the members of license sets, with the nodes met on the way. -/
inductive Walk (g : Graph) : RNode → List RNode → Prop
  | here {n} : Walk g n [n]
  | step {n m b ns} : IsSet g n b → m ∈ membersOf g n → Walk g m ns → Walk g n (n :: ns)

/-- The node is described in one of the known ways. -/
def Described (g : Graph) (n : RNode) : Prop := (∃ x, Named g n x) ∨ ∃ b, IsSet g n b

end Verif.Spec
