import Verif.Model.PyBlock
import Verif.Spec.PyLabels
import Verif.Spec.Blocks
import Verif.Spec.CApi
import Verif.Spec.Labels

/-!
# Specification vocabulary for blocks in Python
-/

namespace Equistore
namespace Spec
variable {A : Type} [ArrayLike A]

/-- The labels `v` in Python have the names and entries of the labels `l` of the library. -/
def ShowsLabels (v : PyLabels) (l : Labels) : Prop :=
  v.names = l.names ∧ ∃ entries, v.entries = some entries ∧ l.iter = .ok entries

/-- The same names and entries. -/
def LabelsAgree (v v' : PyLabels) : Prop :=
  v.names = v'.names ∧ v.entries.isSome ∧ v.entries = v'.entries

/-- What Python gives for the values or the gradient `name` of a block is described by `basic`. -/
structure PartShown (b : TensorBlock A) (name : String) (basic : BasicBlock A) : Prop where
  samples : ∃ v, pySamples b name = .ok v ∧ ShowsLabels v basic.samples
  components : ∃ vs, pyComponents b name = .ok vs ∧ List.Forall₂ ShowsLabels vs basic.components
  properties : ∃ v, pyProperties b name = .ok v ∧ ShowsLabels v basic.properties
  data : pyData b name = .ok basic.data

/-- What Python gives for the values or the gradient `name` of a block is these labels and this array. -/
structure PartIs (b : TensorBlock A) (name : String) (data : A) (samples : PyLabels) (components : List PyLabels)
    (properties : PyLabels) : Prop where
  samples : ∃ v, pySamples b name = .ok v ∧ LabelsAgree v samples
  components : ∃ vs, pyComponents b name = .ok vs ∧ List.Forall₂ LabelsAgree vs components
  properties : ∃ v, pyProperties b name = .ok v ∧ LabelsAgree v properties
  data : pyData b name = .ok data

/-- Labels which are not an exception of C60: made with names which are not empty and contain no NUL, or by the library,
and entries taken from them. -/
def PlainLabels (v : PyLabels) : Prop := Obtained PlainNames TakesEntries v ∧ v.names ≠ []

/-- The names are identifiers, and the entries are different from each other. -/
def Acceptable (v : PyLabels) : Prop :=
  (∀ n ∈ v.names, Identifier n) ∧ ∃ entries, v.entries = some entries ∧ entries.Nodup

/-- A gradient fits the values of a block, seen from Python. -/
structure GradientFits (b : TensorBlock A) (parameter : String) (data : A) (samples : PyLabels)
    (components : List PyLabels) : Prop where
  fresh : pyHasGradient b parameter = .ok false
  reserved : parameter ≠ "values"
  origin : ∃ values o, pyData b "values" = .ok values ∧ ArrayLike.origin data = .ok o ∧ ArrayLike.origin values = .ok o
  labels : ∀ v ∈ samples :: components, Acceptable v
  sampleName : samples.names.head? = some "sample"
  suffix : ∃ extra rest vs, components = extra ++ rest ∧ pyComponents b "values" = .ok vs ∧ List.Forall₂ LabelsAgree vs rest
  single : ∀ c ∈ components, c.names.length = 1
  distinct : (components.map (·.names)).Nodup
  shape : ∃ v entries, pyProperties b "values" = .ok v ∧ v.entries = some entries ∧
    ArrayLike.shape data = .ok ((samples :: components).map (·.count) ++ [entries.length])

end Spec
end Equistore
